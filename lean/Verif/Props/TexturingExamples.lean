import Verif.Props.Texturing
import Verif.Props.HideExamples
/-
Concrete maps for C100.
-/
set_option linter.unusedSectionVars false
namespace Quarch
open Spec Scene

section Example
attribute [local instance] refPlatform intArith

theorem insertBy_map {α β : Type} (f : α → β) (cmp : β → β → Ordering) (x : α) : ∀ l : List α,
    insertBy cmp (f x) (l.map f) = (insertBy (fun a b => cmp (f a) (f b)) x l).map f
  | [] => rfl
  | y :: ys => by
    unfold insertBy
    simp only [List.map_cons, insertBy_map f cmp x ys]
    split <;> rfl

instance : NaturalSort := ⟨by
  intro α β f cmp l
  show insertionSortBy cmp (l.map f) = (insertionSortBy (fun a b => cmp (f a) (f b)) l).map f
  induction l with
  | nil => rfl
  | cons x xs ih =>
    show insertBy cmp (f x) (insertionSortBy cmp (xs.map f)) = _
    rw [ih, insertBy_map]
    rfl⟩

/-- The map of `sceneMap` with wood on the top of the box and smooth shading. -/
def woodMap : Str := str! "{\n\"classname\" \"worldspawn\"\n\"_phong\" \"1\"\n{\n( 0 0 2 ) ( 0 1 2 ) ( 1 0 2 ) wood 3 4 0 2 2\n( 0 0 0 ) ( 1 0 0 ) ( 0 1 0 ) stone 0 0 0 1 1\n( 2 0 0 ) ( 2 0 1 ) ( 2 1 0 ) stone 0 0 0 1 1\n( 0 0 0 ) ( 0 1 0 ) ( 0 0 1 ) stone 0 0 0 1 1\n( 0 2 0 ) ( 1 2 0 ) ( 0 2 1 ) stone 0 0 0 1 1\n( 0 0 0 ) ( 0 0 1 ) ( 1 0 0 ) stone 0 0 0 1 1\n}\n}\n{\n\"classname\" \"group\"\n\"_tb_id\" \"1\"\n\"origin\" \"5 6 7\"\n}\n{\n\"classname\" \"door\"\n\"_tb_group\" \"1\"\n\"origin\" \"1 2 3\"\n}\n"

def woodTokens : List Token :=
  [.openBrace, .property (str! "classname") (str! "worldspawn"), .property (str! "_phong") (str! "1"), .openBrace,
   .brushPlane (str! "( 0 0 2 ) ( 0 1 2 ) ( 1 0 2 ) wood 3 4 0 2 2"),
   .brushPlane (str! "( 0 0 0 ) ( 1 0 0 ) ( 0 1 0 ) stone 0 0 0 1 1"),
   .brushPlane (str! "( 2 0 0 ) ( 2 0 1 ) ( 2 1 0 ) stone 0 0 0 1 1"),
   .brushPlane (str! "( 0 0 0 ) ( 0 1 0 ) ( 0 0 1 ) stone 0 0 0 1 1"),
   .brushPlane (str! "( 0 2 0 ) ( 1 2 0 ) ( 0 2 1 ) stone 0 0 0 1 1"),
   .brushPlane (str! "( 0 0 0 ) ( 0 0 1 ) ( 1 0 0 ) stone 0 0 0 1 1")] ++ sceneTokens.drop 9

set_option maxRecDepth 100000 in
theorem wood_tokens : Tokenizer.run false woodMap = .ok woodTokens := by decide

set_option maxRecDepth 100000 in
theorem wood_face : BrushPlane.new (F := Int) (str! "( 0 0 2 ) ( 0 1 2 ) ( 1 0 2 ) wood 3 4 0 2 2") =
    .ok ⟨⟨0, 0, 2⟩, ⟨0, 1, 2⟩, ⟨1, 0, 2⟩, str! "wood", .quake 3 4, 0, ⟨2, 2⟩, .none⟩ := by decide

def woodBox : List (BrushPlane Int) :=
  ⟨⟨0, 0, 2⟩, ⟨0, 1, 2⟩, ⟨1, 0, 2⟩, str! "wood", .quake 3 4, 0, ⟨2, 2⟩, .none⟩ :: sceneBox.drop 1

def woodWorld : Entity Int :=
  ⟨(Map.insert Map.empty (str! "classname") (str! "worldspawn")).insert (str! "_phong") (str! "1"), [⟨woodBox⟩]⟩

def woodEntities : List (Entity Int) := woodWorld :: sceneEntities.drop 1

theorem wood_loads : LoadsAs woodMap woodEntities := by
  have : ∃ paths, Parser.run woodTokens = .ok (paths, woodEntities) := by
    refine ⟨?_, ?_⟩
    rotate_left
    · unfold woodTokens Parser.run
      simp only [sceneTokens, List.drop_succ_cons, List.drop_zero, List.cons_append, List.nil_append, foldOut_cons,
        Parser.step, wood_face, scene_face1, scene_face2, scene_face3, scene_face4, scene_face5]
      rfl
  obtain ⟨paths, hp⟩ := this
  exact ⟨_, _, wood_tokens, hp⟩

/-- Other sizes, and stone is hidden. -/
def woodConfig : Config Int :=
  { sceneConfig with
    mapFile := some woodMap
    textureInfo := fun t => if t = str! "wood" then some ⟨4, 4⟩ else none
    textureBlacklist := ⟨[], [str! "stone"]⟩ }

theorem wood_solid : List.Forall₂ (SameSolid sceneConfig.forgeGameData) sceneEntities woodEntities := by
  have hself : ∀ p : BrushPlane Int, SamePoints p p := fun p => ⟨rfl, rfl, rfl, fun _ _ => Iff.rfl⟩
  refine .cons ⟨?_, .cons (.cons ⟨rfl, rfl, rfl, by decide⟩ (List.forall₂_same.2 fun p _ => hself p)) .nil⟩
    (List.forall₂_same.2 fun e _ => ⟨fun _ _ => rfl, List.forall₂_same.2 fun b _ => List.forall₂_same.2 fun p _ => hself p⟩)
  rintro key (hk | ⟨d, hd, _⟩)
  · revert key
    decide
  · cases hd

theorem wood_runs : ∃ nodes, Quarch.run 3 id woodConfig = .ok nodes := by
  refine C92_enough 3 id (fun _ => .refl _) woodConfig woodEntities
    ⟨⟨woodMap, rfl, (C92_text _ _).1 wood_loads⟩, ⟨[], woodWorld, _, rfl, rfl, ?_⟩, ?_, ?_, ?_, no_loop_of_unique ?_⟩ (by decide)
  · intro e he
    simp only [sceneEntities, List.drop_succ_cons, List.drop_zero, List.nil_append, List.mem_cons, List.not_mem_nil,
      or_false] at he
    rcases he with rfl | rfl <;> decide
  · intro e he b hb p hp _ _
    simp only [woodEntities, sceneEntities, List.drop_succ_cons, List.drop_zero, List.mem_cons, List.not_mem_nil,
      or_false] at he
    rcases he with rfl | rfl | rfl
    · cases List.mem_singleton.1 hb
      simp only [woodBox, sceneBox, List.drop_succ_cons, List.drop_zero, List.mem_cons, List.not_mem_nil, or_false] at hp
      rcases hp with rfl | rfl | rfl | rfl | rfl | rfl <;> (unfold HasLargest Largest; decide)
    · cases hb
    · cases hb
  · intro e he _
    simp only [woodEntities, sceneEntities, List.drop_succ_cons, List.drop_zero, List.mem_cons, List.not_mem_nil,
      or_false] at he
    rcases he with rfl | rfl | rfl <;> exact ⟨_, rfl⟩
  · rintro e he _ ⟨d, hd⟩
    rw [← find_forge_some] at hd
    cases hd
  · unfold UniqueIds woodEntities sceneEntities
    simp only [List.drop_succ_cons, List.drop_zero, List.pairwise_cons, List.mem_cons, List.not_mem_nil, or_false,
      forall_eq_or_imp, forall_eq, false_imp_iff, implies_true, List.Pairwise.nil, and_true]
    refine ⟨⟨fun id h => ?_, fun id h => ?_⟩, fun id h => ?_⟩
    · cases h
    · cases h
    · exact fun h' => nomatch h'

-- `C100_texturing`: with other textures, sizes, hidden stone and shading, the first node, the worldspawn, still is at
-- (1,1,1) with the same properties and the same collision shape
example : ∃ c a cs cs' rest rest', Quarch.run 2 id sceneConfig = .ok (.actor ⟨1, 1, 1⟩ a cs :: rest) ∧
    Quarch.run 3 id woodConfig = .ok (.actor ⟨1, 1, 1⟩ a cs' :: rest') ∧ unseenAll cs = [.collision ⟨1, 1, 1⟩ c] ∧
    unseenAll cs' = [.collision ⟨1, 1, 1⟩ c] := by
  obtain ⟨s, hst, c, a, l1, l2, a1, a2, h⟩ := stone_nodes
  obtain ⟨nodes', h'⟩ := wood_runs
  obtain ⟨w, ls, es, w', ls', es', e1, e2, _, _, hw, _⟩ := C100_texturing 2 3 id id (fun _ => .refl _) (fun _ => .refl _) sceneConfig woodConfig rfl rfl
    (by decide) sceneMap woodMap rfl rfl sceneEntities woodEntities scene_loads wood_loads wood_solid _ _ h h'
  injection e1 with e1 e3
  subst e1
  subst e2
  cases w' with
  | visual => simp [unseen] at hw
  | collision => simp [unseen] at hw
  | actor o b cs' =>
    simp only [unseen, List.cons.injEq, Node.actor.injEq, and_true] at hw
    obtain ⟨rfl, rfl, hw⟩ := hw
    exact ⟨_, _, _, _, _, _, h, h', rfl, hw.symm⟩

end Example
end Quarch
