import Verif.Props.Shading
import Verif.Props.TexturingExamples
/-
Concrete maps for C102.
-/
set_option linter.unusedSectionVars false
namespace Quarch
open Spec Scene

section Example
attribute [local instance] refPlatform intArith

/-- The map of `sceneMap` with the texture laid out otherwise on the top of the box and smooth shading. -/
def shadeMap : Str := str! "{\n\"classname\" \"worldspawn\"\n\"_phong\" \"1\"\n{\n( 0 0 2 ) ( 0 1 2 ) ( 1 0 2 ) stone 3 4 0 2 2\n( 0 0 0 ) ( 1 0 0 ) ( 0 1 0 ) stone 0 0 0 1 1\n( 2 0 0 ) ( 2 0 1 ) ( 2 1 0 ) stone 0 0 0 1 1\n( 0 0 0 ) ( 0 1 0 ) ( 0 0 1 ) stone 0 0 0 1 1\n( 0 2 0 ) ( 1 2 0 ) ( 0 2 1 ) stone 0 0 0 1 1\n( 0 0 0 ) ( 0 0 1 ) ( 1 0 0 ) stone 0 0 0 1 1\n}\n}\n{\n\"classname\" \"group\"\n\"_tb_id\" \"1\"\n\"origin\" \"5 6 7\"\n}\n{\n\"classname\" \"door\"\n\"_tb_group\" \"1\"\n\"origin\" \"1 2 3\"\n}\n"

def shadeTokens : List Token :=
  [.openBrace, .property (str! "classname") (str! "worldspawn"), .property (str! "_phong") (str! "1"), .openBrace,
   .brushPlane (str! "( 0 0 2 ) ( 0 1 2 ) ( 1 0 2 ) stone 3 4 0 2 2"),
   .brushPlane (str! "( 0 0 0 ) ( 1 0 0 ) ( 0 1 0 ) stone 0 0 0 1 1"),
   .brushPlane (str! "( 2 0 0 ) ( 2 0 1 ) ( 2 1 0 ) stone 0 0 0 1 1"),
   .brushPlane (str! "( 0 0 0 ) ( 0 1 0 ) ( 0 0 1 ) stone 0 0 0 1 1"),
   .brushPlane (str! "( 0 2 0 ) ( 1 2 0 ) ( 0 2 1 ) stone 0 0 0 1 1"),
   .brushPlane (str! "( 0 0 0 ) ( 0 0 1 ) ( 1 0 0 ) stone 0 0 0 1 1")] ++ sceneTokens.drop 9

set_option maxRecDepth 100000 in
theorem shade_tokens : Tokenizer.run false shadeMap = .ok shadeTokens := by decide

set_option maxRecDepth 100000 in
theorem shade_face : BrushPlane.new (F := Int) (str! "( 0 0 2 ) ( 0 1 2 ) ( 1 0 2 ) stone 3 4 0 2 2") =
    .ok ⟨⟨0, 0, 2⟩, ⟨0, 1, 2⟩, ⟨1, 0, 2⟩, str! "stone", .quake 3 4, 0, ⟨2, 2⟩, .none⟩ := by decide

def shadeBox : List (BrushPlane Int) :=
  ⟨⟨0, 0, 2⟩, ⟨0, 1, 2⟩, ⟨1, 0, 2⟩, str! "stone", .quake 3 4, 0, ⟨2, 2⟩, .none⟩ :: sceneBox.drop 1

def shadeWorld : Entity Int :=
  ⟨(Map.insert Map.empty (str! "classname") (str! "worldspawn")).insert (str! "_phong") (str! "1"), [⟨shadeBox⟩]⟩

def shadeEntities : List (Entity Int) := shadeWorld :: sceneEntities.drop 1

theorem shade_loads : LoadsAs shadeMap shadeEntities := by
  have : ∃ paths, Parser.run shadeTokens = .ok (paths, shadeEntities) := by
    refine ⟨?_, ?_⟩
    rotate_left
    · unfold shadeTokens Parser.run
      simp only [sceneTokens, List.drop_succ_cons, List.drop_zero, List.cons_append, List.nil_append, foldOut_cons,
        Parser.step, shade_face, scene_face1, scene_face2, scene_face3, scene_face4, scene_face5]
      rfl
  obtain ⟨paths, hp⟩ := this
  exact ⟨_, _, shade_tokens, hp⟩

/-- Another size of the texture. -/
def shadeConfig : Config Int :=
  { sceneConfig with
    mapFile := some shadeMap
    textureInfo := fun t => if t = str! "stone" then some ⟨4, 4⟩ else none }

theorem shade_faces : List.Forall₂ (AlikeFaces sceneConfig.forgeGameData) sceneEntities shadeEntities := by
  have hself : ∀ p : BrushPlane Int, AlikeFace p p := fun p => ⟨rfl, rfl, rfl, rfl⟩
  refine .cons ⟨?_, .cons (.cons ⟨rfl, rfl, rfl, by decide⟩ (List.forall₂_same.2 fun p _ => hself p)) .nil⟩
    (List.forall₂_same.2 fun e _ => ⟨fun _ _ => rfl, List.forall₂_same.2 fun b _ => List.forall₂_same.2 fun p _ => hself p⟩)
  rintro key (hk | ⟨d, hd, _⟩)
  · revert key
    decide
  · cases hd

theorem shade_runs : ∃ nodes, Quarch.run 3 id shadeConfig = .ok nodes := by
  refine C92_enough 3 id (fun _ => .refl _) shadeConfig shadeEntities
    ⟨⟨shadeMap, rfl, (C92_text _ _).1 shade_loads⟩, ⟨[], shadeWorld, _, rfl, rfl, ?_⟩, ?_, ?_, ?_, no_loop_of_unique ?_⟩ (by decide)
  · intro e he
    simp only [sceneEntities, List.drop_succ_cons, List.drop_zero, List.nil_append, List.mem_cons, List.not_mem_nil,
      or_false] at he
    rcases he with rfl | rfl <;> decide
  · intro e he b hb p hp _ _
    simp only [shadeEntities, sceneEntities, List.drop_succ_cons, List.drop_zero, List.mem_cons, List.not_mem_nil,
      or_false] at he
    rcases he with rfl | rfl | rfl
    · cases List.mem_singleton.1 hb
      simp only [shadeBox, sceneBox, List.drop_succ_cons, List.drop_zero, List.mem_cons, List.not_mem_nil, or_false] at hp
      rcases hp with rfl | rfl | rfl | rfl | rfl | rfl <;> (unfold HasLargest Largest; decide)
    · cases hb
    · cases hb
  · intro e he _
    simp only [shadeEntities, sceneEntities, List.drop_succ_cons, List.drop_zero, List.mem_cons, List.not_mem_nil,
      or_false] at he
    rcases he with rfl | rfl | rfl <;> exact ⟨_, rfl⟩
  · rintro e he _ ⟨d, hd⟩
    rw [← find_forge_some] at hd
    cases hd
  · unfold UniqueIds shadeEntities sceneEntities
    simp only [List.drop_succ_cons, List.drop_zero, List.pairwise_cons, List.mem_cons, List.not_mem_nil, or_false,
      forall_eq_or_imp, forall_eq, false_imp_iff, implies_true, List.Pairwise.nil, and_true]
    refine ⟨⟨fun id h => ?_, fun id h => ?_⟩, fun id h => ?_⟩
    · cases h
    · cases h
    · exact fun h' => nomatch h'

-- `C102_same_triangles`: with another layout, another size and smooth shading, the worldspawn still has one surface, with
-- the same texture and triangles
example : ∃ s s' cs cs' a c rest rest', Quarch.run 2 id sceneConfig =
      .ok (.actor ⟨1, 1, 1⟩ a [.visual ⟨1, 1, 1⟩ (.mesh [s]), .collision ⟨1, 1, 1⟩ c] :: rest) ∧
    Quarch.run 3 id shadeConfig =
      .ok (.actor ⟨1, 1, 1⟩ a [.visual ⟨1, 1, 1⟩ (.mesh [s']), .collision ⟨1, 1, 1⟩ c] :: rest') ∧
    s'.texture = s.texture ∧ Corners s.vertices s.indices cs ∧ Corners s'.vertices s'.indices cs' ∧
    List.Forall₂ SamePlace cs cs' := by
  obtain ⟨s, hst, c, a, l1, l2, a1, a2, h⟩ := stone_nodes
  obtain ⟨nodes', h'⟩ := shade_runs
  obtain ⟨w, ls, es, w', ls', ls'', es', e1, e2, _, hw, _⟩ := C102_same_triangles 2 3 id id (fun _ => .refl _)
    (fun _ => .refl _) sceneConfig shadeConfig rfl rfl rfl sceneMap shadeMap rfl rfl sceneEntities shadeEntities scene_loads
    shade_loads (by decide) shade_faces _ _ h h'
  injection e1 with e1 e3
  subst e1
  subst e2
  cases w' with
  | visual => exact hw.elim
  | collision => exact hw.elim
  | actor o b cs' =>
    obtain ⟨rfl, rfl, hw⟩ := hw
    match cs', hw with
    | [.visual _ (.mesh [s']), .collision _ _], ⟨⟨rfl, .cons ⟨ht, x, y, k1, k2, k3⟩ .nil⟩, ⟨rfl, rfl⟩, _⟩ =>
      exact ⟨s, s', x, y, _, _, _, _, h, h', ht, k1, k2, k3⟩

end Example
end Quarch
