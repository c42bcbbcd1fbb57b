import Verif.Props.Join
import Verif.Props.TwiceExamples
/-
Two maps with a cube and a lamp each, and a map with both cubes, for C142.
-/
set_option linter.unusedSectionVars false
namespace Quarch
open Spec Scene Geo

section
attribute [local instance] refPlatform stepText

def joinMap : Str :=
  str! "{\n\"classname\" \"worldspawn\"\n{\n( 1 0 0 ) ( 1 0 1 ) ( 1 1 0 ) brick [ 0 1 0 0 ] [ 0 0 1 0 ] 0 0.015625 0.015625\n( 0 0 0 ) ( 0 1 0 ) ( 0 0 1 ) brick [ 0 1 0 0 ] [ 0 0 1 0 ] 0 0.015625 0.015625\n( 0 1 0 ) ( 1 1 0 ) ( 0 1 1 ) brick [ 0 1 0 0 ] [ 0 0 1 0 ] 0 0.015625 0.015625\n( 0 0 0 ) ( 0 0 1 ) ( 1 0 0 ) brick [ 0 1 0 0 ] [ 0 0 1 0 ] 0 0.015625 0.015625\n( 0 0 1 ) ( 0 1 1 ) ( 1 0 1 ) brick [ 0 1 0 0 ] [ 0 0 1 0 ] 0 0.015625 0.015625\n( 0 0 0 ) ( 1 0 0 ) ( 0 1 0 ) brick [ 0 1 0 0 ] [ 0 0 1 0 ] 0 0.015625 0.015625\n}\n{\n( 2 0 0 ) ( 2 0 1 ) ( 2 1 0 ) brick [ 0 1 0 0 ] [ 0 0 1 0 ] 0 0.015625 0.015625\n( 1 0 0 ) ( 1 1 0 ) ( 1 0 1 ) brick [ 0 1 0 0 ] [ 0 0 1 0 ] 0 0.015625 0.015625\n( 1 1 0 ) ( 2 1 0 ) ( 1 1 1 ) brick [ 0 1 0 0 ] [ 0 0 1 0 ] 0 0.015625 0.015625\n( 1 0 0 ) ( 1 0 1 ) ( 2 0 0 ) brick [ 0 1 0 0 ] [ 0 0 1 0 ] 0 0.015625 0.015625\n( 1 0 1 ) ( 1 1 1 ) ( 2 0 1 ) brick [ 0 1 0 0 ] [ 0 0 1 0 ] 0 0.015625 0.015625\n( 1 0 0 ) ( 2 0 0 ) ( 1 1 0 ) brick [ 0 1 0 0 ] [ 0 0 1 0 ] 0 0.015625 0.015625\n}\n}\n"

def joinTokens : List Token :=
  [.openBrace, .property (str! "classname") (str! "worldspawn"),
    .openBrace,
    .brushPlane (cubeLine (str! "1 0 0") (str! "1 0 1") (str! "1 1 0")),
    .brushPlane (cubeLine (str! "0 0 0") (str! "0 1 0") (str! "0 0 1")),
    .brushPlane (cubeLine (str! "0 1 0") (str! "1 1 0") (str! "0 1 1")),
    .brushPlane (cubeLine (str! "0 0 0") (str! "0 0 1") (str! "1 0 0")),
    .brushPlane (cubeLine (str! "0 0 1") (str! "0 1 1") (str! "1 0 1")),
    .brushPlane (cubeLine (str! "0 0 0") (str! "1 0 0") (str! "0 1 0")),
    .closeBrace,
    .openBrace,
    .brushPlane (cubeLine (str! "2 0 0") (str! "2 0 1") (str! "2 1 0")),
    .brushPlane (cubeLine (str! "1 0 0") (str! "1 1 0") (str! "1 0 1")),
    .brushPlane (cubeLine (str! "1 1 0") (str! "2 1 0") (str! "1 1 1")),
    .brushPlane (cubeLine (str! "1 0 0") (str! "1 0 1") (str! "2 0 0")),
    .brushPlane (cubeLine (str! "1 0 1") (str! "1 1 1") (str! "2 0 1")),
    .brushPlane (cubeLine (str! "1 0 0") (str! "2 0 0") (str! "1 1 0")),
    .closeBrace,
    .closeBrace]

set_option maxRecDepth 100000 in
theorem join_tokens : Tokenizer.run (Platform.bareCR) joinMap = .ok joinTokens := by decide

noncomputable def joinWorld : Entity ℝ := { stepWorld Cube.planes with brushes := [⟨Cube.planes⟩, ⟨stepPlanes⟩] }

set_option maxRecDepth 100000 in
theorem join_parse : ∃ paths, Parser.run (F := ℝ) joinTokens = .ok (paths, [joinWorld]) := ⟨_, rfl⟩

theorem join_loads : LoadsAs joinMap [joinWorld] := by
  obtain ⟨paths, h⟩ := join_parse
  exact ⟨_, _, join_tokens, h⟩

theorem join_run : ∃ nodes, Quarch.run 1 id { stepConfig with mapFile := some joinMap } = .ok nodes := by
  refine C92_enough 1 id (fun _ => .refl _) { stepConfig with mapFile := some joinMap } [joinWorld]
    ⟨⟨_, rfl, (C92_text _ _).1 join_loads⟩, ⟨[], _, [], rfl, rfl, fun e he => by simp at he⟩, ?_, ?_, ?_, ?_⟩ (Nat.le_refl _)
  · exact (geo_succeeds stepConfig.textureInfo _).1 (mapOut_isOk.2 fun e _ => buildEntity_real _ e)
  · intro e he _
    cases List.mem_singleton.1 he
    exact ⟨_, rfl⟩
  · intro e he _ _ k hk s hs
    exfalso
    simp only [List.mem_cons, List.not_mem_nil, or_false] at he hk
    subst he
    rcases hk with rfl | rfl <;> revert hs <;> simp [joinWorld, stepWorld]
  · apply no_loop_of_unique
    exact .cons (fun b hb => by cases hb) .nil

theorem join_run' : ∃ nodes, Quarch.run 2 id { stepConfig with mapFile := some stepMap' } = .ok nodes := by
  obtain ⟨nodes, h⟩ := step_run
  obtain ⟨w, ls, es, w', ls', ls'', es', _, h', _⟩ := C101_moved 2 id id (fun _ => .refl _)
    (fun _ => .refl _) stepConfig stepMap stepMap' rfl _ _ step_loads step_loads' ⟨1, 0, 0⟩ step_moved step_places nodes h
  exact ⟨_, h'⟩

theorem step_hasBrush (planes : List (BrushPlane ℝ)) (o : Str) (pr : Map Str Str) (br : Brush ℝ) :
    HasBrush [stepWorld planes, stepLamp o] pr br ↔ pr = (stepWorld Cube.planes).properties ∧ br = ⟨planes⟩ := by
  constructor
  · rintro ⟨e, he, _, rfl, hbr⟩
    rw [List.mem_cons, List.mem_singleton] at he
    rcases he with rfl | rfl
    · exact ⟨rfl, List.mem_singleton.1 hbr⟩
    · simp [stepLamp] at hbr
  · rintro ⟨rfl, rfl⟩
    exact ⟨stepWorld planes, by simp, .world rfl, rfl, by simp [stepWorld]⟩

theorem join_joins : Joins [stepWorld Cube.planes, stepLamp (str! "0 1 0")] [stepWorld stepPlanes, stepLamp (str! "1 1 0")]
    [joinWorld] := by
  intro pr br
  rw [step_hasBrush, step_hasBrush, ← and_or_left]
  constructor
  · rintro ⟨e, he, _, rfl, hbr⟩
    cases List.mem_singleton.1 he
    refine ⟨rfl, ?_⟩
    simpa [joinWorld] using hbr
  · rintro ⟨rfl, hbr⟩
    exact ⟨joinWorld, by simp, .world rfl, rfl, by simpa [joinWorld] using hbr⟩

/-- C142 from end to end: all three maps load; the map with both cubes shows the triangles of both and is solid where one of
them is. -/
example : ∃ nodes na nb, Quarch.run 1 id { stepConfig with mapFile := some joinMap } = .ok nodes ∧
    Quarch.run 2 id { stepConfig with mapFile := some stepMap } = .ok na ∧
    Quarch.run 2 id { stepConfig with mapFile := some stepMap' } = .ok nb ∧
    (∀ x y z, DrawsTriangle nodes x y z ↔ DrawsTriangle na x y z ∨ DrawsTriangle nb x y z) ∧
    ∀ x, InSolid nodes x ↔ InSolid na x ∨ InSolid nb x := by
  obtain ⟨nodes, h⟩ := join_run
  obtain ⟨na, ha⟩ := step_run
  obtain ⟨nb, hb⟩ := join_run'
  exact ⟨nodes, na, nb, h, ha, hb,
    fun x y z => (C142_triangles 1 2 2 id id id (fun _ => .refl _) (fun _ => .refl _) (fun _ => .refl _) stepConfig joinMap
      stepMap stepMap' _ _ _ join_loads step_loads step_loads' join_joins nodes na nb h ha hb x y z).1,
    C142_solid 1 2 2 id id id (fun _ => .refl _) (fun _ => .refl _) (fun _ => .refl _) stepConfig joinMap
      stepMap stepMap' _ _ _ join_loads step_loads step_loads' join_joins nodes na nb h ha hb⟩

end
end Quarch
