import Verif.Props.MovingExamples
/-
The map with a cube and a lamp of C101, turned by 90 degrees around the z axis and moved by (1,0,0), for C103.
-/
set_option linter.unusedSectionVars false
set_option linter.unusedSimpArgs false
namespace Quarch
open Spec Scene Geo

section
attribute [local instance] refPlatform stepText

/-- `(x, y, z)` goes to `(1 - y, x, z)`. -/
noncomputable def quarter : Rigid :=
  ⟨⟨0, 1, 0⟩, ⟨-1, 0, 0⟩, ⟨0, 0, 1⟩, ⟨1, 0, 0⟩, by simp [dotR], by simp [dotR], by simp [dotR], by simp [crossR]⟩

theorem quarter_move (v : V3 ℝ) : quarter.move v = ⟨1 - v.y, v.x, v.z⟩ := by
  simp only [quarter, Rigid.move, Rigid.turn, addR, smulR]
  apply V3.ext' <;> simp only [] <;> ring

/-- The unit cube and the lamp, turned. -/
def turnMap : Str :=
  str! "{\n\"classname\" \"worldspawn\"\n{\n( 1 1 0 ) ( 1 1 1 ) ( 0 1 0 ) brick [ 0 1 0 0 ] [ 0 0 1 0 ] 0 0.015625 0.015625\n( 1 0 0 ) ( 0 0 0 ) ( 1 0 1 ) brick [ 0 1 0 0 ] [ 0 0 1 0 ] 0 0.015625 0.015625\n( 0 0 0 ) ( 0 1 0 ) ( 0 0 1 ) brick [ 0 1 0 0 ] [ 0 0 1 0 ] 0 0.015625 0.015625\n( 1 0 0 ) ( 1 0 1 ) ( 1 1 0 ) brick [ 0 1 0 0 ] [ 0 0 1 0 ] 0 0.015625 0.015625\n( 1 0 1 ) ( 0 0 1 ) ( 1 1 1 ) brick [ 0 1 0 0 ] [ 0 0 1 0 ] 0 0.015625 0.015625\n( 1 0 0 ) ( 1 1 0 ) ( 0 0 0 ) brick [ 0 1 0 0 ] [ 0 0 1 0 ] 0 0.015625 0.015625\n}\n}\n{\n\"classname\" \"lamp\"\n\"origin\" \"0 0 0\"\n}\n"

def turnTokens : List Token :=
  [.openBrace, .property (str! "classname") (str! "worldspawn"), .openBrace,
    .brushPlane (cubeLine (str! "1 1 0") (str! "1 1 1") (str! "0 1 0")),
    .brushPlane (cubeLine (str! "1 0 0") (str! "0 0 0") (str! "1 0 1")),
    .brushPlane (cubeLine (str! "0 0 0") (str! "0 1 0") (str! "0 0 1")),
    .brushPlane (cubeLine (str! "1 0 0") (str! "1 0 1") (str! "1 1 0")),
    .brushPlane (cubeLine (str! "1 0 1") (str! "0 0 1") (str! "1 1 1")),
    .brushPlane (cubeLine (str! "1 0 0") (str! "1 1 0") (str! "0 0 0")),
    .closeBrace, .closeBrace, .openBrace, .property (str! "classname") (str! "lamp"),
    .property (str! "origin") (str! "0 0 0"), .closeBrace]

set_option maxRecDepth 100000 in
theorem turn_tokens : Tokenizer.run (Platform.bareCR) turnMap = .ok turnTokens := by decide

/-- The faces of the turned cube, as they are read. -/
noncomputable def turnPlanes : List (BrushPlane ℝ) :=
  [stepPlane ⟨1, 1, 0⟩ ⟨1, 1, 1⟩ ⟨0, 1, 0⟩,
   stepPlane ⟨1, 0, 0⟩ ⟨0, 0, 0⟩ ⟨1, 0, 1⟩,
   stepPlane ⟨0, 0, 0⟩ ⟨0, 1, 0⟩ ⟨0, 0, 1⟩,
   stepPlane ⟨1, 0, 0⟩ ⟨1, 0, 1⟩ ⟨1, 1, 0⟩,
   stepPlane ⟨1, 0, 1⟩ ⟨0, 0, 1⟩ ⟨1, 1, 1⟩,
   stepPlane ⟨1, 0, 0⟩ ⟨1, 1, 0⟩ ⟨0, 0, 0⟩]

set_option maxRecDepth 100000 in
theorem turn_parse : ∃ paths, Parser.run (F := ℝ) turnTokens =
    .ok (paths, [stepWorld turnPlanes, stepLamp (str! "0 0 0")]) := ⟨_, rfl⟩

theorem turn_loads : LoadsAs turnMap [stepWorld turnPlanes, stepLamp (str! "0 0 0")] := by
  obtain ⟨paths, h⟩ := turn_parse
  exact ⟨_, _, turn_tokens, h⟩

theorem turn_planes : List.Forall₂ (TurnedFace quarter.move) Cube.planes turnPlanes := by
  unfold Cube.planes turnPlanes
  repeat'
    first
    | exact List.Forall₂.nil
    | refine List.Forall₂.cons ⟨?_, ?_, ?_, rfl⟩ ?_
  all_goals
    simp only [quarter_move, Cube.xp, Cube.xn, Cube.yp, Cube.yn, Cube.zp, Cube.zn, Cube.face, stepPlane]
    norm_num

theorem turn_turned : List.Forall₂ (TurnedBy quarter.move) [stepWorld Cube.planes, stepLamp (str! "0 1 0")]
    [stepWorld turnPlanes, stepLamp (str! "0 0 0")] := by
  refine .cons ⟨fun _ _ => rfl, .inl ⟨rfl, rfl⟩, .cons turn_planes .nil⟩
    (.cons ⟨?_, .inr ⟨str! "0 1 0", str! "0 0 0", ⟨0, 1, 0⟩, rfl, rfl, ?_, ?_⟩, .nil⟩ .nil)
  · intro key hk
    simp only [stepLamp, if_neg hk]
  · exact ⟨str! "0", str! "1", str! "0", by decide, by decide, by decide, rfl, rfl, rfl, rfl⟩
  · refine ⟨str! "0", str! "0", str! "0", by decide, by decide, by decide, rfl, ?_, ?_, ?_⟩ <;>
      simp [RealText.parse, quarter_move]

/-- C103 for the cube and the lamp: both maps load, with the turned world first and the turned lamp last. -/
example : ∃ w ls e w' ls' e', Quarch.run 2 id stepConfig = .ok (w :: (ls ++ [e])) ∧
    Quarch.run 2 id { stepConfig with mapFile := some turnMap } = .ok (w' :: (ls' ++ [e'])) ∧
    Turned (TakenSurface quarter.move) quarter.move quarter.turn quarter.move quarter.move w w' ∧ Turned (TakenSurface quarter.move) quarter.move quarter.turn quarter.move quarter.move e e' := by
  obtain ⟨nodes, h⟩ := step_run
  obtain ⟨w, ls, es, w', ls', ls'', es', rfl, h', hn, hw, hperm, hls, hes⟩ := C103_turned 2 id id (fun _ => .refl _)
    (fun _ => .refl _) stepConfig stepMap turnMap rfl _ _ step_loads turn_loads quarter turn_turned step_places nodes h
  have hone : ([stepWorld Cube.planes, stepLamp (str! "0 1 0")].countP fun e => decide (TopLevel e)) = 1 := by
    have h1 : decide (TopLevel (stepWorld Cube.planes)) = false := by
      rw [decide_eq_false_iff_not]
      exact fun h => h.1 rfl
    have h2 : decide (TopLevel (stepLamp (str! "0 1 0"))) = true := by
      rw [decide_eq_true_eq]
      exact ⟨by decide, by decide⟩
    rw [List.countP_cons, List.countP_cons, List.countP_nil, h1, h2]
    rfl
  rw [hone] at hn
  obtain ⟨e, rfl⟩ := List.length_eq_one_iff.1 hn
  obtain ⟨e', hes', rfl⟩ : ∃ e', Turned (TakenSurface quarter.move) quarter.move quarter.turn quarter.move quarter.move e e' ∧ es' = [e'] := by
    cases hes with
    | cons a b => cases b; exact ⟨_, a, rfl⟩
  exact ⟨w, ls, e, w', ls', e', h, h', hw, hes'⟩

end
end Quarch
