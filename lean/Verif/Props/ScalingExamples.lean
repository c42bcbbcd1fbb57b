import Verif.Props.MovingExamples
import Verif.Props.WatertightExamples
import Verif.Props.Scaling
/-
The map with a cube and a lamp of C101, made twice as large, for C105.
-/
set_option linter.unusedSectionVars false
set_option linter.unusedSimpArgs false
namespace Quarch
open Spec Scene Geo

section
attribute [local instance] refPlatform stepText

/-- Twice as large. -/
noncomputable def double : Similar :=
  ⟨⟨⟨1, 0, 0⟩, ⟨0, 1, 0⟩, ⟨0, 0, 1⟩, ⟨0, 0, 0⟩, by simp [dotR], by simp [dotR], by simp [dotR], by simp [crossR]⟩,
    2, by norm_num⟩

theorem double_move (v : V3 ℝ) : double.move v = ⟨2 * v.x, 2 * v.y, 2 * v.z⟩ := by
  simp only [double, Similar.move, Similar.turn, Rigid.turn, addR, smulR]
  apply V3.ext' <;> simp only [] <;> ring

/-- The cube and the lamp, with all coordinates doubled. -/
def doubleMap : Str :=
  str! "{\n\"classname\" \"worldspawn\"\n{\n( 2 0 0 ) ( 2 0 2 ) ( 2 2 0 ) brick [ 0 1 0 0 ] [ 0 0 1 0 ] 0 0.015625 0.015625\n( 0 0 0 ) ( 0 2 0 ) ( 0 0 2 ) brick [ 0 1 0 0 ] [ 0 0 1 0 ] 0 0.015625 0.015625\n( 0 2 0 ) ( 2 2 0 ) ( 0 2 2 ) brick [ 0 1 0 0 ] [ 0 0 1 0 ] 0 0.015625 0.015625\n( 0 0 0 ) ( 0 0 2 ) ( 2 0 0 ) brick [ 0 1 0 0 ] [ 0 0 1 0 ] 0 0.015625 0.015625\n( 0 0 2 ) ( 0 2 2 ) ( 2 0 2 ) brick [ 0 1 0 0 ] [ 0 0 1 0 ] 0 0.015625 0.015625\n( 0 0 0 ) ( 2 0 0 ) ( 0 2 0 ) brick [ 0 1 0 0 ] [ 0 0 1 0 ] 0 0.015625 0.015625\n}\n}\n{\n\"classname\" \"lamp\"\n\"origin\" \"0 2 0\"\n}\n"

def doubleTokens : List Token :=
  [.openBrace, .property (str! "classname") (str! "worldspawn"), .openBrace,
    .brushPlane (cubeLine (str! "2 0 0") (str! "2 0 2") (str! "2 2 0")),
    .brushPlane (cubeLine (str! "0 0 0") (str! "0 2 0") (str! "0 0 2")),
    .brushPlane (cubeLine (str! "0 2 0") (str! "2 2 0") (str! "0 2 2")),
    .brushPlane (cubeLine (str! "0 0 0") (str! "0 0 2") (str! "2 0 0")),
    .brushPlane (cubeLine (str! "0 0 2") (str! "0 2 2") (str! "2 0 2")),
    .brushPlane (cubeLine (str! "0 0 0") (str! "2 0 0") (str! "0 2 0")),
    .closeBrace, .closeBrace, .openBrace, .property (str! "classname") (str! "lamp"),
    .property (str! "origin") (str! "0 2 0"), .closeBrace]

set_option maxRecDepth 100000 in
theorem double_tokens : Tokenizer.run (Platform.bareCR) doubleMap = .ok doubleTokens := by decide

/-- The faces of the large cube, as they are read. -/
noncomputable def doublePlanes : List (BrushPlane ℝ) :=
  [stepPlane ⟨2, 0, 0⟩ ⟨2, 0, 2⟩ ⟨2, 2, 0⟩,
   stepPlane ⟨0, 0, 0⟩ ⟨0, 2, 0⟩ ⟨0, 0, 2⟩,
   stepPlane ⟨0, 2, 0⟩ ⟨2, 2, 0⟩ ⟨0, 2, 2⟩,
   stepPlane ⟨0, 0, 0⟩ ⟨0, 0, 2⟩ ⟨2, 0, 0⟩,
   stepPlane ⟨0, 0, 2⟩ ⟨0, 2, 2⟩ ⟨2, 0, 2⟩,
   stepPlane ⟨0, 0, 0⟩ ⟨2, 0, 0⟩ ⟨0, 2, 0⟩]

set_option maxRecDepth 100000 in
theorem double_parse : ∃ paths, Parser.run (F := ℝ) doubleTokens =
    .ok (paths, [stepWorld doublePlanes, stepLamp (str! "0 2 0")]) := ⟨_, rfl⟩

theorem double_loads : LoadsAs doubleMap [stepWorld doublePlanes, stepLamp (str! "0 2 0")] := by
  obtain ⟨paths, h⟩ := double_parse
  exact ⟨_, _, double_tokens, h⟩

theorem double_planes : List.Forall₂ (TurnedFace double.move) Cube.planes doublePlanes := by
  unfold Cube.planes doublePlanes
  repeat'
    first
    | exact List.Forall₂.nil
    | refine List.Forall₂.cons ⟨?_, ?_, ?_, rfl⟩ ?_
  all_goals
    simp only [double_move, Cube.xp, Cube.xn, Cube.yp, Cube.yn, Cube.zp, Cube.zn, Cube.face, stepPlane]
    norm_num

theorem double_turned : List.Forall₂ (TurnedBy double.move) [stepWorld Cube.planes, stepLamp (str! "0 1 0")]
    [stepWorld doublePlanes, stepLamp (str! "0 2 0")] := by
  refine .cons ⟨fun _ _ => rfl, .inl ⟨rfl, rfl⟩, .cons double_planes .nil⟩
    (.cons ⟨?_, .inr ⟨str! "0 1 0", str! "0 2 0", ⟨0, 1, 0⟩, rfl, rfl, ?_, ?_⟩, .nil⟩ .nil)
  · intro key hk
    simp only [stepLamp, if_neg hk]
  · exact ⟨str! "0", str! "1", str! "0", by decide, by decide, by decide, rfl, rfl, rfl, rfl⟩
  · refine ⟨str! "0", str! "2", str! "0", by decide, by decide, by decide, rfl, ?_, ?_, ?_⟩ <;>
      simp [RealText.parse, double_move]

/-- C105 for the cube and the lamp: both maps load, with the world and the lamp twice as large. -/
example : ∃ w ls e w' ls' e', Quarch.run 2 id stepConfig = .ok (w :: (ls ++ [e])) ∧
    Quarch.run 2 id { stepConfig with mapFile := some doubleMap } = .ok (w' :: (ls' ++ [e'])) ∧
    Turned (TakenSurface double.move) double.move double.turn double.move double.move w w' ∧
    Turned (TakenSurface double.move) double.move double.turn double.move double.move e e' := by
  obtain ⟨nodes, h⟩ := step_run
  obtain ⟨w, ls, es, w', ls', ls'', es', rfl, h', hn, hw, hperm, hls, hes⟩ := C105_enlarged 2 id id (fun _ => .refl _)
    (fun _ => .refl _) stepConfig stepMap doubleMap rfl _ _ step_loads double_loads double (by norm_num [double])
    double_turned step_places (by
      intro e he b hb
      rw [List.mem_cons, List.mem_singleton] at he
      rcases he with rfl | rfl
      · rw [stepWorld, List.mem_singleton] at hb
        subst hb
        exact proper_crisp Cube.proper
      · cases hb) nodes h
  have hone : ([stepWorld Cube.planes, stepLamp (str! "0 1 0")].countP fun e => decide (TopLevel e)) = 1 := by
    have h1 : decide (TopLevel (stepWorld Cube.planes)) = false := by
      rw [decide_eq_false_iff_not]
      exact fun h => h.1 rfl
    have h2 : decide (TopLevel (stepLamp (str! "0 1 0"))) = true := by
      rw [decide_eq_true_eq]
      exact ⟨by decide, by decide⟩
    rw [List.countP_cons, List.countP_cons, List.countP_nil, h1, h2]
    rfl
  rw [hone] at hn
  obtain ⟨e, rfl⟩ := List.length_eq_one_iff.1 hn
  cases hes with
  | cons a b => cases b; exact ⟨w, ls, e, w', ls', _, h, h', hw, a⟩

end
end Quarch
