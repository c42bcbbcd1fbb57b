import Verif.Props.MirrorWorld
import Verif.Props.MirrorExamples
/-
The unit cube and a lamp, and their mirror image, for C141.
-/
set_option linter.unusedSectionVars false
namespace Quarch
open Spec Scene Geo

section
attribute [local instance] refPlatform stepText

/-- Nothing is turned; everything is moved by 2 along the first axis. -/
noncomputable def glassStep : Rigid :=
  ⟨⟨1, 0, 0⟩, ⟨0, 1, 0⟩, ⟨0, 0, 1⟩, ⟨2, 0, 0⟩, by norm_num [dotR], by norm_num [dotR], by norm_num [dotR], by norm_num [crossR]⟩

/-- The unit cube with 2 - x in place of x and the points of every face put back into order. -/
noncomputable def glassPlanes : List (BrushPlane ℝ) :=
  [stepPlane ⟨1, 0, 0⟩ ⟨1, 1, 0⟩ ⟨1, 0, 1⟩,
    stepPlane ⟨2, 0, 0⟩ ⟨2, 0, 1⟩ ⟨2, 1, 0⟩,
    stepPlane ⟨2, 1, 0⟩ ⟨2, 1, 1⟩ ⟨1, 1, 0⟩,
    stepPlane ⟨2, 0, 0⟩ ⟨1, 0, 0⟩ ⟨2, 0, 1⟩,
    stepPlane ⟨2, 0, 1⟩ ⟨1, 0, 1⟩ ⟨2, 1, 1⟩,
    stepPlane ⟨2, 0, 0⟩ ⟨2, 1, 0⟩ ⟨1, 0, 0⟩]

theorem glass_faces : List.Forall₂ (MirroredFace glassStep.reflect) Cube.planes glassPlanes := by
  unfold Cube.planes glassPlanes
  refine .cons ⟨?_, ?_, ?_, rfl⟩ <| .cons ⟨?_, ?_, ?_, rfl⟩ <| .cons ⟨?_, ?_, ?_, rfl⟩ <| .cons ⟨?_, ?_, ?_, rfl⟩ <|
    .cons ⟨?_, ?_, ?_, rfl⟩ <| .cons ⟨?_, ?_, ?_, rfl⟩ .nil
  all_goals
    norm_num [Rigid.reflect, Rigid.move, Rigid.turn, mirrorR, glassStep, stepPlane, Cube.xp, Cube.xn, Cube.yp, Cube.yn,
      Cube.zp, Cube.zn, Cube.face, addR, smulR]

/-- The mirror image of the unit cube is proper. -/
example : ProperBrush glassPlanes := C141_proper glassStep _ _ Cube.proper glass_faces

def glassMap : Str :=
  str! "{\n\"classname\" \"worldspawn\"\n{\n( 1 0 0 ) ( 1 1 0 ) ( 1 0 1 ) brick [ 0 1 0 0 ] [ 0 0 1 0 ] 0 0.015625 0.015625\n( 2 0 0 ) ( 2 0 1 ) ( 2 1 0 ) brick [ 0 1 0 0 ] [ 0 0 1 0 ] 0 0.015625 0.015625\n( 2 1 0 ) ( 2 1 1 ) ( 1 1 0 ) brick [ 0 1 0 0 ] [ 0 0 1 0 ] 0 0.015625 0.015625\n( 2 0 0 ) ( 1 0 0 ) ( 2 0 1 ) brick [ 0 1 0 0 ] [ 0 0 1 0 ] 0 0.015625 0.015625\n( 2 0 1 ) ( 1 0 1 ) ( 2 1 1 ) brick [ 0 1 0 0 ] [ 0 0 1 0 ] 0 0.015625 0.015625\n( 2 0 0 ) ( 2 1 0 ) ( 1 0 0 ) brick [ 0 1 0 0 ] [ 0 0 1 0 ] 0 0.015625 0.015625\n}\n}\n{\n\"classname\" \"lamp\"\n\"origin\" \"2 1 0\"\n}\n"

def glassTokens : List Token :=
  [.openBrace, .property (str! "classname") (str! "worldspawn"),
    .openBrace,
    .brushPlane (cubeLine (str! "1 0 0") (str! "1 1 0") (str! "1 0 1")),
    .brushPlane (cubeLine (str! "2 0 0") (str! "2 0 1") (str! "2 1 0")),
    .brushPlane (cubeLine (str! "2 1 0") (str! "2 1 1") (str! "1 1 0")),
    .brushPlane (cubeLine (str! "2 0 0") (str! "1 0 0") (str! "2 0 1")),
    .brushPlane (cubeLine (str! "2 0 1") (str! "1 0 1") (str! "2 1 1")),
    .brushPlane (cubeLine (str! "2 0 0") (str! "2 1 0") (str! "1 0 0")),
    .closeBrace, .closeBrace, .openBrace, .property (str! "classname") (str! "lamp"),
    .property (str! "origin") (str! "2 1 0"), .closeBrace]

set_option maxRecDepth 100000 in
theorem glass_tokens : Tokenizer.run (Platform.bareCR) glassMap = .ok glassTokens := by decide

set_option maxRecDepth 100000 in
theorem glass_parse : ∃ paths, Parser.run (F := ℝ) glassTokens =
    .ok (paths, [stepWorld glassPlanes, stepLamp (str! "2 1 0")]) := ⟨_, rfl⟩

theorem glass_loads : LoadsAs glassMap [stepWorld glassPlanes, stepLamp (str! "2 1 0")] := by
  obtain ⟨paths, h⟩ := glass_parse
  exact ⟨_, _, glass_tokens, h⟩

theorem glass_run : ∃ nodes, Quarch.run 2 id { stepConfig with mapFile := some glassMap } = .ok nodes := by
  refine C92_enough 2 id (fun _ => .refl _) { stepConfig with mapFile := some glassMap }
    [stepWorld glassPlanes, stepLamp (str! "2 1 0")]
    ⟨⟨_, rfl, (C92_text _ _).1 glass_loads⟩, ⟨[], _, _, rfl, rfl, fun e he => ?_⟩, ?_, ?_, ?_, ?_⟩ (Nat.le_refl _)
  · cases List.mem_singleton.1 he
    decide
  · exact (geo_succeeds stepConfig.textureInfo _).1 (mapOut_isOk.2 fun e _ => buildEntity_real _ e)
  · intro e he _
    rw [List.mem_cons, List.mem_singleton] at he
    rcases he with rfl | rfl
    · exact ⟨_, rfl⟩
    · exact ⟨str! "lamp", by decide⟩
  · intro e he _ _ k hk s hs
    exfalso
    simp only [List.mem_cons, List.not_mem_nil, or_false] at he hk
    rcases he with rfl | rfl <;> rcases hk with rfl | rfl <;> revert hs <;> simp [stepWorld, stepLamp]
  · apply no_loop_of_unique
    refine .cons (fun b hb id h => ?_) (.cons (fun b hb => by cases hb) .nil)
    cases h

theorem glass_mirrored : List.Forall₂ (MirroredBy glassStep.reflect) [stepWorld Cube.planes, stepLamp (str! "0 1 0")]
    [stepWorld glassPlanes, stepLamp (str! "2 1 0")] := by
  refine .cons ⟨fun _ _ => rfl, .cons glass_faces .nil⟩ (.cons ⟨fun key hk => ?_, .nil⟩ .nil)
  simp only [stepLamp, if_neg hk]

theorem step_proper : ∀ e ∈ [stepWorld Cube.planes, stepLamp (str! "0 1 0")],
    Anchored [stepWorld Cube.planes, stepLamp (str! "0 1 0")] e → ∀ br ∈ e.brushes, ProperBrush br.planes := by
  intro e he _ br hbr
  rw [List.mem_cons, List.mem_singleton] at he
  rcases he with rfl | rfl
  · cases List.mem_singleton.1 hbr
    exact Cube.proper
  · simp [stepLamp] at hbr

/-- C141 from end to end: both maps load, and the second scene is the mirror image of the first. -/
example : ∃ nodes nodes', Quarch.run 2 id stepConfig = .ok nodes ∧
    Quarch.run 2 id { stepConfig with mapFile := some glassMap } = .ok nodes' ∧
    ∀ x y z, (Drawn nodes' ⟨2 - x, y, z⟩ ↔ Drawn nodes ⟨x, y, z⟩) ∧ (InSolid nodes' ⟨2 - x, y, z⟩ ↔ InSolid nodes ⟨x, y, z⟩) := by
  obtain ⟨nodes, h⟩ := step_run
  obtain ⟨nodes', h'⟩ := glass_run
  refine ⟨nodes, nodes', h, h', fun x y z => ?_⟩
  have e : glassStep.reflect ⟨x, y, z⟩ = ⟨2 - x, y, z⟩ := by
    simp only [Rigid.reflect, Rigid.move, Rigid.turn, mirrorR, glassStep, addR, smulR]
    apply V3.ext' <;> simp only [] <;> ring
  obtain ⟨h1, h2, _⟩ := C141_scene 2 2 id id (fun _ => .refl _) (fun _ => .refl _) stepConfig stepMap glassMap rfl _ _
    step_loads glass_loads nodes nodes' h h' glassStep glass_mirrored step_proper ⟨x, y, z⟩
  rw [e] at h1 h2
  exact ⟨h1, h2⟩

end
end Quarch
