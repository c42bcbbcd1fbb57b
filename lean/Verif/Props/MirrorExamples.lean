import Verif.Props.Mirror
import Verif.Props.InsideOutExamples
/-
The mirror image of the unit cube, for C140.
-/
set_option linter.unusedSectionVars false
namespace Quarch
open Spec Scene Geo

section
attribute [local instance] refPlatform stepText

/-- Nothing is turned; everything is moved by 1 along the first axis. -/
noncomputable def mirrorStep : Rigid :=
  ⟨⟨1, 0, 0⟩, ⟨0, 1, 0⟩, ⟨0, 0, 1⟩, ⟨1, 0, 0⟩, by norm_num [dotR], by norm_num [dotR], by norm_num [dotR], by norm_num [crossR]⟩

/-- The unit cube with 1 - x in place of x. -/
noncomputable def mirrorPlanes : List (BrushPlane ℝ) :=
  [stepPlane ⟨0, 0, 0⟩ ⟨0, 0, 1⟩ ⟨0, 1, 0⟩,
    stepPlane ⟨1, 0, 0⟩ ⟨1, 1, 0⟩ ⟨1, 0, 1⟩,
    stepPlane ⟨1, 1, 0⟩ ⟨0, 1, 0⟩ ⟨1, 1, 1⟩,
    stepPlane ⟨1, 0, 0⟩ ⟨1, 0, 1⟩ ⟨0, 0, 0⟩,
    stepPlane ⟨1, 0, 1⟩ ⟨1, 1, 1⟩ ⟨0, 0, 1⟩,
    stepPlane ⟨1, 0, 0⟩ ⟨0, 0, 0⟩ ⟨1, 1, 0⟩]

theorem cube_thick : Thick Cube.planes := by
  refine ⟨⟨1, fun x h => ?_⟩, ⟨1 / 2, 1 / 2, 1 / 2⟩, 1 / 2, by norm_num, ?_⟩
  · simp only [Cube.planes, List.mem_cons, List.not_mem_nil, or_false, forall_eq_or_imp, forall_eq, Cube.in_xp, Cube.in_xn,
      Cube.in_yp, Cube.in_yn, Cube.in_zp, Cube.in_zn] at h
    obtain ⟨h1, h2, h3, h4, h5, h6⟩ := h
    refine ⟨abs_le.2 ⟨?_, ?_⟩, abs_le.2 ⟨?_, ?_⟩, abs_le.2 ⟨?_, ?_⟩⟩ <;> linarith
  · simp only [Cube.planes, List.mem_cons, List.not_mem_nil, or_false, forall_eq_or_imp, forall_eq, Cube.in_xp, Cube.in_xn,
      Cube.in_yp, Cube.in_yn, Cube.in_zp, Cube.in_zn]
    norm_num

theorem mirror_faces : List.Forall₂ (TurnedFace mirrorStep.reflect) Cube.planes mirrorPlanes := by
  unfold Cube.planes mirrorPlanes
  refine .cons ⟨?_, ?_, ?_, rfl⟩ <| .cons ⟨?_, ?_, ?_, rfl⟩ <| .cons ⟨?_, ?_, ?_, rfl⟩ <| .cons ⟨?_, ?_, ?_, rfl⟩ <|
    .cons ⟨?_, ?_, ?_, rfl⟩ <| .cons ⟨?_, ?_, ?_, rfl⟩ .nil
  all_goals
    norm_num [Rigid.reflect, Rigid.move, Rigid.turn, mirrorR, mirrorStep, stepPlane, Cube.xp, Cube.xn, Cube.yp, Cube.yn,
      Cube.zp, Cube.zn, Cube.face, addR, smulR]

/-- The mirror image of the unit cube is inside out. -/
example : InsideOut mirrorPlanes := C140_brush mirrorStep _ _ cube_thick mirror_faces

def mirrorMap : Str :=
  str! "{\n\"classname\" \"worldspawn\"\n{\n( 0 0 0 ) ( 0 0 1 ) ( 0 1 0 ) brick [ 0 1 0 0 ] [ 0 0 1 0 ] 0 0.015625 0.015625\n( 1 0 0 ) ( 1 1 0 ) ( 1 0 1 ) brick [ 0 1 0 0 ] [ 0 0 1 0 ] 0 0.015625 0.015625\n( 1 1 0 ) ( 0 1 0 ) ( 1 1 1 ) brick [ 0 1 0 0 ] [ 0 0 1 0 ] 0 0.015625 0.015625\n( 1 0 0 ) ( 1 0 1 ) ( 0 0 0 ) brick [ 0 1 0 0 ] [ 0 0 1 0 ] 0 0.015625 0.015625\n( 1 0 1 ) ( 1 1 1 ) ( 0 0 1 ) brick [ 0 1 0 0 ] [ 0 0 1 0 ] 0 0.015625 0.015625\n( 1 0 0 ) ( 0 0 0 ) ( 1 1 0 ) brick [ 0 1 0 0 ] [ 0 0 1 0 ] 0 0.015625 0.015625\n}\n}\n"

def mirrorTokens : List Token :=
  [.openBrace, .property (str! "classname") (str! "worldspawn"),
    .openBrace,
    .brushPlane (cubeLine (str! "0 0 0") (str! "0 0 1") (str! "0 1 0")),
    .brushPlane (cubeLine (str! "1 0 0") (str! "1 1 0") (str! "1 0 1")),
    .brushPlane (cubeLine (str! "1 1 0") (str! "0 1 0") (str! "1 1 1")),
    .brushPlane (cubeLine (str! "1 0 0") (str! "1 0 1") (str! "0 0 0")),
    .brushPlane (cubeLine (str! "1 0 1") (str! "1 1 1") (str! "0 0 1")),
    .brushPlane (cubeLine (str! "1 0 0") (str! "0 0 0") (str! "1 1 0")),
    .closeBrace,
    .closeBrace]

set_option maxRecDepth 100000 in
theorem mirror_tokens : Tokenizer.run (Platform.bareCR) mirrorMap = .ok mirrorTokens := by decide

set_option maxRecDepth 100000 in
theorem mirror_parse : ∃ paths, Parser.run (F := ℝ) mirrorTokens = .ok (paths, [stepWorld mirrorPlanes]) := ⟨_, rfl⟩

theorem mirror_loads : LoadsAs mirrorMap [stepWorld mirrorPlanes] := by
  obtain ⟨paths, h⟩ := mirror_parse
  exact ⟨_, _, mirror_tokens, h⟩

noncomputable def mirrorConfig : Config ℝ := { stepConfig with mapFile := some mirrorMap }

theorem mirror_config : mirrorConfig.mapFile = some mirrorMap := rfl

theorem mirror_run : ∃ nodes, Quarch.run 1 id mirrorConfig = .ok nodes := by
  refine C92_enough 1 id (fun _ => .refl _) mirrorConfig [stepWorld mirrorPlanes]
    ⟨⟨_, rfl, (C92_text _ _).1 mirror_loads⟩, ⟨[], _, [], rfl, rfl, fun e he => by simp at he⟩, ?_, ?_, ?_, ?_⟩ (Nat.le_refl _)
  · exact (geo_succeeds stepConfig.textureInfo _).1 (mapOut_isOk.2 fun e _ => buildEntity_real _ e)
  · intro e he _
    cases List.mem_singleton.1 he
    exact ⟨_, rfl⟩
  · intro e he _ _ k hk s hs
    exfalso
    simp only [List.mem_cons, List.not_mem_nil, or_false] at he hk
    subst he
    rcases hk with rfl | rfl <;> revert hs <;> simp [stepWorld]
  · apply no_loop_of_unique
    exact .cons (fun b hb => by cases hb) .nil

theorem mirror_turned : List.Forall₂ (TurnedBy mirrorStep.reflect) [stepWorld Cube.planes] [stepWorld mirrorPlanes] := by
  refine .cons ⟨fun _ _ => rfl, .inl ⟨?_, ?_⟩, .cons mirror_faces .nil⟩ .nil <;> simp [stepWorld]

/-- C140 from end to end: the mirrored map loads, and its scene shows nothing and stops nothing. -/
example : ∃ nodes, Quarch.run 1 id mirrorConfig = .ok nodes ∧
    ∀ x, ¬ Drawn nodes x ∧ ¬ InSolid nodes x ∧ ¬ OnSolid nodes x := by
  obtain ⟨nodes, h⟩ := mirror_run
  refine ⟨nodes, h, C140_empty 1 id (fun _ => .refl _) mirrorConfig nodes h mirrorMap mirror_config _ _ mirror_loads
    mirrorStep mirror_turned ?_⟩
  intro e he br hbr
  cases List.mem_singleton.1 he
  cases List.mem_singleton.1 hbr
  exact cube_thick

end
end Quarch
