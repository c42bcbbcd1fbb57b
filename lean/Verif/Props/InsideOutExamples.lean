import Verif.Props.InsideOut
import Verif.Props.TwiceExamples
/-
The unit cube, and next to it a unit cube whose faces are written the wrong way round, for C139.
-/
set_option linter.unusedSectionVars false
namespace Quarch
open Spec Scene Geo

section
attribute [local instance] refPlatform stepText

/-- The unit cube with its lowest corner at (1, 0, 0), its faces written the wrong way round. -/
noncomputable def innerPlanes : List (BrushPlane ℝ) :=
  [stepPlane ⟨2, 0, 0⟩ ⟨2, 1, 0⟩ ⟨2, 0, 1⟩,
    stepPlane ⟨1, 0, 0⟩ ⟨1, 0, 1⟩ ⟨1, 1, 0⟩,
    stepPlane ⟨1, 1, 0⟩ ⟨1, 1, 1⟩ ⟨2, 1, 0⟩,
    stepPlane ⟨1, 0, 0⟩ ⟨2, 0, 0⟩ ⟨1, 0, 1⟩,
    stepPlane ⟨1, 0, 1⟩ ⟨2, 0, 1⟩ ⟨1, 1, 1⟩,
    stepPlane ⟨1, 0, 0⟩ ⟨1, 1, 0⟩ ⟨2, 0, 0⟩]

/-- The same, written the right way round. -/
noncomputable def outerPlanes : List (BrushPlane ℝ) :=
  [stepPlane ⟨2, 0, 0⟩ ⟨2, 0, 1⟩ ⟨2, 1, 0⟩,
    stepPlane ⟨1, 0, 0⟩ ⟨1, 1, 0⟩ ⟨1, 0, 1⟩,
    stepPlane ⟨1, 1, 0⟩ ⟨2, 1, 0⟩ ⟨1, 1, 1⟩,
    stepPlane ⟨1, 0, 0⟩ ⟨1, 0, 1⟩ ⟨2, 0, 0⟩,
    stepPlane ⟨1, 0, 1⟩ ⟨1, 1, 1⟩ ⟨2, 0, 1⟩,
    stepPlane ⟨1, 0, 0⟩ ⟨2, 0, 0⟩ ⟨1, 1, 0⟩]

theorem outer_thick : Thick outerPlanes := by
  refine ⟨⟨2, fun x h => ?_⟩, ⟨3 / 2, 1 / 2, 1 / 2⟩, 1 / 2, by norm_num, ?_⟩
  · simp only [outerPlanes, List.mem_cons, List.not_mem_nil, or_false, forall_eq_or_imp, forall_eq, WithinR, zero_mul] at h
    norm_num [rawNormal, stepPlane, crossR, subR, dotR] at h
    obtain ⟨h1, h2, h3, h4, h5, h6⟩ := h
    refine ⟨abs_le.2 ⟨?_, ?_⟩, abs_le.2 ⟨?_, ?_⟩, abs_le.2 ⟨?_, ?_⟩⟩ <;> linarith
  · intro p hp
    simp only [outerPlanes, List.mem_cons, List.not_mem_nil, or_false] at hp
    rcases hp with rfl | rfl | rfl | rfl | rfl | rfl <;>
      norm_num [WithinR, lenR, rawNormal, stepPlane, crossR, subR, dotR]

theorem inner_insideOut : InsideOut innerPlanes := by
  refine ⟨outerPlanes, outer_thick, ?_⟩
  unfold outerPlanes innerPlanes
  repeat' first | exact .nil | refine .cons ⟨rfl, rfl, rfl⟩ ?_

/-- Nothing of it is built, in whatever entity. -/
example (textures : TextureInfo) (entity : Entity ℝ) : ∃ geo, buildBrush textures entity ⟨innerPlanes⟩ = .ok geo ∧
    geo.planes.length = 6 ∧ ∀ face ∈ geo.planes, face.vertices = [] := by
  obtain ⟨geo, h1, _, h2, h3⟩ := C139_vanishes textures entity ⟨innerPlanes⟩ inner_insideOut
  exact ⟨geo, h1, h2, fun f hf => (h3 f hf).1⟩

def innerMap : Str :=
  str! "{\n\"classname\" \"worldspawn\"\n{\n( 1 0 0 ) ( 1 0 1 ) ( 1 1 0 ) brick [ 0 1 0 0 ] [ 0 0 1 0 ] 0 0.015625 0.015625\n( 0 0 0 ) ( 0 1 0 ) ( 0 0 1 ) brick [ 0 1 0 0 ] [ 0 0 1 0 ] 0 0.015625 0.015625\n( 0 1 0 ) ( 1 1 0 ) ( 0 1 1 ) brick [ 0 1 0 0 ] [ 0 0 1 0 ] 0 0.015625 0.015625\n( 0 0 0 ) ( 0 0 1 ) ( 1 0 0 ) brick [ 0 1 0 0 ] [ 0 0 1 0 ] 0 0.015625 0.015625\n( 0 0 1 ) ( 0 1 1 ) ( 1 0 1 ) brick [ 0 1 0 0 ] [ 0 0 1 0 ] 0 0.015625 0.015625\n( 0 0 0 ) ( 1 0 0 ) ( 0 1 0 ) brick [ 0 1 0 0 ] [ 0 0 1 0 ] 0 0.015625 0.015625\n}\n{\n( 2 0 0 ) ( 2 1 0 ) ( 2 0 1 ) brick [ 0 1 0 0 ] [ 0 0 1 0 ] 0 0.015625 0.015625\n( 1 0 0 ) ( 1 0 1 ) ( 1 1 0 ) brick [ 0 1 0 0 ] [ 0 0 1 0 ] 0 0.015625 0.015625\n( 1 1 0 ) ( 1 1 1 ) ( 2 1 0 ) brick [ 0 1 0 0 ] [ 0 0 1 0 ] 0 0.015625 0.015625\n( 1 0 0 ) ( 2 0 0 ) ( 1 0 1 ) brick [ 0 1 0 0 ] [ 0 0 1 0 ] 0 0.015625 0.015625\n( 1 0 1 ) ( 2 0 1 ) ( 1 1 1 ) brick [ 0 1 0 0 ] [ 0 0 1 0 ] 0 0.015625 0.015625\n( 1 0 0 ) ( 1 1 0 ) ( 2 0 0 ) brick [ 0 1 0 0 ] [ 0 0 1 0 ] 0 0.015625 0.015625\n}\n}\n"

def innerTokens : List Token :=
  [.openBrace, .property (str! "classname") (str! "worldspawn"),
    .openBrace,
    .brushPlane (cubeLine (str! "1 0 0") (str! "1 0 1") (str! "1 1 0")),
    .brushPlane (cubeLine (str! "0 0 0") (str! "0 1 0") (str! "0 0 1")),
    .brushPlane (cubeLine (str! "0 1 0") (str! "1 1 0") (str! "0 1 1")),
    .brushPlane (cubeLine (str! "0 0 0") (str! "0 0 1") (str! "1 0 0")),
    .brushPlane (cubeLine (str! "0 0 1") (str! "0 1 1") (str! "1 0 1")),
    .brushPlane (cubeLine (str! "0 0 0") (str! "1 0 0") (str! "0 1 0")),
    .closeBrace,
    .openBrace,
    .brushPlane (cubeLine (str! "2 0 0") (str! "2 1 0") (str! "2 0 1")),
    .brushPlane (cubeLine (str! "1 0 0") (str! "1 0 1") (str! "1 1 0")),
    .brushPlane (cubeLine (str! "1 1 0") (str! "1 1 1") (str! "2 1 0")),
    .brushPlane (cubeLine (str! "1 0 0") (str! "2 0 0") (str! "1 0 1")),
    .brushPlane (cubeLine (str! "1 0 1") (str! "2 0 1") (str! "1 1 1")),
    .brushPlane (cubeLine (str! "1 0 0") (str! "1 1 0") (str! "2 0 0")),
    .closeBrace,
    .closeBrace]

set_option maxRecDepth 100000 in
theorem inner_tokens : Tokenizer.run (Platform.bareCR) innerMap = .ok innerTokens := by decide

noncomputable def innerWorld : Entity ℝ := { stepWorld Cube.planes with brushes := [⟨Cube.planes⟩, ⟨innerPlanes⟩] }

set_option maxRecDepth 100000 in
theorem inner_parse : ∃ paths, Parser.run (F := ℝ) innerTokens = .ok (paths, [innerWorld]) := ⟨_, rfl⟩

theorem inner_loads : LoadsAs innerMap [innerWorld] := by
  obtain ⟨paths, h⟩ := inner_parse
  exact ⟨_, _, inner_tokens, h⟩

noncomputable def innerConfig : Config ℝ := { stepConfig with mapFile := some innerMap }

theorem inner_config : innerConfig.mapFile = some innerMap := rfl

theorem inner_run : ∃ nodes, Quarch.run 1 id innerConfig = .ok nodes := by
  refine C92_enough 1 id (fun _ => .refl _) innerConfig [innerWorld]
    ⟨⟨_, rfl, (C92_text _ _).1 inner_loads⟩, ⟨[], _, [], rfl, rfl, fun e he => by simp at he⟩, ?_, ?_, ?_, ?_⟩ (Nat.le_refl _)
  · exact (geo_succeeds stepConfig.textureInfo _).1 (mapOut_isOk.2 fun e _ => buildEntity_real _ e)
  · intro e he _
    cases List.mem_singleton.1 he
    exact ⟨_, rfl⟩
  · intro e he _ _ k hk s hs
    exfalso
    simp only [List.mem_cons, List.not_mem_nil, or_false] at he hk
    subst he
    rcases hk with rfl | rfl <;> revert hs <;> simp [innerWorld, stepWorld]
  · apply no_loop_of_unique
    exact .cons (fun b hb => by cases hb) .nil

theorem inner_brushes : ∀ e ∈ [innerWorld], Anchored [innerWorld] e → ∀ br ∈ e.brushes,
    InsideOut br.planes ∨ ProperBrush br.planes := by
  intro e he _ br hbr
  cases List.mem_singleton.1 he
  simp only [innerWorld, List.mem_cons, List.not_mem_nil, or_false] at hbr
  rcases hbr with rfl | rfl
  · exact .inr Cube.proper
  · exact .inl inner_insideOut

/-- C139 from end to end: the map with both cubes loads, and nothing outside the first is solid or drawn. -/
example : ∃ nodes, Quarch.run 1 id innerConfig = .ok nodes ∧
    (∀ x, InSolid nodes x ∨ Drawn nodes x → ∀ p ∈ Cube.planes, WithinR 0 p x) ∧ ¬ InSolid nodes ⟨3 / 2, 1 / 2, 1 / 2⟩ := by
  obtain ⟨nodes, h⟩ := inner_run
  have main : ∀ x, InSolid nodes x ∨ Drawn nodes x → ∀ p ∈ Cube.planes, WithinR 0 p x := by
    rintro x (hx | hx)
    · obtain ⟨e, he, _, br, hbr, hn, _, hin⟩ := ((C139_convex 1 id (fun _ => .refl _) innerConfig nodes h innerMap
        inner_config [innerWorld] inner_loads).2 inner_brushes x).1 hx
      cases List.mem_singleton.1 he
      simp only [innerWorld, List.mem_cons, List.not_mem_nil, or_false] at hbr
      rcases hbr with rfl | rfl
      · exact hin
      · exact absurd inner_insideOut hn
    · obtain ⟨e, he, _, br, hbr, hn, p, _, _, _, hf⟩ := (C139_picture 1 id (fun _ => .refl _) innerConfig nodes h innerMap
        inner_config [innerWorld] inner_loads inner_brushes x).1 hx
      cases List.mem_singleton.1 he
      simp only [innerWorld, List.mem_cons, List.not_mem_nil, or_false] at hbr
      rcases hbr with rfl | rfl
      · exact hf.2
      · exact absurd inner_insideOut hn
  refine ⟨nodes, h, main, fun hx => ?_⟩
  have := main _ (.inl hx) Cube.xp (by simp [Cube.planes])
  unfold WithinR at this
  rw [Cube.raw_xp] at this
  norm_num [Cube.xp, Cube.face, subR, dotR] at this

end
end Quarch
