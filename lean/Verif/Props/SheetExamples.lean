import Verif.Props.Sheet
import Verif.Props.TwiceExamples
/-
The unit cube and a flat tetrahedron of two units by two by 1/64, for C137.
-/
set_option linter.unusedSectionVars false
namespace Quarch
open Spec Scene Geo

section
attribute [local instance] refPlatform stepText

noncomputable def lensA : BrushPlane ℝ := Cube.face ⟨0, 0, 0⟩ ⟨2, 0, 1 / 64⟩ ⟨2, 2, 0⟩
noncomputable def lensB : BrushPlane ℝ := Cube.face ⟨0, 0, 0⟩ ⟨2, 2, 0⟩ ⟨0, 2, 1 / 64⟩
noncomputable def lensC : BrushPlane ℝ := Cube.face ⟨0, 0, 0⟩ ⟨0, 2, 1 / 64⟩ ⟨2, 0, 1 / 64⟩
noncomputable def lensD : BrushPlane ℝ := Cube.face ⟨2, 2, 0⟩ ⟨2, 0, 1 / 64⟩ ⟨0, 2, 1 / 64⟩

/-- The tetrahedron with corners (0, 0, 0), (2, 2, 0), (2, 0, 1/64) and (0, 2, 1/64). -/
noncomputable def lens : List (BrushPlane ℝ) := [lensA, lensB, lensC, lensD]

theorem lens_sheet : SheetLike lens := by
  refine ⟨⟨0, 0, 1⟩, by simp [zeroR], ?_⟩
  intro p hp
  simp only [lens, List.mem_cons, List.not_mem_nil, or_false] at hp
  rcases hp with rfl | rfl | rfl | rfl <;>
    norm_num [rawNormal, lensA, lensB, lensC, lensD, Cube.face, crossR, subR, dotR]

/-- It is a body, not degenerate: this point is inside, and it is bounded. -/
theorem lens_body : (∀ p ∈ lens, dotR (rawNormal p) (subR ⟨5 / 4, 5 / 4, 1 / 128⟩ p.v0) < 0) ∧
    ∀ x, (∀ p ∈ lens, dotR (rawNormal p) (subR x p.v0) ≤ 0) → 0 ≤ x.x ∧ x.x ≤ 2 ∧ 0 ≤ x.y ∧ x.y ≤ 2 ∧ 0 ≤ x.z ∧ x.z ≤ 1 / 64 := by
  constructor
  · intro p hp
    simp only [lens, List.mem_cons, List.not_mem_nil, or_false] at hp
    rcases hp with rfl | rfl | rfl | rfl <;>
      norm_num [rawNormal, lensA, lensB, lensC, lensD, Cube.face, crossR, subR, dotR]
  · intro x h
    have a := h lensA (by simp [lens])
    have b := h lensB (by simp [lens])
    have c := h lensC (by simp [lens])
    have d := h lensD (by simp [lens])
    norm_num [rawNormal, lensA, lensB, lensC, lensD, Cube.face, crossR, subR, dotR] at a b c d
    refine ⟨?_, ?_, ?_, ?_, ?_, ?_⟩ <;> linarith

/-- Nothing of it is built, in whatever entity. -/
example (textures : TextureInfo) (entity : Entity ℝ) : ∃ geo, buildBrush textures entity ⟨lens⟩ = .ok geo ∧
    geo.planes.length = 4 ∧ ∀ face ∈ geo.planes, face.vertices = [] := by
  obtain ⟨geo, h1, _, h2, h3⟩ := C137_vanishes textures entity ⟨lens⟩ lens_sheet
  exact ⟨geo, h1, h2, fun f hf => (h3 f hf).1⟩

def lensMap : Str :=
  str! "{\n\"classname\" \"worldspawn\"\n{\n( 1 0 0 ) ( 1 0 1 ) ( 1 1 0 ) brick [ 0 1 0 0 ] [ 0 0 1 0 ] 0 0.015625 0.015625\n( 0 0 0 ) ( 0 1 0 ) ( 0 0 1 ) brick [ 0 1 0 0 ] [ 0 0 1 0 ] 0 0.015625 0.015625\n( 0 1 0 ) ( 1 1 0 ) ( 0 1 1 ) brick [ 0 1 0 0 ] [ 0 0 1 0 ] 0 0.015625 0.015625\n( 0 0 0 ) ( 0 0 1 ) ( 1 0 0 ) brick [ 0 1 0 0 ] [ 0 0 1 0 ] 0 0.015625 0.015625\n( 0 0 1 ) ( 0 1 1 ) ( 1 0 1 ) brick [ 0 1 0 0 ] [ 0 0 1 0 ] 0 0.015625 0.015625\n( 0 0 0 ) ( 1 0 0 ) ( 0 1 0 ) brick [ 0 1 0 0 ] [ 0 0 1 0 ] 0 0.015625 0.015625\n}\n{\n( 0 0 0 ) ( 2 0 0.015625 ) ( 2 2 0 ) brick [ 0 1 0 0 ] [ 0 0 1 0 ] 0 0.015625 0.015625\n( 0 0 0 ) ( 2 2 0 ) ( 0 2 0.015625 ) brick [ 0 1 0 0 ] [ 0 0 1 0 ] 0 0.015625 0.015625\n( 0 0 0 ) ( 0 2 0.015625 ) ( 2 0 0.015625 ) brick [ 0 1 0 0 ] [ 0 0 1 0 ] 0 0.015625 0.015625\n( 2 2 0 ) ( 2 0 0.015625 ) ( 0 2 0.015625 ) brick [ 0 1 0 0 ] [ 0 0 1 0 ] 0 0.015625 0.015625\n}\n}\n"

def lensTokens : List Token :=
  [.openBrace, .property (str! "classname") (str! "worldspawn"), .openBrace,
    .brushPlane (cubeLine (str! "1 0 0") (str! "1 0 1") (str! "1 1 0")),
    .brushPlane (cubeLine (str! "0 0 0") (str! "0 1 0") (str! "0 0 1")),
    .brushPlane (cubeLine (str! "0 1 0") (str! "1 1 0") (str! "0 1 1")),
    .brushPlane (cubeLine (str! "0 0 0") (str! "0 0 1") (str! "1 0 0")),
    .brushPlane (cubeLine (str! "0 0 1") (str! "0 1 1") (str! "1 0 1")),
    .brushPlane (cubeLine (str! "0 0 0") (str! "1 0 0") (str! "0 1 0")),
    .closeBrace, .openBrace,
    .brushPlane (cubeLine (str! "0 0 0") (str! "2 0 0.015625") (str! "2 2 0")),
    .brushPlane (cubeLine (str! "0 0 0") (str! "2 2 0") (str! "0 2 0.015625")),
    .brushPlane (cubeLine (str! "0 0 0") (str! "0 2 0.015625") (str! "2 0 0.015625")),
    .brushPlane (cubeLine (str! "2 2 0") (str! "2 0 0.015625") (str! "0 2 0.015625")),
    .closeBrace, .closeBrace]

set_option maxRecDepth 100000 in
theorem lens_tokens : Tokenizer.run (Platform.bareCR) lensMap = .ok lensTokens := by decide

noncomputable def lensWorld : Entity ℝ := { stepWorld Cube.planes with brushes := [⟨Cube.planes⟩, ⟨lens⟩] }

set_option maxRecDepth 100000 in
theorem lens_parse : ∃ paths, Parser.run (F := ℝ) lensTokens = .ok (paths, [lensWorld]) := ⟨_, rfl⟩

theorem lens_loads : LoadsAs lensMap [lensWorld] := by
  obtain ⟨paths, h⟩ := lens_parse
  exact ⟨_, _, lens_tokens, h⟩

noncomputable def lensConfig : Config ℝ := { stepConfig with mapFile := some lensMap }

theorem lens_config : lensConfig.mapFile = some lensMap := rfl

theorem lens_run : ∃ nodes, Quarch.run 1 id lensConfig = .ok nodes := by
  refine C92_enough 1 id (fun _ => .refl _) lensConfig [lensWorld]
    ⟨⟨_, rfl, (C92_text _ _).1 lens_loads⟩, ⟨[], _, [], rfl, rfl, fun e he => by simp at he⟩, ?_, ?_, ?_, ?_⟩ (Nat.le_refl _)
  · exact (geo_succeeds stepConfig.textureInfo _).1 (mapOut_isOk.2 fun e _ => buildEntity_real _ e)
  · intro e he _
    cases List.mem_singleton.1 he
    exact ⟨_, rfl⟩
  · intro e he _ _ k hk s hs
    exfalso
    simp only [List.mem_cons, List.not_mem_nil, or_false] at he hk
    subst he
    rcases hk with rfl | rfl <;> revert hs <;> simp [lensWorld, stepWorld]
  · apply no_loop_of_unique
    exact .cons (fun b hb => by cases hb) .nil

theorem lens_brushes : ∀ e ∈ [lensWorld], Anchored [lensWorld] e → ∀ br ∈ e.brushes,
    SheetLike br.planes ∨ ProperBrush br.planes := by
  intro e he _ br hbr
  cases List.mem_singleton.1 he
  simp only [lensWorld, List.mem_cons, List.not_mem_nil, or_false] at hbr
  rcases hbr with rfl | rfl
  · exact .inr Cube.proper
  · exact .inl lens_sheet

/-- C137 from end to end: the map with the cube and the tetrahedron loads, and nothing outside the cube is solid or drawn,
for example not the point inside the tetrahedron. -/
example : ∃ nodes, Quarch.run 1 id lensConfig = .ok nodes ∧
    (∀ x, InSolid nodes x ∨ Drawn nodes x → ∀ p ∈ Cube.planes, WithinR 0 p x) ∧
    ¬ InSolid nodes ⟨5 / 4, 5 / 4, 1 / 128⟩ := by
  obtain ⟨nodes, h⟩ := lens_run
  have main : ∀ x, InSolid nodes x ∨ Drawn nodes x → ∀ p ∈ Cube.planes, WithinR 0 p x := by
    rintro x (hx | hx)
    · obtain ⟨e, he, _, br, hbr, hn, _, hin⟩ := ((C137_convex 1 id (fun _ => .refl _) lensConfig nodes h lensMap lens_config
        [lensWorld] lens_loads).2 lens_brushes x).1 hx
      cases List.mem_singleton.1 he
      simp only [lensWorld, List.mem_cons, List.not_mem_nil, or_false] at hbr
      rcases hbr with rfl | rfl
      · exact hin
      · exact absurd lens_sheet hn
    · obtain ⟨e, he, _, br, hbr, hn, p, _, _, _, hf⟩ := (C137_picture 1 id (fun _ => .refl _) lensConfig nodes h lensMap
        lens_config [lensWorld] lens_loads lens_brushes x).1 hx
      cases List.mem_singleton.1 he
      simp only [lensWorld, List.mem_cons, List.not_mem_nil, or_false] at hbr
      rcases hbr with rfl | rfl
      · exact hf.2
      · exact absurd lens_sheet hn
  refine ⟨nodes, h, main, fun hx => ?_⟩
  have := main _ (.inl hx) Cube.xp (by simp [Cube.planes])
  unfold WithinR at this
  rw [Cube.raw_xp] at this
  norm_num [Cube.xp, Cube.face, subR, dotR] at this

end
end Quarch
