import Verif.Props.Idle
import Verif.Props.MovingExamples
/-
The unit cube with a seventh face at x = 5, for C134.
-/
namespace Quarch
open Spec Geo

section
attribute [local instance] refPlatform stepText

/-- The plane x = 5, facing away from the cube. -/
noncomputable def farFace : BrushPlane ℝ := Cube.face ⟨5, 0, 0⟩ ⟨5, 0, 1⟩ ⟨5, 1, 0⟩

theorem raw_far : rawNormal farFace = ⟨1, 0, 0⟩ := by simp [rawNormal, farFace, Cube.face, crossR, subR]

theorem far_clear : StaysClear farFace (Cube.planes ++ []) := by
  intro x hx
  rw [List.append_nil, Cube.inside] at hx
  rw [raw_far]
  simp only [farFace, Cube.face, dotR, subR]
  norm_num at hx ⊢
  linarith [hx.1, hx.2.1]

/-- The seventh face has no corner, and the centre of the brush is at six sevenths. -/
example (textures : TextureInfo) (entity : Entity ℝ) : ∃ geo geo' : BrushGeo ℝ,
    buildBrush textures entity ⟨Cube.planes ++ []⟩ = .ok geo ∧ buildBrush textures entity ⟨Cube.planes ++ [farFace]⟩ = .ok geo' ∧
    geo'.center = smulR (6 / 7) geo.center := by
  obtain ⟨geo, h⟩ := buildBrush_real textures entity ⟨Cube.planes ++ []⟩
  obtain ⟨geo', h'⟩ := buildBrush_real textures entity ⟨Cube.planes ++ [farFace]⟩
  refine ⟨geo, geo', h, h', ?_⟩
  rw [C134_center textures entity Cube.planes [] farFace far_clear geo geo' h h']
  norm_num [Cube.planes]

/-- Moved by (7, 0, 0), its centre moves by (6, 0, 0). -/
example (textures : TextureInfo) (entity : Entity ℝ) : ∃ geo geo' : BrushGeo ℝ,
    buildBrush textures entity ⟨Cube.planes ++ [farFace]⟩ = .ok geo ∧
    buildBrush textures entity ⟨(Cube.planes ++ [farFace]).map (movePlane ⟨7, 0, 0⟩)⟩ = .ok geo' ∧
    geo'.center = addR geo.center ⟨6, 0, 0⟩ ∧ geo'.center ≠ addR geo.center ⟨7, 0, 0⟩ := by
  obtain ⟨geo, h⟩ := buildBrush_real textures entity ⟨Cube.planes ++ [farFace]⟩
  obtain ⟨geo', h'⟩ := buildBrush_real textures entity ⟨(Cube.planes ++ [farFace]).map (movePlane ⟨7, 0, 0⟩)⟩
  have e : geo'.center = addR geo.center ⟨6, 0, 0⟩ := by
    rw [C134_moved textures entity Cube.planes [] farFace far_clear (by simp [Cube.planes])
      (by rw [List.append_nil]; exact Cube.corner) ⟨7, 0, 0⟩ geo geo' h h']
    norm_num [Cube.planes, smulR]
  refine ⟨geo, geo', h, h', e, ?_⟩
  rw [e]
  simp [addR]

end
end Quarch
