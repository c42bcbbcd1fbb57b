import Verif.Props.FaceSize
import Verif.Props.WatertightExamples
/-
Examples for C132.
-/
namespace Quarch
open Spec Geo

section
variable [RealText] [Platform]

-- C132: the cube meets the conditions; its face has four corners, and it has six planes
example (textures : TextureInfo) (entity : Entity ℝ) : ProperBrush Cube.planes ∧ Cube.xp ∈ Cube.planes ∧
    Cube.planes.length = 6 ∧ ∃ geo, buildPlane textures entity Cube.planes Cube.xp = .ok geo ∧
      geo.vertices.length = 4 ∧ geo.indices.length = 6 := by
  obtain ⟨geo, h⟩ := buildPlane_real textures entity Cube.planes Cube.xp
  have h4 := Cube.four _ _ _ h
  exact ⟨Cube.proper, by simp [Cube.planes], rfl, geo, h, h4, by rw [(C132_any _ _ _ _ _ h).2, h4]⟩

end

-- C132 in single precision: the bevelled block meets the conditions
example [F32Lib] : FirmBrush 0 ((28 : Int) : ℝ) (bevel.map singleFace) := bevel_firm

end Quarch
