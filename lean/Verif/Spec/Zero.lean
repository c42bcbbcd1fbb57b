import Verif.Spec.F32
/-
Texture layouts that divide by zero.
-/
namespace Quarch.Spec

/-- One of the two zeros. -/
def IsZero (a : F32) : Prop := F32.isFin a ∧ F32.val a = 0

/-- The first texture coordinate of the face is divided by zero. -/
def ZeroAcross (textures : TextureInfo) (p : BrushPlane F32) : Prop :=
  ∃ tx, textures p.texture = some tx ∧ (tx.width = 0 ∨ IsZero p.scale.x)

/-- The second texture coordinate of the face is divided by zero. -/
def ZeroDown (textures : TextureInfo) (p : BrushPlane F32) : Prop :=
  ∃ tx, textures p.texture = some tx ∧ (tx.height = 0 ∨ IsZero p.scale.y)

end Quarch.Spec
