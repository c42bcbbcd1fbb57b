import Verif.Spec.Mirror
/-
Maps that are mirrored with the points of every face put back into order.
-/
namespace Quarch.Spec

/-- The second face is the first one, taken to `f` of its place, with its second and third point exchanged; it has the same
texture. -/
structure MirroredFace (f : V3 ℝ → V3 ℝ) (p p' : BrushPlane ℝ) : Prop where
  v0 : p'.v0 = f p.v0
  v1 : p'.v1 = f p.v2
  v2 : p'.v2 = f p.v1
  texture : p'.texture = p.texture

/-- The second entity has the properties of the first one, save perhaps its `origin`, and its faces, mirrored. -/
structure MirroredBy (f : V3 ℝ → V3 ℝ) (e e' : Entity ℝ) : Prop where
  properties : ∀ key, key ≠ str! "origin" → e.properties key = e'.properties key
  brushes : List.Forall₂ (fun b b' : Brush ℝ => List.Forall₂ (MirroredFace f) b.planes b'.planes) e.brushes e'.brushes

end Quarch.Spec
