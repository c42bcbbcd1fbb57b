import Verif.Spec.Real
/-
Faces that do not touch their brush.
-/
namespace Quarch.Spec

/-- All points of the brush with these faces, even if each face is pushed out by 0.001, lie strictly behind the face. -/
def StaysClear (q : BrushPlane ℝ) (planes : List (BrushPlane ℝ)) : Prop :=
  ∀ x, (∀ p ∈ planes, WithinR (1 / 1000) p x) → dotR (rawNormal q) (subR x q.v0) < 0

/-- The second brush is the first, or the first with a face that does not touch it and has the texture of another face. -/
def PaddedBrush (b b' : Brush ℝ) : Prop :=
  b' = b ∨ ∃ pre q post, b.planes = pre ++ post ∧ b'.planes = pre ++ q :: post ∧ StaysClear q (pre ++ post) ∧
    ∃ p ∈ pre ++ post, p.texture = q.texture

/-- The same entity, except for such faces. -/
def Padded (e e' : Entity ℝ) : Prop := e'.properties = e.properties ∧ List.Forall₂ PaddedBrush e.brushes e'.brushes

end Quarch.Spec
