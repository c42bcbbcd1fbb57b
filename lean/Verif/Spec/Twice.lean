import Verif.Spec.Real
/-
Brushes in which faces are written more than once.
-/
namespace Quarch.Spec

/-- The two faces are given by the same three points. -/
def SameCut (p p' : BrushPlane ℝ) : Prop := p'.v0 = p.v0 ∧ p'.v1 = p.v1 ∧ p'.v2 = p.v2

/-- Every face of one brush is given by the same points as some face of the other, whatever the order and however often. -/
def SameCuts (planes planes' : List (BrushPlane ℝ)) : Prop :=
  (∀ p ∈ planes, ∃ p' ∈ planes', SameCut p p') ∧ ∀ p' ∈ planes', ∃ p ∈ planes, SameCut p p'

/-- The same with the textures: every face of one brush has a face of the other with the same points and texture. -/
def TwiceBrush (b b' : Brush ℝ) : Prop :=
  (∀ p ∈ b.planes, ∃ p' ∈ b'.planes, SameCut p p' ∧ p'.texture = p.texture) ∧
    ∀ p' ∈ b'.planes, ∃ p ∈ b.planes, SameCut p p' ∧ p'.texture = p.texture

/-- The same entity, except for faces that are written several times. -/
def Twice (e e' : Entity ℝ) : Prop := e'.properties = e.properties ∧ List.Forall₂ TwiceBrush e.brushes e'.brushes

end Quarch.Spec
