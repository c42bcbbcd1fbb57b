import Verif.Spec.Real
/-
Brushes whose faces look inwards.
-/
namespace Quarch.Spec

/-- The same plane with the points in the opposite order, so that it looks the other way. -/
def TurnedRound (p p' : BrushPlane ℝ) : Prop := p'.v0 = p.v0 ∧ p'.v1 = p.v2 ∧ p'.v2 = p.v1

/-- A bounded body with a point that is more than 0.001 behind all faces. -/
structure Thick (planes : List (BrushPlane ℝ)) : Prop where
  bounded : ∃ R : ℝ, ∀ x, (∀ p ∈ planes, WithinR 0 p x) → |x.x| ≤ R ∧ |x.y| ≤ R ∧ |x.z| ≤ R
  deep : ∃ y r, 1 / 1000 < r ∧ ∀ p ∈ planes, WithinR (-r) p y

/-- A body all of whose faces are written the wrong way round. -/
def InsideOut (planes' : List (BrushPlane ℝ)) : Prop :=
  ∃ planes, Thick planes ∧ List.Forall₂ TurnedRound planes planes'

end Quarch.Spec
