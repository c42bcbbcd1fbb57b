import Verif.Spec.Twice
/-
Brushes with too few faces to be bodies.
-/
namespace Quarch.Spec

/-- The brush has at most three different faces; each can be written any number of times. -/
def AtMostThree (planes : List (BrushPlane ℝ)) : Prop :=
  ∃ a b c, ∀ p ∈ planes, SameCut a p ∨ SameCut b p ∨ SameCut c p

end Quarch.Spec
