import Verif.Spec.Real
/-
Brushes that are very flat: lenses rather than slabs.
-/
namespace Quarch.Spec

/-- All faces of the brush lie almost across one direction `u`: the squared sine of the angle between `u` and the normal of
any face is below 1/3000, so the faces are tilted by one degree at most. -/
def SheetLike (planes : List (BrushPlane ℝ)) : Prop :=
  ∃ u : V3 ℝ, u ≠ zeroR ∧ ∀ p ∈ planes, 3000 * dotR (crossR (rawNormal p) u) (crossR (rawNormal p) u) <
    dotR (rawNormal p) (rawNormal p) * dotR u u

end Quarch.Spec
