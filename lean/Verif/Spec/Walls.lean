import Verif.Spec.Rendered
/-
What is solid, whatever the brushes it is built of (C147).
-/
namespace Quarch.Spec

/-- The point is one of the set, and there are points as near as one likes that are not. -/
def OnRim (A : V3 ℝ → Prop) (x : V3 ℝ) : Prop := A x ∧ ∀ d : ℝ, 0 < d → ∃ y, Close d y x ∧ ¬ A y

end Quarch.Spec
