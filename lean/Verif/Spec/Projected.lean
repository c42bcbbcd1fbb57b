import Verif.Spec.Real
/-
How a face without texture axes of its own is laid on its texture (C30, C106).
-/
namespace Quarch.Spec

/-- The plane onto which a face with outward direction `n` is projected: the one its direction is closest to,
`z` before `y` before `x` in case of ties. -/
def Projected (n x : V3 ℝ) (a b : ℝ) : Prop :=
  (|n.y| ≤ |n.z| ∧ |n.x| ≤ |n.z| ∧ a = x.x ∧ b = -x.y) ∨
  (|n.z| < |n.y| ∧ |n.x| ≤ |n.y| ∧ a = x.x ∧ b = -x.z) ∨
  (|n.z| < |n.x| ∧ |n.y| < |n.x| ∧ a = x.y ∧ b = -x.z)

end Quarch.Spec
