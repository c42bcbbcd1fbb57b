import Verif.Spec.Texels
import Verif.Spec.Gloss
/-
Tangents of small brushes in single precision (C122).
-/
namespace Quarch.Spec

/-- `v` turned around the vector `n` of length one by the angle `t` (Rodrigues' formula). -/
noncomputable def spun (n : V3 ℝ) (t : ℝ) (v : V3 ℝ) : V3 ℝ :=
  addR (addR (smulR (Real.cos t) v) (smulR (Real.sin t) (crossR n v))) (smulR ((1 - Real.cos t) * dotR n v) n)

/-- Turning a vector with coordinates of at most 1 around a vector of length nearly one, by an angle of up to a whole turn,
is accurate up to 2⁻¹⁸. -/
class AccurateSpin [F32Lib] : Prop where
  turn3 : ∀ (n : V3 F32) (a : F32) (v : V3 F32), Finite3 n → |dotR (vec n) (vec n) - 1| ≤ 1 / 2 ^ 19 → F32.isFin a →
    |F32.val a| ≤ 8 → AxisLike v → Finite3 (F32Lib.rotate n a v) ∧
      Close (1 / 2 ^ 18) (vec (F32Lib.rotate n a v)) (spun (vec n) (F32.val a) (vec v))

/-- The sign of a number that is not zero. -/
noncomputable def signR (a : ℝ) : ℝ := if 0 < a then 1 else -1

/-- The first axis of the plane onto which a face with the outward direction `n` is projected (the one its direction is
closest to, `z` before `y` before `x` in case of ties), and the side from which the plane is seen: 1 if the first axis of
the plane, the reversed second axis of the plane and `n` are oriented like the axes of space, -1 otherwise. -/
def FirstAxis (n a : V3 ℝ) (s : ℝ) : Prop :=
  (|n.y| ≤ |n.z| ∧ |n.x| ≤ |n.z| ∧ a = ⟨1, 0, 0⟩ ∧ s = signR (detR ⟨1, 0, 0⟩ ⟨0, 1, 0⟩ n)) ∨
  (|n.z| < |n.y| ∧ |n.x| ≤ |n.y| ∧ a = ⟨1, 0, 0⟩ ∧ s = signR (detR ⟨1, 0, 0⟩ ⟨0, 0, 1⟩ n)) ∨
  (|n.z| < |n.x| ∧ |n.y| < |n.x| ∧ a = ⟨0, 1, 0⟩ ∧ s = signR (detR ⟨0, 1, 0⟩ ⟨0, 0, 1⟩ n))

end Quarch.Spec
