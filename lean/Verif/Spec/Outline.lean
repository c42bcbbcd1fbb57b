import Verif.Spec.Clear
import Mathlib.Analysis.SpecialFunctions.Complex.Arg
/-
Corners in order around a face in single precision (C118).
-/
namespace Quarch.Spec

/-- The arc tangent of two finite numbers, not both zero, is accurate up to 2⁻²¹. For a negative number on the axis it may
be that of either half turn, as both signs of zero occur. -/
class AccurateAtan2 [F32Lib] : Prop where
  accurate : ∀ y x : F32, F32.isFin y → F32.isFin x → (F32.val y ≠ 0 ∨ F32.val x ≠ 0) → F32.isFin (F32Lib.atan2 y x) ∧
    (|F32.val (F32Lib.atan2 y x) - Complex.arg ⟨F32.val x, F32.val y⟩| ≤ 1 / 2 ^ 21 ∨
      (F32.val y = 0 ∧ F32.val x < 0 ∧ |F32.val (F32Lib.atan2 y x) + Real.pi| ≤ 1 / 2 ^ 21))

/-- Every point sticks out from all others by at least `m` in some direction. -/
def Sharp (m : ℝ) (xs : List (V3 ℝ)) : Prop :=
  ∀ x ∈ xs, ∃ w : V3 ℝ, lenR w ≤ 1 ∧ ∀ y ∈ xs, y ≠ x → dotR w y + m ≤ dotR w x

/-- Every three points of the list, in its order, turn clockwise when looking against `n`. -/
def TurnsRight (n : V3 ℝ) (l : List (V3 ℝ)) : Prop :=
  ∀ (i j k : Nat) (a b c : V3 ℝ), i < j → j < k → l[i]? = some a → l[j]? = some b → l[k]? = some c →
    dotR (crossR (subR b a) (subR c a)) n < 0

end Quarch.Spec
