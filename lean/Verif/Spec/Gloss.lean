import Verif.Spec.Clear
/-
Normals of small brushes in single precision (C121).
-/
namespace Quarch.Spec

/-- The vector of length one in the direction of `a`. -/
noncomputable def directionR (a : V3 ℝ) : V3 ℝ := smulR (1 / lenR a) a

/-- The cosine of an angle of up to a whole turn is accurate up to 2⁻²⁰. -/
class AccurateCos [F32Lib] : Prop where
  accurate : ∀ a : F32, F32.isFin a → |F32.val a| ≤ 8 →
    F32.isFin (F32Lib.cos a) ∧ |F32.val (F32Lib.cos a) - Real.cos (F32.val a)| ≤ 1 / 2 ^ 20

/-- The cosine of an angle in degrees, a hundredth of a degree added, with the length of a degree as in the code. -/
noncomputable def wideCos (a : ℝ) : ℝ := Real.cos ((a + 1 / 100) * (174533 / 10000000))

/-- What a neighbour with the normal `m` contributes to the smooth normal of a face with the normal `n`: nothing, unless
the cosine of the angle between them is more than `c`. -/
noncomputable def share (c : ℝ) (n m : V3 ℝ) : V3 ℝ := if c < dotR n m then m else ⟨0, 0, 0⟩

/-- It is clear whether the angle between two normals is too large. -/
def DecidedAngle (c : ℝ) (n m : V3 ℝ) : Prop := 1 / 100000 ≤ |c - dotR n m|

end Quarch.Spec
