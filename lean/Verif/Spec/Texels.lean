import Verif.Spec.Clear
import Verif.Spec.Projected
/-
Texture coordinates of small brushes in single precision (C120).
-/
namespace Quarch.Spec

/-- A texture of at most 8192 texels each way, offsets of at most that many, and a scale that does not shrink it to less
than a quarter. -/
structure ModestLayout (tx : Texture) (p : BrushPlane F32) (uOff vOff : F32) : Prop where
  width : 1 ≤ tx.width ∧ tx.width ≤ 2 ^ 13
  height : 1 ≤ tx.height ∧ tx.height ≤ 2 ^ 13
  x : F32.isFin p.scale.x ∧ 1 / 4 ≤ |F32.val p.scale.x|
  y : F32.isFin p.scale.y ∧ 1 / 4 ≤ |F32.val p.scale.y|
  u : F32.isFin uOff ∧ |F32.val uOff| ≤ 2 ^ 13
  v : F32.isFin vOff ∧ |F32.val vOff| ≤ 2 ^ 13

/-- A texture axis: no coordinate is greater than 1. -/
def AxisLike (w : V3 F32) : Prop := Finite3 w ∧ |F32.val w.x| ≤ 1 ∧ |F32.val w.y| ≤ 1 ∧ |F32.val w.z| ≤ 1

/-- The texture coordinate `a`, in a texture `size` texels wide, is at the texel `t` up to a hundredth of a texel. -/
def AtTexel (size : Nat) (a : F32) (t : ℝ) : Prop := F32.isFin a ∧ |F32.val a * size - t| ≤ 1 / 100

/-- Turning a small vector by an angle of up to a whole turn is accurate up to 2⁻²⁰ of its size (and 2⁻¹⁰⁰, for
tiny ones). -/
class AccurateTurn [F32Lib] : Prop where
  turn2 : ∀ (a : F32) (v : V2 F32), F32.isFin a → |F32.val a| ≤ 8 → F32.isFin v.x → F32.isFin v.y →
    |F32.val v.x| ≤ 2 ^ 10 → |F32.val v.y| ≤ 2 ^ 10 →
    F32.isFin (F32Lib.rotate2 a v).x ∧ F32.isFin (F32Lib.rotate2 a v).y ∧
    |F32.val (F32Lib.rotate2 a v).x - (Real.cos (F32.val a) * F32.val v.x - Real.sin (F32.val a) * F32.val v.y)| ≤
      (|F32.val v.x| + |F32.val v.y|) / 2 ^ 20 + 1 / 2 ^ 100 ∧
    |F32.val (F32Lib.rotate2 a v).y - (Real.sin (F32.val a) * F32.val v.x + Real.cos (F32.val a) * F32.val v.y)| ≤
      (|F32.val v.x| + |F32.val v.y|) / 2 ^ 20 + 1 / 2 ^ 100

/-- It is clear which of two coordinates of a direction is greater: they have the same size, or differ by at least 10⁻⁵. -/
def Decided (s t : ℝ) : Prop := |s| = |t| ∨ 1 / 100000 ≤ |(|s| - |t|)|

/-- It is clear onto which plane a face with the outward direction `n` is projected. -/
def DecidedFace (n : V3 ℝ) : Prop := Decided n.x n.y ∧ Decided n.x n.z ∧ Decided n.y n.z

end Quarch.Spec
