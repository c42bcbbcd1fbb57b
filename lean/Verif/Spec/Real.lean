import Verif.Spec.Geo
import Mathlib.Analysis.SpecialFunctions.Complex.Arg
import Mathlib.Analysis.SpecialFunctions.Trigonometric.Basic
import Mathlib.Algebra.Order.Round
/-
Exact arithmetic: the operations of `Arith` on real numbers. Text conversion stays arbitrary.
-/
namespace Quarch.Spec

/-- Any way of reading and printing real numbers. -/
class RealText where
  parse : Str → Option ℝ
  disp : ℝ → Str

open Classical in
/-- Exact arithmetic on the reals: every operation without rounding (`normalize` of the zero vector is zero,
`atan2` is the principal argument, `signum 0 = 1` as for `+0.0`). The rotations follow the formulas of glam:
`q v q*` for the quaternion of axis and angle, and the 2×2 rotation matrix. -/
noncomputable instance realArith [RealText] : Arith ℝ where
  zero := 0
  one := 1
  cmpEpsilon := 1 / 1000
  hundredth := 1 / 100
  oneDegree := 174533 / 10000000
  c255 := 255
  ofNat n := n
  toI32 x := max (-2147483648) (min 2147483647 (if 0 ≤ x then ⌊x⌋ else ⌈x⌉))
  add a b := a + b
  sub a b := a - b
  mul a b := a * b
  div a b := a / b
  neg a := -a
  abs a := |a|
  signum a := if a < 0 then -1 else 1
  cos := Real.cos
  atan2 y x := Complex.arg ⟨x, y⟩
  toRadians a := a * Real.pi / 180
  lt a b := decide (a < b)
  le a b := decide (a ≤ b)
  eq a b := decide (a = b)
  parse := RealText.parse
  disp := RealText.disp
  dot a b := a.x * b.x + a.y * b.y + a.z * b.z
  cross a b := ⟨a.y * b.z - a.z * b.y, a.z * b.x - a.x * b.z, a.x * b.y - a.y * b.x⟩
  normalize a :=
    let l := Real.sqrt (a.x * a.x + a.y * a.y + a.z * a.z)
    ⟨a.x / l, a.y / l, a.z / l⟩
  rotate axis angle v :=
    let s := Real.sin (angle / 2)
    let w := Real.cos (angle / 2)
    let b : V3 ℝ := ⟨axis.x * s, axis.y * s, axis.z * s⟩
    let k := w * w - (b.x * b.x + b.y * b.y + b.z * b.z)
    let d := (v.x * b.x + v.y * b.y + v.z * b.z) * 2
    ⟨v.x * k + b.x * d + (b.y * v.z - b.z * v.y) * (w * 2),
     v.y * k + b.y * d + (b.z * v.x - b.x * v.z) * (w * 2),
     v.z * k + b.z * d + (b.x * v.y - b.y * v.x) * (w * 2)⟩
  rotate2 a v := ⟨Real.cos a * v.x - Real.sin a * v.y, Real.sin a * v.x + Real.cos a * v.y⟩

/-! ### vectors written out -/

/-- Scalar product. -/
def dotR (a b : V3 ℝ) : ℝ := a.x * b.x + a.y * b.y + a.z * b.z

/-- Vector product. -/
def crossR (a b : V3 ℝ) : V3 ℝ :=
  ⟨a.y * b.z - a.z * b.y, a.z * b.x - a.x * b.z, a.x * b.y - a.y * b.x⟩

/-- Difference. -/
def subR (a b : V3 ℝ) : V3 ℝ := ⟨a.x - b.x, a.y - b.y, a.z - b.z⟩

/-- Sum. -/
def addR (a b : V3 ℝ) : V3 ℝ := ⟨a.x + b.x, a.y + b.y, a.z + b.z⟩

/-- Multiple. -/
def smulR (k : ℝ) (a : V3 ℝ) : V3 ℝ := ⟨k * a.x, k * a.y, k * a.z⟩

/-- Length. -/
noncomputable def lenR (a : V3 ℝ) : ℝ := Real.sqrt (dotR a a)

/-- The zero vector. -/
def zeroR : V3 ℝ := ⟨0, 0, 0⟩

/-- Spat product. -/
def detR (a b c : V3 ℝ) : ℝ := dotR (crossR a b) c

/-- Sum of a list of vectors, lane by lane. -/
def sumR (l : List (V3 ℝ)) : V3 ℝ := ⟨(l.map (·.x)).sum, (l.map (·.y)).sum, (l.map (·.z)).sum⟩

/-! ### planes given by three points -/

/-- Outward normal, not normalised. -/
def rawNormal (p : BrushPlane ℝ) : V3 ℝ := crossR (subR p.v2 p.v0) (subR p.v1 p.v0)

/-- The three points are not collinear. -/
def NonDegenerate (p : BrushPlane ℝ) : Prop := rawNormal p ≠ zeroR

/-- `x` lies on the plane through the three points. -/
def OnPlane (p : BrushPlane ℝ) (x : V3 ℝ) : Prop := dotR (rawNormal p) (subR x p.v0) = 0

/-- `x` is in front of the plane by at most `r`. -/
def WithinR (r : ℝ) (p : BrushPlane ℝ) (x : V3 ℝ) : Prop :=
  dotR (rawNormal p) (subR x p.v0) ≤ r * lenR (rawNormal p)

/-- Determinant of the unit normals of three planes. -/
noncomputable def unitDet (p q r : BrushPlane ℝ) : ℝ :=
  detR (rawNormal p) (rawNormal q) (rawNormal r) / (lenR (rawNormal p) * lenR (rawNormal q) * lenR (rawNormal r))

/-- Moving a plane. -/
def movePlane (t : V3 ℝ) (p : BrushPlane ℝ) : BrushPlane ℝ :=
  { p with v0 := addR p.v0 t, v1 := addR p.v1 t, v2 := addR p.v2 t }

end Quarch.Spec
