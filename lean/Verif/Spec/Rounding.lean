import Verif.Spec.Real
/-
Arithmetic with rounding: what IEEE 754 single precision guarantees about the operations of `Arith`.
-/
namespace Quarch.Spec

/-- Half the distance from 1 to the next number of the format. -/
noncomputable def u : ℝ := 1 / 16777216

/-- Half the smallest positive number of the format. -/
noncomputable def tiny : ℝ := 1 / 2 ^ 150

/-- A bound far below the largest number of the format (which is about `2 ^ 128`). -/
noncomputable def large : ℝ := 2 ^ 120

/-- Rounding rules of IEEE 754 single precision: every operation on finite numbers gives the exact result up to
a relative error of `u` (and an absolute error of `tiny` where results can underflow) as long as it does not
overflow, and comparisons are those of the values. `dot`, `cross` and `normalize` are composed of these
operations: sums of products from left to right, and one of the two usual ways to normalize. -/
class Rounding (F : Type) [Arith F] where
  /-- a finite number, not an infinity or NaN -/
  Fin : F → Prop
  val : F → ℝ
  sqrt : F → F
  /-- whether `normalize` multiplies by the reciprocal of the length instead of dividing by the length -/
  recip : Bool
  zero_fin : Fin (Arith.zero : F)
  zero_val : val (Arith.zero : F) = 0
  one_fin : Fin (Arith.one : F)
  one_val : val (Arith.one : F) = 1
  ofNat_fin : ∀ n : Nat, (n : ℝ) ≤ large → Fin (Arith.ofNat n : F)
  ofNat_val : ∀ n : Nat, Fin (Arith.ofNat n : F) → |val (Arith.ofNat n : F) - n| ≤ u * n
  eps_fin : Fin (Arith.cmpEpsilon : F)
  eps_val : |val (Arith.cmpEpsilon : F) - 1 / 1000| ≤ u * (1 / 1000)
  add_fin : ∀ a b : F, Fin (Arith.add a b) → Fin a ∧ Fin b
  add_ok : ∀ a b : F, Fin a → Fin b → |val a + val b| ≤ large → Fin (Arith.add a b)
  add_val : ∀ a b : F, Fin (Arith.add a b) → |val (Arith.add a b) - (val a + val b)| ≤ u * |val a + val b|
  sub_fin : ∀ a b : F, Fin (Arith.sub a b) → Fin a ∧ Fin b
  sub_ok : ∀ a b : F, Fin a → Fin b → |val a - val b| ≤ large → Fin (Arith.sub a b)
  sub_val : ∀ a b : F, Fin (Arith.sub a b) → |val (Arith.sub a b) - (val a - val b)| ≤ u * |val a - val b|
  mul_fin : ∀ a b : F, Fin (Arith.mul a b) → Fin a ∧ Fin b
  mul_ok : ∀ a b : F, Fin a → Fin b → |val a * val b| ≤ large → Fin (Arith.mul a b)
  mul_val : ∀ a b : F, Fin (Arith.mul a b) → |val (Arith.mul a b) - val a * val b| ≤ u * |val a * val b| + tiny
  div_fin : ∀ a b : F, Fin (Arith.div a b) → Fin a
  div_ok : ∀ a b : F, Fin a → Fin b → val b ≠ 0 → |val a / val b| ≤ large → Fin (Arith.div a b)
  div_ne : ∀ a b : F, Fin (Arith.div a b) → Fin b → val b ≠ 0
  div_val : ∀ a b : F, Fin (Arith.div a b) → Fin b →
    |val (Arith.div a b) - val a / val b| ≤ u * |val a / val b| + tiny
  neg_fin : ∀ a : F, Fin (Arith.neg a) ↔ Fin a
  neg_val : ∀ a : F, val (Arith.neg a) = - val a
  abs_fin : ∀ a : F, Fin (Arith.abs a) ↔ Fin a
  abs_val : ∀ a : F, val (Arith.abs a) = |val a|
  sqrt_fin : ∀ a : F, Fin (sqrt a) ↔ Fin a ∧ 0 ≤ val a
  sqrt_val : ∀ a : F, Fin (sqrt a) → |val (sqrt a) - Real.sqrt (val a)| ≤ u * Real.sqrt (val a)
  lt_val : ∀ a b : F, Fin a → Fin b → (Arith.lt a b = true ↔ val a < val b)
  le_val : ∀ a b : F, Fin a → Fin b → (Arith.le a b = true ↔ val a ≤ val b)
  dot_eq : ∀ a b : V3 F, Arith.dot a b =
    Arith.add (Arith.add (Arith.mul a.x b.x) (Arith.mul a.y b.y)) (Arith.mul a.z b.z)
  cross_eq : ∀ a b : V3 F, Arith.cross a b =
    ⟨Arith.sub (Arith.mul a.y b.z) (Arith.mul a.z b.y), Arith.sub (Arith.mul a.z b.x) (Arith.mul a.x b.z),
     Arith.sub (Arith.mul a.x b.y) (Arith.mul a.y b.x)⟩
  normalize_eq : ∀ a : V3 F, Arith.normalize a =
    if recip then
      ⟨Arith.mul a.x (Arith.div Arith.one (sqrt (Arith.dot a a))),
       Arith.mul a.y (Arith.div Arith.one (sqrt (Arith.dot a a))),
       Arith.mul a.z (Arith.div Arith.one (sqrt (Arith.dot a a)))⟩
    else
      ⟨Arith.div a.x (sqrt (Arith.dot a a)), Arith.div a.y (sqrt (Arith.dot a a)),
       Arith.div a.z (sqrt (Arith.dot a a))⟩

section
variable {F : Type} [Arith F] [Rounding F]

/-- All coordinates are finite. -/
def FinV (v : V3 F) : Prop := Rounding.Fin v.x ∧ Rounding.Fin v.y ∧ Rounding.Fin v.z

/-- The real vector. -/
def valV (v : V3 F) : V3 ℝ := ⟨Rounding.val v.x, Rounding.val v.y, Rounding.val v.z⟩

/-- All coordinates are at most `M` in absolute value. -/
def Within (M : ℝ) (v : V3 ℝ) : Prop := |v.x| ≤ M ∧ |v.y| ≤ M ∧ |v.z| ≤ M

/-- The vector product of the edges of a face, exactly. -/
def edgeNormal (p : BrushPlane F) : V3 ℝ :=
  crossR (subR (valV p.v2) (valV p.v0)) (subR (valV p.v1) (valV p.v0))

/-- The outward unit normal of a face, exactly. -/
noncomputable def unitNormal (p : BrushPlane F) : V3 ℝ := smulR (1 / lenR (edgeNormal p)) (edgeNormal p)

/-- How far a point is in front of the plane through the three points of a face, exactly. -/
noncomputable def height (p : BrushPlane F) (x : V3 ℝ) : ℝ := dotR (unitNormal p) (subR x (valV p.v0))

/-- A face of moderate size whose points are not nearly collinear: coordinates are finite and at most `M`, and
the parallelogram spanned by the points has an area of at least `M² / k`. -/
structure GoodFace (M k : ℝ) (p : BrushPlane F) : Prop where
  fin0 : FinV p.v0
  fin1 : FinV p.v1
  fin2 : FinV p.v2
  le0 : Within M (valV p.v0)
  le1 : Within M (valV p.v1)
  le2 : Within M (valV p.v2)
  area : M * M ≤ k * lenR (edgeNormal p)

end

/-- `c` is the mean of the points of a list, up to `e` in each coordinate. -/
def NearMean (e : ℝ) (l : List (V3 ℝ)) (c : V3 ℝ) : Prop := Within e (subR c (smulR (1 / l.length) (sumR l)))

end Quarch.Spec
