import Verif.Spec.Box
import Verif.Spec.Loads
/-
Decimal numbers in text and map files made of boxes (C91).
-/
namespace Quarch.Spec

/-- Digits with at most one point. -/
inductive Mantissa : Str → ℝ → Prop
  | whole {ds : Str} {n : Nat} : DecVal ds n → Mantissa ds n
  | point {ds : Str} {n : Nat} : DecVal ds n → Mantissa (ds ++ ['.']) n
  | fraction {fs : Str} {k : Nat} : DecVal fs k → Mantissa ('.' :: fs) (k / 10 ^ fs.length)
  | both {ds fs : Str} {n k : Nat} : DecVal ds n → DecVal fs k → Mantissa (ds ++ '.' :: fs) (n + k / 10 ^ fs.length)

/-- A decimal number without exponent: sign and absolute value. -/
def Decimal (s : Str) (neg : Bool) (x : ℝ) : Prop :=
  ∃ m, Mantissa m x ∧ ((neg = true ∧ s = '-' :: m) ∨ (neg = false ∧ (s = m ∨ s = '+' :: m)))

/-- What is needed of reading numbers: a decimal number of at most 64 characters is read as the nearest number of the
format (as for results of operations: ties to even, infinite if too large). -/
class DecimalText [F32Lib] : Prop where
  reads : ∀ s neg x, s.length ≤ 64 → Decimal s neg x → F32Lib.parse s = some (F32.ofAbs neg x)

/-- The word is a decimal number equal to `n` steps of the grid. -/
def NumText (g : Nat) (w : Str) (n : Int) : Prop :=
  w.length ≤ 64 ∧ ∃ neg x, Decimal w neg x ∧ (if neg then -x else x) = n / 2 ^ g

/-- Three consecutive words are the coordinates of a grid point. -/
structure PointText (g : Nat) (ws : List Str) (i : Nat) (n : V3 Int) : Prop where
  x : ∃ w, ws[i]? = some w ∧ NumText g w n.x
  y : ∃ w, ws[i + 1]? = some w ∧ NumText g w n.y
  z : ∃ w, ws[i + 2]? = some w ∧ NumText g w n.z
  small : ∀ a : Axis, (a.of n).natAbs ≤ 2 ^ 20

/-- The line gives a side of a box, with its first edge along the axis `d`. -/
def SideText [F32Lib] (g : Nat) (a : Axis) (up : Bool) (c : Int) (d : Axis) (line : Str) : Prop :=
  ∃ lead ws, line = spaced lead ws ∧ (∀ c ∈ lead, isBlank c = true) ∧ SpacedOk ws ∧
    ∃ n0 n1 n2 : V3 Int, PointText g (ws.map Prod.fst) 1 n0 ∧ PointText g (ws.map Prod.fst) 6 n1 ∧
      PointText g (ws.map Prod.fst) 11 n2 ∧ SidePoints a up c n0 n1 n2 ∧ d ≠ a ∧ EdgePoints d n0 n1

/-- The lines give the sides of the box, in any order, possibly repeated. -/
def BoxText [F32Lib] (b : GridBox) (lines : List Str) : Prop :=
  (∀ line ∈ lines, ∃ a up d, SideText b.g a up (b.side a up) d line) ∧
  ∀ a up, ∃ line ∈ lines, ∃ d, SideText b.g a up (b.side a up) d line

/-- The faces are the sides of the box, the first edge of each along an axis. -/
def GridBox.IsAligned [F32Lib] (b : GridBox) (planes : List (BrushPlane F32)) : Prop :=
  b.IsBrush planes ∧ ∀ p ∈ planes, ∃ a up d, IsSide b.g a up (b.side a up) p ∧ d ≠ a ∧ FirstEdge b.g d p

/-- The point is on a side of the box. -/
def GridBox.OnSide (b : GridBox) (a : Axis) (up : Bool) (x : V3 ℝ) : Prop :=
  a.of x = b.side a up / 2 ^ b.g ∧ ∀ c : Axis, ((c.of b.lo : Int) : ℝ) / 2 ^ b.g ≤ c.of x ∧ c.of x ≤ c.of b.hi / 2 ^ b.g

end Quarch.Spec
