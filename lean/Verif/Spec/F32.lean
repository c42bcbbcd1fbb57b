import Verif.Spec.Rounding
import Verif.Spec.NaN
import Mathlib.Data.EReal.Basic
import Mathlib.Data.Int.Log
/-
IEEE 754 binary32: the numbers, rounding to nearest (ties to even), the basic operations, and glam's vector
operations on top of them. Library functions whose rounding is not fixed by the standard stay arbitrary.
-/
set_option linter.unusedSectionVars false
namespace Quarch.Spec

/-- Absolute values of the finite numbers of the format: 24 binary digits, exponent from -149 to 104. -/
def Rep (a : ℝ) : Prop := ∃ (m : Nat) (e : Int), m < 2 ^ 24 ∧ -149 ≤ e ∧ e ≤ 104 ∧ a = m * (2 : ℝ) ^ e

theorem rep_zero : Rep 0 := ⟨0, 0, by norm_num, by norm_num, by norm_num, by simp⟩
theorem rep_one : Rep 1 := ⟨1, 0, by norm_num, by norm_num, by norm_num, by simp⟩

/-- Single precision numbers: not-a-number, the two infinities, and finite numbers with sign and absolute value
(so there are two zeros). -/
inductive F32 where
  | nan
  | inf (neg : Bool)
  | num (neg : Bool) (a : ℝ) (h : Rep a)

/-- Functions of the standard library and glam whose results are not fixed by IEEE 754, and text conversion. -/
class F32Lib where
  /-- which of the two usual ways to normalize is used -/
  recip : Bool
  parse : Str → Option F32
  disp : F32 → Str
  cos : F32 → F32
  atan2 : F32 → F32 → F32
  rotate : V3 F32 → F32 → V3 F32 → V3 F32
  rotate2 : F32 → V2 F32 → V2 F32

namespace F32
open Classical

/-- Nearest whole number, ties to even. -/
noncomputable def nearest (x : ℝ) : Nat :=
  if x - ⌊x⌋₊ < 1 / 2 then ⌊x⌋₊
  else if 1 / 2 < x - ⌊x⌋₊ then ⌊x⌋₊ + 1
  else if Even ⌊x⌋₊ then ⌊x⌋₊ else ⌊x⌋₊ + 1

/-- Exponent of the last digit of numbers about as large as `x`. -/
noncomputable def expo (x : ℝ) : Int := max (-149) (Int.log 2 x - 23)

/-- The number of the format (with unbounded exponent) nearest to `x`. -/
noncomputable def rnd (x : ℝ) : ℝ := nearest (x / 2 ^ expo x) * 2 ^ expo x

/-- The result with the given sign and exact absolute value: rounded, infinite if too large. -/
noncomputable def ofAbs (neg : Bool) (x : ℝ) : F32 := if h : Rep (rnd x) then num neg (rnd x) h else inf neg

/-- The result with the given exact value (not zero). -/
noncomputable def ofReal (x : ℝ) : F32 := ofAbs (decide (x < 0)) |x|

/-- Signed value of a finite number. -/
noncomputable def sv (neg : Bool) (a : ℝ) : ℝ := if neg then -a else a

noncomputable def val : F32 → ℝ
  | nan => 0
  | inf _ => 0
  | num s a _ => sv s a

def isFin : F32 → Prop
  | num _ _ _ => True
  | _ => False

def isNaN : F32 → Prop
  | nan => True
  | _ => False

def neg : F32 → F32
  | nan => nan
  | inf s => inf (!s)
  | num s a h => num (!s) a h

def abs : F32 → F32
  | nan => nan
  | inf _ => inf false
  | num _ a h => num false a h

/-- `f32::signum`: the sign, also of zeros. -/
def signum : F32 → F32
  | nan => nan
  | inf s => num s 1 rep_one
  | num s _ _ => num s 1 rep_one

noncomputable def add : F32 → F32 → F32
  | nan, _ => nan
  | _, nan => nan
  | inf s, inf t => if s = t then inf s else nan
  | inf s, num _ _ _ => inf s
  | num _ _ _, inf t => inf t
  | num s a _, num t b _ => if sv s a + sv t b = 0 then num (s && t) 0 rep_zero else ofReal (sv s a + sv t b)

noncomputable def sub (x y : F32) : F32 := add x (neg y)

noncomputable def mul : F32 → F32 → F32
  | nan, _ => nan
  | _, nan => nan
  | inf s, inf t => inf (xor s t)
  | inf s, num t b _ => if b = 0 then nan else inf (xor s t)
  | num s a _, inf t => if a = 0 then nan else inf (xor s t)
  | num s a _, num t b _ => ofAbs (xor s t) (a * b)

noncomputable def div : F32 → F32 → F32
  | nan, _ => nan
  | _, nan => nan
  | inf _, inf _ => nan
  | inf s, num t _ _ => inf (xor s t)
  | num s _ _, inf t => num (xor s t) 0 rep_zero
  | num s a _, num t b _ => if b = 0 then (if a = 0 then nan else inf (xor s t)) else ofAbs (xor s t) (a / b)

noncomputable def sqrt : F32 → F32
  | nan => nan
  | inf s => if s then nan else inf false
  | num s a h => if a = 0 then num s a h else if s then nan else ofAbs false (Real.sqrt a)

/-- The value including infinities; nothing for NaN. -/
noncomputable def ext : F32 → Option EReal
  | nan => none
  | inf s => some (if s then ⊥ else ⊤)
  | num s a _ => some ((sv s a : ℝ) : EReal)

noncomputable def rel (r : EReal → EReal → Prop) (x y : F32) : Bool :=
  match ext x, ext y with
  | some a, some b => decide (r a b)
  | _, _ => false

noncomputable def dot (a b : V3 F32) : F32 := add (add (mul a.x b.x) (mul a.y b.y)) (mul a.z b.z)

noncomputable def cross (a b : V3 F32) : V3 F32 :=
  ⟨sub (mul a.y b.z) (mul a.z b.y), sub (mul a.z b.x) (mul a.x b.z), sub (mul a.x b.y) (mul a.y b.x)⟩

/-- Division by the length, or multiplication by its reciprocal. -/
noncomputable def normalize [F32Lib] (a : V3 F32) : V3 F32 :=
  if F32Lib.recip then
    ⟨mul a.x (div (num false 1 rep_one) (sqrt (dot a a))), mul a.y (div (num false 1 rep_one) (sqrt (dot a a))),
     mul a.z (div (num false 1 rep_one) (sqrt (dot a a)))⟩
  else ⟨div a.x (sqrt (dot a a)), div a.y (sqrt (dot a a)), div a.z (sqrt (dot a a))⟩

noncomputable instance arith [F32Lib] : Arith F32 where
  zero := num false 0 rep_zero
  one := num false 1 rep_one
  cmpEpsilon := ofReal (1 / 1000)
  hundredth := ofReal (1 / 100)
  oneDegree := ofReal (174533 / 10000000)
  c255 := ofReal 255
  ofNat n := ofAbs false n
  toI32
    | nan => 0
    | inf s => if s then -2147483648 else 2147483647
    | num s a _ => max (-2147483648) (min 2147483647 (if s then -⌊a⌋ else ⌊a⌋))
  add := add
  sub := sub
  mul := mul
  div := div
  neg := neg
  abs := abs
  signum := signum
  cos := F32Lib.cos
  atan2 := F32Lib.atan2
  toRadians x := mul x (div (ofReal Real.pi) (ofReal 180))
  lt := rel (· < ·)
  le := rel (· ≤ ·)
  eq := rel (· = ·)
  parse := F32Lib.parse
  disp := F32Lib.disp
  dot := dot
  cross := cross
  normalize := normalize
  rotate := F32Lib.rotate
  rotate2 := F32Lib.rotate2

end F32
end Quarch.Spec
