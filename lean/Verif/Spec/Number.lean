import Verif.Model.Rust
/-
Integers and blanks in text, written without the reading functions.
-/
namespace Quarch.Spec

/-- `s` is a non-empty string of ASCII decimal digits with value `n`. -/
inductive DecVal : Str → Nat → Prop
  | one {c : Char} {d : Nat} : d < 10 → c.toNat = 48 + d → DecVal [c] d
  | snoc {s : Str} {n : Nat} {c : Char} {d : Nat} :
      DecVal s n → d < 10 → c.toNat = 48 + d → DecVal (s ++ [c]) (10 * n + d)

/-- `s` is a decimal 32-bit integer with optional sign and nothing else. -/
def ReadsI32 (s : Str) (i : Int) : Prop :=
  -2147483648 ≤ i ∧ i ≤ 2147483647 ∧ ∃ ds n, DecVal ds n ∧
    ((s = ds ∧ i = n) ∨ (s = '+' :: ds ∧ i = n) ∨ (s = '-' :: ds ∧ i = -(n : Int)))

/-- The characters with the Unicode property White_Space. -/
def blanks : List Nat :=
  [0x9, 0xA, 0xB, 0xC, 0xD, 0x20, 0x85, 0xA0, 0x1680, 0x2000, 0x2001, 0x2002, 0x2003, 0x2004, 0x2005, 0x2006, 0x2007,
    0x2008, 0x2009, 0x200A, 0x2028, 0x2029, 0x202F, 0x205F, 0x3000]

/-- Is the character one of them? -/
def isBlank (c : Char) : Bool := blanks.contains c.toNat

end Quarch.Spec
