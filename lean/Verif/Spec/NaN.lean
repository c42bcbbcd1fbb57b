import Verif.Spec.Geo
/-
Not-a-number: how it spreads, and an arithmetic that has it.
-/
namespace Quarch.Spec

section
variable {F : Type} [Arith F]

/-- All lanes are not numbers. -/
def AllNaN (isNaN : F → Prop) (v : V3 F) : Prop := isNaN v.x ∧ isNaN v.y ∧ isNaN v.z

/-- The rules for NaN of IEEE 754 that matter here: comparisons with NaN are false, operations on NaN give NaN,
and the zero vector has no direction. -/
class NaNRules (F : Type) [Arith F] where
  isNaN : F → Prop
  lt_left : ∀ a b : F, isNaN a → Arith.lt a b = false
  lt_right : ∀ a b : F, isNaN b → Arith.lt a b = false
  le_left : ∀ a b : F, isNaN a → Arith.le a b = false
  eq_left : ∀ a b : F, isNaN a → Arith.eq a b = false
  eq_right : ∀ a b : F, isNaN b → Arith.eq a b = false
  add_left : ∀ a b : F, isNaN a → isNaN (Arith.add a b)
  add_right : ∀ a b : F, isNaN b → isNaN (Arith.add a b)
  sub_left : ∀ a b : F, isNaN a → isNaN (Arith.sub a b)
  sub_right : ∀ a b : F, isNaN b → isNaN (Arith.sub a b)
  mul_left : ∀ a b : F, isNaN a → isNaN (Arith.mul a b)
  div_left : ∀ a b : F, isNaN a → isNaN (Arith.div a b)
  abs_nan : ∀ a : F, isNaN a → isNaN (Arith.abs a)
  dot_left : ∀ a b : V3 F, AllNaN isNaN a → isNaN (Arith.dot a b)
  dot_right : ∀ a b : V3 F, AllNaN isNaN b → isNaN (Arith.dot a b)
  cross_left : ∀ a b : V3 F, AllNaN isNaN a → AllNaN isNaN (Arith.cross a b)
  cross_right : ∀ a b : V3 F, AllNaN isNaN b → AllNaN isNaN (Arith.cross a b)
  normalize_zero : AllNaN isNaN (Arith.normalize (⟨Arith.zero, Arith.zero, Arith.zero⟩ : V3 F))

/-- The number `a` is at least `b` and `c`. -/
def Largest (a b c : F) : Prop := Arith.le b a = true ∧ Arith.le c a = true

/-- One of the three components of `n` is the largest in absolute value (always so for numbers). -/
def HasLargest (n : V3 F) : Prop :=
  let u := Arith.abs (Arith.dot n ⟨Arith.zero, Arith.zero, Arith.one⟩)
  let r := Arith.abs (Arith.dot n ⟨Arith.zero, Arith.one, Arith.zero⟩)
  let f := Arith.abs (Arith.dot n ⟨Arith.one, Arith.zero, Arith.zero⟩)
  Largest u r f ∨ Largest r u f ∨ Largest f u r

end

/-- An arithmetic extended by NaN (`none`): every operation on NaN gives NaN, every comparison is false, and
the direction of the zero vector is NaN. -/
@[reducible] def withNaN {F : Type} (A : Arith F) : Arith (Option F) :=
  let op2 (f : F → F → F) (a b : Option F) : Option F := a.bind fun a => b.map fun b => f a b
  let rel (f : F → F → Bool) (a b : Option F) : Bool :=
    match a, b with
    | some a, some b => f a b
    | _, _ => false
  let vec (v : V3 (Option F)) : Option (V3 F) := v.x.bind fun x => v.y.bind fun y => v.z.map fun z => ⟨x, y, z⟩
  let back (v : Option (V3 F)) : V3 (Option F) := ⟨v.map (·.x), v.map (·.y), v.map (·.z)⟩
  { zero := some A.zero
    one := some A.one
    cmpEpsilon := some A.cmpEpsilon
    hundredth := some A.hundredth
    oneDegree := some A.oneDegree
    c255 := some A.c255
    ofNat := fun n => some (A.ofNat n)
    toI32 := fun a => match a with
      | some a => A.toI32 a
      | none => 0
    add := op2 A.add
    sub := op2 A.sub
    mul := op2 A.mul
    div := op2 A.div
    neg := Option.map A.neg
    abs := Option.map A.abs
    signum := Option.map A.signum
    cos := Option.map A.cos
    atan2 := op2 A.atan2
    toRadians := Option.map A.toRadians
    lt := rel A.lt
    le := rel A.le
    eq := rel A.eq
    parse := fun s => (A.parse s).map some
    disp := fun a => match a with
      | some a => A.disp a
      | none => str! "NaN"
    dot := fun a b => (vec a).bind fun a => (vec b).map fun b => A.dot a b
    cross := fun a b => back ((vec a).bind fun a => (vec b).map fun b => A.cross a b)
    normalize := fun a => back ((vec a).bind fun a =>
      if A.eq a.x A.zero && A.eq a.y A.zero && A.eq a.z A.zero then none else some (A.normalize a))
    rotate := fun n t v => back ((vec n).bind fun n => t.bind fun t => (vec v).map fun v => A.rotate n t v)
    rotate2 := fun t v => match t, v.x, v.y with
      | some t, some x, some y => ⟨some (A.rotate2 t ⟨x, y⟩).x, some (A.rotate2 t ⟨x, y⟩).y⟩
      | _, _, _ => ⟨none, none⟩ }

/-- The extension follows the rules. -/
@[reducible] def withNaN_rules {F : Type} (A : Arith F) (h0 : A.eq A.zero A.zero = true) :
    letI := withNaN A
    NaNRules (Option F) :=
  letI := withNaN A
  { isNaN := fun a => a = none
    lt_left := by rintro a b rfl; rfl
    lt_right := by rintro a b rfl; cases a <;> rfl
    le_left := by rintro a b rfl; rfl
    eq_left := by rintro a b rfl; rfl
    eq_right := by rintro a b rfl; cases a <;> rfl
    add_left := by rintro a b rfl; rfl
    add_right := by rintro a b rfl; cases a <;> rfl
    sub_left := by rintro a b rfl; rfl
    sub_right := by rintro a b rfl; cases a <;> rfl
    mul_left := by rintro a b rfl; rfl
    div_left := by rintro a b rfl; rfl
    abs_nan := by rintro a rfl; rfl
    dot_left := by rintro ⟨_, _, _⟩ b ⟨h1, h2, h3⟩; simp only at h1 h2 h3; subst h1 h2 h3; rfl
    dot_right := by
      rintro ⟨a1, a2, a3⟩ ⟨_, _, _⟩ ⟨h1, h2, h3⟩; simp only at h1 h2 h3; subst h1 h2 h3
      cases a1 <;> cases a2 <;> cases a3 <;> rfl
    cross_left := by
      rintro ⟨_, _, _⟩ b ⟨h1, h2, h3⟩; simp only at h1 h2 h3; subst h1 h2 h3; exact ⟨rfl, rfl, rfl⟩
    cross_right := by
      rintro ⟨a1, a2, a3⟩ ⟨_, _, _⟩ ⟨h1, h2, h3⟩; simp only at h1 h2 h3; subst h1 h2 h3
      cases a1 <;> cases a2 <;> cases a3 <;> exact ⟨rfl, rfl, rfl⟩
    normalize_zero := by
      have e : (Arith.zero : Option F) = some A.zero := rfl
      rw [e]
      simp [AllNaN, Arith.normalize, h0] }

end Quarch.Spec
