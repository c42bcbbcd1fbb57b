import Verif.Model.Rust
import Mathlib.Data.List.Basic
import Mathlib.Data.List.Induction
import Verif.Spec.Number
/-
Integers printed and read back.
-/
namespace Quarch

theorem digitVal_digitChar {d : Nat} (h : d < 10) : digitVal (digitChar d) = some d := by
  match d, h with
  | 0, _ => decide
  | 1, _ => decide
  | 2, _ => decide
  | 3, _ => decide
  | 4, _ => decide
  | 5, _ => decide
  | 6, _ => decide
  | 7, _ => decide
  | 8, _ => decide
  | 9, _ => decide

theorem digitChar_mem {d : Nat} (h : d < 10) :
    digitChar d ∈ ['0', '1', '2', '3', '4', '5', '6', '7', '8', '9'] := by
  match d, h with
  | 0, _ => decide
  | 1, _ => decide
  | 2, _ => decide
  | 3, _ => decide
  | 4, _ => decide
  | 5, _ => decide
  | 6, _ => decide
  | 7, _ => decide
  | 8, _ => decide
  | 9, _ => decide

theorem digitsVal_append (acc : Nat) (a b : Str) :
    digitsVal acc (a ++ b) = (digitsVal acc a).bind fun v => digitsVal v b := by
  induction a generalizing acc with
  | nil => rfl
  | cons c cs ih =>
    simp only [List.cons_append, digitsVal]
    cases digitVal c with
    | none => rfl
    | some d => exact ih _

theorem digitsVal_showNat (n : Nat) : digitsVal 0 (showNat n) = some n := by
  induction n using Nat.strongRecOn with
  | _ n ih =>
    rw [showNat]
    split
    · rename_i h; simp [digitsVal, digitVal_digitChar h]
    · rename_i h
      rw [digitsVal_append, ih (n / 10) (by omega)]
      simp only [Option.bind_some, digitsVal, digitVal_digitChar (Nat.mod_lt n (by omega : 10 > 0))]
      congr 1
      omega

theorem showNat_digits (n : Nat) :
    ∀ c ∈ showNat n, c ∈ ['0', '1', '2', '3', '4', '5', '6', '7', '8', '9'] := by
  induction n using Nat.strongRecOn with
  | _ n ih =>
    rw [showNat]
    split
    · rename_i h
      intro c hc
      rw [List.mem_singleton.1 hc]
      exact digitChar_mem h
    · rename_i h
      intro c hc
      rcases List.mem_append.1 hc with hc | hc
      · exact ih (n / 10) (by omega) c hc
      · rw [List.mem_singleton.1 hc]
        exact digitChar_mem (Nat.mod_lt n (by omega))

theorem showNat_ne_nil (n : Nat) : showNat n ≠ [] := by
  rw [showNat]; split <;> simp

theorem parseI32_digits {s : Str} (hne : s ≠ [])
    (h : ∀ c ∈ s, c ∈ ['0', '1', '2', '3', '4', '5', '6', '7', '8', '9']) {n : Nat}
    (hv : digitsVal 0 s = some n) (hr : n ≤ 2147483647) : parseI32 s = some (n : Int) := by
  match s, hne with
  | c :: cs, _ =>
    have hc := h c (by simp)
    have hp : c ≠ '+' := by rintro rfl; exact absurd hc (by decide)
    have hm : c ≠ '-' := by rintro rfl; exact absurd hc (by decide)
    unfold parseI32
    simp only []
    split
    · rename_i h'
      split at h'
      · simp_all
      · rename_i heq; cases heq; exact absurd rfl hp
      · rename_i heq; cases heq; exact absurd rfl hm
      · simp only [hv, Option.map_some] at h'
        cases h'
        rw [if_pos ⟨by simp only [Int.ofNat_eq_natCast]; omega, by simp only [Int.ofNat_eq_natCast]; omega⟩]
        rfl
    · rename_i h'
      split at h'
      · simp_all
      · rename_i heq; cases heq; exact absurd rfl hp
      · rename_i heq; cases heq; exact absurd rfl hm
      · simp [hv] at h'

theorem parseI32_neg {s : Str} (hne : s ≠ []) {n : Nat}
    (hv : digitsVal 0 s = some n) (hr : n ≤ 2147483648) : parseI32 ('-' :: s) = some (-(n : Int)) := by
  unfold parseI32
  have : s.isEmpty = false := by cases s <;> simp_all
  simp only [this, hv, Option.map_some, Bool.false_eq_true, if_false]
  rw [if_pos]
  · rfl
  · simp only [Int.ofNat_eq_natCast]; omega

theorem parseI32_showInt {i : Int} (h : -2147483648 ≤ i ∧ i ≤ 2147483647) :
    parseI32 (showInt i) = some i := by
  cases i with
  | ofNat n =>
    have h2 := h.2
    simp only [Int.ofNat_eq_natCast] at h2
    exact parseI32_digits (showNat_ne_nil n) (showNat_digits n) (digitsVal_showNat n) (by omega)
  | negSucc n =>
    have := parseI32_neg (showNat_ne_nil (n + 1)) (digitsVal_showNat (n + 1)) (by omega)
    simp only [showInt, this]
    congr 1

theorem showInt_ne_nil (i : Int) : showInt i ≠ [] := by
  cases i with
  | ofNat n => exact showNat_ne_nil n
  | negSucc n => simp [showInt]

theorem showInt_word (i : Int) : ∀ c ∈ showInt i, isWhitespace c = false := by
  have hd : ∀ c ∈ ['0', '1', '2', '3', '4', '5', '6', '7', '8', '9'], isWhitespace c = false := by decide
  cases i with
  | ofNat n => exact fun c hc => hd c (showNat_digits n c hc)
  | negSucc n =>
    intro c hc
    rcases List.mem_cons.1 hc with rfl | hc
    · decide
    · exact hd c (showNat_digits _ c hc)

open Spec

theorem digitVal_iff {c : Char} {d : Nat} : digitVal c = some d ↔ d < 10 ∧ c.toNat = 48 + d := by
  unfold digitVal
  have h0 : ('0' ≤ c) ↔ 48 ≤ c.toNat := Iff.rfl
  have h9 : (c ≤ '9') ↔ c.toNat ≤ 57 := Iff.rfl
  have hz : '0'.toNat = 48 := rfl
  split
  · rename_i h
    rw [h0, h9] at h
    rw [Option.some.injEq, hz]; omega
  · rename_i h
    rw [h0, h9] at h
    constructor
    · intro h; cases h
    · intro h; omega

theorem digitsVal_snoc {acc : Nat} {s : Str} {c : Char} {v : Nat} :
    digitsVal acc (s ++ [c]) = some v ↔ ∃ n d, digitsVal acc s = some n ∧ digitVal c = some d ∧ v = 10 * n + d := by
  rw [digitsVal_append]
  cases h : digitsVal acc s with
  | none => simp
  | some n =>
    simp only [Option.bind_some, digitsVal, Option.some.injEq]
    cases hd : digitVal c with
    | none => simp
    | some d =>
      simp only [Option.some.injEq]
      constructor
      · intro e; exact ⟨n, d, rfl, rfl, by omega⟩
      · rintro ⟨n', d', e1, e2, e3⟩; omega

theorem decVal_iff {s : Str} {n : Nat} : DecVal s n ↔ s ≠ [] ∧ digitsVal 0 s = some n := by
  constructor
  · intro h
    induction h with
    | @one c d h1 h2 =>
      refine ⟨by simp, ?_⟩
      simp [digitsVal, digitVal_iff.2 ⟨h1, h2⟩]
    | snoc _ h1 h2 ih =>
      refine ⟨by simp, ?_⟩
      exact digitsVal_snoc.2 ⟨_, _, ih.2, digitVal_iff.2 ⟨h1, h2⟩, rfl⟩
  · rintro ⟨hne, hv⟩
    rcases List.eq_nil_or_concat' s with rfl | ⟨s', c, rfl⟩
    · exact absurd rfl hne
    · clear hne
      induction s' using List.reverseRecOn generalizing c n with
      | nil =>
        obtain ⟨m, d, h1, h2, rfl⟩ := digitsVal_snoc.1 hv
        simp only [digitsVal, Option.some.injEq] at h1
        subst h1
        obtain ⟨h3, h4⟩ := digitVal_iff.1 h2
        simpa using DecVal.one h3 h4
      | append_singleton s'' c' ih =>
        obtain ⟨m, d, h1, h2, rfl⟩ := digitsVal_snoc.1 hv
        obtain ⟨h3, h4⟩ := digitVal_iff.1 h2
        exact .snoc (ih c' h1) h3 h4

theorem digits_head {c : Char} {cs : Str} {n : Nat} (h : digitsVal 0 (c :: cs) = some n) :
    c ≠ '+' ∧ c ≠ '-' := by
  simp only [digitsVal] at h
  split at h
  · rename_i d hd
    obtain ⟨h1, h2⟩ := digitVal_iff.1 hd
    constructor
    · rintro rfl
      have : '+'.toNat = 43 := rfl
      omega
    · rintro rfl
      have : '-'.toNat = 45 := rfl
      omega
  · cases h

/-- `str::parse::<i32>` accepts exactly the decimal 32-bit integers. -/
theorem parseI32_iff {s : Str} {i : Int} : parseI32 s = some i ↔ ReadsI32 s i := by
  unfold ReadsI32
  constructor
  · intro h
    unfold parseI32 at h
    simp only at h
    split at h
    · rename_i v hv
      split at h
      · rename_i hr
        cases h
        refine ⟨hr.1, hr.2, ?_⟩
        split at hv
        · cases hv
        · rename_i ds
          split at hv
          · cases hv
          · rename_i he
            obtain ⟨n, hn, rfl⟩ := Option.map_eq_some_iff.1 hv
            exact ⟨ds, n, decVal_iff.2 ⟨by simpa using he, hn⟩, .inr (.inl ⟨rfl, rfl⟩)⟩
        · rename_i ds
          split at hv
          · cases hv
          · rename_i he
            obtain ⟨n, hn, rfl⟩ := Option.map_eq_some_iff.1 hv
            exact ⟨ds, n, decVal_iff.2 ⟨by simpa using he, hn⟩, .inr (.inr ⟨rfl, rfl⟩)⟩
        · rename_i hne _ _
          obtain ⟨n, hn, rfl⟩ := Option.map_eq_some_iff.1 hv
          exact ⟨s, n, decVal_iff.2 ⟨hne, hn⟩, .inl ⟨rfl, rfl⟩⟩
      · cases h
    · cases h
  · rintro ⟨h1, h2, ds, n, hd, h⟩
    obtain ⟨hne, hv⟩ := decVal_iff.1 hd
    cases ds with
    | nil => exact absurd rfl hne
    | cons c cs =>
      obtain ⟨hp, hm⟩ := digits_head hv
      rcases h with ⟨rfl, rfl⟩ | ⟨rfl, rfl⟩ | ⟨rfl, rfl⟩
      · have : (match c :: cs with
            | [] => (none : Option Int)
            | '+' :: ds => if ds.isEmpty then none else (digitsVal 0 ds).map Int.ofNat
            | '-' :: ds => if ds.isEmpty then none else (digitsVal 0 ds).map fun n => - Int.ofNat n
            | ds => (digitsVal 0 ds).map Int.ofNat) = some (Int.ofNat n) := by
          split
          · simp_all
          · rename_i heq; cases heq; exact absurd rfl hp
          · rename_i heq; cases heq; exact absurd rfl hm
          · rw [hv]; rfl
        show (match (match c :: cs with
            | [] => (none : Option Int)
            | '+' :: ds => if ds.isEmpty then none else (digitsVal 0 ds).map Int.ofNat
            | '-' :: ds => if ds.isEmpty then none else (digitsVal 0 ds).map fun n => - Int.ofNat n
            | ds => (digitsVal 0 ds).map Int.ofNat) with
          | some v => if -2147483648 ≤ v ∧ v ≤ 2147483647 then some v else none
          | none => none) = some (n : Int)
        rw [this]
        exact if_pos ⟨h1, h2⟩
      · unfold parseI32
        simp only [List.isEmpty_cons, Bool.false_eq_true, if_false, hv, Option.map_some]
        exact if_pos ⟨h1, h2⟩
      · unfold parseI32
        simp only [List.isEmpty_cons, Bool.false_eq_true, if_false, hv, Option.map_some]
        exact if_pos ⟨h1, h2⟩

theorem isWhitespace_eq : isWhitespace = isBlank := by
  funext c
  rw [Bool.eq_iff_iff]
  simp only [isWhitespace, isBlank, blanks, List.contains_iff_mem, List.mem_cons, List.not_mem_nil, or_false, Bool.or_eq_true,
    Bool.and_eq_true, decide_eq_true_eq]
  omega

theorem showInt_blank (i : Int) : ∀ c ∈ showInt i, isBlank c = false := by
  rw [← isWhitespace_eq]; exact showInt_word i

end Quarch
