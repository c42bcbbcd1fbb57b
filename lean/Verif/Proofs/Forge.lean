import Verif.Spec.Forge
import Verif.Proofs.Basic
import Verif.Proofs.Num
import Mathlib.Tactic.Positivity
import Mathlib.Tactic.Linarith
import Mathlib.Tactic.Ring
import Mathlib.Tactic.NormNum
/-
Lemmas about FGD text.
-/
set_option linter.unusedSectionVars false

namespace Quarch
open Spec Forge

/-! ### decimal numbers -/

theorem digitChar_eq {d : Nat} (h : d < 10) : digitChar d = Nat.digitChar d := by
  match d, h with
  | 0, _ => decide
  | 1, _ => decide
  | 2, _ => decide
  | 3, _ => decide
  | 4, _ => decide
  | 5, _ => decide
  | 6, _ => decide
  | 7, _ => decide
  | 8, _ => decide
  | 9, _ => decide

theorem showNat_eq (n : Nat) : showNat n = Nat.toDigits 10 n := by
  induction n using Nat.strongRecOn with
  | _ n ih =>
    rw [showNat]
    split
    · rename_i h
      rw [Nat.toDigits_of_lt_base h, digitChar_eq h]
    · rename_i h
      rw [ih (n / 10) (by omega), Nat.toDigits_of_base_le (n := n) (by omega) (by omega),
        digitChar_eq (Nat.mod_lt n (by omega))]

theorem showInt_eq (i : Int) : showInt i = dec i := by
  unfold dec showInt
  cases i with
  | ofNat n => simp [toString, Int.repr, Nat.repr, showNat_eq]
  | negSucc n => simp [toString, Int.repr, Nat.repr, showNat_eq]

theorem dec_chars (i : Int) : ∀ c ∈ dec i, c ∈ ['-', '0', '1', '2', '3', '4', '5', '6', '7', '8', '9'] := by
  rw [← showInt_eq]
  intro c hc
  cases i with
  | ofNat n => exact List.mem_cons_of_mem _ (showNat_digits n c hc)
  | negSucc n =>
    rcases List.mem_cons.1 hc with rfl | hc
    · decide
    · exact List.mem_cons_of_mem _ (showNat_digits _ c hc)

theorem dec_notMem {c : Char} (i : Int)
    (h : c ∉ ['-', '0', '1', '2', '3', '4', '5', '6', '7', '8', '9']) : c ∉ dec i :=
  fun hc => h (dec_chars i c hc)

theorem dec_clean (i : Int) : Clean (dec i) :=
  ⟨dec_notMem i (by decide), dec_notMem i (by decide)⟩

theorem showNat_inj {m n : Nat} (h : showNat m = showNat n) : m = n := by
  have h1 := digitsVal_showNat m
  rw [h, digitsVal_showNat n] at h1
  exact (Option.some.inj h1).symm

theorem dec_inj {i j : Int} (h : dec i = dec j) : i = j := by
  rw [← showInt_eq, ← showInt_eq] at h
  have hd : ∀ (n : Nat) (s : Str), showNat n ≠ '-' :: s := by
    intro n s h
    exact absurd (showNat_digits n '-' (by rw [h]; simp)) (by decide)
  cases i with
  | ofNat m =>
    cases j with
    | ofNat n => exact congrArg Int.ofNat (showNat_inj h)
    | negSucc n => exact absurd h (hd _ _)
  | negSucc m =>
    cases j with
    | ofNat n => exact absurd h.symm (hd _ _)
    | negSucc n =>
      have := showNat_inj (List.cons.inj h).2
      congr 1
      omega

/-! ### bits -/

theorem bitSet_mod (d : Int) {i : Nat} (h : i < 32) : BitSet (d % 4294967296) i ↔ BitSet d i := by
  unfold BitSet
  have hp : (0 : Int) < 2 ^ i := by positivity
  obtain ⟨k, hk⟩ : ∃ k, 32 = i + (k + 1) := ⟨31 - i, by omega⟩
  have e : (4294967296 : Int) = 2 ^ i * (2 ^ k * 2) := by
    have : (4294967296 : Int) = 2 ^ 32 := by norm_num
    rw [this, hk, pow_add, pow_succ]
  have e1 := Int.emod_add_mul_ediv d 4294967296
  have e2 : d / 2 ^ i = d % 4294967296 / 2 ^ i + 2 ^ k * 2 * (d / 4294967296) := by
    conv_lhs => rw [← e1]
    have : (4294967296 : Int) * (d / 4294967296) = 2 ^ i * (2 ^ k * 2 * (d / 4294967296)) := by
      rw [← mul_assoc (2 ^ i : Int), ← e]
    rw [this, Int.add_mul_ediv_left _ _ hp.ne']
  have e3 : d / 2 ^ i = d % 4294967296 / 2 ^ i + 2 * (2 ^ k * (d / 4294967296)) := by
    rw [e2, mul_comm (2 ^ k : Int) 2, mul_assoc]
  rw [e3, Int.add_mul_emod_self_left]

theorem getLsbD_ofInt (d : Int) {i : Nat} (h : i < 32) : (BitVec.ofInt 32 d).getLsbD i = true ↔ BitSet d i := by
  rw [BitVec.getLsbD, BitVec.toNat_ofInt, Nat.testBit_eq_decide_div_mod_eq, decide_eq_true_iff,
    ← bitSet_mod d h]
  have hn : 0 ≤ d % 4294967296 := Int.emod_nonneg _ (by norm_num)
  have e : ((2 ^ 32 : Nat) : Int) = 4294967296 := by norm_num
  rw [e]
  unfold BitSet
  generalize d % 4294967296 = m at hn
  obtain ⟨n, rfl⟩ := Int.eq_ofNat_of_zero_le hn
  rw [Int.toNat_natCast]
  norm_cast

theorem and_pow_pos (d : Int) {i : Nat} (h : i < 31) : andI32 d (2 ^ i) > 0 ↔ BitSet d i := by
  have hw : BitVec.ofInt 32 (2 ^ i) = BitVec.twoPow 32 i := by
    apply BitVec.eq_of_toNat_eq
    rw [BitVec.toNat_ofInt, BitVec.toNat_twoPow]
    have : ((2 : Int) ^ i) = ((2 ^ i : Nat) : Int) := by norm_cast
    rw [this]
    norm_cast
  unfold andI32
  rw [hw, BitVec.and_twoPow]
  split
  · rename_i ht
    rw [BitVec.toInt_twoPow]
    have hp : (0 : Int) < 2 ^ i := by positivity
    have : ¬ 32 ≤ i := by omega
    have h31 : ¬ (i + 1 = 32) := by omega
    have hb := (getLsbD_ofInt d (by omega : i < 32)).1 ht
    simp only [this, h31, hb, if_false, iff_true]
    exact hp
  · rename_i ht
    have hb : ¬ BitSet d i := fun hb => ht ((getLsbD_ofInt d (by omega : i < 32)).2 hb)
    simp [hb]

theorem flagSum_succ (d : Int) (n : Nat) :
    flagSum d (n + 1) = flagSum d n + if BitSet d n then 2 ^ n else 0 := by
  unfold flagSum
  rw [List.range_succ, List.filter_append, List.map_append, List.sum_append]
  congr 1
  by_cases h : BitSet d n <;> simp [h]

theorem flagSum_eq (d : Int) (n : Nat) : flagSum d n = d % 2 ^ n := by
  induction n with
  | zero => simp [flagSum, Int.emod_one]
  | succ n ih =>
    rw [flagSum_succ, ih]
    have h1 : d % 2 ^ (n + 1) = d % 2 ^ n + 2 ^ n * (d / 2 ^ n % 2) := by
      have hp : (0 : Int) < 2 ^ n := by positivity
      have e1 := Int.emod_add_mul_ediv d (2 ^ n)
      have e2 := Int.emod_add_mul_ediv (d / 2 ^ n) 2
      have e3 := Int.emod_add_mul_ediv d (2 ^ (n + 1))
      rw [pow_succ, ← Int.ediv_ediv_of_nonneg hp.le] at e3
      rw [pow_succ]
      generalize d / 2 ^ n / 2 = q at *
      generalize d / 2 ^ n % 2 = r at *
      rw [← e2] at e1
      linarith [mul_add (2 ^ n : Int) r (2 * q), mul_assoc (2 ^ n : Int) 2 q]
    rw [h1]
    unfold BitSet
    rcases Int.emod_two_eq_zero_or_one (d / 2 ^ n) with h | h <;> simp [h]

/-! ### splitting text at the first occurrence of a character -/

theorem split_first {c : Char} {a b x y : Str} (ha : c ∉ a) (hb : c ∉ b)
    (h : a ++ c :: x = b ++ c :: y) : a = b ∧ x = y := by
  induction a generalizing b with
  | nil =>
    cases b with
    | nil => exact ⟨rfl, (List.cons.inj h).2⟩
    | cons d b => exact absurd (List.cons.inj h).1 (fun e => hb (by simp [e]))
  | cons d a ih =>
    cases b with
    | nil => exact absurd (List.cons.inj h).1.symm (fun e => ha (by simp [e]))
    | cons d' b =>
      obtain ⟨rfl, h'⟩ := List.cons.inj h
      obtain ⟨rfl, rfl⟩ := ih (fun hc => ha (by simp [hc])) (fun hc => hb (by simp [hc])) h'
      exact ⟨rfl, rfl⟩

/-- Splitting at the last occurrence. -/
theorem split_last {c : Char} {a b x y : Str} (hx : c ∉ x) (hy : c ∉ y)
    (h : a ++ c :: x = b ++ c :: y) : a = b ∧ x = y := by
  have h' := congrArg List.reverse h
  simp only [List.reverse_append, List.reverse_cons, List.append_assoc, List.singleton_append] at h'
  obtain ⟨h1, h2⟩ := split_first (by simpa using hx) (by simpa using hy) h'
  exact ⟨List.reverse_injective h2, List.reverse_injective h1⟩

/-! ### texts of properties -/

/-- A property text: one line not ending in `=`, or a table. -/
inductive PropText : Str → Prop
  | line {s : Str} : '\n' ∉ s → s.getLast? ≠ some '=' → PropText s
  | table {head : Str} {rows : List Str} : '\n' ∉ head → (∀ r ∈ rows, '\n' ∉ r) →
      PropText (head ++ '=' :: '\n' :: '\t' :: '[' :: '\n' ::
        ((rows.map fun r => '\t' :: '\t' :: (r ++ ['\n'])).flatten ++ ['\t', ']']))

theorem rows_unique {rows rows' : List Str} {x y : Str} (h : ∀ r ∈ rows, '\n' ∉ r)
    (h' : ∀ r ∈ rows', '\n' ∉ r)
    (e : (rows.map fun r => '\t' :: '\t' :: (r ++ ['\n'])).flatten ++ '\t' :: ']' :: x =
      (rows'.map fun r => '\t' :: '\t' :: (r ++ ['\n'])).flatten ++ '\t' :: ']' :: y) :
    rows = rows' ∧ x = y := by
  induction rows generalizing rows' with
  | nil =>
    cases rows' with
    | nil => simpa using e
    | cons r' rows' =>
      simp only [List.map_nil, List.flatten_nil, List.nil_append, List.map_cons, List.flatten_cons,
        List.cons_append, List.cons.injEq, true_and] at e
      exact absurd e.1 (by decide)
  | cons r rows ih =>
    cases rows' with
    | nil =>
      simp only [List.map_nil, List.flatten_nil, List.nil_append, List.map_cons, List.flatten_cons,
        List.cons_append, List.cons.injEq, true_and] at e
      exact absurd e.1 (by decide)
    | cons r' rows' =>
      simp only [List.map_cons, List.flatten_cons,
        List.cons_append, List.cons.injEq, true_and, List.append_assoc, List.nil_append] at e
      obtain ⟨rfl, e2⟩ := split_first (h r (by simp)) (h' r' (by simp)) e
      obtain ⟨rfl, rfl⟩ := ih (fun a ha => h a (by simp [ha])) (fun a ha => h' a (by simp [ha])) e2
      exact ⟨rfl, rfl⟩

theorem propText_unique {s t x y : Str} (hs : PropText s) (ht : PropText t)
    (h : s ++ '\n' :: x = t ++ '\n' :: y) : s = t ∧ x = y := by
  have key : ∀ {u : Str} {hd : Str} {x y : Str}, '\n' ∉ u → u.getLast? ≠ some '=' → '\n' ∉ hd →
      u ++ '\n' :: x = hd ++ '=' :: '\n' :: y → False := by
    intro u hd x y hu hl hh e
    have e' : u ++ '\n' :: x = (hd ++ ['=']) ++ '\n' :: y := by simpa using e
    obtain ⟨rfl, _⟩ := split_first hu (by simpa using hh) e'
    simp at hl
  cases hs with
  | line h1 h2 =>
    cases ht with
    | line h3 h4 => exact split_first h1 h3 h
    | table h3 h4 =>
      simp only [List.append_assoc, List.cons_append] at h
      exact (key h1 h2 h3 h).elim
  | @table hd rows h1 h2 =>
    cases ht with
    | line h3 h4 =>
      simp only [List.append_assoc, List.cons_append] at h
      exact (key h3 h4 h1 h.symm).elim
    | @table hd' rows' h3 h4 =>
      simp only [List.append_assoc, List.cons_append, List.nil_append] at h
      have h' : (hd ++ ['=']) ++ '\n' :: ('\t' :: '[' :: '\n' :: ((rows.map fun r => '\t' :: '\t' :: (r ++ ['\n'])).flatten ++ '\t' :: ']' :: '\n' :: x)) =
        (hd' ++ ['=']) ++ '\n' :: ('\t' :: '[' :: '\n' :: ((rows'.map fun r => '\t' :: '\t' :: (r ++ ['\n'])).flatten ++ '\t' :: ']' :: '\n' :: y)) := by
        simpa using h
      obtain ⟨e1, e2⟩ := split_first (by simpa using h1) (by simpa using h3) h'
      simp only [List.cons.injEq, true_and] at e2
      obtain ⟨rfl, e3⟩ := rows_unique h2 h4 e2
      obtain rfl := List.append_cancel_right e1
      exact ⟨rfl, (List.cons.inj e3).2⟩

theorem propTexts_unique {ss ts : List Str} {x y : Str} (hs : ∀ s ∈ ss, PropText s)
    (ht : ∀ t ∈ ts, PropText t)
    (h : (ss.map fun s => '\t' :: (s ++ ['\n'])).flatten ++ ']' :: x =
      (ts.map fun s => '\t' :: (s ++ ['\n'])).flatten ++ ']' :: y) : ss = ts ∧ x = y := by
  induction ss generalizing ts with
  | nil =>
    cases ts with
    | nil => simpa using h
    | cons t ts => exact absurd (List.cons.inj h).1 (by decide)
  | cons s ss ih =>
    cases ts with
    | nil => exact absurd (List.cons.inj h).1 (by decide)
    | cons t ts =>
      simp only [List.map_cons, List.flatten_cons, List.cons_append, List.cons.injEq, true_and,
        List.append_assoc, List.nil_append] at h
      obtain ⟨rfl, h2⟩ := propText_unique (hs s (by simp)) (ht t (by simp)) h
      obtain ⟨rfl, rfl⟩ := ih (fun a ha => hs a (by simp [ha])) (fun a ha => ht a (by simp [ha])) h2
      exact ⟨rfl, rfl⟩

section
variable {F : Type} [Arith F]

/-- The row the model prints for flag `i`, whatever `i`. -/
def rowOf (d : Int) (i : Nat) (name : Str) : Str :=
  let bit : Int := if i < 31 then 2 ^ i else if i = 31 then -2147483648 else 0
  dec bit ++ str! " : \"" ++ name ++ str! "\" : " ++ (if andI32 d bit > 0 then str! "1" else str! "0")

theorem flagLine_eq {checks : Bool} {d : Int} {i : Nat} {name : Str} (h : i < 31 ∨ checks = false) :
    flagLine checks d i name = .ok ('\t' :: '\t' :: (rowOf d i name ++ ['\n'])) := by
  have h1 : showInt 1 = str! "1" := by simp [showInt, showNat]; decide
  have h0 : showInt 0 = str! "0" := by simp [showInt, showNat]; decide
  have e : pow2I32 checks i = .ok (if i < 31 then 2 ^ i else if i = 31 then -2147483648 else 0) := by
    unfold pow2I32
    rcases h with h | rfl
    · simp [h]
    · by_cases h : i < 31 <;> simp [h]
  unfold flagLine rowOf
  rw [e, Outcome.ok_bind]
  generalize (if i < 31 then (2 : Int) ^ i else if i = 31 then -2147483648 else 0) = bit
  rw [apply_ite showInt, h1, h0, showInt_eq]
  simp

theorem flagLines_ok {checks : Bool} {d : Int} {fs : List Str} {n : Nat}
    (h : n + fs.length ≤ 31 ∨ checks = false) :
    flagLines checks d n fs =
      .ok (((fs.zipIdx n).map fun p => rowOf d p.2 p.1).map fun r => '\t' :: '\t' :: (r ++ ['\n'])).flatten := by
  induction fs generalizing n with
  | nil => rfl
  | cons f fs ih =>
    have h1 : n < 31 ∨ checks = false := h.imp_left (by simp only [List.length_cons]; omega)
    have h2 : n + 1 + fs.length ≤ 31 ∨ checks = false := h.imp_left (by simp only [List.length_cons]; omega)
    unfold flagLines
    rw [flagLine_eq h1, Outcome.ok_bind, ih h2, Outcome.ok_bind]
    simp

theorem flagLines_panic {d : Int} {fs : List Str} {n : Nat} (h : 31 < n + fs.length) (hn : n ≤ 31) :
    ∃ m, flagLines true d n fs = .panic m := by
  induction fs generalizing n with
  | nil => simp only [List.length_nil] at h; omega
  | cons f fs ih =>
    unfold flagLines
    by_cases h31 : n < 31
    · rw [flagLine_eq (.inl h31), Outcome.ok_bind]
      obtain ⟨m, hm⟩ := ih (n := n + 1) (by simp only [List.length_cons] at h; omega) (by omega)
      rw [hm]
      exact ⟨m, rfl⟩
    · exact ⟨_, by unfold flagLine pow2I32; simp [h31]; rfl⟩

theorem choiceAt_iff {cs : List (Choice F)} {d : Int} {c : Choice F} :
    choiceAt cs d = .ok c ↔ 0 ≤ d ∧ cs[d.toNat]? = some c := by
  unfold choiceAt
  cases d with
  | ofNat n =>
    simp only [Int.ofNat_eq_natCast, Int.toNat_natCast, Int.natCast_nonneg, true_and]
    cases cs[n]? <;> simp
  | negSucc n => simp

theorem choiceAt_panic {cs : List (Choice F)} {d : Int} :
    (∃ m, choiceAt cs d = .panic m) ↔ d < 0 ∨ (cs.length : Int) ≤ d := by
  unfold choiceAt
  cases d with
  | ofNat n =>
    simp only [Int.ofNat_eq_natCast]
    cases h : cs[n]? with
    | none => rw [List.getElem?_eq_none_iff] at h; simp; omega
    | some c =>
      have := (List.getElem?_eq_some_iff.1 h).1
      simp; omega
  | negSucc n => simp

theorem display_text (v : ChoiceData F) : DefaultText v v.display := by
  cases v with
  | integer i => simp only [ChoiceData.display, showInt_eq]; exact .integer i
  | float f => exact .float f
  | string s => exact .string s

theorem defaultText_unique {v : ChoiceData F} {s t : Str} (h : DefaultText v s) (h' : DefaultText v t) : s = t := by
  cases h <;> cases h' <;> rfl

theorem choiceText_unique {v : ChoiceData F} {s t : Str} (h : ChoiceText v s) (h' : ChoiceText v t) : s = t := by
  cases h <;> cases h' <;> rfl

theorem choice_text (c : Choice F) :
    ∃ v, ChoiceText c.value v ∧ c.toStr = v ++ str! " : \"" ++ c.name ++ str! "\"" := by
  unfold Choice.toStr
  cases h : c.value with
  | integer i => exact ⟨_, .integer i, by simp [showInt_eq]⟩
  | float f => exact ⟨_, .float f, by simp⟩
  | string s => exact ⟨_, .string s, by simp⟩

end

end Quarch
