import Verif.Spec.Decimal
import Verif.Proofs.F32Grid
import Verif.Proofs.Num
/-
Decimal numbers: one value per text, exact on grids.
-/
set_option linter.unusedSectionVars false
namespace Quarch
open Quarch.Spec Quarch.Spec.F32

theorem decVal_unique {s : Str} {m n : Nat} (h : DecVal s m) (h' : DecVal s n) : m = n := by
  have := (decVal_iff.1 h).2.symm.trans (decVal_iff.1 h').2
  exact Option.some.inj this

theorem decVal_ne {s : Str} {n : Nat} (h : DecVal s n) : s ≠ [] := (decVal_iff.1 h).1

theorem decVal_digit {s : Str} {n : Nat} (h : DecVal s n) : ∀ c ∈ s, 48 ≤ c.toNat ∧ c.toNat < 58 := by
  induction h with
  | one h1 h2 => intro c hc; obtain rfl := List.mem_singleton.1 hc; omega
  | snoc _ h1 h2 ih =>
    intro c hc
    rcases List.mem_append.1 hc with hc | hc
    · exact ih c hc
    · obtain rfl := List.mem_singleton.1 hc; omega

/-- Digits contain neither point nor sign. -/
theorem decVal_plain {s : Str} {n : Nat} (h : DecVal s n) : '.' ∉ s ∧ '-' ∉ s ∧ '+' ∉ s := by
  refine ⟨fun hc => ?_, fun hc => ?_, fun hc => ?_⟩ <;> have := decVal_digit h _ hc <;> revert this <;> decide

theorem split_point {a b c d : Str} (ha : '.' ∉ a) (hc : '.' ∉ c) (h : a ++ '.' :: b = c ++ '.' :: d) :
    a = c ∧ b = d := by
  induction a generalizing c with
  | nil =>
    cases c with
    | nil => simpa using h
    | cons x c =>
      simp only [List.nil_append, List.cons_append, List.cons.injEq] at h
      exact absurd (by rw [h.1]; simp) hc
  | cons x a ih =>
    cases c with
    | nil =>
      simp only [List.nil_append, List.cons_append, List.cons.injEq] at h
      exact absurd (by rw [h.1]; simp) ha
    | cons y c =>
      simp only [List.cons_append, List.cons.injEq] at h
      obtain ⟨rfl, h⟩ := h
      obtain ⟨rfl, rfl⟩ := ih (fun hx => ha (by simp [hx])) (fun hx => hc (by simp [hx])) h
      exact ⟨rfl, rfl⟩

/-- Number before the point and after it. -/
inductive Parts : Str → Str → ℝ → Prop
  | mk {ds fs : Str} {x y : ℝ} : ((ds = [] ∧ x = 0) ∨ ∃ n, DecVal ds n ∧ x = n) →
      ((fs = [] ∧ y = 0) ∨ ∃ k, DecVal fs k ∧ y = k / 10 ^ fs.length) → Parts ds fs (x + y)

theorem parts_unique {ds fs : Str} {x y : ℝ} (h : Parts ds fs x) (h' : Parts ds fs y) : x = y := by
  obtain ⟨h1, h2⟩ := h
  obtain ⟨h1', h2'⟩ := h'
  congr 1
  · rcases h1 with ⟨e, rfl⟩ | ⟨n, hn, rfl⟩ <;> rcases h1' with ⟨e', rfl⟩ | ⟨n', hn', rfl⟩
    · rfl
    · exact absurd e (decVal_ne hn')
    · exact absurd e' (decVal_ne hn)
    · rw [decVal_unique hn hn']
  · rcases h2 with ⟨e, rfl⟩ | ⟨n, hn, rfl⟩ <;> rcases h2' with ⟨e', rfl⟩ | ⟨n', hn', rfl⟩
    · rfl
    · exact absurd e (decVal_ne hn')
    · exact absurd e' (decVal_ne hn)
    · rw [decVal_unique hn hn']

theorem parts_plain {ds fs : Str} {x : ℝ} (h : Parts ds fs x) : '.' ∉ ds := by
  obtain ⟨h1, -⟩ := h
  rcases h1 with ⟨rfl, -⟩ | ⟨n, hn, -⟩
  · simp
  · exact (decVal_plain hn).1

theorem mantissa_parts {s : Str} {x : ℝ} (h : Mantissa s x) :
    (∃ n, DecVal s n ∧ x = n) ∨ ∃ ds fs, s = ds ++ '.' :: fs ∧ Parts ds fs x := by
  cases h with
  | whole h => exact .inl ⟨_, h, rfl⟩
  | @point ds n h => exact .inr ⟨ds, [], rfl, by simpa using Parts.mk (.inr ⟨n, h, rfl⟩) (.inl ⟨rfl, rfl⟩)⟩
  | @fraction fs k h => exact .inr ⟨[], fs, rfl, by simpa using Parts.mk (.inl ⟨rfl, rfl⟩) (.inr ⟨k, h, rfl⟩)⟩
  | @both ds fs n k h h' => exact .inr ⟨ds, fs, rfl, Parts.mk (.inr ⟨n, h, rfl⟩) (.inr ⟨k, h', rfl⟩)⟩

theorem mantissa_unique {s : Str} {x y : ℝ} (h : Mantissa s x) (h' : Mantissa s y) : x = y := by
  rcases mantissa_parts h with ⟨n, hn, rfl⟩ | ⟨ds, fs, e, hp⟩ <;>
    rcases mantissa_parts h' with ⟨n', hn', rfl⟩ | ⟨ds', fs', e', hp'⟩
  · rw [decVal_unique hn hn']
  · exact absurd (by rw [e']; simp) (decVal_plain hn).1
  · exact absurd (by rw [e]; simp) (decVal_plain hn').1
  · obtain ⟨rfl, rfl⟩ := split_point (parts_plain hp) (parts_plain hp') (e.symm.trans e')
    exact parts_unique hp hp'

theorem mantissa_unsigned {s : Str} {x : ℝ} (h : Mantissa s x) : '-' ∉ s ∧ '+' ∉ s := by
  cases h with
  | whole h => exact (decVal_plain h).2
  | point h => have := (decVal_plain h).2; simpa using this
  | fraction h => have := (decVal_plain h).2; simpa using this
  | both h h' => have := (decVal_plain h).2; have := (decVal_plain h').2; simp_all

theorem mantissa_nonneg {s : Str} {x : ℝ} (h : Mantissa s x) : 0 ≤ x := by
  cases h <;> positivity

/-- A text is the decimal form of at most one number. -/
theorem decimal_unique {s : Str} {neg neg' : Bool} {x x' : ℝ} (h : Decimal s neg x) (h' : Decimal s neg' x') :
    neg = neg' ∧ x = x' := by
  obtain ⟨m, hm, h⟩ := h
  obtain ⟨m', hm', h'⟩ := h'
  have u := mantissa_unsigned hm
  have u' := mantissa_unsigned hm'
  rcases h with ⟨rfl, rfl⟩ | ⟨rfl, rfl | rfl⟩ <;> rcases h' with ⟨rfl, e⟩ | ⟨rfl, e | e⟩
  · cases e; exact ⟨rfl, mantissa_unique hm hm'⟩
  · exact absurd (by rw [← e]; simp) u'.1
  · cases e
  · exact absurd (by rw [e]; simp) u.1
  · cases e; exact ⟨rfl, mantissa_unique hm hm'⟩
  · exact absurd (by rw [e]; simp) u.2
  · cases e
  · exact absurd (by rw [← e]; simp) u'.2
  · cases e; exact ⟨rfl, mantissa_unique hm hm'⟩

theorem decimal_nonneg {s : Str} {neg : Bool} {x : ℝ} (h : Decimal s neg x) : 0 ≤ x := by
  obtain ⟨m, hm, -⟩ := h
  exact mantissa_nonneg hm

open Classical in
/-- A reader of decimal numbers. -/
@[reducible] noncomputable def decimalLib : F32Lib where
  recip := false
  parse s := if h : ∃ p : Bool × ℝ, Decimal s p.1 p.2 then some (F32.ofAbs h.choose.1 h.choose.2) else none
  disp _ := []
  cos a := a
  atan2 y x := F32.ofReal (quadrant (F32.val y) (F32.val x))
  rotate _ _ v := v
  rotate2 _ v := v

open Classical in
/-- The requirement on reading numbers can be met. -/
theorem decimalLib_reads : @DecimalText decimalLib := by
  let _ := decimalLib
  refine ⟨fun s neg x _ h => ?_⟩
  have hex : ∃ p : Bool × ℝ, Decimal s p.1 p.2 := ⟨(neg, x), h⟩
  have e := decimal_unique hex.choose_spec h
  change (if h : ∃ p : Bool × ℝ, Decimal s p.1 p.2 then some (F32.ofAbs h.choose.1 h.choose.2) else none) = _
  rw [dif_pos hex, e.1, e.2]

section
variable [F32Lib] [DecimalText]

/-- Multiples of a power of two are read exactly. -/
theorem numText_grid {g : Nat} {w : Str} {n : Int} (hg : g ≤ 30) (hn : n.natAbs ≤ 2 ^ 20) (h : NumText g w n) :
    ∃ a : F32, Arith.parse w = some a ∧ GridNum g a n := by
  obtain ⟨hw, neg, x, hd, hx⟩ := h
  refine ⟨_, DecimalText.reads w neg x hw hd, ?_⟩
  have h0 := decimal_nonneg hd
  have e : x = |(n : ℝ) * 2 ^ (-(g : Int))| := by
    have : (n : ℝ) * 2 ^ (-(g : Int)) = n / 2 ^ g := by rw [zpow_neg, zpow_natCast]; rfl
    rw [this, ← hx]
    cases neg <;> simp [abs_of_nonneg h0]
  have hr : Rep x := by rw [e]; exact rep_grid (by omega) (by omega) (by omega)
  obtain ⟨h1, h2⟩ := ofAbs_rep (s := neg) hr
  refine ⟨h1, ?_⟩
  rw [h2, ← hx]
  rfl

end
end Quarch
