import Verif.Spec.F32
import Mathlib.Analysis.SpecialFunctions.Pow.Real
/-
IEEE 754 binary32 follows the rounding rules and the rules for NaN.
-/
set_option linter.unusedSectionVars false
namespace Quarch.Spec.F32
open Classical

theorem nearest_err {x : ℝ} (h : 0 ≤ x) : |(nearest x : ℝ) - x| ≤ 1 / 2 := by
  have h1 := Nat.floor_le h
  have h2 := Nat.lt_floor_add_one x
  unfold nearest
  rw [abs_le]
  split_ifs <;> push_cast <;> constructor <;> linarith

theorem nearest_nat (n : Nat) : nearest (n : ℝ) = n := by simp [nearest]

theorem le_nearest {x : ℝ} {n : Nat} (h : (n : ℝ) ≤ x) : n ≤ nearest x := by
  have : n ≤ ⌊x⌋₊ := Nat.le_floor h
  unfold nearest
  split_ifs <;> omega

theorem nearest_le {x : ℝ} {n : Nat} (h0 : 0 ≤ x) (h : x < n) : nearest x ≤ n := by
  have : ⌊x⌋₊ < n := (Nat.floor_lt h0).2 h
  unfold nearest
  split_ifs <;> omega

theorem rep_nonneg {a : ℝ} (h : Rep a) : 0 ≤ a := by
  obtain ⟨m, e, -, -, -, rfl⟩ := h
  positivity

/-- Exponents and sizes. -/
theorem lt_pow_expo (x : ℝ) : x < 2 ^ (expo x + 24) := by
  have h1 : x < ((2 : Nat) : ℝ) ^ (Int.log 2 x + 1) := Int.lt_zpow_succ_log_self (by norm_num) x
  refine h1.trans_le ?_
  push_cast
  apply zpow_le_zpow_right₀ (by norm_num)
  unfold expo
  omega

theorem pow_expo_le {x : ℝ} (h : 0 < x) (he : expo x ≠ -149) : 2 ^ (expo x + 23) ≤ x := by
  have h1 : ((2 : Nat) : ℝ) ^ Int.log 2 x ≤ x := Int.zpow_log_le_self (by norm_num) h
  have e : expo x + 23 = Int.log 2 x := by unfold expo at *; omega
  rw [e]; exact_mod_cast h1

theorem expo_ge (x : ℝ) : -149 ≤ expo x := le_max_left _ _

theorem expo_ne {x : ℝ} (h : (2 : ℝ) ^ (-125 : Int) ≤ x) : expo x ≠ -149 := by
  intro he
  have := lt_pow_expo x
  rw [he] at this
  norm_num at this h
  linarith

theorem rnd_zero : rnd 0 = 0 := by simp [rnd, nearest]

theorem rnd_nonneg (x : ℝ) : 0 ≤ rnd x := by unfold rnd; positivity

/-- Rounding error in units of the last digit. -/
theorem rnd_ulp {x : ℝ} (h : 0 ≤ x) : |rnd x - x| ≤ 2 ^ expo x / 2 := by
  have hp : (0 : ℝ) < 2 ^ expo x := by positivity
  have e : rnd x - x = (nearest (x / 2 ^ expo x) - x / 2 ^ expo x) * 2 ^ expo x := by
    unfold rnd; field_simp
  rw [e, abs_mul, abs_of_pos hp]
  have := nearest_err (div_nonneg h hp.le)
  nlinarith

theorem ulp_le {x : ℝ} (h : 0 < x) (he : expo x ≠ -149) : (2 : ℝ) ^ expo x / 2 ≤ u * x := by
  have h1 := pow_expo_le h he
  rw [zpow_add₀ (by norm_num)] at h1
  have : (2 : ℝ) ^ (23 : Int) = 8388608 := by norm_num
  rw [this] at h1
  unfold u; linarith

theorem rnd_rel {x : ℝ} (h : 0 ≤ x) (he : x = 0 ∨ expo x ≠ -149) : |rnd x - x| ≤ u * x := by
  rcases he with rfl | he
  · simp [rnd_zero]
  rcases h.eq_or_lt with rfl | h0
  · simp [rnd_zero]
  exact (rnd_ulp h).trans (ulp_le h0 he)

theorem u_pos' : 0 < u := by unfold u; norm_num
theorem tiny_pos' : 0 < tiny := by unfold tiny; norm_num

theorem rnd_err {x : ℝ} (h : 0 ≤ x) : |rnd x - x| ≤ u * x + tiny := by
  by_cases he : expo x = -149
  · have := rnd_ulp h
    rw [he] at this
    have e : (2 : ℝ) ^ (-149 : Int) / 2 = tiny := by unfold tiny; norm_num
    rw [e] at this
    have := mul_nonneg u_pos'.le h
    linarith
  · have := rnd_rel h (.inr he)
    linarith [tiny_pos']

/-- Multiples of the smallest number are rounded with a relative error. -/
theorem rnd_grid {x : ℝ} (n : Nat) (h : x = n * 2 ^ (-149 : Int)) : |rnd x - x| ≤ u * x := by
  have h0 : 0 ≤ x := by rw [h]; positivity
  by_cases he : expo x = -149
  · have : rnd x = x := by
      unfold rnd
      rw [he, h, mul_div_assoc, div_self (by positivity), mul_one, nearest_nat]
    rw [this]; simp; exact mul_nonneg u_pos'.le h0
  · exact rnd_rel h0 (.inr he)

/-- Results below the overflow threshold are numbers of the format. -/
theorem rep_rnd {x : ℝ} (h : 0 ≤ x) (hr : rnd x < 2 ^ (128 : Int)) : Rep (rnd x) := by
  rcases h.eq_or_lt with rfl | h0
  · rw [rnd_zero]; exact rep_zero
  have hp : (0 : ℝ) < 2 ^ expo x := by positivity
  have hlt : x / 2 ^ expo x < ((2 ^ 24 : Nat) : ℝ) := by
    rw [div_lt_iff₀ hp]
    have := lt_pow_expo x
    rw [zpow_add₀ (by norm_num)] at this
    norm_num at this ⊢
    linarith
  have hle : nearest (x / 2 ^ expo x) ≤ 2 ^ 24 := nearest_le (div_nonneg h hp.le) hlt
  have hge := expo_ge x
  have hexp : expo x ≠ -149 → expo x ≤ 104 := by
    intro he
    by_contra hc
    have h2 : ((2 ^ 23 : Nat) : ℝ) ≤ x / 2 ^ expo x := by
      rw [le_div_iff₀ hp]
      have := pow_expo_le h0 he
      rw [zpow_add₀ (by norm_num)] at this
      norm_num at this ⊢
      linarith
    have h3 : 2 ^ 23 ≤ nearest (x / 2 ^ expo x) := le_nearest h2
    have h4 : ((2 ^ 23 : Nat) : ℝ) * 2 ^ expo x ≤ rnd x := by
      unfold rnd
      exact mul_le_mul_of_nonneg_right (by exact_mod_cast h3) hp.le
    have h5 : (2 : ℝ) ^ (105 : Int) ≤ 2 ^ expo x := zpow_le_zpow_right₀ (by norm_num) (by omega)
    norm_num at h4 h5 hr
    linarith
  rcases hle.lt_or_eq with hl | heq
  · refine ⟨_, expo x, hl, hge, ?_, rfl⟩
    by_cases he : expo x = -149
    · omega
    · exact hexp he
  · refine ⟨2 ^ 23, expo x + 1, by norm_num, by omega, ?_, ?_⟩
    · by_cases he : expo x = -149
      · omega
      · have h6 := hexp he
        by_contra hc
        have h7 : expo x = 104 := by omega
        unfold rnd at hr
        rw [heq, h7] at hr
        norm_num at hr
    · unfold rnd
      rw [heq, zpow_add₀ (by norm_num)]
      norm_num
      ring

theorem rep_of_le {x : ℝ} (h : 0 ≤ x) (hl : x ≤ large) : Rep (rnd x) := by
  refine rep_rnd h ?_
  have h1 := (abs_le.1 (rnd_err h)).2
  unfold u tiny at h1
  unfold large at hl
  norm_num at h1 hl ⊢
  linarith

@[simp] theorem sv_abs (s : Bool) {a : ℝ} (h : 0 ≤ a) : |sv s a| = a := by
  cases s <;> simp [sv, abs_of_nonneg h]

theorem ofAbs_fin {s : Bool} {x : ℝ} : isFin (ofAbs s x) ↔ Rep (rnd x) := by
  unfold ofAbs; split_ifs with h <;> simp [isFin, h]

theorem ofAbs_val {s : Bool} {x : ℝ} (h : isFin (ofAbs s x)) : val (ofAbs s x) = sv s (rnd x) := by
  have h' := ofAbs_fin.1 h
  unfold ofAbs; rw [dif_pos h']; rfl

theorem sv_sub (s : Bool) (a b : ℝ) : |sv s a - sv s b| = |a - b| := by
  cases s
  · simp [sv]
  · simp only [sv, if_true]; rw [← abs_neg]; congr 1; ring

theorem ofReal_abs (x : ℝ) : sv (decide (x < 0)) |x| = x := by
  by_cases h : x < 0
  · simp [sv, h, abs_of_neg h]
  · simp [sv, h, abs_of_nonneg (not_lt.1 h)]

theorem ofReal_val {x : ℝ} (h : isFin (ofReal x)) : |val (ofReal x) - x| = |rnd (|x|) - (|x|)| := by
  unfold ofReal at *
  rw [ofAbs_val h]
  have e : |sv (decide (x < 0)) (rnd (|x|)) - x| =
      |sv (decide (x < 0)) (rnd (|x|)) - sv (decide (x < 0)) (|x|)| := by rw [ofReal_abs x]
  rw [e, sv_sub]

theorem sv_mul (s t : Bool) (a b : ℝ) : sv s a * sv t b = sv (xor s t) (a * b) := by
  cases s <;> cases t <;> simp [sv]

theorem sv_div (s t : Bool) (a b : ℝ) : sv s a / sv t b = sv (xor s t) (a / b) := by
  cases s <;> cases t <;> simp [sv, neg_div, div_neg]

/-- Finite numbers are multiples of the smallest positive number. -/
theorem grid {s : Bool} {a : ℝ} (h : Rep a) : ∃ n : Int, sv s a = n * 2 ^ (-149 : Int) := by
  obtain ⟨m, e, -, he, -, rfl⟩ := h
  obtain ⟨k, hk⟩ := Int.eq_ofNat_of_zero_le (show 0 ≤ e + 149 by omega)
  have e1 : e = (k : Int) + (-149) := by omega
  refine ⟨if s then -(m * 2 ^ k) else m * 2 ^ k, ?_⟩
  rw [e1, zpow_add₀ (by norm_num), zpow_natCast]
  cases s <;> simp [sv] <;> ring

theorem abs_grid {x : ℝ} (n : Int) (h : x = n * 2 ^ (-149 : Int)) : |rnd (|x|) - (|x|)| ≤ u * |x| := by
  refine rnd_grid n.natAbs ?_
  rw [h, abs_mul, abs_of_pos (show (0 : ℝ) < 2 ^ (-149 : Int) by positivity)]
  congr 1
  rw [Nat.cast_natAbs, Int.cast_abs]

variable [F32Lib]

theorem add_fin (a b : F32) (h : isFin (add a b)) : isFin a ∧ isFin b := by
  cases a <;> cases b <;> simp only [add] at h <;> first | exact ⟨trivial, trivial⟩ | (exfalso; revert h; try split_ifs) <;> simp [isFin]

theorem add_ok (a b : F32) (ha : isFin a) (hb : isFin b) (h : |val a + val b| ≤ large) : isFin (add a b) := by
  cases a <;> cases b <;> simp only [isFin] at ha hb
  simp only [add, val] at *
  split_ifs
  · trivial
  · exact ofAbs_fin.2 (rep_of_le (abs_nonneg _) h)

theorem add_val (a b : F32) (h : isFin (add a b)) : |val (add a b) - (val a + val b)| ≤ u * |val a + val b| := by
  obtain ⟨ha, hb⟩ := add_fin a b h
  rcases a with _ | _ | ⟨s, a, ra⟩ <;> rcases b with _ | _ | ⟨t, b, rb⟩ <;> simp only [isFin] at ha hb
  simp only [add] at h ⊢
  by_cases hz : sv s a + sv t b = 0
  · simp only [val, hz]
    cases s <;> cases t <;> simp [sv]
  · simp only [if_neg hz] at h ⊢
    rw [show val (num s a ra) = sv s a from rfl, show val (num t b rb) = sv t b from rfl, ofReal_val h]
    obtain ⟨m, hm⟩ := grid (s := s) ra
    obtain ⟨n, hn⟩ := grid (s := t) rb
    exact abs_grid (m + n) (by rw [hm, hn]; push_cast; ring)

theorem neg_fin (a : F32) : isFin (neg a) ↔ isFin a := by cases a <;> simp [neg, isFin]

theorem neg_val (a : F32) : val (neg a) = - val a := by
  rcases a with _ | _ | ⟨s, a, ra⟩ <;> simp [neg, val]
  cases s <;> simp [sv]

theorem mul_fin (a b : F32) (h : isFin (mul a b)) : isFin a ∧ isFin b := by
  cases a <;> cases b <;> simp only [mul] at h <;> first | exact ⟨trivial, trivial⟩ | (exfalso; revert h; try split_ifs) <;> simp [isFin]

theorem mul_ok (a b : F32) (ha : isFin a) (hb : isFin b) (h : |val a * val b| ≤ large) : isFin (mul a b) := by
  rcases a with _ | _ | ⟨s, a, ra⟩ <;> rcases b with _ | _ | ⟨t, b, rb⟩ <;> simp only [isFin] at ha hb
  have h0 : 0 ≤ a * b := mul_nonneg (rep_nonneg ra) (rep_nonneg rb)
  simp only [mul, val] at *
  rw [sv_mul, sv_abs _ h0] at h
  exact ofAbs_fin.2 (rep_of_le h0 h)

theorem mul_val (a b : F32) (h : isFin (mul a b)) :
    |val (mul a b) - val a * val b| ≤ u * |val a * val b| + tiny := by
  obtain ⟨ha, hb⟩ := mul_fin a b h
  rcases a with _ | _ | ⟨s, a, ra⟩ <;> rcases b with _ | _ | ⟨t, b, rb⟩ <;> simp only [isFin] at ha hb
  have h0 : 0 ≤ a * b := mul_nonneg (rep_nonneg ra) (rep_nonneg rb)
  simp only [mul] at h ⊢
  rw [show val (num s a ra) = sv s a from rfl, show val (num t b rb) = sv t b from rfl, ofAbs_val h, sv_mul,
    sv_sub, sv_abs _ h0]
  exact rnd_err h0

theorem div_fin (a b : F32) (h : isFin (div a b)) : isFin a := by
  cases a <;> cases b <;> trivial

theorem div_ok (a b : F32) (ha : isFin a) (hb : isFin b) (hz : val b ≠ 0) (h : |val a / val b| ≤ large) :
    isFin (div a b) := by
  rcases a with _ | _ | ⟨s, a, ra⟩ <;> rcases b with _ | _ | ⟨t, b, rb⟩ <;> simp only [isFin] at ha hb
  have h0 : 0 ≤ a / b := div_nonneg (rep_nonneg ra) (rep_nonneg rb)
  simp only [div, val] at *
  have hb0 : b ≠ 0 := by rintro rfl; apply hz; cases t <;> simp [sv]
  rw [if_neg hb0]
  rw [sv_div, sv_abs _ h0] at h
  exact ofAbs_fin.2 (rep_of_le h0 h)

theorem div_ne (a b : F32) (h : isFin (div a b)) (hb : isFin b) : val b ≠ 0 := by
  have ha := div_fin a b h
  rcases a with _ | _ | ⟨s, a, ra⟩ <;> rcases b with _ | _ | ⟨t, b, rb⟩ <;> simp only [isFin] at ha hb
  simp only [div] at h
  intro hz
  have hb0 : b = 0 := by cases t <;> simpa [val, sv] using hz
  rw [if_pos hb0] at h
  split_ifs at h <;> simp [isFin] at h

theorem div_val (a b : F32) (h : isFin (div a b)) (hb : isFin b) :
    |val (div a b) - val a / val b| ≤ u * |val a / val b| + tiny := by
  have ha := div_fin a b h
  have hz := div_ne a b h hb
  rcases a with _ | _ | ⟨s, a, ra⟩ <;> rcases b with _ | _ | ⟨t, b, rb⟩ <;> simp only [isFin] at ha hb
  have h0 : 0 ≤ a / b := div_nonneg (rep_nonneg ra) (rep_nonneg rb)
  have hb0 : b ≠ 0 := by rintro rfl; apply hz; cases t <;> simp [val, sv]
  simp only [div, if_neg hb0] at h ⊢
  rw [show val (num s a ra) = sv s a from rfl, show val (num t b rb) = sv t b from rfl, ofAbs_val h, sv_div,
    sv_sub, sv_abs _ h0]
  exact rnd_err h0

theorem abs_fin (a : F32) : isFin (abs a) ↔ isFin a := by cases a <;> simp [abs, isFin]

theorem abs_val (a : F32) : val (abs a) = |val a| := by
  rcases a with _ | _ | ⟨s, a, ra⟩
  · simp [abs, val]
  · simp [abs, val]
  · simp only [abs, val, sv_abs _ (rep_nonneg ra)]; simp [sv]

theorem rep_le {a : ℝ} (h : Rep a) : a ≤ 2 ^ (128 : Int) := by
  obtain ⟨m, e, hm, -, he, rfl⟩ := h
  have h1 : (2 : ℝ) ^ e ≤ 2 ^ (104 : Int) := zpow_le_zpow_right₀ (by norm_num) he
  have h2 : (m : ℝ) ≤ 2 ^ 24 := by exact_mod_cast hm.le
  refine (mul_le_mul h2 h1 (by positivity) (by positivity)).trans ?_
  norm_num

theorem rep_ge {a : ℝ} (h : Rep a) (h0 : a ≠ 0) : (2 : ℝ) ^ (-149 : Int) ≤ a := by
  obtain ⟨m, e, -, he, -, rfl⟩ := h
  have hm : 1 ≤ m := by
    rcases Nat.eq_zero_or_pos m with rfl | h
    · simp at h0
    · exact h
  have h1 : (2 : ℝ) ^ (-149 : Int) ≤ 2 ^ e := zpow_le_zpow_right₀ (by norm_num) he
  have h2 : (1 : ℝ) ≤ m := by exact_mod_cast hm
  have h3 : (0 : ℝ) < 2 ^ e := by positivity
  nlinarith

theorem sqrt_rep {a : ℝ} (h : Rep a) : Rep (rnd (Real.sqrt a)) := by
  refine rep_of_le (Real.sqrt_nonneg _) ?_
  have h1 := rep_le h
  rw [Real.sqrt_le_left (by unfold large; positivity)]
  refine h1.trans ?_
  unfold large; norm_num

theorem sqrt_expo {a : ℝ} (h : Rep a) (h0 : a ≠ 0) : expo (Real.sqrt a) ≠ -149 := by
  apply expo_ne
  apply Real.le_sqrt_of_sq_le
  refine le_trans ?_ (rep_ge h h0)
  norm_num

theorem sqrt_fin (a : F32) : isFin (sqrt a) ↔ isFin a ∧ 0 ≤ val a := by
  rcases a with _ | s | ⟨s, a, ra⟩
  · simp [sqrt, isFin]
  · cases s <;> simp [sqrt, isFin]
  · have h0 := rep_nonneg ra
    simp only [sqrt]
    by_cases hz : a = 0
    · subst hz; simp [isFin, val, sv]
    · have hp : 0 < a := lt_of_le_of_ne h0 (Ne.symm hz)
      rw [if_neg hz]
      cases s
      · simp [isFin, val, sv, h0]
        exact ofAbs_fin.2 (sqrt_rep ra)
      · simp [isFin, val, sv, hp]

theorem sqrt_val (a : F32) (h : isFin (sqrt a)) :
    |val (sqrt a) - Real.sqrt (val a)| ≤ u * Real.sqrt (val a) := by
  obtain ⟨ha, hp⟩ := (sqrt_fin a).1 h
  rcases a with _ | s | ⟨s, a, ra⟩ <;> simp only [isFin] at ha
  simp only [sqrt] at h ⊢
  by_cases hz : a = 0
  · subst hz; cases s <;> simp [val, sv]
  · have hp' : 0 < a := lt_of_le_of_ne (rep_nonneg ra) (Ne.symm hz)
    cases s
    · simp only [if_neg hz, Bool.false_eq_true, if_false] at h ⊢
      rw [ofAbs_val h]
      simp only [val, sv, Bool.false_eq_true, if_false]
      exact rnd_rel (Real.sqrt_nonneg _) (.inr (sqrt_expo ra hz))
    · simp only [val, sv, if_true] at hp; linarith

theorem rel_fin (r : EReal → EReal → Prop) (a b : F32) (ha : isFin a) (hb : isFin b) :
    rel r a b = true ↔ r (val a : EReal) (val b : EReal) := by
  rcases a with _ | _ | ⟨s, a, ra⟩ <;> rcases b with _ | _ | ⟨t, b, rb⟩ <;> simp only [isFin] at ha hb
  simp [rel, ext, val]

theorem lit {x : ℝ} (h : (2 : ℝ) ^ (-125 : Int) ≤ x) (hl : x ≤ large) :
    isFin (ofReal x) ∧ |val (ofReal x) - x| ≤ u * x := by
  have h0 : 0 ≤ x := le_trans (by positivity) h
  have hf : isFin (ofReal x) := ofAbs_fin.2 (rep_of_le (abs_nonneg _) (by rwa [abs_of_nonneg h0]))
  refine ⟨hf, ?_⟩
  rw [ofReal_val hf, abs_of_nonneg h0]
  exact rnd_rel h0 (.inr (expo_ne h))

/-- IEEE 754 single precision follows the rounding rules. -/
noncomputable instance rounding : Rounding F32 where
  Fin := isFin
  val := val
  sqrt := sqrt
  recip := F32Lib.recip
  zero_fin := trivial
  zero_val := by simp [Arith.zero, val, sv]
  one_fin := trivial
  one_val := by simp [Arith.one, val, sv]
  ofNat_fin n h := ofAbs_fin.2 (rep_of_le (Nat.cast_nonneg _) h)
  ofNat_val n h := by
    have e : val (Arith.ofNat n : F32) = rnd n := by
      have : val (Arith.ofNat n : F32) = sv false (rnd n) := ofAbs_val h
      rw [this]; simp [sv]
    rw [e]
    rcases Nat.eq_zero_or_pos n with rfl | hn
    · simp [rnd_zero]
    · refine rnd_rel (Nat.cast_nonneg _) (.inr (expo_ne ?_))
      have : (1 : ℝ) ≤ n := by exact_mod_cast hn
      refine le_trans ?_ this
      norm_num
  eps_fin := (lit (by norm_num) (by unfold large; norm_num)).1
  eps_val := (lit (by norm_num) (by unfold large; norm_num)).2
  add_fin := add_fin
  add_ok := add_ok
  add_val := add_val
  sub_fin a b h := by
    obtain ⟨h1, h2⟩ := add_fin a (neg b) h
    exact ⟨h1, (neg_fin b).1 h2⟩
  sub_ok a b ha hb h := add_ok a (neg b) ha ((neg_fin b).2 hb) (by rw [neg_val, ← sub_eq_add_neg]; exact h)
  sub_val a b h := by
    have := add_val a (neg b) h
    rw [neg_val, ← sub_eq_add_neg] at this
    exact this
  mul_fin := mul_fin
  mul_ok := mul_ok
  mul_val := mul_val
  div_fin := div_fin
  div_ok := div_ok
  div_ne := div_ne
  div_val := div_val
  neg_fin := neg_fin
  neg_val := neg_val
  abs_fin := abs_fin
  abs_val := abs_val
  sqrt_fin := sqrt_fin
  sqrt_val := sqrt_val
  lt_val a b ha hb := by
    have := rel_fin (· < ·) a b ha hb
    rw [EReal.coe_lt_coe_iff] at this
    exact this
  le_val a b ha hb := by
    have := rel_fin (· ≤ ·) a b ha hb
    rw [EReal.coe_le_coe_iff] at this
    exact this
  dot_eq _ _ := rfl
  cross_eq _ _ := rfl
  normalize_eq _ := rfl

theorem rel_eq (a b : F32) : rel (· = ·) a b = true ↔ ∃ x, ext a = some x ∧ ext b = some x := by
  unfold rel
  rcases ext a with _ | x <;> rcases ext b with _ | y <;> simp [eq_comm]

/-- Equality of single precision numbers is symmetric and transitive (but not reflexive). -/
instance lawful : LawfulEq F32 where
  symm a b h := by
    obtain ⟨x, h1, h2⟩ := (rel_eq a b).1 h
    exact (rel_eq b a).2 ⟨x, h2, h1⟩
  trans a b c h h' := by
    obtain ⟨x, h1, h2⟩ := (rel_eq a b).1 h
    obtain ⟨y, h3, h4⟩ := (rel_eq b c).1 h'
    rw [h2] at h3; cases h3
    exact (rel_eq a c).2 ⟨x, h1, h4⟩

theorem rel_nan_left (r : EReal → EReal → Prop) (b : F32) : rel r nan b = false := rfl
theorem rel_nan_right (r : EReal → EReal → Prop) (a : F32) : rel r a nan = false := by
  cases a <;> rfl

theorem isNaN_iff {a : F32} : isNaN a ↔ a = nan := by cases a <;> simp [isNaN]

theorem add_nan (a : F32) : add a nan = nan := by cases a <;> rfl
theorem mul_nan (a : F32) : mul a nan = nan := by cases a <;> rfl
theorem nan_add (a : F32) : add nan a = nan := by cases a <;> rfl
theorem nan_mul (a : F32) : mul nan a = nan := by cases a <;> rfl

theorem normalize_zero_nan : normalize ⟨num false 0 rep_zero, num false 0 rep_zero, num false 0 rep_zero⟩ =
    ⟨nan, nan, nan⟩ := by
  have e1 : mul (num false 0 rep_zero) (num false 0 rep_zero) = num false 0 rep_zero := by
    simp [mul, ofAbs, rnd_zero, rep_zero]
  have e2 : add (num false 0 rep_zero) (num false 0 rep_zero) = num false 0 rep_zero := by
    simp [add, sv]
  have e3 : sqrt (dot ⟨num false 0 rep_zero, num false 0 rep_zero, num false 0 rep_zero⟩
      ⟨num false 0 rep_zero, num false 0 rep_zero, num false 0 rep_zero⟩) = num false 0 rep_zero := by
    simp [dot, e1, e2, sqrt]
  unfold normalize
  rw [e3]
  split_ifs <;> simp [div, mul]

/-- Single precision follows the rules for NaN. -/
instance nanRules : NaNRules F32 where
  isNaN := isNaN
  lt_left a b h := by rw [isNaN_iff.1 h]; rfl
  lt_right a b h := by rw [isNaN_iff.1 h]; exact rel_nan_right _ _
  le_left a b h := by rw [isNaN_iff.1 h]; rfl
  eq_left a b h := by rw [isNaN_iff.1 h]; rfl
  eq_right a b h := by rw [isNaN_iff.1 h]; exact rel_nan_right _ _
  add_left a b h := by rw [isNaN_iff.1 h]; exact isNaN_iff.2 (nan_add b)
  add_right a b h := by rw [isNaN_iff.1 h]; exact isNaN_iff.2 (add_nan a)
  sub_left a b h := by rw [isNaN_iff.1 h]; exact isNaN_iff.2 (nan_add (neg b))
  sub_right a b h := by rw [isNaN_iff.1 h]; exact isNaN_iff.2 (add_nan a)
  mul_left a b h := by rw [isNaN_iff.1 h]; exact isNaN_iff.2 (nan_mul b)
  div_left a b h := by rw [isNaN_iff.1 h]; cases b <;> trivial
  abs_nan a h := by rw [isNaN_iff.1 h]; trivial
  dot_left a b h := by
    obtain ⟨h1, h2, h3⟩ := h
    refine isNaN_iff.2 ?_
    show add (add (mul a.x b.x) (mul a.y b.y)) (mul a.z b.z) = nan
    rw [isNaN_iff.1 h3, nan_mul, add_nan]
  dot_right a b h := by
    obtain ⟨h1, h2, h3⟩ := h
    refine isNaN_iff.2 ?_
    show add (add (mul a.x b.x) (mul a.y b.y)) (mul a.z b.z) = nan
    rw [isNaN_iff.1 h3, mul_nan, add_nan]
  cross_left a b h := by
    obtain ⟨h1, h2, h3⟩ := h
    refine ⟨isNaN_iff.2 ?_, isNaN_iff.2 ?_, isNaN_iff.2 ?_⟩
    · show sub (mul a.y b.z) (mul a.z b.y) = nan
      rw [isNaN_iff.1 h2, nan_mul]; exact nan_add _
    · show sub (mul a.z b.x) (mul a.x b.z) = nan
      rw [isNaN_iff.1 h3, nan_mul]; exact nan_add _
    · show sub (mul a.x b.y) (mul a.y b.x) = nan
      rw [isNaN_iff.1 h1, nan_mul]; exact nan_add _
  cross_right a b h := by
    obtain ⟨h1, h2, h3⟩ := h
    refine ⟨isNaN_iff.2 ?_, isNaN_iff.2 ?_, isNaN_iff.2 ?_⟩
    · show sub (mul a.y b.z) (mul a.z b.y) = nan
      rw [isNaN_iff.1 h3, mul_nan]; exact nan_add _
    · show sub (mul a.z b.x) (mul a.x b.z) = nan
      rw [isNaN_iff.1 h1, mul_nan]; exact nan_add _
    · show sub (mul a.x b.y) (mul a.y b.x) = nan
      rw [isNaN_iff.1 h2, mul_nan]; exact nan_add _
  normalize_zero := by
    have e : Arith.normalize (⟨Arith.zero, Arith.zero, Arith.zero⟩ : V3 F32) = ⟨nan, nan, nan⟩ := normalize_zero_nan
    rw [e]
    exact ⟨trivial, trivial, trivial⟩

end Quarch.Spec.F32
