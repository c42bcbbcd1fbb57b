import Verif.Proofs.F32
import Verif.Props.Flat
/-
Sizes of single precision results: bounded numbers, and the three kinds of direction vectors.
-/
set_option linter.unusedSectionVars false
namespace Quarch
open Quarch.Spec
namespace Spec.F32
variable [F32Lib]

/-- A finite number of at most this size. -/
def Bd (B : ℝ) (a : F32) : Prop := isFin a ∧ |val a| ≤ B

theorem Bd.mono {A B : ℝ} {a : F32} (h : Bd A a) (hAB : A ≤ B) : Bd B a := ⟨h.1, h.2.trans hAB⟩

theorem bd_add {A B C : ℝ} {a b : F32} (ha : Bd A a) (hb : Bd B b) (hC : 2 * (A + B) ≤ C) (hl : A + B ≤ large) :
    Bd C (add a b) := by
  have h1 : |val a + val b| ≤ A + B := (abs_add_le _ _).trans (add_le_add ha.2 hb.2)
  have hf := add_ok a b ha.1 hb.1 (h1.trans hl)
  refine ⟨hf, ?_⟩
  have h2 := Err.abs_le_of (add_val a b hf)
  have hu : u ≤ 1 := by unfold u; norm_num
  nlinarith [abs_nonneg (val a + val b)]

theorem bd_neg {A : ℝ} {a : F32} (ha : Bd A a) : Bd A (neg a) :=
  ⟨(neg_fin a).2 ha.1, by rw [neg_val, abs_neg]; exact ha.2⟩

theorem bd_sub {A B C : ℝ} {a b : F32} (ha : Bd A a) (hb : Bd B b) (hC : 2 * (A + B) ≤ C) (hl : A + B ≤ large) :
    Bd C (sub a b) := bd_add ha (bd_neg hb) hC hl

theorem bd_mul {A B C : ℝ} {a b : F32} (ha : Bd A a) (hb : Bd B b) (hC : 2 * (A * B) + 1 ≤ C) (hl : A * B ≤ large) :
    Bd C (mul a b) := by
  have h1 : |val a * val b| ≤ A * B := by
    rw [abs_mul]
    exact mul_le_mul ha.2 hb.2 (abs_nonneg _) ((abs_nonneg _).trans ha.2)
  have hf := mul_ok a b ha.1 hb.1 (h1.trans hl)
  refine ⟨hf, ?_⟩
  have h2 := Err.abs_le_of (mul_val a b hf)
  have hu : u ≤ 1 := by unfold u; norm_num
  have ht : tiny ≤ 1 := by unfold tiny; norm_num
  nlinarith [abs_nonneg (val a * val b)]

theorem bd_div {A m C : ℝ} {a b : F32} (ha : Bd A a) (hb : isFin b) (hm : 0 < m) (hbm : m ≤ |val b|)
    (hC : 2 * (A / m) + 1 ≤ C) (hl : A / m ≤ large) : Bd C (div a b) := by
  have h0 : val b ≠ 0 := by intro h; rw [h, abs_zero] at hbm; linarith
  have h1 : |val a / val b| ≤ A / m := by
    rw [abs_div]
    exact div_le_div₀ ((abs_nonneg _).trans ha.2) ha.2 hm hbm
  have hf := div_ok a b ha.1 hb h0 (h1.trans hl)
  refine ⟨hf, ?_⟩
  have h2 := Err.abs_le_of (div_val a b hf hb)
  have hu : u ≤ 1 := by unfold u; norm_num
  have ht : tiny ≤ 1 := by unfold tiny; norm_num
  nlinarith [abs_nonneg (val a / val b)]

/-- All coordinates are bounded. -/
def BdV (B : ℝ) (v : V3 F32) : Prop := Bd B v.x ∧ Bd B v.y ∧ Bd B v.z

/-- Some coordinate is not a number. -/
def SomeNaN (v : V3 F32) : Prop := v.x = nan ∨ v.y = nan ∨ v.z = nan

/-- All coordinates are infinite. -/
def AllInf (v : V3 F32) : Prop := (∃ s, v.x = inf s) ∧ (∃ s, v.y = inf s) ∧ ∃ s, v.z = inf s

theorem bd_dot {A B C : ℝ} {a b : V3 F32} (ha : BdV A a) (hb : BdV B b) (hAB : 0 ≤ A * B)
    (hC : 20 * (A * B) + 10 ≤ C) (hl : 20 * (A * B) + 10 ≤ large) : Bd C (dot a b) := by
  have m1 := bd_mul ha.1 hb.1 (le_refl (2 * (A * B) + 1)) (by linarith)
  have m2 := bd_mul ha.2.1 hb.2.1 (le_refl (2 * (A * B) + 1)) (by linarith)
  have m3 := bd_mul ha.2.2 hb.2.2 (le_refl (2 * (A * B) + 1)) (by linarith)
  have s1 := bd_add m1 m2 (C := 2 * (2 * (A * B) + 1 + (2 * (A * B) + 1))) le_rfl (by linarith)
  exact bd_add s1 m3 (by linarith) (by linarith)

theorem bd_cross {A B C : ℝ} {a b : V3 F32} (ha : BdV A a) (hb : BdV B b) (hAB : 0 ≤ A * B)
    (hC : 8 * (A * B) + 4 ≤ C) (hl : 8 * (A * B) + 4 ≤ large) : BdV C (cross a b) := by
  have m : ∀ {p q : F32}, Bd A p → Bd B q → Bd (2 * (A * B) + 1) (mul p q) := fun hp hq =>
    bd_mul hp hq (le_refl _) (by linarith)
  exact ⟨bd_sub (m ha.2.1 hb.2.2) (m ha.2.2 hb.2.1) (by linarith) (by linarith),
    bd_sub (m ha.2.2 hb.1) (m ha.1 hb.2.2) (by linarith) (by linarith),
    bd_sub (m ha.1 hb.2.1) (m ha.2.1 hb.1) (by linarith) (by linarith)⟩

theorem dot_nan_left {a b : V3 F32} (h : SomeNaN a) : dot a b = nan := by
  unfold dot
  rcases h with h | h | h <;> rw [h] <;> simp [nan_mul, nan_add, add_nan]

theorem dot_nan_right {a b : V3 F32} (h : SomeNaN b) : dot a b = nan := by
  unfold dot
  rcases h with h | h | h <;> rw [h] <;> simp [mul_nan, nan_add, add_nan]

theorem sub_nan_left (a : F32) : sub nan a = nan := nan_add _
theorem sub_nan_right (a : F32) : sub a nan = nan := add_nan _
theorem nan_div (a : F32) : div nan a = nan := by cases a <;> rfl
theorem div_nan (a : F32) : div a nan = nan := by cases a <;> rfl

theorem cross_nan_left {a b : V3 F32} (h : SomeNaN a) : SomeNaN (cross a b) := by
  unfold cross SomeNaN
  rcases h with h | h | h <;> rw [h] <;> simp [nan_mul, sub_nan_left, sub_nan_right]

theorem cross_nan_right {a b : V3 F32} (h : SomeNaN b) : SomeNaN (cross a b) := by
  unfold cross SomeNaN
  rcases h with h | h | h <;> rw [h] <;> simp [mul_nan, sub_nan_left, sub_nan_right]

/-- Sign bit. -/
def sgn : F32 → Bool
  | nan => false
  | inf s => s
  | num s _ _ => s

theorem inf_mul_cases (s : Bool) (b : F32) : mul (inf s) b = nan ∨ mul (inf s) b = inf (xor s (sgn b)) := by
  rcases b with _ | t | ⟨t, b, rb⟩
  · exact .inl rfl
  · exact .inr rfl
  · simp only [mul, sgn]
    by_cases h : b = 0 <;> simp [h]

theorem mul_comm_nan (a b : F32) : mul a b = mul b a := by
  rcases a with _ | s | ⟨s, a, ra⟩ <;> rcases b with _ | t | ⟨t, b, rb⟩ <;>
    first
    | rfl
    | (simp only [mul]; rw [Bool.xor_comm s t, mul_comm a b])
    | (simp only [mul]; rw [Bool.xor_comm])

/-- The vector product with a vector of infinities has a coordinate that is not a number. -/
theorem cross_inf_left {a b : V3 F32} (h : AllInf a) : SomeNaN (cross a b) := by
  obtain ⟨⟨s, hx⟩, ⟨t, hy⟩, r, hz⟩ := h
  unfold cross SomeNaN
  rw [hx, hy, hz]
  simp only
  rcases inf_mul_cases s b.y with h1 | h1
  · right; right; rw [h1, sub_nan_left]
  rcases inf_mul_cases s b.z with h2 | h2
  · right; left; rw [h2, sub_nan_right]
  rcases inf_mul_cases t b.x with h3 | h3
  · right; right; rw [h3, sub_nan_right]
  rcases inf_mul_cases t b.z with h4 | h4
  · left; rw [h4, sub_nan_left]
  rcases inf_mul_cases r b.x with h5 | h5
  · right; left; rw [h5, sub_nan_left]
  rcases inf_mul_cases r b.y with h6 | h6
  · left; rw [h6, sub_nan_right]
  rw [h1, h2, h3, h4, h5, h6]
  generalize sgn b.x = p
  generalize sgn b.y = q
  generalize sgn b.z = w
  cases s <;> cases t <;> cases r <;> cases p <;> cases q <;> cases w <;> simp [sub, neg, add]

theorem cross_inf_right {a b : V3 F32} (h : AllInf b) : SomeNaN (cross a b) := by
  obtain ⟨⟨s, hx⟩, ⟨t, hy⟩, r, hz⟩ := h
  unfold cross SomeNaN
  rw [hx, hy, hz]
  simp only [mul_comm_nan _ (inf _)]
  rcases inf_mul_cases s a.y with h1 | h1
  · right; right; rw [h1, sub_nan_right]
  rcases inf_mul_cases s a.z with h2 | h2
  · right; left; rw [h2, sub_nan_left]
  rcases inf_mul_cases t a.x with h3 | h3
  · right; right; rw [h3, sub_nan_left]
  rcases inf_mul_cases t a.z with h4 | h4
  · left; rw [h4, sub_nan_right]
  rcases inf_mul_cases r a.x with h5 | h5
  · right; left; rw [h5, sub_nan_right]
  rcases inf_mul_cases r a.y with h6 | h6
  · left; rw [h6, sub_nan_left]
  rw [h1, h2, h3, h4, h5, h6]
  generalize sgn a.x = p
  generalize sgn a.y = q
  generalize sgn a.z = w
  cases s <;> cases t <;> cases r <;> cases p <;> cases q <;> cases w <;> simp [sub, neg, add]

/-- The coordinates of a vector are not much larger than its computed length. -/
theorem coord_le_len {w : V3 F32} (hd : isFin (dot w w)) (h0 : val (dot w w) ≠ 0) :
    isFin w.x ∧ isFin w.y ∧ isFin w.z ∧ (2 : ℝ) ^ (-149 : Int) ≤ val (dot w w) ∧
    ∀ a ∈ [w.x, w.y, w.z], val a * val a ≤ 5 * val (dot w w) := by
  have hd0 := hd
  unfold dot at hd
  obtain ⟨hxy, hz⟩ := add_fin _ _ hd
  obtain ⟨hx, hy⟩ := add_fin _ _ hxy
  have nx := mul_self_nonneg' w.x
  have ny := mul_self_nonneg' w.y
  have nz := mul_self_nonneg' w.z
  have l1 := add_lower hxy nx ny
  have l2 := add_lower hd (by linarith) nz
  change _ ≤ val (dot w w) at l2
  have hn : 0 ≤ val (dot w w) := by linarith
  have hge : (2 : ℝ) ^ (-149 : Int) ≤ val (dot w w) := by
    rcases h : dot w w with _ | s | ⟨s, a, ra⟩
    · rw [h] at hd0; exact absurd hd0 (by simp [isFin])
    · rw [h] at hd0; exact absurd hd0 (by simp [isFin])
    · rw [h] at h0 hn
      cases s
      · simp only [val, sv, Bool.false_eq_true, if_false] at h0 hn ⊢
        exact rep_ge ra h0
      · simp only [val, sv, if_true] at h0 hn
        have := rep_nonneg ra
        exfalso; apply h0; linarith
  refine ⟨(mul_fin _ _ hx).1, (mul_fin _ _ hy).1, (mul_fin _ _ hz).1, hge, ?_⟩
  have key : ∀ {a : F32}, isFin (mul a a) → val (mul a a) ≤ 4 * val (dot w w) → val a * val a ≤ 5 * val (dot w w) := by
    intro a ha h4
    have h2 := (abs_le.1 (mul_val a a ha)).1
    rw [abs_of_nonneg (mul_self_nonneg (val a))] at h2
    have hu : u ≤ 1 / 100 := by unfold u; norm_num
    have ht : 2 * tiny ≤ val (dot w w) := le_trans (by unfold tiny; norm_num) hge
    have h5 : u * (val a * val a) ≤ 1 / 100 * (val a * val a) := mul_le_mul_of_nonneg_right hu (mul_self_nonneg _)
    linarith
  intro a ha
  simp only [List.mem_cons, List.not_mem_nil, or_false] at ha
  rcases ha with rfl | rfl | rfl
  · exact key hx (by linarith)
  · exact key hy (by linarith)
  · exact key hz (by linarith)

theorem coord_quot {w : V3 F32} (hd : isFin (dot w w)) (h0 : val (dot w w) ≠ 0) {a : F32}
    (ha : a ∈ [w.x, w.y, w.z]) :
    isFin (sqrt (dot w w)) ∧ 0 < val (sqrt (dot w w)) ∧ 1 / 2 ^ 76 ≤ val (sqrt (dot w w)) ∧
    |val a| ≤ 2 ^ 67 ∧ |val a| ≤ 5 / 2 * val (sqrt (dot w w)) := by
  obtain ⟨-, -, -, hge, hall⟩ := coord_le_len hd h0
  have hpos : 0 < val (dot w w) := lt_of_lt_of_le (by positivity) hge
  have hs : isFin (sqrt (dot w w)) := (sqrt_fin _).2 ⟨hd, hpos.le⟩
  have h1 := (abs_le.1 (sqrt_val _ hs)).1
  have hsq := Real.mul_self_sqrt hpos.le
  have hr0 : 0 ≤ Real.sqrt (val (dot w w)) := Real.sqrt_nonneg _
  have hr : (1 : ℝ) / 2 ^ 75 ≤ Real.sqrt (val (dot w w)) := by
    apply Real.le_sqrt_of_sq_le
    refine le_trans ?_ hge
    norm_num
  have hu : u ≤ 1 / 1000 := by unfold u; norm_num
  have h3 : u * Real.sqrt (val (dot w w)) ≤ 1 / 1000 * Real.sqrt (val (dot w w)) :=
    mul_le_mul_of_nonneg_right hu hr0
  have e : (1 : ℝ) / 2 ^ 76 = 1 / 2 * (1 / 2 ^ 75) := by norm_num
  have e0 : (0 : ℝ) < 1 / 2 ^ 76 := by positivity
  have hlow : 1 / 2 ^ 76 ≤ val (sqrt (dot w w)) := by rw [e]; linarith
  have hsq2 : |val a| ≤ 9 / 4 * Real.sqrt (val (dot w w)) := by
    apply abs_le_of_sq_le_sq
    · have := hall a ha
      nlinarith
    · positivity
  have hbig : Real.sqrt (val (dot w w)) ≤ 2 ^ 64 := by
    rw [Real.sqrt_le_left (by positivity)]
    rcases h : dot w w with _ | s | ⟨s, a, ra⟩
    · simp [val]
    · simp [val]
    · have h5 := rep_le ra
      have h6 := rep_nonneg ra
      have h7 : val (num s a ra) ≤ a := by
        cases s <;> simp only [val, sv, Bool.false_eq_true, if_false, if_true] <;> linarith
      refine h7.trans (h5.trans ?_)
      norm_num
  refine ⟨hs, lt_of_lt_of_le e0 hlow, hlow, ?_, by linarith⟩
  refine hsq2.trans ?_
  have e1 : (2 : ℝ) ^ 67 = 8 * 2 ^ 64 := by norm_num
  rw [e1]
  linarith

/-- A normalized vector has a coordinate that is not a number, or all its coordinates are infinite, or all are
finite and not large. -/
theorem normalize_cases (w : V3 F32) :
    SomeNaN (normalize w) ∨ AllInf (normalize w) ∨ BdV 4 (normalize w) := by
  have zero_bd : ∀ s, Bd 4 (num s 0 rep_zero) := fun s => ⟨trivial, by cases s <;> simp [val, sv]⟩
  -- from statements about single coordinates
  have collect : ∀ (P : F32 → Prop) (x y z : F32), x = nan ∨ P x → y = nan ∨ P y → z = nan ∨ P z →
      SomeNaN ⟨x, y, z⟩ ∨ (P x ∧ P y ∧ P z) := by
    rintro P x y z (h1 | h1) (h2 | h2) (h3 | h3) <;> simp_all [SomeNaN]
  unfold normalize
  rcases hs : sqrt (dot w w) with _ | t | ⟨t, l, rl⟩
  · left
    split_ifs <;> exact .inl (by simp [div_nan, mul_nan])
  · -- the length is infinite
    have h1 : ∀ a : F32, div a (inf t) = nan ∨ Bd 4 (div a (inf t)) := by
      intro a
      rcases a with _ | s | ⟨s, a, ra⟩
      · exact .inl rfl
      · exact .inl rfl
      · exact .inr (zero_bd _)
    have h2 : ∀ a : F32, mul a (div (num false 1 rep_one) (inf t)) = nan ∨
        Bd 4 (mul a (div (num false 1 rep_one) (inf t))) := by
      intro a
      rcases a with _ | s | ⟨s, a, ra⟩
      · exact .inl rfl
      · left; simp [div, mul]
      · right
        have e : mul (num s a ra) (div (num false 1 rep_one) (inf t)) = num (xor s (xor false t)) 0 rep_zero := by
          simp [div, mul, ofAbs, rnd_zero, rep_zero]
        rw [e]
        exact zero_bd _
    split_ifs
    · rcases collect (Bd 4) _ _ _ (h2 w.x) (h2 w.y) (h2 w.z) with h | h
      · exact .inl h
      · exact .inr (.inr h)
    · rcases collect (Bd 4) _ _ _ (h1 w.x) (h1 w.y) (h1 w.z) with h | h
      · exact .inl h
      · exact .inr (.inr h)
  · by_cases hl : l = 0
    · -- the length is zero
      subst hl
      have h1 : ∀ a : F32, div a (num t 0 rl) = nan ∨ ∃ s, div a (num t 0 rl) = inf s := by
        intro a
        rcases a with _ | s | ⟨s, a, ra⟩
        · exact .inl rfl
        · exact .inr ⟨_, rfl⟩
        · simp only [div, if_true]
          by_cases h : a = 0 <;> simp [h]
      have h2 : ∀ a : F32, mul a (div (num false 1 rep_one) (num t 0 rl)) = nan ∨
          ∃ s, mul a (div (num false 1 rep_one) (num t 0 rl)) = inf s := by
        intro a
        have e : div (num false 1 rep_one) (num t 0 rl) = inf (xor false t) := by
          simp [div]
        rw [e, mul_comm_nan]
        rcases inf_mul_cases (xor false t) a with h | h
        · exact .inl h
        · exact .inr ⟨_, h⟩
      split_ifs
      · rcases collect (fun a => ∃ s, a = inf s) _ _ _ (h2 w.x) (h2 w.y) (h2 w.z) with h | h
        · exact .inl h
        · exact .inr (.inl h)
      · rcases collect (fun a => ∃ s, a = inf s) _ _ _ (h1 w.x) (h1 w.y) (h1 w.z) with h | h
        · exact .inl h
        · exact .inr (.inl h)
    · -- the length is a positive number
      right; right
      have hsf : isFin (sqrt (dot w w)) := by rw [hs]; trivial
      obtain ⟨hd, hn⟩ := (sqrt_fin _).1 hsf
      have h0 : val (dot w w) ≠ 0 := by
        intro h0
        have := sqrt_val _ hsf
        rw [h0, Real.sqrt_zero, hs] at this
        simp only [val, sub_zero, mul_zero] at this
        rw [sv_abs _ (rep_nonneg rl)] at this
        exact hl (le_antisymm this (rep_nonneg rl))
      obtain ⟨fx, fy, fz, -, -⟩ := coord_le_len hd h0
      have fin : ∀ a ∈ [w.x, w.y, w.z], isFin a := by
        intro a ha
        simp only [List.mem_cons, List.not_mem_nil, or_false] at ha
        rcases ha with rfl | rfl | rfl <;> assumption
      rw [← hs]
      have hu : u ≤ 1 / 1000 := by unfold u; norm_num
      have hu0 : 0 < u := u_pos'
      have ht : tiny ≤ 1 / 2 ^ 140 := by unfold tiny; norm_num
      have h1 : ∀ a ∈ [w.x, w.y, w.z], Bd 4 (div a (sqrt (dot w w))) := by
        intro a ha
        obtain ⟨hsf, hp, -, -, hq⟩ := coord_quot hd h0 ha
        have hq1 : |val a / val (sqrt (dot w w))| ≤ 5 / 2 := by
          rw [abs_div, abs_of_pos hp, div_le_iff₀ hp]
          exact hq
        have hf := div_ok a _ (fin a ha) hsf hp.ne' (hq1.trans (by unfold large; norm_num))
        refine ⟨hf, ?_⟩
        have := Err.abs_le_of (div_val a _ hf hsf)
        have h5 : u * |val a / val (sqrt (dot w w))| ≤ 1 / 1000 * (5 / 2) :=
          mul_le_mul hu hq1 (abs_nonneg _) (by norm_num)
        have h6 : (1 : ℝ) / 2 ^ 140 ≤ 1 / 10 := by norm_num
        linarith
      have h2 : ∀ a ∈ [w.x, w.y, w.z], Bd 4 (mul a (div (num false 1 rep_one) (sqrt (dot w w)))) := by
        intro a ha
        obtain ⟨hsf, hp, hlow, hbig, hq⟩ := coord_quot hd h0 ha
        have hv1 : val (num false 1 rep_one) = 1 := by simp [val, sv]
        have hinv : |1 / val (sqrt (dot w w))| ≤ 2 ^ 76 := by
          rw [abs_of_pos (by positivity), div_le_iff₀ hp]
          calc (1 : ℝ) = 2 ^ 76 * (1 / 2 ^ 76) := by norm_num
            _ ≤ _ := mul_le_mul_of_nonneg_left hlow (by positivity)
        have hf := div_ok (num false 1 rep_one) (sqrt (dot w w)) trivial hsf hp.ne'
          (by rw [hv1]; exact hinv.trans (by unfold large; norm_num))
        have hr := Err.abs_le_of (div_val _ _ hf hsf)
        rw [hv1] at hr
        set r := div (num false 1 rep_one) (sqrt (dot w w)) with hrdef
        set l' := val (sqrt (dot w w)) with hl'
        have hinv0 : 0 ≤ |1 / l'| := abs_nonneg _
        have hq1 : |val a| * |1 / l'| ≤ 5 / 2 := by
          rw [abs_of_pos (show 0 < 1 / l' by positivity), mul_one_div, div_le_iff₀ hp]
          exact hq
        have hprod : |val a * val r| ≤ 3 := by
          rw [abs_mul]
          have h7 : |val a| * |val r| ≤ |val a| * (|1 / l'| + (u * |1 / l'| + tiny)) :=
            mul_le_mul_of_nonneg_left hr (abs_nonneg _)
          have h8 : |val a| * tiny ≤ 2 ^ 67 * (1 / 2 ^ 140) :=
            mul_le_mul hbig ht (by unfold tiny; positivity) (by positivity)
          have h9 : u * (|val a| * |1 / l'|) ≤ 1 / 1000 * (5 / 2) :=
            mul_le_mul hu hq1 (by positivity) (by norm_num)
          have h10 : (2 : ℝ) ^ 67 * (1 / 2 ^ 140) ≤ 1 / 10 := by norm_num
          nlinarith
        have hf2 := mul_ok a r (fin a ha) hf (hprod.trans (by unfold large; norm_num))
        refine ⟨hf2, ?_⟩
        have := Err.abs_le_of (mul_val a r hf2)
        have h5 : u * |val a * val r| ≤ 1 / 1000 * 3 := mul_le_mul hu hprod (abs_nonneg _) (by norm_num)
        have h6 : (1 : ℝ) / 2 ^ 140 ≤ 1 / 10 := by norm_num
        linarith
      split_ifs
      · exact ⟨h2 _ (by simp), h2 _ (by simp), h2 _ (by simp)⟩
      · exact ⟨h1 _ (by simp), h1 _ (by simp), h1 _ (by simp)⟩

end Spec.F32
end Quarch
