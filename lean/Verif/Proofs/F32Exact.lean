import Verif.Proofs.F32
/-
Whole numbers below 2^24 are computed with exactly in single precision.
-/
set_option linter.unusedSectionVars false
namespace Quarch.Spec.F32
open Classical

/-- Numbers of the format are not rounded. -/
theorem rnd_rep {a : ℝ} (h : Rep a) : rnd a = a := by
  by_cases h0 : a = 0
  · rw [h0, rnd_zero]
  have hp : 0 < a := lt_of_le_of_ne (rep_nonneg h) (Ne.symm h0)
  obtain ⟨m, e, hm, he, -, ha⟩ := h
  have hle : expo a ≤ e := by
    have h1 : ((2 : Nat) : ℝ) ^ Int.log 2 a ≤ a := Int.zpow_log_le_self (by norm_num) hp
    have h2 : a < (2 : ℝ) ^ (24 + e) := by
      rw [zpow_add₀ (by norm_num)]
      have : (m : ℝ) < 2 ^ (24 : Int) := by exact_mod_cast hm
      have hpe : (0 : ℝ) < 2 ^ e := by positivity
      nlinarith
    push_cast at h1
    have := (zpow_lt_zpow_iff_right₀ (show (1 : ℝ) < 2 by norm_num)).1 (h1.trans_lt h2)
    unfold expo
    omega
  obtain ⟨k, hk⟩ := Int.eq_ofNat_of_zero_le (show 0 ≤ e - expo a by omega)
  have e1 : a / 2 ^ expo a = ((m * 2 ^ k : Nat) : ℝ) := by
    rw [div_eq_iff (by positivity)]
    conv_lhs => rw [ha, show e = (k : Int) + expo a by omega, zpow_add₀ (by norm_num), zpow_natCast]
    push_cast; ring
  unfold rnd
  rw [e1, nearest_nat, ← e1]
  field_simp

/-- The number is finite and equal to the whole number `z`, which is exactly representable. -/
structure Is (a : F32) (z : Int) : Prop where
  fin : isFin a
  val : val a = z
  small : z.natAbs < 2 ^ 24

theorem rep_nat {n : Nat} (h : n < 2 ^ 24) : Rep (n : ℝ) := ⟨n, 0, h, by norm_num, by norm_num, by simp⟩

theorem is_ofReal {z : Int} (h : z.natAbs < 2 ^ 24) : Is (ofReal z) z := by
  have e : |(z : ℝ)| = (z.natAbs : ℝ) := by rw [Nat.cast_natAbs, Int.cast_abs]
  have hr := rep_nat h
  have hf : isFin (ofReal z) := ofAbs_fin.2 (by rw [e, rnd_rep hr]; exact hr)
  refine ⟨hf, ?_, h⟩
  have := ofReal_val hf
  rw [e, rnd_rep hr] at this
  simp at this
  linarith

theorem is_ofAbs {s : Bool} {n : Nat} (h : n < 2 ^ 24) {x : ℝ} (hx : x = n) :
    isFin (ofAbs s x) ∧ F32.val (ofAbs s x) = sv s x := by
  have hr := rep_nat h
  subst hx
  have hf : isFin (ofAbs s (n : ℝ)) := ofAbs_fin.2 (by rw [rnd_rep hr]; exact hr)
  exact ⟨hf, by rw [ofAbs_val hf, rnd_rep hr]⟩

variable [F32Lib]

theorem is_zero : Is (Arith.zero : F32) 0 := ⟨trivial, by simp [Arith.zero, F32.val, sv], by norm_num⟩
theorem is_one : Is (Arith.one : F32) 1 := ⟨trivial, by simp [Arith.one, F32.val, sv], by norm_num⟩

theorem is_add {a b : F32} {z w : Int} (ha : Is a z) (hb : Is b w) (h : (z + w).natAbs < 2 ^ 24) :
    Is (add a b) (z + w) := by
  obtain ⟨fa, va, -⟩ := ha
  obtain ⟨fb, vb, -⟩ := hb
  rcases a with _ | _ | ⟨s, a, ra⟩ <;> rcases b with _ | _ | ⟨t, b, rb⟩ <;> simp only [isFin] at fa fb
  simp only [F32.val] at va vb
  simp only [add]
  rw [va, vb]
  split_ifs with hz
  · refine ⟨trivial, ?_, h⟩
    push_cast
    rw [hz]
    cases s <;> cases t <;> simp [F32.val, sv]
  · have := is_ofReal h
    push_cast at this
    exact this

theorem is_neg {a : F32} {z : Int} (ha : Is a z) : Is (neg a) (-z) :=
  ⟨(neg_fin a).2 ha.fin, by rw [neg_val, ha.val]; push_cast; rfl, by rw [Int.natAbs_neg]; exact ha.small⟩

theorem is_sub {a b : F32} {z w : Int} (ha : Is a z) (hb : Is b w) (h : (z - w).natAbs < 2 ^ 24) :
    Is (sub a b) (z - w) := by
  rw [sub_eq_add_neg] at *
  exact is_add ha (is_neg hb) h

theorem sv_int {s : Bool} {a : ℝ} {z : Int} (ha : 0 ≤ a) (h : sv s a = z) : a = (z.natAbs : ℝ) := by
  rw [Nat.cast_natAbs, Int.cast_abs, ← h, sv_abs _ ha]

theorem is_mul {a b : F32} {z w : Int} (ha : Is a z) (hb : Is b w) (h : (z * w).natAbs < 2 ^ 24) :
    Is (mul a b) (z * w) := by
  obtain ⟨fa, va, -⟩ := ha
  obtain ⟨fb, vb, -⟩ := hb
  rcases a with _ | _ | ⟨s, a, ra⟩ <;> rcases b with _ | _ | ⟨t, b, rb⟩ <;> simp only [isFin] at fa fb
  simp only [F32.val] at va vb
  simp only [mul]
  have ea := sv_int (rep_nonneg ra) va
  have eb := sv_int (rep_nonneg rb) vb
  obtain ⟨h1, h2⟩ := is_ofAbs (s := xor s t) h (x := a * b) (by rw [ea, eb, Int.natAbs_mul]; push_cast; rfl)
  exact ⟨h1, by rw [h2, ← sv_mul, va, vb]; push_cast; rfl, h⟩

theorem is_div {a b : F32} {z w q : Int} (ha : Is a z) (hb : Is b w) (hw : w ≠ 0) (hq : z = q * w) :
    Is (div a b) q := by
  obtain ⟨fa, va, sa⟩ := ha
  obtain ⟨fb, vb, -⟩ := hb
  have hs : q.natAbs < 2 ^ 24 := by
    refine lt_of_le_of_lt ?_ sa
    rw [hq, Int.natAbs_mul]
    exact Nat.le_mul_of_pos_right _ (Int.natAbs_pos.2 hw)
  rcases a with _ | _ | ⟨s, a, ra⟩ <;> rcases b with _ | _ | ⟨t, b, rb⟩ <;> simp only [isFin] at fa fb
  simp only [F32.val] at va vb
  have ea := sv_int (rep_nonneg ra) va
  have eb := sv_int (rep_nonneg rb) vb
  have hw' : (w : ℝ) ≠ 0 := by exact_mod_cast hw
  have hb0 : b ≠ 0 := by
    rw [eb]; exact_mod_cast (Int.natAbs_pos.2 hw).ne'
  simp only [div, if_neg hb0]
  have he : a / b = (q.natAbs : ℝ) := by
    rw [div_eq_iff hb0, ea, eb, hq, Int.natAbs_mul]; push_cast; rfl
  obtain ⟨h1, h2⟩ := is_ofAbs (s := xor s t) hs he
  refine ⟨h1, ?_, hs⟩
  rw [h2, ← sv_div, va, vb, hq]
  push_cast
  field_simp

theorem is_sqrt {a : F32} {z : Int} (q : Nat) (ha : Is a z) (hq : z = q * q) : Is (sqrt a) q := by
  have hs : q < 2 ^ 24 := by
    have := ha.small
    rw [hq, Int.natAbs_mul, Int.natAbs_natCast] at this
    nlinarith
  obtain ⟨fa, va, sa⟩ := ha
  rcases a with _ | _ | ⟨s, a, ra⟩ <;> simp only [isFin] at fa
  simp only [F32.val] at va
  have ea := sv_int (rep_nonneg ra) va
  have ez : a = (q : ℝ) * q := by
    rw [ea, hq, Int.natAbs_mul]; push_cast; simp
  simp only [sqrt]
  by_cases h0 : a = 0
  · rw [if_pos h0]
    have hq0 : q = 0 := by
      rw [h0] at ez
      have : (q : ℝ) = 0 := by nlinarith
      exact_mod_cast this
    subst hq0
    refine ⟨trivial, ?_, by simp⟩
    subst h0
    cases s <;> simp [F32.val, sv]
  · have hsf : s = false := by
      cases s
      · rfl
      · exfalso
        simp only [sv, if_true] at va
        rw [hq] at va
        push_cast at va
        have := rep_nonneg ra
        rw [ez] at va h0
        apply h0
        nlinarith
    subst hsf
    simp only [if_neg h0, Bool.false_eq_true, if_false]
    obtain ⟨h1, h2⟩ := is_ofAbs (s := false) hs (x := Real.sqrt a)
      (by rw [ez]; exact Real.sqrt_mul_self (Nat.cast_nonneg _))
    refine ⟨h1, ?_, by simpa using hs⟩
    rw [h2, ez, Real.sqrt_mul_self (Nat.cast_nonneg _)]
    simp [sv]

/-- A vector of whole numbers. -/
structure IsV (v : V3 F32) (x y z : Int) : Prop where
  x : Is v.x x
  y : Is v.y y
  z : Is v.z z

/-- Whole numbers of at most two digits. -/
def Small (z : Int) : Prop := z.natAbs ≤ 100

theorem small_mul {a b : Int} (ha : Small a) (hb : Small b) : (a * b).natAbs ≤ 10000 := by
  rw [Int.natAbs_mul]
  exact Nat.mul_le_mul ha hb

section
variable {a b : V3 F32} {x y z x' y' z' : Int}

theorem isV_sub (ha : IsV a x y z) (hb : IsV b x' y' z') (s : ∀ i ∈ [x, y, z, x', y', z'], Small i) :
    IsV (V3.sub a b) (x - x') (y - y') (z - z') := by
  simp only [List.mem_cons, List.not_mem_nil, or_false, forall_eq_or_imp, forall_eq, Small] at s
  exact ⟨is_sub ha.x hb.x (by omega), is_sub ha.y hb.y (by omega), is_sub ha.z hb.z (by omega)⟩

theorem isV_add (ha : IsV a x y z) (hb : IsV b x' y' z') (s : ∀ i ∈ [x, y, z, x', y', z'], Small i) :
    IsV (V3.add a b) (x + x') (y + y') (z + z') := by
  simp only [List.mem_cons, List.not_mem_nil, or_false, forall_eq_or_imp, forall_eq, Small] at s
  exact ⟨is_add ha.x hb.x (by omega), is_add ha.y hb.y (by omega), is_add ha.z hb.z (by omega)⟩

theorem is_prod {p q : F32} {i j : Int} (hp : Is p i) (hq : Is q j) (hi : Small i) (hj : Small j) :
    Is (mul p q) (i * j) := is_mul hp hq (lt_of_le_of_lt (small_mul hi hj) (by norm_num))

theorem isV_smul (ha : IsV a x y z) {p : F32} {i : Int} (hp : Is p i) (s : ∀ j ∈ [x, y, z, i], Small j) :
    IsV (V3.smul a p) (x * i) (y * i) (z * i) := by
  simp only [List.mem_cons, List.not_mem_nil, or_false, forall_eq_or_imp, forall_eq] at s
  obtain ⟨s1, s2, s3, s4⟩ := s
  exact ⟨is_prod ha.x hp s1 s4, is_prod ha.y hp s2 s4, is_prod ha.z hp s3 s4⟩

theorem isV_cross (ha : IsV a x y z) (hb : IsV b x' y' z') (s : ∀ i ∈ [x, y, z, x', y', z'], Small i) :
    IsV (Arith.cross a b) (y * z' - z * y') (z * x' - x * z') (x * y' - y * x') := by
  simp only [List.mem_cons, List.not_mem_nil, or_false, forall_eq_or_imp, forall_eq] at s
  obtain ⟨s1, s2, s3, s4, s5, s6⟩ := s
  have := small_mul s2 s6; have := small_mul s3 s5; have := small_mul s3 s4
  have := small_mul s1 s6; have := small_mul s1 s5; have := small_mul s2 s4
  exact ⟨is_sub (is_prod ha.y hb.z s2 s6) (is_prod ha.z hb.y s3 s5) (by omega),
    is_sub (is_prod ha.z hb.x s3 s4) (is_prod ha.x hb.z s1 s6) (by omega),
    is_sub (is_prod ha.x hb.y s1 s5) (is_prod ha.y hb.x s2 s4) (by omega)⟩

theorem is_dot (ha : IsV a x y z) (hb : IsV b x' y' z') (s : ∀ i ∈ [x, y, z, x', y', z'], Small i) :
    Is (Arith.dot a b) (x * x' + y * y' + z * z') := by
  simp only [List.mem_cons, List.not_mem_nil, or_false, forall_eq_or_imp, forall_eq] at s
  obtain ⟨s1, s2, s3, s4, s5, s6⟩ := s
  have := small_mul s1 s4; have := small_mul s2 s5; have := small_mul s3 s6
  exact is_add (is_add (is_prod ha.x hb.x s1 s4) (is_prod ha.y hb.y s2 s5) (by omega))
    (is_prod ha.z hb.z s3 s6) (by omega)

theorem isV_sdiv (ha : IsV a x y z) {p : F32} {i : Int} (hp : Is p i) (hi : i ≠ 0) (hx : x = x' * i)
    (hy : y = y' * i) (hz : z = z' * i) : IsV (V3.sdiv a p) x' y' z' :=
  ⟨is_div ha.x hp hi hx, is_div ha.y hp hi hy, is_div ha.z hp hi hz⟩

/-- A vector of length one is normalized exactly. -/
theorem isV_normalize (ha : IsV a x y z) (s : ∀ i ∈ [x, y, z, x, y, z], Small i)
    (hl : x * x + y * y + z * z = 1) : IsV (Arith.normalize a) x y z := by
  have h : Is (sqrt (dot a a)) 1 := by
    have := is_sqrt 1 (is_dot ha ha s) (by rw [hl]; norm_num)
    exact_mod_cast this
  simp only [List.mem_cons, List.not_mem_nil, or_false, forall_eq_or_imp, forall_eq] at s
  obtain ⟨s1, s2, s3, -⟩ := s
  have hr : Is (div (num false 1 rep_one) (sqrt (dot a a))) 1 := is_div is_one h one_ne_zero (by norm_num)
  have o1 : Small 1 := by simp [Small]
  have e : Arith.normalize a = normalize a := rfl
  rw [e]
  unfold normalize
  split_ifs
  · have hx := is_prod ha.x hr s1 o1
    have hy := is_prod ha.y hr s2 o1
    have hz := is_prod ha.z hr s3 o1
    rw [mul_one] at hx hy hz
    exact ⟨hx, hy, hz⟩
  · exact ⟨is_div ha.x h one_ne_zero (by ring), is_div ha.y h one_ne_zero (by ring),
      is_div ha.z h one_ne_zero (by ring)⟩

end
end Quarch.Spec.F32
