import Verif.Proofs.F32Exact
/-
Whole multiples of a power of two are computed with exactly in single precision as long as they have at most 24
binary digits.
-/
set_option linter.unusedSectionVars false
namespace Quarch.Spec.F32
open Classical

/-- The number is finite and equal to `n * 2 ^ e`, which is exactly representable. -/
structure IsG (e : Int) (a : F32) (n : Int) : Prop where
  fin : isFin a
  val : val a = n * 2 ^ e
  small : n.natAbs < 2 ^ 24
  ge : -149 ≤ e
  le : e ≤ 104

theorem rep_grid {n e : Int} (h : n.natAbs < 2 ^ 24) (ge : -149 ≤ e) (le : e ≤ 104) : Rep |(n : ℝ) * 2 ^ e| := by
  refine ⟨n.natAbs, e, h, ge, le, ?_⟩
  rw [abs_mul, abs_of_pos (show (0 : ℝ) < 2 ^ e by positivity), Nat.cast_natAbs, Int.cast_abs]

theorem ofAbs_rep {s : Bool} {x : ℝ} (h : Rep x) : isFin (ofAbs s x) ∧ F32.val (ofAbs s x) = sv s x := by
  have hf : isFin (ofAbs s x) := ofAbs_fin.2 (by rw [rnd_rep h]; exact h)
  exact ⟨hf, by rw [ofAbs_val hf, rnd_rep h]⟩

theorem ofReal_rep {x : ℝ} (h : Rep |x|) : isFin (ofReal x) ∧ F32.val (ofReal x) = x := by
  obtain ⟨h1, h2⟩ := ofAbs_rep (s := decide (x < 0)) h
  exact ⟨h1, by unfold ofReal; rw [h2, ofReal_abs]⟩

variable [F32Lib] {e e' : Int} {a b : F32} {z w : Int}

theorem isG_zero {e : Int} (ge : -149 ≤ e) (le : e ≤ 104) : IsG e (Arith.zero : F32) 0 :=
  ⟨trivial, by simp [Arith.zero, F32.val, sv], by norm_num, ge, le⟩

theorem isG_of_is (h : Is a z) : IsG 0 a z := ⟨h.fin, by rw [h.val]; simp, h.small, by norm_num, by norm_num⟩

theorem is_of_isG (h : IsG 0 a z) : Is a z := ⟨h.fin, by rw [h.val]; simp, h.small⟩

theorem isG_add (ha : IsG e a z) (hb : IsG e b w) (h : (z + w).natAbs < 2 ^ 24) : IsG e (add a b) (z + w) := by
  obtain ⟨fa, va, -, ge, le⟩ := ha
  obtain ⟨fb, vb, -, -, -⟩ := hb
  have hs : F32.val a + F32.val b = ((z + w : Int) : ℝ) * 2 ^ e := by rw [va, vb]; push_cast; ring
  rcases a with _ | _ | ⟨s, a, ra⟩ <;> rcases b with _ | _ | ⟨t, b, rb⟩ <;> simp only [isFin] at fa fb
  simp only [F32.val] at hs
  simp only [add]
  rw [hs]
  split_ifs with hz
  · refine ⟨trivial, ?_, h, ge, le⟩
    rw [hz]
    cases s <;> cases t <;> simp [F32.val, sv]
  · obtain ⟨h1, h2⟩ := ofReal_rep (rep_grid h ge le)
    exact ⟨h1, h2, h, ge, le⟩

theorem isG_neg (ha : IsG e a z) : IsG e (neg a) (-z) :=
  ⟨(neg_fin a).2 ha.fin, by rw [neg_val, ha.val]; push_cast; ring, by rw [Int.natAbs_neg]; exact ha.small, ha.ge, ha.le⟩

theorem isG_sub (ha : IsG e a z) (hb : IsG e b w) (h : (z - w).natAbs < 2 ^ 24) : IsG e (sub a b) (z - w) := by
  rw [sub_eq_add_neg] at *
  exact isG_add ha (isG_neg hb) h

theorem isG_mul (ha : IsG e a z) (hb : IsG e' b w) (h : (z * w).natAbs < 2 ^ 24) (ge : -149 ≤ e + e')
    (le : e + e' ≤ 104) : IsG (e + e') (mul a b) (z * w) := by
  obtain ⟨fa, va, -, -, -⟩ := ha
  obtain ⟨fb, vb, -, -, -⟩ := hb
  have hs : F32.val a * F32.val b = ((z * w : Int) : ℝ) * 2 ^ (e + e') := by
    rw [va, vb, zpow_add₀ (by norm_num)]; push_cast; ring
  rcases a with _ | _ | ⟨s, a, ra⟩ <;> rcases b with _ | _ | ⟨t, b, rb⟩ <;> simp only [isFin] at fa fb
  simp only [F32.val] at hs
  rw [sv_mul] at hs
  simp only [mul]
  have hr : Rep (a * b) := by
    have := rep_grid h ge le
    rw [← hs, sv_abs _ (mul_nonneg (rep_nonneg ra) (rep_nonneg rb))] at this
    exact this
  obtain ⟨h1, h2⟩ := ofAbs_rep (s := xor s t) hr
  exact ⟨h1, by rw [h2, hs], h, ge, le⟩

theorem isG_div {q : Int} (ha : IsG e a z) (hb : IsG e' b w) (hw : w ≠ 0) (hq : z = q * w) (ge : -149 ≤ e - e')
    (le : e - e' ≤ 104) : IsG (e - e') (div a b) q := by
  obtain ⟨fa, va, sa, -, -⟩ := ha
  obtain ⟨fb, vb, -, -, -⟩ := hb
  have hq' : q.natAbs < 2 ^ 24 := by
    refine lt_of_le_of_lt ?_ sa
    rw [hq, Int.natAbs_mul]
    exact Nat.le_mul_of_pos_right _ (Int.natAbs_pos.2 hw)
  have hw' : (w : ℝ) ≠ 0 := by exact_mod_cast hw
  have hs : F32.val a / F32.val b = (q : ℝ) * 2 ^ (e - e') := by
    rw [va, vb, hq, zpow_sub₀ (by norm_num)]; push_cast; field_simp
  have hv : F32.val b ≠ 0 := by rw [vb]; positivity
  rcases a with _ | _ | ⟨s, a, ra⟩ <;> rcases b with _ | _ | ⟨t, b, rb⟩ <;> simp only [isFin] at fa fb
  simp only [F32.val] at hs hv
  have hb0 : b ≠ 0 := fun h0 => hv (by rw [h0]; cases t <;> simp [sv])
  rw [sv_div] at hs
  simp only [div, if_neg hb0]
  have hr : Rep (a / b) := by
    have := rep_grid hq' ge le
    rw [← hs, sv_abs _ (div_nonneg (rep_nonneg ra) (rep_nonneg rb))] at this
    exact this
  obtain ⟨h1, h2⟩ := ofAbs_rep (s := xor s t) hr
  exact ⟨h1, by rw [h2, hs], hq', ge, le⟩

theorem isG_sqrt {q : Nat} (ha : IsG (e + e) a (q * q)) (hq : 0 < q) (ge : -149 ≤ e) (le : e ≤ 104) :
    IsG e (sqrt a) q := by
  have hs : q < 2 ^ 24 := by
    have := ha.small
    rw [Int.natAbs_mul, Int.natAbs_natCast] at this
    nlinarith
  obtain ⟨fa, va, -, -, -⟩ := ha
  have hv : F32.val a = ((q : ℝ) * 2 ^ e) * ((q : ℝ) * 2 ^ e) := by
    rw [va, zpow_add₀ (by norm_num)]; push_cast; ring
  have hp : (0 : ℝ) < (q : ℝ) * 2 ^ e := by positivity
  rcases a with _ | _ | ⟨s, a, ra⟩ <;> simp only [isFin] at fa
  simp only [F32.val] at hv
  have h0 : 0 < sv s a := by rw [hv]; positivity
  have hsf : s = false := by
    cases s
    · rfl
    · have := rep_nonneg ra
      simp only [sv, if_true] at h0
      linarith
  subst hsf
  simp only [sv, Bool.false_eq_true, if_false] at hv h0
  simp only [sqrt, if_neg h0.ne', Bool.false_eq_true, if_false]
  have e1 : Real.sqrt a = (q : ℝ) * 2 ^ e := by rw [hv]; exact Real.sqrt_mul_self hp.le
  have hr : Rep (Real.sqrt a) := by
    rw [e1]; exact ⟨q, e, hs, ge, le, rfl⟩
  obtain ⟨h1, h2⟩ := ofAbs_rep (s := false) hr
  exact ⟨h1, by rw [h2, e1]; simp [sv], by simpa using hs, ge, le⟩

/-- The same number on a grid twice as fine. -/
theorem isG_double (ha : IsG e a z) (h : (2 * z).natAbs < 2 ^ 24) (ge : -149 ≤ e - 1) : IsG (e - 1) a (2 * z) := by
  refine ⟨ha.fin, ?_, h, ge, by have := ha.le; omega⟩
  rw [ha.val, zpow_sub₀ (by norm_num)]; push_cast; ring

/-- Moving a power of two into the exponent. -/
theorem isG_pow {j : Nat} (ha : IsG e a (z * 2 ^ j)) (le : e + j ≤ 104) : IsG (e + j) a z := by
  refine ⟨ha.fin, ?_, ?_, by have := ha.ge; omega, le⟩
  · rw [ha.val, zpow_add₀ (by norm_num), zpow_natCast]; push_cast; ring
  · refine lt_of_le_of_lt ?_ ha.small
    rw [Int.natAbs_mul]
    exact Nat.le_mul_of_pos_right _ (Int.natAbs_pos.2 (by positivity))

theorem isG_lt (ha : IsG e a z) (hb : IsG e b w) : Arith.lt a b = true ↔ z < w := by
  have := Rounding.lt_val a b ha.fin hb.fin
  rw [this]
  change F32.val a < F32.val b ↔ _
  rw [ha.val, hb.val, mul_lt_mul_iff_left₀ (by positivity), Int.cast_lt]

theorem isG_eq (ha : IsG e a z) (hb : IsG e b w) : Arith.eq a b = true ↔ z = w := by
  have := rel_fin (· = ·) a b ha.fin hb.fin
  change rel (· = ·) a b = true ↔ _
  rw [this, EReal.coe_eq_coe_iff, ha.val, hb.val, mul_left_inj' (by positivity), Int.cast_inj]

/-- Vectors on a grid. -/
structure IsGV (e : Int) (v : V3 F32) (n : V3 Int) : Prop where
  x : IsG e v.x n.x
  y : IsG e v.y n.y
  z : IsG e v.z n.z

variable {u v : V3 F32} {m n : V3 Int}

theorem isGV_sub (hu : IsGV e u m) (hv : IsGV e v n) (hx : (m.x - n.x).natAbs < 2 ^ 24)
    (hy : (m.y - n.y).natAbs < 2 ^ 24) (hz : (m.z - n.z).natAbs < 2 ^ 24) :
    IsGV e (V3.sub u v) ⟨m.x - n.x, m.y - n.y, m.z - n.z⟩ :=
  ⟨isG_sub hu.x hv.x hx, isG_sub hu.y hv.y hy, isG_sub hu.z hv.z hz⟩

theorem isGV_add (hu : IsGV e u m) (hv : IsGV e v n) (hx : (m.x + n.x).natAbs < 2 ^ 24)
    (hy : (m.y + n.y).natAbs < 2 ^ 24) (hz : (m.z + n.z).natAbs < 2 ^ 24) :
    IsGV e (V3.add u v) ⟨m.x + n.x, m.y + n.y, m.z + n.z⟩ :=
  ⟨isG_add hu.x hv.x hx, isG_add hu.y hv.y hy, isG_add hu.z hv.z hz⟩

theorem natAbs_mul_le {a b : Int} {A B : Nat} (ha : a.natAbs ≤ A) (hb : b.natAbs ≤ B) : (a * b).natAbs ≤ A * B := by
  rw [Int.natAbs_mul]; exact Nat.mul_le_mul ha hb

/-- All coordinates are at most `A` in absolute value. -/
def Bnd (A : Nat) (n : V3 Int) : Prop := n.x.natAbs ≤ A ∧ n.y.natAbs ≤ A ∧ n.z.natAbs ≤ A

theorem isGV_cross {A B : Nat} (hu : IsGV e u m) (hv : IsGV e' v n) (bm : Bnd A m) (bn : Bnd B n)
    (h : 2 * (A * B) < 2 ^ 24) (ge : -149 ≤ e + e') (le : e + e' ≤ 104) :
    IsGV (e + e') (Arith.cross u v)
      ⟨m.y * n.z - m.z * n.y, m.z * n.x - m.x * n.z, m.x * n.y - m.y * n.x⟩ := by
  obtain ⟨a1, a2, a3⟩ := bm
  obtain ⟨b1, b2, b3⟩ := bn
  have h1 := natAbs_mul_le a2 b3; have h2 := natAbs_mul_le a3 b2; have h3 := natAbs_mul_le a3 b1
  have h4 := natAbs_mul_le a1 b3; have h5 := natAbs_mul_le a1 b2; have h6 := natAbs_mul_le a2 b1
  generalize A * B = C at *
  exact ⟨isG_sub (isG_mul hu.y hv.z (by omega) ge le) (isG_mul hu.z hv.y (by omega) ge le) (by omega),
    isG_sub (isG_mul hu.z hv.x (by omega) ge le) (isG_mul hu.x hv.z (by omega) ge le) (by omega),
    isG_sub (isG_mul hu.x hv.y (by omega) ge le) (isG_mul hu.y hv.x (by omega) ge le) (by omega)⟩

theorem isG_dot {A B : Nat} (hu : IsGV e u m) (hv : IsGV e' v n) (bm : Bnd A m) (bn : Bnd B n)
    (h : 3 * (A * B) < 2 ^ 24) (ge : -149 ≤ e + e') (le : e + e' ≤ 104) :
    IsG (e + e') (Arith.dot u v) (m.x * n.x + m.y * n.y + m.z * n.z) := by
  obtain ⟨a1, a2, a3⟩ := bm
  obtain ⟨b1, b2, b3⟩ := bn
  have h1 := natAbs_mul_le a1 b1; have h2 := natAbs_mul_le a2 b2; have h3 := natAbs_mul_le a3 b3
  generalize A * B = C at *
  exact isG_add (isG_add (isG_mul hu.x hv.x (by omega) ge le) (isG_mul hu.y hv.y (by omega) ge le) (by omega))
    (isG_mul hu.z hv.z (by omega) ge le) (by omega)

theorem isGV_smul {A B : Nat} (hu : IsGV e u m) (hb : IsG e' b w) (bm : Bnd A m) (hw : w.natAbs ≤ B)
    (h : A * B < 2 ^ 24) (ge : -149 ≤ e + e') (le : e + e' ≤ 104) :
    IsGV (e + e') (V3.smul u b) ⟨m.x * w, m.y * w, m.z * w⟩ := by
  obtain ⟨a1, a2, a3⟩ := bm
  have h1 := natAbs_mul_le a1 hw; have h2 := natAbs_mul_le a2 hw; have h3 := natAbs_mul_le a3 hw
  exact ⟨isG_mul hu.x hb (by omega) ge le, isG_mul hu.y hb (by omega) ge le, isG_mul hu.z hb (by omega) ge le⟩

theorem isGV_sdiv (hu : IsGV e u m) (hb : IsG e' b w) (hw : w ≠ 0) (hx : m.x = n.x * w) (hy : m.y = n.y * w)
    (hz : m.z = n.z * w) (ge : -149 ≤ e - e') (le : e - e' ≤ 104) : IsGV (e - e') (V3.sdiv u b) n :=
  ⟨isG_div hu.x hb hw hx ge le, isG_div hu.y hb hw hy ge le, isG_div hu.z hb hw hz ge le⟩

theorem isGV_double (hu : IsGV e u m) (h : Bnd (2 ^ 22) m) (ge : -149 ≤ e - 1) :
    IsGV (e - 1) u ⟨2 * m.x, 2 * m.y, 2 * m.z⟩ := by
  obtain ⟨a1, a2, a3⟩ := h
  exact ⟨isG_double hu.x (by omega) ge, isG_double hu.y (by omega) ge, isG_double hu.z (by omega) ge⟩

/-- A vector along an axis whose length is a power of two, or of any length below 4096 steps when dividing by the
length, is normalized exactly. -/
theorem isGV_normalize {q : Nat} (hu : IsGV e u ⟨m.x * q, m.y * q, m.z * q⟩) (hb : Bnd 1 m)
    (hl : m.x * m.x + m.y * m.y + m.z * m.z = 1) (ge : -149 ≤ e + e) (le : e + e ≤ 50)
    (hq : (∃ j, q = 2 ^ j) ∨ (F32Lib.recip = false ∧ 0 < q ∧ q < 2 ^ 12)) : IsGV 0 (Arith.normalize u) m := by
  have key : ∀ (e : Int) (q : Nat), IsGV e u ⟨m.x * q, m.y * q, m.z * q⟩ → -149 ≤ e + e → e + e ≤ 104 → 0 < q →
      q < 2 ^ 12 → (q = 1 ∨ F32Lib.recip = false) → IsGV 0 (Arith.normalize u) m := by
    intro e q hu ge le h0 hq hr
    have hs : IsG e (sqrt (dot u u)) q := by
      obtain ⟨b1, b2, b3⟩ := hb
      have p1 : (m.x * q).natAbs ≤ 1 * q := natAbs_mul_le b1 (by simp)
      have p2 : (m.y * q).natAbs ≤ 1 * q := natAbs_mul_le b2 (by simp)
      have p3 : (m.z * q).natAbs ≤ 1 * q := natAbs_mul_le b3 (by simp)
      rw [one_mul] at p1 p2 p3
      have bq : q * q < 2 ^ 24 := by nlinarith
      have bx : ∀ i : Int, i.natAbs ≤ 1 → ((i * q) * (i * q)).natAbs ≤ q * q := by
        intro i hi
        have : (i * q).natAbs ≤ 1 * q := natAbs_mul_le hi (by simp)
        rw [one_mul] at this
        exact natAbs_mul_le this this
      have e1 : ∀ i : Int, (i * q) * (i * q) = (i * i) * ((q : Int) * q) := fun i => by ring
      have n1 : ∀ i : Int, 0 ≤ i * i := fun i => mul_self_nonneg i
      have bxy : ((m.x * q) * (m.x * q) + (m.y * q) * (m.y * q)).natAbs < 2 ^ 24 := by
        have : (m.x * q) * (m.x * q) + (m.y * q) * (m.y * q) = (m.x * m.x + m.y * m.y) * ((q : Int) * q) := by ring
        rw [this]
        refine lt_of_le_of_lt (natAbs_mul_le (A := 1) (B := q * q) ?_ ?_) (by simpa using bq)
        · have := n1 m.x; have := n1 m.y; have := n1 m.z
          omega
        · rw [Int.natAbs_mul]; simp
      have t : (m.x * q) * (m.x * q) + (m.y * q) * (m.y * q) + (m.z * q) * (m.z * q) = (q : Int) * q := by
        rw [e1, e1, e1, ← add_mul, ← add_mul, hl, one_mul]
      have bt : ((q : Int) * q).natAbs < 2 ^ 24 := by rw [Int.natAbs_mul]; simpa using bq
      refine isG_sqrt (e := e) ?_ h0 (by omega) (by omega)
      have := isG_add (isG_add (isG_mul hu.x hu.x (lt_of_le_of_lt (bx _ b1) bq) ge le)
        (isG_mul hu.y hu.y (lt_of_le_of_lt (bx _ b2) bq) ge le) bxy)
        (isG_mul hu.z hu.z (lt_of_le_of_lt (bx _ b3) bq) ge le) (by simp only [t]; exact bt)
      simp only [t] at this
      exact this
    have hq0 : (q : Int) ≠ 0 := by exact_mod_cast h0.ne'
    have h00 : e - e = 0 := by ring
    have hd : IsGV (e - e) (⟨div u.x (sqrt (dot u u)), div u.y (sqrt (dot u u)), div u.z (sqrt (dot u u))⟩ : V3 F32) m :=
      ⟨isG_div hu.x hs hq0 rfl (by omega) (by omega), isG_div hu.y hs hq0 rfl (by omega) (by omega),
        isG_div hu.z hs hq0 rfl (by omega) (by omega)⟩
    rw [h00] at hd
    have en : Arith.normalize u = normalize u := rfl
    rw [en]
    unfold normalize
    split_ifs with hrec
    · obtain rfl : q = 1 := by
        rcases hr with h | h
        · exact h
        · rw [h] at hrec; exact absurd hrec (by simp)
      have hi : IsG (0 - e) (div (num false 1 rep_one) (sqrt (dot u u))) 1 :=
        isG_div (isG_of_is is_one) hs hq0 (by norm_num) (by omega) (by omega)
      simp only [Nat.cast_one, mul_one] at hu
      have h0 : e + (0 - e) = 0 := by ring
      obtain ⟨b1, b2, b3⟩ := hb
      have hx := isG_mul hu.x hi (by simp only [mul_one]; omega) (by omega) (by omega)
      have hy := isG_mul hu.y hi (by simp only [mul_one]; omega) (by omega) (by omega)
      have hz := isG_mul hu.z hi (by simp only [mul_one]; omega) (by omega) (by omega)
      rw [h0, mul_one] at hx hy hz
      exact ⟨hx, hy, hz⟩
    · exact hd
  rcases hq with ⟨j, rfl⟩ | ⟨hr, h0, hq⟩
  · have hj : j < 24 := by
      by_contra hj
      have h24 : 2 ^ 24 ≤ 2 ^ j := Nat.pow_le_pow_right (by norm_num) (by omega)
      have hm : m.x ≠ 0 ∨ m.y ≠ 0 ∨ m.z ≠ 0 := by
        by_contra h
        push Not at h
        rw [h.1, h.2.1, h.2.2] at hl
        norm_num at hl
      have : ∀ i : Int, i ≠ 0 → ¬ (i * ((2 ^ j : Nat) : Int)).natAbs < 2 ^ 24 := by
        intro i hi h
        rw [Int.natAbs_mul, Int.natAbs_natCast] at h
        have := Nat.le_mul_of_pos_left (2 ^ j) (Int.natAbs_pos.2 hi)
        omega
      rcases hm with h | h | h
      · exact this _ h hu.x.small
      · exact this _ h hu.y.small
      · exact this _ h hu.z.small
    refine key (e + j) 1 ?_ (by omega) (by omega) (by norm_num) (by norm_num) (.inl rfl)
    simp only [Nat.cast_one, mul_one]
    push_cast at hu
    exact ⟨isG_pow hu.x (by omega), isG_pow hu.y (by omega), isG_pow hu.z (by omega)⟩
  · exact key e q hu ge (by omega) h0 hq (.inr hr)

end Quarch.Spec.F32
