import Verif.Proofs.Wind
import Mathlib.Analysis.SpecialFunctions.Trigonometric.Bounds
import Mathlib.Topology.Order.IntermediateValue
import Mathlib.Topology.Algebra.Order.Field
import Mathlib.Analysis.Real.Pi.Bounds
/-
Plane geometry behind C118: points sorted by approximate angles.
-/
namespace Quarch.Wind

theorem lin_sub (k l : ℝ) (a b : ℂ) : lin k l (a - b) = lin k l a - lin k l b := by
  unfold lin
  simp only [Complex.sub_re, Complex.sub_im]
  ring

theorem lin_le {k l : ℝ} (h : k * k + l * l ≤ 1) (a : ℂ) : |lin k l a| ≤ ‖a‖ := by
  refine abs_le_of_sq_le_sq ?_ (norm_nonneg _)
  rw [Complex.sq_norm, Complex.normSq_apply]
  unfold lin
  have e : (k * a.re + l * a.im) ^ 2 = (k * k + l * l) * (a.re * a.re + a.im * a.im) - (k * a.im - l * a.re) ^ 2 := by ring
  rw [e]
  have := mul_le_mul_of_nonneg_right h (add_nonneg (mul_self_nonneg a.re) (mul_self_nonneg a.im))
  have := sq_nonneg (k * a.im - l * a.re)
  linarith

/-- Twice the area of a triangle, positive if it turns counter-clockwise. -/
def area (a b c : ℂ) : ℝ := cr a b + cr b c + cr c a

/-- `b` is the furthest of three points in a direction. -/
def Out (k l : ℝ) (b a c : ℂ) : Prop := lin k l a < lin k l b ∧ lin k l c < lin k l b

/-- Three points on a line are not each the furthest in a direction. -/
theorem area_ne {a b c : ℂ} {k1 l1 k2 l2 k3 l3 : ℝ} (h1 : Out k1 l1 a b c) (h2 : Out k2 l2 b a c) (h3 : Out k3 l3 c a b) :
    area a b c ≠ 0 := by
  intro h
  have e1 : area a b c = (b.re - a.re) * (c.im - a.im) - (b.im - a.im) * (c.re - a.re) := by
    unfold area cr; ring
  rw [e1] at h
  obtain ⟨p1, q1⟩ := h1
  obtain ⟨p2, q2⟩ := h2
  obtain ⟨p3, q3⟩ := h3
  unfold lin at *
  obtain ⟨er, hr⟩ : ∃ t, t = b.re - a.re := ⟨_, rfl⟩
  obtain ⟨ei, hi⟩ : ∃ t, t = b.im - a.im := ⟨_, rfl⟩
  obtain ⟨fr, hfr⟩ : ∃ t, t = c.re - a.re := ⟨_, rfl⟩
  obtain ⟨fi, hfi⟩ : ∃ t, t = c.im - a.im := ⟨_, rfl⟩
  rw [← hr, ← hi, ← hfr, ← hfi] at h
  have a1 : k1 * er + l1 * ei < 0 := by rw [hr, hi]; linarith
  have a2 : k1 * fr + l1 * fi < 0 := by rw [hfr, hfi]; linarith
  have b1 : 0 < k2 * er + l2 * ei := by rw [hr, hi]; linarith
  have b2 : 0 < (k2 * er + l2 * ei) - (k2 * fr + l2 * fi) := by rw [hr, hi, hfr, hfi]; linarith
  have c1 : 0 < k3 * fr + l3 * fi := by rw [hfr, hfi]; linarith
  have c2 : 0 < (k3 * fr + l3 * fi) - (k3 * er + l3 * ei) := by rw [hr, hi, hfr, hfi]; linarith
  -- `f = s e`
  have k : ∀ k l : ℝ, (k * fr + l * fi) * (k1 * er + l1 * ei) = (k * er + l * ei) * (k1 * fr + l1 * fi) := by
    intro k l
    have : (k * fr + l * fi) * (k1 * er + l1 * ei) - (k * er + l * ei) * (k1 * fr + l1 * fi) =
      (l * k1 - k * l1) * (er * fi - ei * fr) := by ring
    rw [h, mul_zero] at this
    linarith
  have t2 := k k2 l2
  have t3 := k k3 l3
  generalize k1 * er + l1 * ei = E at *
  generalize k1 * fr + l1 * fi = G at *
  generalize k2 * er + l2 * ei = x at *
  generalize k2 * fr + l2 * fi = y at *
  generalize k3 * er + l3 * ei = z at *
  generalize k3 * fr + l3 * fi = w at *
  -- y E = x G, w E = z G, E, G < 0
  have hz : 0 < z := by
    by_contra hn
    have : 0 ≤ z * G := mul_nonneg_of_nonpos_of_nonpos (not_lt.1 hn) a2.le
    have : w * E < 0 := mul_neg_of_pos_of_neg c1 a1
    linarith
  have s1 : x * E < x * G := by
    have : x * E < y * E := mul_lt_mul_of_neg_right (by linarith) a1
    linarith
  have s2 : z * G < z * E := by
    have : w * E < z * E := mul_lt_mul_of_neg_right (by linarith) a1
    linarith
  have := lt_of_mul_lt_mul_left s1 b1.le
  have := lt_of_mul_lt_mul_left s2 hz.le
  linarith

/-- The direction of a triangle stays the same if its points move without one of them ceasing to be furthest in its
direction. -/
theorem area_stable {a b c a' b' c' : ℂ} {k1 l1 k2 l2 k3 l3 : ℝ} (h1 : Out k1 l1 a b c) (h2 : Out k2 l2 b a c)
    (h3 : Out k3 l3 c a b) (h1' : Out k1 l1 a' b' c') (h2' : Out k2 l2 b' a' c') (h3' : Out k3 l3 c' a' b')
    (h : 0 < area a b c) : 0 < area a' b' c' := by
  let m (x x' : ℂ) (t : ℝ) : ℂ := ⟨(1 - t) * x.re + t * x'.re, (1 - t) * x.im + t * x'.im⟩
  have hl : ∀ k l x x' t, lin k l (m x x' t) = (1 - t) * lin k l x + t * lin k l x' := by
    intro k l x x' t
    simp only [lin, m]; ring
  have ho : ∀ {k l : ℝ} {x y z x' y' z' : ℂ}, Out k l x y z → Out k l x' y' z' → ∀ t ∈ Set.Icc (0 : ℝ) 1,
      Out k l (m x x' t) (m y y' t) (m z z' t) := by
    intro k l x y z x' y' z' g g' t ht
    have w : ∀ {p q p' q' : ℝ}, p < q → p' < q' → (1 - t) * p + t * p' < (1 - t) * q + t * q' := by
      intro p q p' q' h1 h2
      rcases eq_or_lt_of_le ht.1 with h0 | h0
      · rw [← h0]; linarith
      · have := mul_lt_mul_of_pos_left h2 h0
        have := mul_le_mul_of_nonneg_left h1.le (by linarith [ht.2] : 0 ≤ 1 - t)
        linarith
    unfold Out
    rw [hl, hl, hl]
    exact ⟨w g.1 g'.1, w g.2 g'.2⟩
  have hne : ∀ t ∈ Set.Icc (0 : ℝ) 1, area (m a a' t) (m b b' t) (m c c' t) ≠ 0 := fun t ht =>
    area_ne (ho h1 h1' t ht) (ho h2 h2' t ht) (ho h3 h3' t ht)
  have hc : Continuous fun t : ℝ => area (m a a' t) (m b b' t) (m c c' t) := by
    simp only [area, cr, m]
    fun_prop
  by_contra hn
  have e0 : area (m a a' 0) (m b b' 0) (m c c' 0) = area a b c := by simp [m]
  have e1 : area (m a a' 1) (m b b' 1) (m c c' 1) = area a' b' c' := by simp [m]
  have hiv := intermediate_value_Icc' (zero_le_one (α := ℝ)) hc.continuousOn
  have h0 : (0 : ℝ) ∈ Set.Icc (area (m a a' 1) (m b b' 1) (m c c' 1)) (area (m a a' 0) (m b b' 0) (m c c' 0)) := by
    rw [e0, e1]; exact ⟨not_lt.1 hn, h.le⟩
  obtain ⟨t, ht, hz⟩ := hiv h0
  exact hne t ht hz

/-- A point in the direction of an approximate angle. -/
theorem polar_near {p : ℂ} {t : ℝ} (hp : p ≠ 0) (hb : ‖p‖ ≤ 480)
    (h : |t - p.arg| ≤ 1 / 2 ^ 21 ∨ (|t + Real.pi| ≤ 1 / 2 ^ 21 ∧ p.arg = Real.pi)) :
    ∃ b : ℂ, b.arg = t * (1 - 1 / 2 ^ 20) ∧ ‖b - p‖ ≤ 1 / 500 := by
  have hpi := Real.pi_gt_three
  have hpi' := Real.pi_lt_d2
  have a1 := Complex.arg_le_pi p
  have a2 := Complex.neg_pi_lt_arg p
  have ht : |t| ≤ Real.pi + 1 / 2 ^ 21 := by
    rw [abs_le]
    rcases h with h | ⟨h, -⟩ <;> obtain ⟨h1, h2⟩ := abs_le.1 h <;> constructor <;> linarith
  obtain ⟨t1, t2⟩ := abs_le.1 ht
  have hr : 0 < ‖p‖ := norm_pos_iff.2 hp
  refine ⟨‖p‖ * (Complex.cos (t * (1 - 1 / 2 ^ 20) : ℝ) + Complex.sin (t * (1 - 1 / 2 ^ 20) : ℝ) * Complex.I), ?_, ?_⟩
  · exact Complex.arg_mul_cos_add_sin_mul_I hr ⟨by norm_num at *; linarith, by norm_num at *; linarith⟩
  · have ex : ∀ s : ℝ, Complex.cos s + Complex.sin s * Complex.I = Complex.exp (s * Complex.I) := fun s =>
      (Complex.exp_mul_I s).symm
    rw [ex]
    have dist : ∀ s r : ℝ, ‖Complex.exp (s * Complex.I) - Complex.exp (r * Complex.I)‖ ≤ |s - r| := by
      intro s r
      have e : Complex.exp (s * Complex.I) - Complex.exp (r * Complex.I) =
          Complex.exp (r * Complex.I) * (Complex.exp (Complex.I * ((s - r : ℝ) : ℂ)) - 1) := by
        rw [mul_sub, ← Complex.exp_add, mul_one]
        congr 2
        push_cast
        ring
      rw [e, norm_mul, Complex.norm_exp_ofReal_mul_I, one_mul]
      exact Real.norm_exp_I_mul_ofReal_sub_one_le
    have hd : ‖Complex.exp ((t * (1 - 1 / 2 ^ 20) : ℝ) * Complex.I) - Complex.exp (p.arg * Complex.I)‖ ≤ 1 / 2 ^ 18 := by
      have key : ∀ r : ℝ, Complex.exp (r * Complex.I) = Complex.exp (p.arg * Complex.I) → |t - r| ≤ 1 / 2 ^ 21 →
          ‖Complex.exp ((t * (1 - 1 / 2 ^ 20) : ℝ) * Complex.I) - Complex.exp (p.arg * Complex.I)‖ ≤ 1 / 2 ^ 18 := by
        intro r er hr
        rw [← er]
        refine (dist _ _).trans ?_
        obtain ⟨r1, r2⟩ := abs_le.1 hr
        rw [abs_le]
        constructor <;> norm_num at * <;> linarith
      rcases h with h | ⟨h, e⟩
      · exact key _ rfl h
      · refine key (-Real.pi) ?_ (by rwa [sub_neg_eq_add])
        rw [e]
        push_cast
        rw [neg_mul, Complex.exp_neg, Complex.exp_pi_mul_I]
        norm_num
    have e2 : (‖p‖ : ℂ) * Complex.exp ((t * (1 - 1 / 2 ^ 20) : ℝ) * Complex.I) - p =
        ‖p‖ * (Complex.exp ((t * (1 - 1 / 2 ^ 20) : ℝ) * Complex.I) - Complex.exp (p.arg * Complex.I)) := by
      rw [mul_sub (‖p‖ : ℂ), Complex.norm_mul_exp_arg_mul_I]
    rw [e2, norm_mul, Complex.norm_of_nonneg hr.le]
    calc ‖p‖ * _ ≤ 480 * (1 / 2 ^ 18) := mul_le_mul hb hd (norm_nonneg _) (by norm_num)
      _ ≤ 1 / 500 := by norm_num

/-- What is known about a corner: where it is, where it is computed to be, and its computed angle. -/
structure Seen (a p : ℂ) (t : ℝ) : Prop where
  near : ‖p - a‖ ≤ 1 / 400
  small : ‖p‖ ≤ 480
  angle : p ≠ 0 → |t - p.arg| ≤ 1 / 2 ^ 21 ∨ (|t + Real.pi| ≤ 1 / 2 ^ 21 ∧ p.arg = Real.pi)

/-- `a` sticks out from `b`, `c` and the origin. -/
structure Sticks (k l : ℝ) (a b c : ℂ) : Prop where
  unit : k * k + l * l ≤ 1
  pos : 1 / 100 ≤ lin k l a
  fst : lin k l b + 1 / 32 ≤ lin k l a
  snd : lin k l c + 1 / 32 ≤ lin k l a

/-- Three points that stick out, sorted by decreasing computed angles, turn clockwise, and so do points near them. -/
theorem sorted_turn {a b c p q r : ℂ} {s t w k1 l1 k2 l2 k3 l3 : ℝ} (ha : Seen a p s) (hb : Seen b q t) (hc : Seen c r w)
    (h1 : Sticks k1 l1 a b c) (h2 : Sticks k2 l2 b a c) (h3 : Sticks k3 l3 c a b) (hst : t ≤ s) (htw : w ≤ t)
    {a' b' c' : ℂ} (na : ‖a' - a‖ ≤ 1 / 500) (nb : ‖b' - b‖ ≤ 1 / 500) (nc : ‖c' - c‖ ≤ 1 / 500) :
    area a' b' c' < 0 := by
  have near : ∀ {k l : ℝ} {x y : ℂ} {e : ℝ}, k * k + l * l ≤ 1 → ‖y - x‖ ≤ e → |lin k l y - lin k l x| ≤ e := by
    intro k l x y e hu hn
    rw [← lin_sub]
    exact (lin_le hu _).trans hn
  have hne : ∀ {x y z p : ℂ} {s k l : ℝ}, Seen x p s → Sticks k l x y z → p ≠ 0 := by
    intro x y z p s k l hs hk e
    have := (abs_le.1 (near hk.unit hs.near)).1
    have h0 : lin k l p = 0 := by rw [e]; simp [lin]
    have := hk.pos
    linarith
  obtain ⟨a1, ea, da⟩ := polar_near (hne ha h1) ha.small (ha.angle (hne ha h1))
  obtain ⟨b1, eb, db⟩ := polar_near (hne hb h2) hb.small (hb.angle (hne hb h2))
  obtain ⟨c1, ec, dc⟩ := polar_near (hne hc h3) hc.small (hc.angle (hne hc h3))
  have tri : ∀ {x y z : ℂ}, ‖y - x‖ ≤ 1 / 400 → ‖z - y‖ ≤ 1 / 500 → ‖z - x‖ ≤ 1 / 200 := by
    intro x y z g1 g2
    have e : z - x = (z - y) + (y - x) := by ring
    rw [e]
    refine (norm_add_le _ _).trans ?_
    linarith
  have da' := tri ha.near da
  have db' := tri hb.near db
  have dc' := tri hc.near dc
  have out : ∀ {k l : ℝ} {x y z x' y' z' : ℂ}, Sticks k l x y z → ‖x' - x‖ ≤ 1 / 200 → ‖y' - y‖ ≤ 1 / 200 →
      ‖z' - z‖ ≤ 1 / 200 → Out k l x' y' z' ∧ 0 < lin k l x' := by
    intro k l x y z x' y' z' hk hx hy hz
    have g1 := (abs_le.1 (near hk.unit hx)).1
    have g2 := (abs_le.1 (near hk.unit hy)).2
    have g3 := (abs_le.1 (near hk.unit hz)).2
    have := hk.pos
    have := hk.fst
    have := hk.snd
    exact ⟨⟨by linarith, by linarith⟩, by linarith⟩
  obtain ⟨o1, p1⟩ := out h1 da' db' dc'
  obtain ⟨o2, p2⟩ := out h2 db' da' dc'
  obtain ⟨o3, p3⟩ := out h3 dc' da' db'
  have x1 : Ext a1 b1 c1 := ⟨k1, l1, p1, o1.1, o1.2⟩
  have x2 : Ext b1 a1 c1 := ⟨k2, l2, p2, o2.1, o2.2⟩
  have x3 : Ext c1 a1 b1 := ⟨k3, l3, p3, o3.1, o3.2⟩
  have f : (0 : ℝ) ≤ 1 - 1 / 2 ^ 20 := by norm_num
  have s1 : b1.arg ≤ a1.arg := by rw [ea, eb]; exact mul_le_mul_of_nonneg_right hst f
  have s2 : c1.arg ≤ b1.arg := by rw [eb, ec]; exact mul_le_mul_of_nonneg_right htw f
  have ho := orient x3.swap x2.swap x1.swap (lt_of_le_of_ne s2 (arg_ne x3.swap x2.swap)) (lt_of_le_of_ne s1 (arg_ne x2 x1))
  have le : (1 : ℝ) / 500 ≤ 1 / 200 := by norm_num
  have q1 := (out h1 (na.trans le) (nb.trans le) (nc.trans le)).1
  have q2 := (out h2 (nb.trans le) (na.trans le) (nc.trans le)).1
  have q3 := (out h3 (nc.trans le) (na.trans le) (nb.trans le)).1
  have := area_stable (a := c1) (b := b1) (c := a1) ⟨o3.2, o3.1⟩ ⟨o2.2, o2.1⟩ ⟨o1.2, o1.1⟩ (a' := c') (b' := b') (c' := a')
    ⟨q3.2, q3.1⟩ ⟨q2.2, q2.1⟩ ⟨q1.2, q1.1⟩ ho
  have e : area c' b' a' = - area a' b' c' := by unfold area cr; ring
  rw [e] at this
  linarith

end Quarch.Wind
