import Verif.Spec.Real
import Mathlib.Analysis.SpecialFunctions.Complex.Arg
import Mathlib.Tactic.Linarith
import Mathlib.Tactic.Ring
import Mathlib.Tactic.FieldSimp
/-
Plane geometry behind C25: points around an inner point, in convex position, sorted by angle, form a convex
polygon.
-/
namespace Quarch.Wind

/-- Cross product in the plane. -/
def cr (a b : ℂ) : ℝ := a.re * b.im - a.im * b.re

theorem cr_swap (a b : ℂ) : cr a b = - cr b a := by unfold cr; ring

theorem cr_polar (a b : ℂ) : cr a b = ‖a‖ * ‖b‖ * Real.sin (b.arg - a.arg) := by
  rw [Real.sin_sub]
  unfold cr
  have h1 := Complex.norm_mul_cos_arg a
  have h2 := Complex.norm_mul_sin_arg a
  have h3 := Complex.norm_mul_cos_arg b
  have h4 := Complex.norm_mul_sin_arg b
  rw [← h1, ← h2, ← h3, ← h4]
  ring

/-- A linear functional. -/
def lin (k l : ℝ) (a : ℂ) : ℝ := k * a.re + l * a.im

/-- The middle one of three points within a half-plane is beyond the line through the others if it is extreme. -/
theorem half {a b c : ℂ} {k l : ℝ} (hab : 0 ≤ cr a b) (hbc : 0 ≤ cr b c) (hca : cr c a < 0)
    (h0 : 0 < lin k l b) (ha : lin k l a < lin k l b) (hc : lin k l c < lin k l b) :
    0 < cr a b + cr b c + cr c a := by
  have hid : - cr c a * lin k l b = cr b c * lin k l a + cr a b * lin k l c := by
    unfold cr lin; ring
  generalize lin k l a = fa at *
  generalize lin k l b = fb at *
  generalize lin k l c = fc at *
  generalize cr a b = x at *
  generalize cr b c = y at *
  generalize cr c a = z at *
  by_contra hn
  have hn : x + y ≤ -z := by linarith
  have h1 : y * fa ≤ y * fb := mul_le_mul_of_nonneg_left ha.le hbc
  have h2 : x * fc ≤ x * fb := mul_le_mul_of_nonneg_left hc.le hab
  have h3 : (x + y) * fb ≤ -z * fb := mul_le_mul_of_nonneg_right hn h0.le
  have e1 : y * fa = y * fb := by nlinarith
  have e2 : x * fc = x * fb := by nlinarith
  have y0 : y = 0 := by
    rcases hbc.lt_or_eq with h | h
    · have := mul_lt_mul_of_pos_left ha h; linarith
    · exact h.symm
  have x0 : x = 0 := by
    rcases hab.lt_or_eq with h | h
    · have := mul_lt_mul_of_pos_left hc h; linarith
    · exact h.symm
  rw [y0, x0] at hid
  have : 0 < -z * fb := mul_pos (by linarith) h0
  linarith

/-- `b` is extreme among `a`, `b`, `c` and the origin. -/
def Ext (b a c : ℂ) : Prop := ∃ k l : ℝ, 0 < lin k l b ∧ lin k l a < lin k l b ∧ lin k l c < lin k l b

theorem Ext.swap {a b c : ℂ} : Ext b a c → Ext b c a := fun ⟨k, l, h1, h2, h3⟩ => ⟨k, l, h1, h3, h2⟩

theorem Ext.ne_zero {a b c : ℂ} : Ext b a c → b ≠ 0 := by
  rintro ⟨k, l, h1, _, _⟩ rfl
  simp [lin] at h1

/-- Extreme points have different directions. -/
theorem arg_ne {a b c d : ℂ} (h1 : Ext a b c) (h2 : Ext b a d) : a.arg ≠ b.arg := by
  intro e
  have ha := norm_pos_iff.2 h1.ne_zero
  have hb := norm_pos_iff.2 h2.ne_zero
  have r : ∀ k l : ℝ, lin k l a * ‖b‖ = lin k l b * ‖a‖ := by
    intro k l
    have t1 := (Complex.norm_mul_cos_arg a).symm
    have t2 := (Complex.norm_mul_sin_arg a).symm
    have t3 := (Complex.norm_mul_cos_arg b).symm
    have t4 := (Complex.norm_mul_sin_arg b).symm
    rw [e] at t1 t2
    unfold lin
    generalize Real.cos b.arg = co at *
    generalize Real.sin b.arg = si at *
    rw [t1, t2, t3, t4]
    ring
  obtain ⟨k, l, p1, p2, _⟩ := h1
  obtain ⟨k', l', q1, q2, _⟩ := h2
  have e1 := r k l
  have e2 := r k' l'
  have hab : ‖b‖ < ‖a‖ := by
    by_contra hn
    have hn := not_lt.1 hn
    have : lin k l b * ‖a‖ < lin k l a * ‖a‖ := mul_lt_mul_of_pos_right p2 ha
    have : lin k l a * ‖a‖ ≤ lin k l a * ‖b‖ := mul_le_mul_of_nonneg_left hn p1.le
    linarith
  have hba : ‖a‖ < ‖b‖ := by
    by_contra hn
    have hn := not_lt.1 hn
    have : lin k' l' a * ‖b‖ < lin k' l' b * ‖b‖ := mul_lt_mul_of_pos_right q2 hb
    have : lin k' l' b * ‖b‖ ≤ lin k' l' b * ‖a‖ := mul_le_mul_of_nonneg_left hn q1.le
    linarith
  linarith

/-- Three extreme points in order of angle turn counter-clockwise. -/
theorem orient {a b c : ℂ} (ha : Ext a b c) (hb : Ext b a c) (hc : Ext c a b) (h1 : a.arg < b.arg)
    (h2 : b.arg < c.arg) : 0 < cr a b + cr b c + cr c a := by
  have na := norm_pos_iff.2 ha.ne_zero
  have nb := norm_pos_iff.2 hb.ne_zero
  have nc := norm_pos_iff.2 hc.ne_zero
  have hrange : c.arg - a.arg < 2 * Real.pi := by
    have := Complex.arg_le_pi c
    have := Complex.neg_pi_lt_arg a
    linarith
  have e3 : cr c a = ‖c‖ * ‖a‖ * Real.sin (2 * Real.pi - (c.arg - a.arg)) := by
    rw [cr_polar, Real.sin_two_pi_sub, ← Real.sin_neg]
    congr 2; ring
  have e1 := cr_polar a b
  have e2 := cr_polar b c
  have nonneg : ∀ {x y t : ℝ}, 0 < x → 0 < y → 0 < t → t ≤ Real.pi → 0 ≤ x * y * Real.sin t := by
    intro x y t hx hy h0 hp
    exact mul_nonneg (mul_pos hx hy).le (Real.sin_nonneg_of_nonneg_of_le_pi h0.le hp)
  have pos : ∀ {x y t : ℝ}, 0 < x → 0 < y → 0 < t → t < Real.pi → 0 < x * y * Real.sin t := by
    intro x y t hx hy h0 hp
    exact mul_pos (mul_pos hx hy) (Real.sin_pos_of_pos_of_lt_pi h0 hp)
  have neg : ∀ {x y t : ℝ}, 0 < x → 0 < y → Real.pi < t → t < 2 * Real.pi → x * y * Real.sin t < 0 := by
    intro x y t hx hy h0 hp
    have : Real.sin t < 0 := by
      have h := Real.sin_pos_of_pos_of_lt_pi (x := t - Real.pi) (by linarith) (by linarith)
      rw [Real.sin_sub_pi] at h
      linarith
    exact mul_neg_of_pos_of_neg (mul_pos hx hy) this
  have hpi := Real.pi_pos
  rcases lt_trichotomy (b.arg - a.arg) Real.pi with g1 | g1 | g1
  · rcases lt_or_ge (c.arg - b.arg) Real.pi with g2 | g2
    · rcases le_or_gt (2 * Real.pi - (c.arg - a.arg)) Real.pi with g3 | g3
      · have := nonneg nc na (by linarith) g3
        have := pos na nb (by linarith) g1
        have := pos nb nc (by linarith) g2
        linarith
      · obtain ⟨k, l, q0, q1, q2⟩ := hb
        refine half (k := k) (l := l) ?_ ?_ ?_ q0 q1 q2
        · rw [e1]; exact nonneg na nb (by linarith) g1.le
        · rw [e2]; exact nonneg nb nc (by linarith) g2.le
        · rw [e3]; exact neg nc na g3 (by linarith)
    · rcases g2.lt_or_eq with g2 | g2
      · obtain ⟨k, l, q0, q1, q2⟩ := ha
        have := half (a := c) (b := a) (c := b) (k := k) (l := l)
          (by rw [e3]; exact nonneg nc na (by linarith) (by linarith))
          (by rw [e1]; exact nonneg na nb (by linarith) (by linarith))
          (by rw [e2]; exact neg nb nc g2 (by linarith)) q0 q2 q1
        linarith
      · have h3 := pos nc na (t := 2 * Real.pi - (c.arg - a.arg)) (by linarith) (by linarith)
        have h4 := pos na nb (t := b.arg - a.arg) (by linarith) (by linarith)
        have h5 := nonneg nb nc (t := c.arg - b.arg) (by linarith) (by linarith)
        linarith
  · have h3 := pos nc na (t := 2 * Real.pi - (c.arg - a.arg)) (by linarith) (by linarith)
    have h4 := nonneg na nb (t := b.arg - a.arg) (by linarith) (by linarith)
    have h5 := pos nb nc (t := c.arg - b.arg) (by linarith) (by linarith)
    linarith
  · obtain ⟨k, l, q0, q1, q2⟩ := hc
    have := half (a := b) (b := c) (c := a) (k := k) (l := l)
      (by rw [e2]; exact nonneg nb nc (by linarith) (by linarith))
      (by rw [e3]; exact nonneg nc na (by linarith) (by linarith))
      (by rw [e1]; exact neg na nb g1 (by linarith)) q0 q2 q1
    linarith

end Quarch.Wind
