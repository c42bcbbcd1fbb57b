import Verif.Proofs.Rounding
import Verif.Props.Rounding
/-
Error bounds for the computed corner of three planes whose normals are known up to a few units in the last place.
-/
set_option linter.unusedSectionVars false
namespace Quarch
open Spec Rounding

namespace Err

/-- Sum of the products of absolute values. -/
noncomputable def mag (a b : V3 ℝ) : ℝ := |a.x| * |b.x| + |a.y| * |b.y| + |a.z| * |b.z|

theorem mag_nonneg (a b : V3 ℝ) : 0 ≤ mag a b := by unfold mag; positivity

theorem mag_le {a b : V3 ℝ} {A B : ℝ} (hA : 0 ≤ A) (hB : 0 ≤ B) (ha : dotR a a ≤ A * A) (hb : dotR b b ≤ B * B) :
    mag a b ≤ A * B := by
  refine abs_le_of_sq_le_sq' ?_ (mul_nonneg hA hB) |>.2
  have e : mag a b ^ 2 ≤ dotR a a * dotR b b := by
    have e1 : dotR a a = |a.x| ^ 2 + |a.y| ^ 2 + |a.z| ^ 2 := by simp only [dotR, sq_abs]; ring
    have e2 : dotR b b = |b.x| ^ 2 + |b.y| ^ 2 + |b.z| ^ 2 := by simp only [dotR, sq_abs]; ring
    rw [e1, e2]
    unfold mag
    nlinarith [sq_nonneg (|a.x| * |b.y| - |a.y| * |b.x|), sq_nonneg (|a.y| * |b.z| - |a.z| * |b.y|),
      sq_nonneg (|a.z| * |b.x| - |a.x| * |b.z|)]
  refine e.trans ?_
  have h0 : 0 ≤ dotR b b := by unfold dotR; nlinarith [mul_self_nonneg b.x, mul_self_nonneg b.y, mul_self_nonneg b.z]
  calc dotR a a * dotR b b ≤ (A * A) * (B * B) := mul_le_mul ha hb h0 (mul_nonneg hA hA)
    _ = (A * B) ^ 2 := by ring

theorem abs_dot_le (a b : V3 ℝ) : |dotR a b| ≤ mag a b := by
  unfold dotR mag
  rw [← abs_mul, ← abs_mul, ← abs_mul]
  exact (abs_add_le _ _).trans (add_le_add (abs_add_le _ _) le_rfl)

/-- Coordinates agree up to the relative error `e` and the absolute error `t`. -/
def Rel (e t : ℝ) (a b : V3 ℝ) : Prop :=
  |a.x - b.x| ≤ e * |b.x| + t ∧ |a.y - b.y| ≤ e * |b.y| + t ∧ |a.z - b.z| ≤ e * |b.z| + t

/-- Scalar product with the error of the left vector. -/
theorem rel_dot {e t B : ℝ} {a b v : V3 ℝ} (h : Rel e t a b) (ht : 0 ≤ t) (hv : Within B v) :
    |dotR (subR a b) v| ≤ e * mag b v + 3 * (t * B) := by
  have p : ∀ {x y z : ℝ}, |x - y| ≤ e * |y| + t → |z| ≤ B → |x - y| * |z| ≤ e * (|y| * |z|) + t * B := by
    intro x y z h1 h2
    have := mul_le_mul_of_nonneg_right h1 (abs_nonneg z)
    have := mul_le_mul_of_nonneg_left h2 ht
    linarith
  have := abs_dot_le (subR a b) v
  have := p h.1 hv.1
  have := p h.2.1 hv.2.1
  have := p h.2.2 hv.2.2
  unfold mag subR at *
  simp only [] at *
  linarith

/-- Sum of products with the error of the left vector. -/
theorem rel_mag {e t B : ℝ} {a b v : V3 ℝ} (h : Rel e t a b) (ht : 0 ≤ t) (hv : Within B v) :
    mag a v ≤ (1 + e) * mag b v + 3 * (t * B) := by
  have p : ∀ {x y z : ℝ}, |x - y| ≤ e * |y| + t → |z| ≤ B → |x| * |z| ≤ (1 + e) * (|y| * |z|) + t * B := by
    intro x y z h1 h2
    have := mul_le_mul_of_nonneg_right (abs_le_of h1) (abs_nonneg z)
    have := mul_le_mul_of_nonneg_left h2 ht
    linarith
  have := p h.1 hv.1
  have := p h.2.1 hv.2.1
  have := p h.2.2 hv.2.2
  unfold mag at *
  linarith

theorem within_of_dot {v : V3 ℝ} {R : ℝ} (hR : 0 ≤ R) (h : dotR v v ≤ R * R) : Within R v := by
  have k : ∀ t : ℝ, t * t ≤ R * R → |t| ≤ R := fun t ht => abs_le_of_sq_le_sq (by rw [pow_two, pow_two]; exact ht) hR
  unfold dotR at h
  refine ⟨k _ ?_, k _ ?_, k _ ?_⟩ <;> nlinarith [mul_self_nonneg v.x, mul_self_nonneg v.y, mul_self_nonneg v.z]

section
variable {F : Type} [Arith F] [Rounding F]

/-- Rounded scalar product of a vector known up to small errors. -/
theorem dot_rel {a b : V3 F} {n : V3 ℝ} {e t B : ℝ} (h : Fin (Arith.dot a b)) (he1 : e ≤ 1 / 1000) (ht : 0 ≤ t)
    (hr : Rel e t (valV a) n) (hb : Within B (valV b)) :
    |val (Arith.dot a b) - dotR n (valV b)| ≤ (e + 401 / 100 * u) * mag n (valV b) + 4 * (t * B) + 4 * tiny := by
  have h1 := (dot_err h).2.2
  have h2 := rel_dot hr ht hb
  have h3 := rel_mag hr ht hb
  have hm : |val a.x| * |val b.x| + |val a.y| * |val b.y| + |val a.z| * |val b.z| = mag (valV a) (valV b) := rfl
  rw [hm] at h1
  have e1 : val (Arith.dot a b) - dotR n (valV b) = (val (Arith.dot a b) - dotR (valV a) (valV b)) +
      dotR (subR (valV a) n) (valV b) := by simp only [dotR, subR]; ring
  rw [e1]
  refine (abs_add_le _ _).trans ?_
  have m0 := mag_nonneg n (valV b)
  generalize mag n (valV b) = m at *
  generalize mag (valV a) (valV b) = m' at *
  have hB : 0 ≤ B := (abs_nonneg _).trans hb.1
  have hz : 0 ≤ t * B := mul_nonneg ht hB
  have hem : e * m ≤ 1 / 1000 * m := mul_le_mul_of_nonneg_right he1 m0
  have up := u_pos
  have : 4 * u * m' ≤ 4 * u * ((1 + e) * m + 3 * (t * B)) := mul_le_mul_of_nonneg_left h3 (by linarith)
  have : 4 * u * ((1 + e) * m) ≤ 401 / 100 * u * m := by
    have : (1 + e) * m ≤ 1001 / 1000 * m := by linarith
    have := mul_le_mul_of_nonneg_left this up.le
    nlinarith [mul_nonneg up.le m0]
  have : 4 * u * (3 * (t * B)) ≤ t * B := by
    unfold u; linarith
  linarith

/-- The slack for products that underflow. -/
noncomputable def slack : ℝ := u / 1000000

theorem slack_pos : 0 < slack := by unfold slack u; norm_num
theorem slack_le : slack ≤ u / 1000000 := le_rfl

/-- The vector `a` is the direction of `w` up to rounding. -/
theorem normalize_rel {w : V3 F} (hf : FinV w) (h1 : 1 / 2 ^ 40 ≤ lenR (valV w)) (h2 : lenR (valV w) ≤ 2 ^ 40) :
    FinV (Arith.normalize w) ∧
      Rel (51 / 10 * u) slack (valV (Arith.normalize w)) (smulR (1 / lenR (valV w)) (valV w)) := by
  have tl := tiny_le
  have tp := tiny_pos
  have up := u_pos
  have cl := coord_len (valV w)
  have ww : Within (2 ^ 40) (valV w) := ⟨cl.1.trans h2, cl.2.1.trans h2, cl.2.2.trans h2⟩
  have hq := dot_ok hf hf (by norm_num) ww ww (by rw [large_val]; norm_num)
  have eq := (dot_err hq).2.2
  have hd : |val w.x| * |val w.x| + |val w.y| * |val w.y| + |val w.z| * |val w.z| = lenR (valV w) * lenR (valV w) := by
    rw [len_sq, ← abs_mul, ← abs_mul, ← abs_mul, abs_mul_self, abs_mul_self, abs_mul_self]; rfl
  rw [hd, ← len_sq] at eq
  have hx : (smulR (1 / lenR (valV w)) (valV w)) = ⟨val w.x / lenR (valV w), val w.y / lenR (valV w), val w.z / lenR (valV w)⟩ := by
    simp only [smulR, valV]
    congr 1
    all_goals ring
  rw [hx]
  generalize lenR (valV w) = l at *
  have hlp : 0 < l := lt_of_lt_of_le (by norm_num) h1
  have hl2 : (1 : ℝ) / 2 ^ 80 ≤ l * l := by
    calc (1 : ℝ) / 2 ^ 80 = 1 / 2 ^ 40 * (1 / 2 ^ 40) := by norm_num
      _ ≤ l * l := mul_le_mul h1 h1 (by positivity) hlp.le
  have ht4 : 4 * tiny ≤ 1 / 100 * u * (1 / 2 ^ 80) := by unfold tiny u; norm_num
  have eq' : |val (Arith.dot w w) - l * l| ≤ 401 / 100 * u * (l * l) := by
    have : 1 / 100 * u * (1 / 2 ^ 80) ≤ 1 / 100 * u * (l * l) := mul_le_mul_of_nonneg_left hl2 (by positivity)
    linarith
  have hll : 0 < l * l := by positivity
  have hq0 : 0 ≤ val (Arith.dot w w) := by
    have := (abs_le.1 eq').1
    unfold u at *; linarith
  have hs := (sqrt_fin _).2 ⟨hq, hq0⟩
  have es := sqrt_val _ hs
  have hr : |Real.sqrt (val (Arith.dot w w)) - l| ≤ 202 / 100 * u * l := by
    have r0 := Real.sqrt_nonneg (val (Arith.dot w w))
    have r1 := Real.mul_self_sqrt hq0
    generalize Real.sqrt (val (Arith.dot w w)) = r at *
    have h1 : |r - l| * (r + l) = |val (Arith.dot w w) - l * l| := by
      rw [← r1, ← abs_of_pos (by linarith : 0 < r + l), ← abs_mul]
      congr 1
      ring
    have h2 : |r - l| * l ≤ |r - l| * (r + l) := mul_le_mul_of_nonneg_left (by linarith) (abs_nonneg _)
    have h3 : |r - l| * l ≤ 401 / 100 * u * l * l := by linarith
    have h4 := le_of_mul_le_mul_right h3 hlp
    have h5 : 1999 / 1000 * l ≤ r + l := by
      have := (abs_le.1 h4).1
      unfold u at *; linarith
    have h6 : |r - l| * (1999 / 1000 * l) ≤ |r - l| * (r + l) := mul_le_mul_of_nonneg_left h5 (abs_nonneg _)
    have h7 : |r - l| * l ≤ 202 / 100 * u * l * l := by
      have : 0 ≤ u * (l * l) := by positivity
      linarith
    exact le_of_mul_le_mul_right h7 hlp
  have hsl : |val (Rounding.sqrt (Arith.dot w w)) - l| ≤ 303 / 100 * u * l := by
    have r0 := Real.sqrt_nonneg (val (Arith.dot w w))
    generalize Real.sqrt (val (Arith.dot w w)) = r at *
    generalize val (Rounding.sqrt (Arith.dot w w)) = s at *
    have h1 : s - l = (s - r) + (r - l) := by ring
    have h2 := (abs_le.1 hr).2
    rw [h1]
    refine (abs_add_le _ _).trans ?_
    unfold u at *; linarith
  have hsp : 999 / 1000 * l ≤ val (Rounding.sqrt (Arith.dot w w)) := by
    have := (abs_le.1 hsl).1
    unfold u at *; linarith
  rw [Rounding.normalize_eq]
  generalize hss : Rounding.sqrt (Arith.dot w w) = s at *
  have hs0 : 0 < val s := by linarith
  -- division of a coordinate by the computed length
  have quot : ∀ x : ℝ, |x / val s - x / l| ≤ 304 / 100 * u * |x / l| := by
    intro x
    have e : x / val s - x / l = (x / l) * ((l - val s) / val s) := by field_simp
    have e1 : |(l - val s) / val s| ≤ 304 / 100 * u := by
      rw [abs_div, abs_of_pos hs0, div_le_iff₀ hs0, abs_sub_comm]
      refine hsl.trans ?_
      have : 0 ≤ u * l := by positivity
      have := mul_le_mul_of_nonneg_left hsp up.le
      linarith
    rw [e, abs_mul, mul_comm (304 / 100 * u)]
    exact mul_le_mul_of_nonneg_left e1 (abs_nonneg _)
  have dirle : ∀ x : ℝ, |x| ≤ l → |x / l| ≤ 1 := fun x hx => by
    rw [abs_div, abs_of_pos hlp]; exact (div_le_one hlp).2 hx
  have hsl0 : tiny ≤ 1 / 10 * slack := by unfold slack tiny u; norm_num
  have key : ∃ q : F → F, (if Rounding.recip F then
      (⟨Arith.mul w.x (Arith.div Arith.one s), Arith.mul w.y (Arith.div Arith.one s),
        Arith.mul w.z (Arith.div Arith.one s)⟩ : V3 F)
    else ⟨Arith.div w.x s, Arith.div w.y s, Arith.div w.z s⟩) = ⟨q w.x, q w.y, q w.z⟩ ∧ ∀ x : F, Fin x → |val x| ≤ l →
      Fin (q x) ∧ |val (q x) - val x / l| ≤ 51 / 10 * u * |val x / l| + slack := by
    cases hrec : Rounding.recip F
    · refine ⟨fun x => Arith.div x s, by simp, fun x fx hx => ?_⟩
      have q1 := quot (val x)
      have q2 := dirle _ hx
      have q3 := abs_le_of q1
      have a2 := div_ok x s fx hs hs0.ne' (by
        refine q3.trans ?_
        rw [large_val]; unfold u; linarith)
      have a3 := div_val x s a2 hs
      refine ⟨a2, ?_⟩
      have e : val (Arith.div x s) - val x / l = (val (Arith.div x s) - val x / val s) + (val x / val s - val x / l) := by
        ring
      rw [e]
      refine (abs_add_le _ _).trans ?_
      have := abs_nonneg (val x / l)
      have sp := slack_pos
      unfold u at *; linarith
    · refine ⟨fun x => Arith.mul x (Arith.div Arith.one s), by simp, fun x fx hx => ?_⟩
      have q1 := quot (val x)
      have q2 := dirle _ hx
      have q3 := abs_le_of q1
      have hs1 : 1 / 2 ^ 41 ≤ val s := by
        have : (1 : ℝ) / 2 ^ 41 ≤ 999 / 1000 * (1 / 2 ^ 40) := by norm_num
        linarith
      have b1 : |val (Arith.one : F) / val s| ≤ 2 ^ 41 := by
        rw [one_val, abs_div, abs_of_pos hs0, abs_one, div_le_iff₀ hs0]
        calc (1 : ℝ) = 2 ^ 41 * (1 / 2 ^ 41) := by norm_num
          _ ≤ _ := mul_le_mul_of_nonneg_left hs1 (by positivity)
      have b2 := div_ok Arith.one s one_fin hs hs0.ne' (b1.trans (by rw [large_val]; norm_num))
      have b3 := div_val Arith.one s b2 hs
      rw [one_val] at b3 b1
      generalize Arith.div Arith.one s = r at *
      have hx0 := abs_nonneg (val x)
      have b4 : |val x * val r - val x / val s| ≤ u * |val x / val s| + 1 / 10 * slack := by
        have e : val x * val r - val x / val s = val x * (val r - 1 / val s) := by ring
        have e1 : |val x| * |1 / val s| = |val x / val s| := by rw [← abs_mul, mul_one_div]
        rw [e, abs_mul]
        have e2 : |val x| * |val r - 1 / val s| ≤ |val x| * (u * |1 / val s| + tiny) :=
          mul_le_mul_of_nonneg_left b3 hx0
        have e3 : |val x| * tiny ≤ 2 ^ 40 * tiny := mul_le_mul_of_nonneg_right (hx.trans h2) tp.le
        have e4 : |val x| * (u * |1 / val s| + tiny) = u * (|val x| * |1 / val s|) + |val x| * tiny := by ring
        rw [e1] at e4
        have e6 : 2 ^ 40 * tiny ≤ 1 / 10 * slack := by unfold slack tiny u; norm_num
        linarith
      have sp := slack_pos
      have sl := slack_le
      have b5 : |val x * val r| ≤ |val x / val s| * (1 + u) + 1 / 10 * slack := by
        have := abs_le_of b4
        linarith
      have b6 := mul_ok x r fx b2 (by rw [large_val]; unfold u at *; linarith)
      have b7 := mul_val x r b6
      refine ⟨b6, ?_⟩
      have e : val (Arith.mul x r) - val x / l =
        (val (Arith.mul x r) - val x * val r) + (val x * val r - val x / val s) + (val x / val s - val x / l) := by ring
      rw [e]
      refine (abs_add_le _ _).trans ?_
      have := abs_add_le (val (Arith.mul x r) - val x * val r) (val x * val r - val x / val s)
      have := abs_nonneg (val x / l)
      unfold u at *; linarith
  obtain ⟨q, e, hqq⟩ := key
  rw [e]
  have kx := hqq w.x hf.1 cl.1
  have ky := hqq w.y hf.2.1 cl.2.1
  have kz := hqq w.z hf.2.2 cl.2.2
  exact ⟨⟨kx.1, ky.1, kz.1⟩, kx.2, ky.2, kz.2⟩

/-- What is known about the computed plane of a face whose edge product is exact. -/
structure Good (R : ℝ) (p : BrushPlane F) : Prop where
  fin : FinV (faceNormal p)
  near : Rel (51 / 10 * u) slack (valV (faceNormal p)) (unitNormal p)
  unit : dotR (unitNormal p) (unitNormal p) = 1
  distFin : Fin (faceDist p)
  distNear : |val (faceDist p) - dotR (unitNormal p) (valV p.v0)| ≤ 912 / 100 * u * R
  distLe : |dotR (unitNormal p) (valV p.v0)| ≤ R

theorem good {R : ℝ} {p : BrushPlane F} (hR : 1 ≤ R) (hR' : R ≤ 2 ^ 20) (f0 : FinV p.v0)
    (hf : FinV (Arith.cross (V3.sub p.v2 p.v0) (V3.sub p.v1 p.v0)))
    (he : valV (Arith.cross (V3.sub p.v2 p.v0) (V3.sub p.v1 p.v0)) = edgeNormal p)
    (h1 : 1 / 2 ^ 40 ≤ lenR (edgeNormal p)) (h2 : lenR (edgeNormal p) ≤ 2 ^ 40)
    (h0 : dotR (valV p.v0) (valV p.v0) ≤ R * R) : Good R p := by
  have hn := normalize_rel hf (he ▸ h1) (he ▸ h2)
  rw [he] at hn
  have hu : dotR (unitNormal p) (unitNormal p) = 1 := unit_sq (lt_of_lt_of_le (by norm_num) h1)
  have hw := unit_within hu
  have w0 := within_of_dot (by linarith) h0
  have up := u_pos
  have sp := slack_pos
  have wn : Within 2 (valV (faceNormal p)) := by
    have r : ∀ {x y : ℝ}, |x - y| ≤ 51 / 10 * u * |y| + slack → |y| ≤ 1 → |x| ≤ 2 := fun h1 h2 => by
      have := abs_le_of h1
      unfold slack u at *; linarith
    exact ⟨r hn.2.1 hw.1, r hn.2.2.1 hw.2.1, r hn.2.2.2 hw.2.2⟩
  have hd : Fin (faceDist p) := dot_ok hn.1 f0 (by norm_num) wn w0 (by rw [large_val]; linarith)
  have hm : mag (unitNormal p) (valV p.v0) ≤ 1 * R := mag_le (by norm_num) (by linarith) (by linarith) h0
  refine ⟨hn.1, hn.2, hu, hd, ?_, by have := abs_dot_le (unitNormal p) (valV p.v0); linarith⟩
  refine (dot_rel (n := unitNormal p) hd (by unfold u; norm_num) sp.le hn.2 w0).trans ?_
  have tl := tiny_le
  have : mag (unitNormal p) (valV p.v0) * u ≤ R * u := mul_le_mul_of_nonneg_right (by linarith) up.le
  unfold slack
  unfold u at *; linarith

/-- Product of two numbers known up to small errors. -/
theorem prod_rel {a b A B : ℝ} (h1 : |a - A| ≤ 51 / 10 * u * |A| + slack) (h2 : |b - B| ≤ 51 / 10 * u * |B| + slack)
    (hA : |A| ≤ 1) (hB : |B| ≤ 1) :
    |a * b - A * B| ≤ 1021 / 100 * u * (|A| * |B|) + 3 * slack ∧ |a| * |b| ≤ 10001 / 10000 * (|A| * |B|) + 3 * slack := by
  have up := u_pos
  have sp := slack_pos
  have hAB : 0 ≤ |A| * |B| := by positivity
  have b1 := abs_le_of h2
  have e1 : a * b - A * B = (a - A) * b + A * (b - B) := by ring
  have k1 : |a - A| * |b| ≤ (51 / 10 * u * |A| + slack) * ((1 + 51 / 10 * u) * |B| + slack) :=
    mul_le_mul h1 (by linarith) (abs_nonneg _) (by positivity)
  have k2 : |A| * |b - B| ≤ |A| * (51 / 10 * u * |B| + slack) := mul_le_mul_of_nonneg_left h2 (abs_nonneg _)
  have k3 : slack * |A| ≤ slack := mul_le_of_le_one_right sp.le hA
  have k4 : slack * |B| ≤ slack := mul_le_of_le_one_right sp.le hB
  have k5 : slack * slack ≤ 1 / 100 * slack := mul_le_mul_of_nonneg_right (by unfold slack u; norm_num) sp.le
  have k6 : 0 ≤ slack * |A| := by positivity
  have k7 : 0 ≤ slack * |B| := by positivity
  have k8 : (51 / 10 * u * |A| + slack) * ((1 + 51 / 10 * u) * |B| + slack) =
      51 / 10 * u * (1 + 51 / 10 * u) * (|A| * |B|) + 51 / 10 * u * (slack * |A|) + (1 + 51 / 10 * u) * (slack * |B|) +
        slack * slack := by ring
  have k9 : |a * b - A * B| ≤ 1021 / 100 * u * (|A| * |B|) + 3 * slack := by
    rw [e1]
    refine (abs_add_le _ _).trans ?_
    rw [abs_mul, abs_mul]
    have e2 : |A| * (51 / 10 * u * |B| + slack) = 51 / 10 * u * (|A| * |B|) + slack * |A| := by ring
    unfold u at *; linarith
  refine ⟨k9, ?_⟩
  have := abs_le_of k9
  rw [abs_mul, abs_mul] at this
  unfold u at *; linarith

/-- The computed vector product of two computed normals. -/
theorem cross_rel {a b : V3 F} {A B : V3 ℝ} (fa : FinV a) (fb : FinV b) (ha : Rel (51 / 10 * u) slack (valV a) A)
    (hb : Rel (51 / 10 * u) slack (valV b) B) (hA : dotR A A = 1) (hB : dotR B B = 1) :
    FinV (Arith.cross a b) ∧ Within (135 / 10 * u) (subR (valV (Arith.cross a b)) (crossR A B)) := by
  have wA := unit_within hA
  have wB := unit_within hB
  have up := u_pos
  have sp := slack_pos
  have tl := tiny_le
  have r : ∀ {x y z w : F} {X Y Z W : ℝ}, Fin x → Fin y → Fin z → Fin w →
      |val x - X| ≤ 51 / 10 * u * |X| + slack → |val y - Y| ≤ 51 / 10 * u * |Y| + slack →
      |val z - Z| ≤ 51 / 10 * u * |Z| + slack → |val w - W| ≤ 51 / 10 * u * |W| + slack →
      |X| ≤ 1 → |Y| ≤ 1 → |Z| ≤ 1 → |W| ≤ 1 → X * X + Z * Z ≤ 1 → Y * Y + W * W ≤ 1 →
      Fin (Arith.sub (Arith.mul x y) (Arith.mul z w)) ∧
      |val (Arith.sub (Arith.mul x y) (Arith.mul z w)) - (X * Y - Z * W)| ≤ 135 / 10 * u := by
    intro x y z w X Y Z W fx fy fz fw ex ey ez ew bX bY bZ bW q1 q2
    obtain ⟨g1, g2⟩ := prod_rel ex ey bX bY
    obtain ⟨g3, g4⟩ := prod_rel ez ew bZ bW
    have hs : |X| * |Y| + |Z| * |W| ≤ 1 := by
      have e1 : X * X = |X| * |X| := (abs_mul_abs_self X).symm
      have e2 : Y * Y = |Y| * |Y| := (abs_mul_abs_self Y).symm
      have e3 : Z * Z = |Z| * |Z| := (abs_mul_abs_self Z).symm
      have e4 : W * W = |W| * |W| := (abs_mul_abs_self W).symm
      nlinarith [mul_self_nonneg (|X| - |Y|), mul_self_nonneg (|Z| - |W|)]
    have n1 : 0 ≤ |X| * |Y| := by positivity
    have n2 : 0 ≤ |Z| * |W| := by positivity
    have sl : slack ≤ 1 := by unfold slack u; norm_num
    have i1 := mul_ok x y fx fy (by rw [abs_mul, large_val]; linarith)
    have i2 := mul_ok z w fz fw (by rw [abs_mul, large_val]; linarith)
    have j1 := abs_le_of (mul_err i1)
    have j2 := abs_le_of (mul_err i2)
    rw [abs_mul] at j1 j2
    have i3 := sub_ok _ _ i1 i2 ((abs_sub _ _).trans (by rw [large_val]; unfold u at *; linarith))
    have k := (diff_err i3).2
    refine ⟨i3, ?_⟩
    have : val (Arith.sub (Arith.mul x y) (Arith.mul z w)) - (X * Y - Z * W) =
        (val (Arith.sub (Arith.mul x y) (Arith.mul z w)) - (val x * val y - val z * val w)) +
        (val x * val y - X * Y) - (val z * val w - Z * W) := by ring
    rw [this]
    refine (abs_sub _ _).trans ?_
    have := abs_add_le (val (Arith.sub (Arith.mul x y) (Arith.mul z w)) - (val x * val y - val z * val w))
      (val x * val y - X * Y)
    have hs' := mul_le_mul_of_nonneg_left hs up.le
    unfold slack at *
    unfold u at *; linarith
  obtain ⟨a1, a2, a3⟩ := ha
  obtain ⟨b1, b2, b3⟩ := hb
  have q := fun {s t v : ℝ} (h : s * s + t * t + v * v = 1) =>
    (⟨by nlinarith [mul_self_nonneg v], by nlinarith [mul_self_nonneg t], by nlinarith [mul_self_nonneg s]⟩ :
      s * s + t * t ≤ 1 ∧ v * v + s * s ≤ 1 ∧ t * t + v * v ≤ 1)
  have qA := q hA
  have qB := q hB
  rw [cross_eq]
  obtain ⟨x1, x2⟩ := r fa.2.1 fb.2.2 fa.2.2 fb.2.1 a2 b3 a3 b2 wA.2.1 wB.2.2 wA.2.2 wB.2.1 qA.2.2 (by linarith [qB.2.2])
  obtain ⟨y1, y2⟩ := r fa.2.2 fb.1 fa.1 fb.2.2 a3 b1 a1 b3 wA.2.2 wB.1 wA.1 wB.2.2 qA.2.1 (by linarith [qB.2.1])
  obtain ⟨z1, z2⟩ := r fa.1 fb.2.1 fa.2.1 fb.1 a1 b2 a2 b1 wA.1 wB.2.1 wA.2.1 wB.1 qA.1 (by linarith [qB.1])
  exact ⟨⟨x1, y1, z1⟩, x2, y2, z2⟩

theorem cross_unit {A B : V3 ℝ} (hA : dotR A A = 1) (hB : dotR B B = 1) : dotR (crossR A B) (crossR A B) ≤ 1 * 1 := by
  have : dotR (crossR A B) (crossR A B) = dotR A A * dotR B B - dotR A B * dotR A B := by
    simp only [dotR, crossR]; ring
  rw [this, hA, hB]; nlinarith [mul_self_nonneg (dotR A B)]

/-- A unit vector has coordinates that sum up to at most the root of three. -/
theorem sum_abs {A : V3 ℝ} (hA : dotR A A = 1) : |A.x| + |A.y| + |A.z| ≤ 17321 / 10000 := by
  have := mag_le (a := A) (b := ⟨1, 1, 1⟩) (A := 1) (B := 17321 / 10000) (by norm_num) (by norm_num) (by linarith)
    (by simp only [dotR]; norm_num)
  unfold mag at this
  simp only [abs_one, mul_one] at this
  linarith

theorem dot_within {A v : V3 ℝ} {e : ℝ} (hA : dotR A A = 1) (hv : Within e v) : |dotR A v| ≤ 17321 / 10000 * e := by
  have h1 := sum_abs hA
  have h2 := abs_dot_le A v
  have he : 0 ≤ e := (abs_nonneg _).trans hv.1
  have k : ∀ {x y : ℝ}, |y| ≤ e → |x| * |y| ≤ |x| * e := fun h => mul_le_mul_of_nonneg_left h (abs_nonneg _)
  have := k (x := A.x) hv.1
  have := k (x := A.y) hv.2.1
  have := k (x := A.z) hv.2.2
  have := mul_le_mul_of_nonneg_right h1 he
  unfold mag at h2
  linarith

/-- The computed determinant of three computed normals. -/
theorem det_rel {c n : V3 F} {C N : V3 ℝ} (fc : FinV c) (fn : FinV n) (hc : Within (135 / 10 * u) (subR (valV c) C))
    (hn : Rel (51 / 10 * u) slack (valV n) N) (hC : dotR C C ≤ 1 * 1) (hN : dotR N N = 1) :
    Fin (Arith.dot c n) ∧ |val (Arith.dot c n) - dotR C N| ≤ 33 * u := by
  have wC := within_of_dot (by norm_num) hC
  have wN := unit_within hN
  have up := u_pos
  have sp := slack_pos
  have tl := tiny_le
  have wc : Within 2 (valV c) := by
    have r : ∀ {x y : ℝ}, |x - y| ≤ 135 / 10 * u → |y| ≤ 1 → |x| ≤ 2 := fun h1 h2 => by
      have := abs_le_of h1; unfold u at *; linarith
    exact ⟨r hc.1 wC.1, r hc.2.1 wC.2.1, r hc.2.2 wC.2.2⟩
  have wn : Within (1001 / 1000) (valV n) := by
    have r : ∀ {x y : ℝ}, |x - y| ≤ 51 / 10 * u * |y| + slack → |y| ≤ 1 → |x| ≤ 1001 / 1000 := fun h1 h2 => by
      have := abs_le_of h1
      unfold slack u at *; linarith
    exact ⟨r hn.1 wN.1, r hn.2.1 wN.2.1, r hn.2.2 wN.2.2⟩
  have hf := dot_ok fc fn (by norm_num) wc wn (by rw [large_val]; norm_num)
  refine ⟨hf, ?_⟩
  have e0 := (dot_err hf).2.2
  have hm : |val c.x| * |val n.x| + |val c.y| * |val n.y| + |val c.z| * |val n.z| = mag (valV c) (valV n) := rfl
  rw [hm] at e0
  have hCN : mag C N ≤ 1 * 1 := mag_le (by norm_num) (by norm_num) hC (by linarith)
  have hCN' : mag N C ≤ 1 * 1 := mag_le (by norm_num) (by norm_num) (by linarith) hC
  -- size of the products
  have m1 : mag (valV c) (valV n) ≤ 10001 / 10000 := by
    have k : ∀ {x y z w : ℝ}, |x - y| ≤ 135 / 10 * u → |z - w| ≤ 51 / 10 * u * |w| + slack → |y| ≤ 1 → |w| ≤ 1 →
        |x| * |z| ≤ |y| * |w| + 20 * u := by
      intro x y z w h1 h2 h3 h4
      have g1 := abs_le_of h1
      have g2 := abs_le_of h2
      have g3 : |x| * |z| ≤ (|y| + 135 / 10 * u) * (|w| + 52 / 10 * u) :=
        mul_le_mul g1 (by unfold slack at *; unfold u at *; linarith) (abs_nonneg _) (by positivity)
      have g4 := mul_le_mul_of_nonneg_left h3 up.le
      have g5 := mul_le_mul_of_nonneg_left h4 up.le
      have g6 : u * u ≤ 1 / 1000 * u := mul_le_mul_of_nonneg_right (by unfold u; norm_num) up.le
      linarith
    have := k hc.1 hn.1 wC.1 wN.1
    have := k hc.2.1 hn.2.1 wC.2.1 wN.2.1
    have := k hc.2.2 hn.2.2 wC.2.2 wN.2.2
    unfold mag at *
    unfold u at *; linarith
  have e1 : |dotR (subR (valV c) C) (valV n)| ≤ 235 / 10 * u := by
    have g1 := dot_within hN hc
    have g2 := rel_dot (v := subR (valV c) C) hn sp.le hc
    have g3 : mag N (subR (valV c) C) ≤ 3 * (1 * (135 / 10 * u)) := by
      have k : ∀ {x y : ℝ}, |x| ≤ 1 → |y| ≤ 135 / 10 * u → |x| * |y| ≤ 1 * (135 / 10 * u) := fun h1 h2 =>
        mul_le_mul h1 h2 (abs_nonneg _) (by norm_num)
      have := k wN.1 hc.1
      have := k wN.2.1 hc.2.1
      have := k wN.2.2 hc.2.2
      unfold mag; linarith
    have e : dotR (subR (valV c) C) (valV n) = dotR N (subR (valV c) C) + dotR (subR (valV n) N) (subR (valV c) C) := by
      simp only [dotR, subR]; ring
    rw [e]
    refine (abs_add_le _ _).trans ?_
    have g4 := mul_le_mul_of_nonneg_left g3 up.le
    unfold slack at *
    unfold u at *; linarith
  have e2 := rel_dot (v := C) hn sp.le wC
  have e : val (Arith.dot c n) - dotR C N = (val (Arith.dot c n) - dotR (valV c) (valV n)) + dotR (subR (valV c) C) (valV n) +
      dotR (subR (valV n) N) C := by
    simp only [dotR, subR]; ring
  rw [e]
  refine (abs_add_le _ _).trans ?_
  have := abs_add_le (val (Arith.dot c n) - dotR (valV c) (valV n)) (dotR (subR (valV c) C) (valV n))
  have := mul_le_mul_of_nonneg_left hCN' up.le
  have := mul_le_mul_of_nonneg_left m1 up.le
  unfold slack at *
  unfold u at *; linarith

/-- One coordinate of Cramer's rule. -/
theorem coord_rel {c0 c1 c2 d0 d1 d2 den : F} {C0 C1 C2 D0 D1 D2 D x R : ℝ} (hR : 1 ≤ R) (hR' : R ≤ 1000 * D) (hD : D ≤ 1)
    (fc0 : Fin c0) (fc1 : Fin c1) (fc2 : Fin c2) (fd0 : Fin d0) (fd1 : Fin d1) (fd2 : Fin d2) (hden : Fin den)
    (h0 : |val c0 - C0| ≤ 135 / 10 * u) (h1 : |val c1 - C1| ≤ 135 / 10 * u) (h2 : |val c2 - C2| ≤ 135 / 10 * u)
    (b0 : |C0| ≤ 1) (b1 : |C1| ≤ 1) (b2 : |C2| ≤ 1)
    (k0 : |val d0 - D0| ≤ 912 / 100 * u * R) (k1 : |val d1 - D1| ≤ 912 / 100 * u * R) (k2 : |val d2 - D2| ≤ 912 / 100 * u * R)
    (m0 : |D0| ≤ R) (m1 : |D1| ≤ R) (m2 : |D2| ≤ R) (hd : |val den - D| ≤ 33 * u) (hx : |x| ≤ R)
    (hX : D * x = C0 * D0 + C1 * D1 + C2 * D2) :
    Fin (Arith.div (Arith.add (Arith.add (Arith.mul c0 d0) (Arith.mul c1 d1)) (Arith.mul c2 d2)) den) ∧
    |val (Arith.div (Arith.add (Arith.add (Arith.mul c0 d0) (Arith.mul c1 d1)) (Arith.mul c2 d2)) den) - x| ≤
      115 * u * R / D := by
  have up := u_pos
  have tl := tiny_le
  have tp := tiny_pos
  have hDp : 1 / 1000 ≤ D := by linarith
  have hR64 : R ≤ 1000 := by linarith
  have hdl : 99 / 100 * D ≤ val den := by
    have := (abs_le.1 hd).1
    unfold u at *; linarith
  have hpos : 0 < val den := by linarith
  have wc : ∀ {a b : ℝ}, |a - b| ≤ 135 / 10 * u → |b| ≤ 1 → |a| ≤ 1 + 135 / 10 * u := fun h1 h2 => by
    have := abs_le_of h1; linarith
  have wd : ∀ {a b : ℝ}, |a - b| ≤ 912 / 100 * u * R → |b| ≤ R → |a| ≤ 100001 / 100000 * R := fun h1 h2 => by
    have := abs_le_of h1; unfold u at *; linarith
  have w0 := wc h0 b0
  have w1 := wc h1 b1
  have w2 := wc h2 b2
  have v0 := wd k0 m0
  have v1 := wd k1 m1
  have v2 := wd k2 m2
  have hf : Fin (Arith.dot ⟨c0, c1, c2⟩ ⟨d0, d1, d2⟩) := dot_ok (B := 2) (M := 2000) ⟨fc0, fc1, fc2⟩ ⟨fd0, fd1, fd2⟩ (by norm_num)
    ⟨by simp only [valV]; unfold u at *; linarith, by simp only [valV]; unfold u at *; linarith, by simp only [valV]; unfold u at *; linarith⟩
    ⟨by simp only [valV]; linarith, by simp only [valV]; linarith, by simp only [valV]; linarith⟩
    (by rw [large_val]; norm_num)
  have e0 := (dot_err hf).2.2
  rw [dot_eq] at hf e0
  simp only [] at hf e0
  generalize Arith.add (Arith.add (Arith.mul c0 d0) (Arith.mul c1 d1)) (Arith.mul c2 d2) = t at *
  have pr : ∀ {c d C D : ℝ}, |c - C| ≤ 135 / 10 * u → |d - D| ≤ 912 / 100 * u * R → |C| ≤ 1 → |d| ≤ 100001 / 100000 * R →
      |c| ≤ 1 + 135 / 10 * u → |c * d - C * D| ≤ 2263 / 100 * u * R ∧ |c| * |d| ≤ 10001 / 10000 * R := by
    intro c d C D g1 g2 g3 g4 g5
    have q1 : |(c - C) * d| ≤ 135 / 10 * u * (100001 / 100000 * R) := by
      rw [abs_mul]; exact mul_le_mul g1 g4 (abs_nonneg _) (by positivity)
    have q2 : |C * (d - D)| ≤ 1 * (912 / 100 * u * R) := by
      rw [abs_mul]; exact mul_le_mul g3 g2 (abs_nonneg _) (by norm_num)
    have q3 : c * d - C * D = (c - C) * d + C * (d - D) := by ring
    constructor
    · rw [q3]
      refine (abs_add_le _ _).trans ?_
      unfold u at *; linarith
    · have := mul_le_mul g5 g4 (abs_nonneg _) (by positivity)
      unfold u at *; linarith
  obtain ⟨p0, s0⟩ := pr h0 k0 b0 v0 w0
  obtain ⟨p1, s1⟩ := pr h1 k1 b1 v1 w1
  obtain ⟨p2, s2⟩ := pr h2 k2 b2 v2 w2
  -- the numerator
  have en : |val t - D * x| ≤ 801 / 10 * u * R := by
    have e : val t - D * x = (val t - (val c0 * val d0 + val c1 * val d1 + val c2 * val d2)) + (val c0 * val d0 - C0 * D0) +
        (val c1 * val d1 - C1 * D1) + (val c2 * val d2 - C2 * D2) := by rw [hX]; ring
    rw [e]
    refine (abs_add_le _ _).trans ?_
    have q1 := abs_add_le ((val t - (val c0 * val d0 + val c1 * val d1 + val c2 * val d2)) + (val c0 * val d0 - C0 * D0))
      (val c1 * val d1 - C1 * D1)
    have q2 := abs_add_le (val t - (val c0 * val d0 + val c1 * val d1 + val c2 * val d2)) (val c0 * val d0 - C0 * D0)
    unfold dotR valV at e0
    simp only [] at e0
    unfold u at *; linarith
  have eq : |val t / val den - x| ≤ 1134 / 10 * u * R / D := by
    have e1 : |val t - val den * x| ≤ 1131 / 10 * u * R := by
      have e : val t - val den * x = (val t - D * x) - (val den - D) * x := by ring
      have g : |(val den - D) * x| ≤ 33 * u * R := by
        rw [abs_mul]; exact mul_le_mul hd hx (abs_nonneg _) (by positivity)
      rw [e]
      refine (abs_sub _ _).trans ?_
      linarith
    have e2 : val t / val den - x = (val t - val den * x) / val den := by field_simp
    rw [e2, abs_div, abs_of_pos hpos, div_le_div_iff₀ hpos (by linarith)]
    have hdl' : (1 - 33000 * u) * D ≤ val den := by
      have := (abs_le.1 hd).1
      have : u * (1 / 1000) ≤ u * D := mul_le_mul_of_nonneg_left hDp up.le
      linarith
    calc |val t - val den * x| * D ≤ 1131 / 10 * u * R * D := mul_le_mul_of_nonneg_right e1 (by linarith)
      _ ≤ 1134 / 10 * u * R * ((1 - 33000 * u) * D) := by
        have : 0 ≤ u * R * D := by positivity
        have : 0 ≤ u * R * D * (3 / 10 - 1134 / 10 * (33000 * u)) := mul_nonneg this (by unfold u; norm_num)
        linarith
      _ ≤ 1134 / 10 * u * R * val den := mul_le_mul_of_nonneg_left hdl' (by positivity)
  have hle : 1134 / 10 * u * R / D ≤ 1 / 100 := by
    rw [div_le_iff₀ (by linarith)]; unfold u; linarith
  have hq := abs_le_of eq
  have hdf := div_ok t den hf hden hpos.ne' (by rw [large_val]; linarith)
  refine ⟨hdf, ?_⟩
  have ed := div_val t den hdf hden
  have e : val (Arith.div t den) - x = (val (Arith.div t den) - val t / val den) + (val t / val den - x) := by ring
  rw [e]
  refine (abs_add_le _ _).trans ?_
  have h1 : u * R ≤ u * R / D := by
    rw [le_div_iff₀ (by linarith)]
    exact mul_le_of_le_one_right (by positivity) hD
  have h2 : 115 * u * R / D = 1134 / 10 * u * R / D + 16 / 10 * (u * R / D) := by ring
  have h3 : u * |val t / val den| ≤ u * (R + 1 / 100) := mul_le_mul_of_nonneg_left (by linarith) up.le
  have h4 : u ≤ u * R := le_mul_of_one_le_right up.le hR
  linarith

/-- The point computed for three planes. -/
def meetPoint (p0 p1 p2 : BrushPlane F) : V3 F :=
  V3.sdiv (V3.add (V3.add
    (V3.smul (Arith.cross (faceNormal p1) (faceNormal p2)) (faceDist p0))
    (V3.smul (Arith.cross (faceNormal p2) (faceNormal p0)) (faceDist p1)))
    (V3.smul (Arith.cross (faceNormal p0) (faceNormal p1)) (faceDist p2)))
    (Arith.dot (Arith.cross (faceNormal p0) (faceNormal p1)) (faceNormal p2))

theorem meet_point {p0 p1 p2 : BrushPlane F} {v : V3 F} (h : Meet p0 p1 p2 v) : v = meetPoint p0 p1 p2 := by
  obtain ⟨_, rfl, _, rfl⟩ := h
  rfl

/-- The computed determinant of three faces. -/
theorem det_near {R : ℝ} {p0 p1 p2 : BrushPlane F} (g0 : Good R p0) (g1 : Good R p1) (g2 : Good R p2) :
    Fin (Arith.dot (Arith.cross (faceNormal p0) (faceNormal p1)) (faceNormal p2)) ∧
    |val (Arith.dot (Arith.cross (faceNormal p0) (faceNormal p1)) (faceNormal p2)) -
      dotR (crossR (unitNormal p0) (unitNormal p1)) (unitNormal p2)| ≤ 33 * u := by
  have c01 := cross_rel g0.fin g1.fin g0.near g1.near g0.unit g1.unit
  exact det_rel c01.1 g2.fin c01.2 g2.near (cross_unit g0.unit g1.unit) g2.unit

/-- Three planes with large enough determinant have a computed intersection point. -/
theorem meet_large {R : ℝ} {p0 p1 p2 : BrushPlane F} (g0 : Good R p0) (g1 : Good R p1) (g2 : Good R p2)
    (hd : 1 / 64 ≤ dotR (crossR (unitNormal p0) (unitNormal p1)) (unitNormal p2)) :
    Meet p0 p1 p2 (meetPoint p0 p1 p2) := by
  have hdet := det_near g0 g1 g2
  refine ⟨_, rfl, ?_, rfl⟩
  rw [Bool.eq_false_iff]
  intro hlt
  rw [lt_val _ _ hdet.1 eps_fin] at hlt
  have := (abs_le.1 hdet.2).1
  have := (abs_le.1 (eps_val (F := F))).2
  unfold u at *; linarith

/-- Three planes with small determinant have none. -/
theorem meet_small {R : ℝ} {p0 p1 p2 : BrushPlane F} (g0 : Good R p0) (g1 : Good R p1) (g2 : Good R p2)
    (hd : dotR (crossR (unitNormal p0) (unitNormal p1)) (unitNormal p2) ≤ 1 / 2000) (v : V3 F) : ¬ Meet p0 p1 p2 v := by
  have hdet := det_near g0 g1 g2
  rintro ⟨_, rfl, hlt, -⟩
  rw [Bool.eq_false_iff, Ne, lt_val _ _ hdet.1 eps_fin] at hlt
  have := (abs_le.1 hdet.2).2
  have := (abs_le.1 (eps_val (F := F))).1
  unfold u at *; linarith

/-- The intersection point of three planes is computed well. -/
theorem meet_near {R : ℝ} {p0 p1 p2 : BrushPlane F} {x : V3 ℝ} (hR : 1 ≤ R)
    (g0 : Good R p0) (g1 : Good R p1) (g2 : Good R p2) (hx : dotR x x ≤ R * R)
    (h0 : height p0 x = 0) (h1 : height p1 x = 0) (h2 : height p2 x = 0)
    (hd : R ≤ 1000 * dotR (crossR (unitNormal p0) (unitNormal p1)) (unitNormal p2)) :
    FinV (meetPoint p0 p1 p2) ∧
      Within (115 * u * R / dotR (crossR (unitNormal p0) (unitNormal p1)) (unitNormal p2)) (subR (valV (meetPoint p0 p1 p2)) x) := by
  have c12 := cross_rel g1.fin g2.fin g1.near g2.near g1.unit g2.unit
  have c20 := cross_rel g2.fin g0.fin g2.near g0.near g2.unit g0.unit
  have c01 := cross_rel g0.fin g1.fin g0.near g1.near g0.unit g1.unit
  have u12 := cross_unit g1.unit g2.unit
  have u20 := cross_unit g2.unit g0.unit
  have u01 := cross_unit g0.unit g1.unit
  have w12 := within_of_dot (by norm_num) u12
  have w20 := within_of_dot (by norm_num) u20
  have w01 := within_of_dot (by norm_num) u01
  have hdet := det_rel c01.1 g2.fin c01.2 g2.near u01 g2.unit
  have hd1 := det_le_one g0.unit g1.unit g2.unit
  have wx := within_of_dot (by linarith) hx
  have d0 : dotR (unitNormal p0) (valV p0.v0) = dotR (unitNormal p0) x := by
    have : height p0 x = dotR (unitNormal p0) x - dotR (unitNormal p0) (valV p0.v0) := by
      unfold height; simp only [dotR, subR]; ring
    linarith
  have d1 : dotR (unitNormal p1) (valV p1.v0) = dotR (unitNormal p1) x := by
    have : height p1 x = dotR (unitNormal p1) x - dotR (unitNormal p1) (valV p1.v0) := by
      unfold height; simp only [dotR, subR]; ring
    linarith
  have d2 : dotR (unitNormal p2) (valV p2.v0) = dotR (unitNormal p2) x := by
    have : height p2 x = dotR (unitNormal p2) x - dotR (unitNormal p2) (valV p2.v0) := by
      unfold height; simp only [dotR, subR]; ring
    linarith
  have k := fun {a b c : F} {A B C y : ℝ} (fa : Fin a) (fb : Fin b) (fc : Fin c) (ha : |val a - A| ≤ 135 / 10 * u)
      (hb : |val b - B| ≤ 135 / 10 * u) (hc : |val c - C| ≤ 135 / 10 * u) (bA : |A| ≤ 1) (bB : |B| ≤ 1) (bC : |C| ≤ 1)
      (hy : |y| ≤ R) (hX : dotR (crossR (unitNormal p0) (unitNormal p1)) (unitNormal p2) * y =
        A * dotR (unitNormal p0) (valV p0.v0) + B * dotR (unitNormal p1) (valV p1.v0) +
          C * dotR (unitNormal p2) (valV p2.v0)) =>
    coord_rel hR hd hd1 fa fb fc g0.distFin g1.distFin g2.distFin hdet.1 ha hb hc bA bB bC g0.distNear g1.distNear
      g2.distNear g0.distLe g1.distLe g2.distLe hdet.2 hy hX
  have kx := k c12.1.1 c20.1.1 c01.1.1 c12.2.1 c20.2.1 c01.2.1 w12.1 w20.1 w01.1 wx.1
    (by rw [d0, d1, d2]; simp only [dotR, crossR]; ring)
  have ky := k c12.1.2.1 c20.1.2.1 c01.1.2.1 c12.2.2.1 c20.2.2.1 c01.2.2.1 w12.2.1 w20.2.1 w01.2.1 wx.2.1
    (by rw [d0, d1, d2]; simp only [dotR, crossR]; ring)
  have kz := k c12.1.2.2 c20.1.2.2 c01.1.2.2 c12.2.2.2 c20.2.2.2 c01.2.2.2 w12.2.2 w20.2.2 w01.2.2 wx.2.2
    (by rw [d0, d1, d2]; simp only [dotR, crossR]; ring)
  exact ⟨⟨kx.1, ky.1, kz.1⟩, kx.2, ky.2, kz.2⟩

/-- A point computed for a true corner passes the test against a plane. -/
theorem behind_near {R D : ℝ} {p : BrushPlane F} {v : V3 F} {x : V3 ℝ} (hR : 1 ≤ R) (hD : R ≤ 64 * D) (hD1 : D ≤ 1)
    (g : Good R p) (hx : dotR x x ≤ R * R) (h : height p x ≤ 0) (fv : FinV v)
    (hv : Within (115 * u * R / D) (subR (valV v) x)) : Behind p v := by
  have up := u_pos
  have sp := slack_pos
  have tl := tiny_le
  have tp := tiny_pos
  have hDp : 1 / 64 ≤ D := by linarith
  have hE : 115 * u * R / D ≤ 7360 * u := by
    rw [div_le_iff₀ (by linarith)]
    have := mul_le_mul_of_nonneg_left hD up.le
    linarith
  have hE0 : 0 ≤ 115 * u * R / D := by positivity
  generalize 115 * u * R / D = E at *
  have wx := within_of_dot (by linarith) hx
  have wn := unit_within g.unit
  have wv : Within (2 * R) (valV v) := by
    have r : ∀ {a b : ℝ}, |a - b| ≤ E → |b| ≤ R → |a| ≤ 2 * R := fun h1 h2 => by
      have := abs_le_of h1; unfold u at *; linarith
    exact ⟨r hv.1 wx.1, r hv.2.1 wx.2.1, r hv.2.2 wx.2.2⟩
  have wf : Within 2 (valV (faceNormal p)) := by
    have r : ∀ {x y : ℝ}, |x - y| ≤ 51 / 10 * u * |y| + slack → |y| ≤ 1 → |x| ≤ 2 := fun h1 h2 => by
      have := abs_le_of h1
      unfold slack u at *; linarith
    exact ⟨r g.near.1 wn.1, r g.near.2.1 wn.2.1, r g.near.2.2 wn.2.2⟩
  have hf := dot_ok g.fin fv (by norm_num) wf wv (by rw [large_val]; linarith)
  have e1 := dot_rel hf (by unfold u; norm_num) sp.le g.near wv
  have hm : mag (unitNormal p) (valV v) ≤ 1002 / 1000 * R := by
    have m1 : mag (unitNormal p) x ≤ 1 * R := mag_le (by norm_num) (by linarith) (by linarith [g.unit]) hx
    have k : ∀ {n a b : ℝ}, |a - b| ≤ E → |n| * |a| ≤ |n| * |b| + |n| * E := fun h1 => by
      rw [← mul_add]; exact mul_le_mul_of_nonneg_left (abs_le_of h1) (abs_nonneg _)
    have k1 := k (n := (unitNormal p).x) hv.1
    have k2 := k (n := (unitNormal p).y) hv.2.1
    have k3 := k (n := (unitNormal p).z) hv.2.2
    have s := mul_le_mul_of_nonneg_right (sum_abs g.unit) hE0
    unfold mag at *
    unfold u at *; linarith
  have e2 := dot_within g.unit hv
  have e3 : dotR (unitNormal p) x ≤ dotR (unitNormal p) (valV p.v0) := by
    have : height p x = dotR (unitNormal p) x - dotR (unitNormal p) (valV p.v0) := by
      unfold height; simp only [dotR, subR]; ring
    linarith
  have e4 : dotR (unitNormal p) (valV v) = dotR (unitNormal p) x + dotR (unitNormal p) (subR (valV v) x) := by
    simp only [dotR, subR]; ring
  have e5 := (abs_le.1 e2).2
  have e6 := (abs_le.1 e1).2
  have e7 := (abs_le.1 g.distNear).1
  have hm' := mul_le_mul_of_nonneg_left hm up.le
  have hR64 : R ≤ 64 := by linarith
  have hRu := mul_le_mul_of_nonneg_left hR64 up.le
  have key : val (Arith.dot (faceNormal p) v) - val (faceDist p) ≤ 9 / 10000 := by
    unfold slack at *
    unfold u at *; linarith
  intro ⟨hlt, heps⟩
  rw [lt_val _ _ g.distFin hf] at hlt
  have hpos : 0 < val (Arith.dot (faceNormal p) v) - val (faceDist p) := by linarith
  have hs := sub_ok _ _ hf g.distFin (by rw [large_val, abs_of_pos hpos]; linarith)
  rw [lt_val _ _ eps_fin hs] at heps
  have s1 := (abs_le.1 (sub_val _ _ hs)).2
  rw [abs_of_pos hpos] at s1
  have s2 := (abs_le.1 (eps_val (F := F))).1
  unfold u at *; linarith

theorem good_mono {R X : ℝ} {p : BrushPlane F} (h : R ≤ X) (g : Good R p) : Good X p :=
  ⟨g.fin, g.near, g.unit, g.distFin, g.distNear.trans (by have := mul_le_mul_of_nonneg_left h u_pos.le; linarith),
    g.distLe.trans h⟩

/-- A point computed for a place well outside of a plane fails the test. -/
theorem not_behind {X D : ℝ} {p : BrushPlane F} {v : V3 F} {x : V3 ℝ} (hX : 1 ≤ X) (hD : X ≤ 1000 * D) (hD1 : D ≤ 1)
    (g : Good X p) (hx : dotR x x ≤ X * X) (h : 1 / 64 ≤ height p x) (fv : FinV v)
    (hv : Within (115 * u * X / D) (subR (valV v) x)) : ¬ Behind p v := by
  have up := u_pos
  have sp := slack_pos
  have tl := tiny_le
  have tp := tiny_pos
  have hDp : 1 / 1000 ≤ D := by linarith
  have hE : 115 * u * X / D ≤ 115000 * u := by
    rw [div_le_iff₀ (by linarith)]
    have := mul_le_mul_of_nonneg_left hD up.le
    linarith
  have hE0 : 0 ≤ 115 * u * X / D := by positivity
  generalize 115 * u * X / D = E at *
  have wx := within_of_dot (by linarith) hx
  have wn := unit_within g.unit
  have wv : Within (2 * X) (valV v) := by
    have r : ∀ {a b : ℝ}, |a - b| ≤ E → |b| ≤ X → |a| ≤ 2 * X := fun h1 h2 => by
      have := abs_le_of h1; unfold u at *; linarith
    exact ⟨r hv.1 wx.1, r hv.2.1 wx.2.1, r hv.2.2 wx.2.2⟩
  have wf : Within 2 (valV (faceNormal p)) := by
    have r : ∀ {x y : ℝ}, |x - y| ≤ 51 / 10 * u * |y| + slack → |y| ≤ 1 → |x| ≤ 2 := fun h1 h2 => by
      have := abs_le_of h1
      unfold slack u at *; linarith
    exact ⟨r g.near.1 wn.1, r g.near.2.1 wn.2.1, r g.near.2.2 wn.2.2⟩
  have hX' : X ≤ 1000 := by linarith
  have hf := dot_ok g.fin fv (by norm_num) wf wv (by rw [large_val]; linarith)
  have e1 := dot_rel hf (by unfold u; norm_num) sp.le g.near wv
  have hm : mag (unitNormal p) (valV v) ≤ 102 / 100 * X := by
    have m1 : mag (unitNormal p) x ≤ 1 * X := mag_le (by norm_num) (by linarith) (by linarith [g.unit]) hx
    have k : ∀ {n a b : ℝ}, |a - b| ≤ E → |n| * |a| ≤ |n| * |b| + |n| * E := fun h1 => by
      rw [← mul_add]; exact mul_le_mul_of_nonneg_left (abs_le_of h1) (abs_nonneg _)
    have k1 := k (n := (unitNormal p).x) hv.1
    have k2 := k (n := (unitNormal p).y) hv.2.1
    have k3 := k (n := (unitNormal p).z) hv.2.2
    have s := mul_le_mul_of_nonneg_right (sum_abs g.unit) hE0
    unfold mag at *
    unfold u at *; linarith
  have e2 := dot_within g.unit hv
  have e3 : height p x = dotR (unitNormal p) x - dotR (unitNormal p) (valV p.v0) := by
    unfold height; simp only [dotR, subR]; ring
  have e4 : dotR (unitNormal p) (valV v) = dotR (unitNormal p) x + dotR (unitNormal p) (subR (valV v) x) := by
    simp only [dotR, subR]; ring
  have e5 := (abs_le.1 e2).1
  have e6 := (abs_le.1 e1).1
  have e7 := (abs_le.1 g.distNear).2
  have e8 := abs_le_of g.distNear
  have e9 := abs_le_of e1
  have e10 := (abs_dot_le (unitNormal p) (valV v)).trans hm
  have hm' := mul_le_mul_of_nonneg_left hm up.le
  have hXu := mul_le_mul_of_nonneg_left hX' up.le
  have key : 2 / 1000 ≤ val (Arith.dot (faceNormal p) v) - val (faceDist p) := by
    unfold slack at *
    unfold u at *; linarith
  have hdl := g.distLe
  have hpos : 0 < val (Arith.dot (faceNormal p) v) - val (faceDist p) := by linarith
  intro hb
  refine hb ⟨(lt_val _ _ g.distFin hf).2 (by linarith), ?_⟩
  have hs := sub_ok _ _ hf g.distFin (by
    refine (abs_sub _ _).trans ?_
    rw [large_val]
    unfold slack at *
    unfold u at *; linarith)
  rw [lt_val _ _ eps_fin hs]
  have s1 := (abs_le.1 (sub_val _ _ hs)).1
  rw [abs_of_pos hpos] at s1
  have s2 := (abs_le.1 (eps_val (F := F))).2
  unfold u at *; linarith

end
end Err
end Quarch
