import Verif.Spec.Rounding
import Mathlib.Tactic.Linarith
import Mathlib.Tactic.NormNum
/-
Error bounds for sums of products, vector products and Cramer's rule.
-/
set_option linter.unusedSectionVars false
namespace Quarch
open Spec Rounding

namespace Err

theorem u_pos : 0 < u := by unfold u; norm_num
theorem tiny_pos : 0 < tiny := by unfold tiny; positivity
theorem tiny_le : tiny ≤ u * (1 / 1000000000000) := by
  unfold tiny u; norm_num

theorem large_val : large = 1329227995784915872903807060280344576 := by unfold large; norm_num

section
variable {F : Type} [Arith F] [Rounding F]

theorem abs_le_of {a b e : ℝ} (h : |a - b| ≤ e) : |a| ≤ |b| + e := by
  have := abs_add_le (a - b) b
  rw [sub_add_cancel] at this
  linarith

/-- Rounded product. -/
theorem mul_err {a b : F} (h : Fin (Arith.mul a b)) :
    |val (Arith.mul a b) - val a * val b| ≤ u * (|val a| * |val b|) + tiny := by
  rw [← abs_mul]; exact mul_val a b h

/-- Rounded sum of three products. -/
theorem dot_err {a b : V3 F} (h : Fin (Arith.dot a b)) : FinV a ∧ FinV b ∧
    |val (Arith.dot a b) - dotR (valV a) (valV b)| ≤
      4 * u * (|val a.x| * |val b.x| + |val a.y| * |val b.y| + |val a.z| * |val b.z|) + 4 * tiny := by
  rw [dot_eq] at h ⊢
  have h1 := add_fin _ _ h
  have h2 := add_fin _ _ h1.1
  have fx := mul_fin _ _ h2.1
  have fy := mul_fin _ _ h2.2
  have fz := mul_fin _ _ h1.2
  refine ⟨⟨fx.1, fy.1, fz.1⟩, ⟨fx.2, fy.2, fz.2⟩, ?_⟩
  have ex := mul_err h2.1
  have ey := mul_err h2.2
  have ez := mul_err h1.2
  have e1 := add_val _ _ h1.1
  have e2 := add_val _ _ h
  have px := abs_mul (val a.x) (val b.x)
  have py := abs_mul (val a.y) (val b.y)
  have pz := abs_mul (val a.z) (val b.z)
  have nx : 0 ≤ |val a.x| * |val b.x| := by positivity
  have ny : 0 ≤ |val a.y| * |val b.y| := by positivity
  have nz : 0 ≤ |val a.z| * |val b.z| := by positivity
  unfold dotR valV
  simp only []
  generalize |val a.x| * |val b.x| = X at *
  generalize |val a.y| * |val b.y| = Y at *
  generalize |val a.z| * |val b.z| = Z at *
  generalize val a.x * val b.x = x at *
  generalize val a.y * val b.y = y at *
  generalize val a.z * val b.z = z at *
  generalize val (Arith.mul a.x b.x) = mx at *
  generalize val (Arith.mul a.y b.y) = my at *
  generalize val (Arith.mul a.z b.z) = mz at *
  generalize val (Arith.add (Arith.add (Arith.mul a.x b.x) (Arith.mul a.y b.y)) (Arith.mul a.z b.z)) = t at *
  generalize val (Arith.add (Arith.mul a.x b.x) (Arith.mul a.y b.y)) = s at *
  have t1 : |mx + my| ≤ (X + Y) * (1 + u) + 2 * tiny := by
    have := abs_le_of ex
    have := abs_le_of ey
    have := abs_add_le mx my
    linarith
  have t2 : |s + mz| ≤ |mx + my| * (1 + u) + (Z * (1 + u) + tiny) := by
    have := abs_le_of e1
    have := abs_le_of ez
    have := abs_add_le s mz
    linarith
  have key : |t - (x + y + z)| ≤ |t - (s + mz)| + |s - (mx + my)| + |mx - x| + |my - y| + |mz - z| := by
    have : t - (x + y + z) = (t - (s + mz)) + (s - (mx + my)) + (mx - x) + (my - y) + (mz - z) := by ring
    rw [this]
    refine (abs_add_le _ _).trans ?_
    refine add_le_add ((abs_add_le _ _).trans ?_) le_rfl
    refine add_le_add ((abs_add_le _ _).trans ?_) le_rfl
    exact add_le_add (abs_add_le _ _) le_rfl
  have tp := tiny_pos
  unfold u at *
  linarith

/-- Rounded difference of two products. -/
theorem diff_err {a b c d : F} (h : Fin (Arith.sub (Arith.mul a b) (Arith.mul c d))) :
    (Fin a ∧ Fin b ∧ Fin c ∧ Fin d) ∧
    |val (Arith.sub (Arith.mul a b) (Arith.mul c d)) - (val a * val b - val c * val d)| ≤
      3 * u * (|val a| * |val b| + |val c| * |val d|) + 3 * tiny := by
  have h1 := sub_fin _ _ h
  have fx := mul_fin _ _ h1.1
  have fy := mul_fin _ _ h1.2
  refine ⟨⟨fx.1, fx.2, fy.1, fy.2⟩, ?_⟩
  have ex := mul_err h1.1
  have ey := mul_err h1.2
  have e1 := sub_val _ _ h
  have px := abs_mul (val a) (val b)
  have py := abs_mul (val c) (val d)
  have nx : 0 ≤ |val a| * |val b| := by positivity
  have ny : 0 ≤ |val c| * |val d| := by positivity
  generalize |val a| * |val b| = X at *
  generalize |val c| * |val d| = Y at *
  generalize val a * val b = x at *
  generalize val c * val d = y at *
  generalize val (Arith.mul a b) = mx at *
  generalize val (Arith.mul c d) = my at *
  generalize val (Arith.sub (Arith.mul a b) (Arith.mul c d)) = t at *
  have t1 : |mx - my| ≤ (X + Y) * (1 + u) + 2 * tiny := by
    have := abs_le_of ex
    have := abs_le_of ey
    have := abs_sub mx my
    linarith
  have key : |t - (x - y)| ≤ |t - (mx - my)| + |mx - x| + |my - y| := by
    have : t - (x - y) = (t - (mx - my)) + (mx - x) - (my - y) := by ring
    rw [this]
    exact (abs_sub _ _).trans (add_le_add (abs_add_le _ _) le_rfl)
  have tp := tiny_pos
  unfold u at *
  linarith

/-- No overflow in a sum of three products of moderate numbers. -/
theorem dot_ok {a b : V3 F} (ha : FinV a) (hb : FinV b) {B M : ℝ} (hB : 0 ≤ B) (hwa : Within B (valV a))
    (hwb : Within M (valV b)) (hl : B * M ≤ large / 16) : Fin (Arith.dot a b) := by
  obtain ⟨ax, ay, az⟩ := ha
  obtain ⟨bx, byy, bz⟩ := hb
  obtain ⟨wax, way, waz⟩ := hwa
  obtain ⟨wbx, wby, wbz⟩ := hwb
  unfold valV at *
  simp only [] at *
  have p : ∀ {x y : ℝ}, |x| ≤ B → |y| ≤ M → |x * y| ≤ large / 16 := fun hx hy => by
    rw [abs_mul]; exact (mul_le_mul hx hy (abs_nonneg _) hB).trans hl
  have qx := p wax wbx
  have qy := p way wby
  have qz := p waz wbz
  rw [large_val] at *
  have tl := tiny_le
  have mx := mul_ok _ _ ax bx (by rw [large_val]; linarith)
  have my := mul_ok _ _ ay byy (by rw [large_val]; linarith)
  have mz := mul_ok _ _ az bz (by rw [large_val]; linarith)
  have ex := abs_le_of (mul_val _ _ mx)
  have ey := abs_le_of (mul_val _ _ my)
  have ez := abs_le_of (mul_val _ _ mz)
  unfold u at *
  have s1 := add_ok _ _ mx my ((abs_add_le _ _).trans (by rw [large_val]; linarith))
  have e1 := abs_le_of (add_val _ _ s1)
  unfold u at *
  have t1 := abs_add_le (val (Arith.mul a.x b.x)) (val (Arith.mul a.y b.y))
  rw [dot_eq]
  exact add_ok _ _ s1 mz ((abs_add_le _ _).trans (by rw [large_val]; linarith))

/-- Moving a number to a centre and back. -/
theorem back_err {c v : F} {M : ℝ} (h : Fin (Arith.add (Arith.sub v c) c)) (hc : |val c| ≤ M)
    (hp : |val (Arith.add (Arith.sub v c) c)| ≤ M) :
    Fin v ∧ Fin c ∧ |val (Arith.add (Arith.sub v c) c) - val v| ≤ 4 * u * M := by
  have h1 := add_fin _ _ h
  have h2 := sub_fin _ _ h1.1
  refine ⟨h2.1, h2.2, ?_⟩
  have e1 := add_val _ _ h
  have e2 := sub_val _ _ h1.1
  generalize val (Arith.add (Arith.sub v c) c) = p at *
  generalize val (Arith.sub v c) = w at *
  generalize val c = c at *
  generalize val v = v at *
  have a1 : |w + c| ≤ |p| + u * |w + c| := by
    have := abs_sub_comm p (w + c) ▸ e1
    exact abs_le_of this
  have a2 : |v - c| ≤ |w| + u * |v - c| := by
    have := abs_sub_comm w (v - c) ▸ e2
    exact abs_le_of this
  have a3 : |w| ≤ |w + c| + |c| := by
    have := abs_sub (w + c) c
    rwa [add_sub_cancel_right] at this
  have a4 : |p - v| ≤ |p - (w + c)| + |w - (v - c)| := by
    have : p - v = (p - (w + c)) + (w - (v - c)) := by ring
    rw [this]; exact abs_add_le _ _
  have := abs_nonneg c
  unfold u at *
  linarith

/-- Moving a point to a centre and back. -/
theorem recentre_err {c v : V3 F} {M : ℝ} (h : FinV (recentre c v)) (hc : Within M (valV c))
    (hp : Within M (valV (recentre c v))) :
    FinV v ∧ FinV c ∧ Within (4 * u * M) (subR (valV (recentre c v)) (valV v)) := by
  obtain ⟨x1, x2, x3⟩ := back_err h.1 hc.1 hp.1
  obtain ⟨y1, y2, y3⟩ := back_err h.2.1 hc.2.1 hp.2.1
  obtain ⟨z1, z2, z3⟩ := back_err h.2.2 hc.2.2 hp.2.2
  exact ⟨⟨x1, y1, z1⟩, ⟨x2, y2, z2⟩, x3, y3, z3⟩

/-- Scalar product of vectors with small coordinates. -/
theorem dot_le {a b : V3 ℝ} {B M : ℝ} (hB : 0 ≤ B) (ha : Within B a) (hb : Within M b) : |dotR a b| ≤ 3 * (B * M) := by
  have p : ∀ {x y : ℝ}, |x| ≤ B → |y| ≤ M → |x * y| ≤ B * M := fun hx hy => by
    rw [abs_mul]; exact mul_le_mul hx hy (abs_nonneg _) hB
  have := p ha.1 hb.1
  have := p ha.2.1 hb.2.1
  have := p ha.2.2 hb.2.2
  have := abs_add_le (a.x * b.x + a.y * b.y) (a.z * b.z)
  have := abs_add_le (a.x * b.x) (a.y * b.y)
  unfold dotR
  linarith

theorem dot_err' {a b : V3 F} (h : Fin (Arith.dot a b)) {B M : ℝ} (hB : 0 ≤ B) (ha : Within B (valV a))
    (hb : Within M (valV b)) : |val (Arith.dot a b) - dotR (valV a) (valV b)| ≤ 12 * u * (B * M) + 4 * tiny := by
  obtain ⟨_, _, e⟩ := dot_err h
  have p : ∀ {x y : ℝ}, |x| ≤ B → |y| ≤ M → |x| * |y| ≤ B * M := fun hx hy =>
    mul_le_mul hx hy (abs_nonneg _) hB
  have := p ha.1 hb.1
  have := p ha.2.1 hb.2.1
  have := p ha.2.2 hb.2.2
  unfold valV at *
  simp only [] at *
  have := u_pos
  unfold u at *
  linarith

/-- The test against one plane, in real numbers. -/
theorem behind_err {p : BrushPlane F} {v : V3 F} {M : ℝ} (hM : 1 ≤ M) (hM' : M ≤ 2 ^ 100) (hn : FinV (faceNormal p))
    (hnw : Within (101 / 100) (valV (faceNormal p))) (hd : Fin (faceDist p)) (hdw : |val (faceDist p)| ≤ M)
    (hv : FinV v) (hvw : Within (2 * M) (valV v)) (h : Behind p v) :
    dotR (valV (faceNormal p)) (valV v) - val (faceDist p) ≤ 1 / 1000 + 25 * u * M := by
  have hb : (101 / 100 : ℝ) * (2 * M) ≤ large / 16 := by rw [large_val]; linarith
  have hf := dot_ok hn hv (by norm_num) hnw hvw hb
  have e := dot_err' hf (by norm_num) hnw hvw
  have hle := dot_le (by norm_num) hnw hvw
  have tl := tiny_le
  have hpa := abs_le_of e
  have hsub : Fin (Arith.sub (Arith.dot (faceNormal p) v) (faceDist p)) := by
    refine sub_ok _ _ hf hd ((abs_sub _ _).trans ?_)
    rw [large_val]
    unfold u at *
    linarith
  have es := sub_val _ _ hsub
  have ep := eps_val (F := F)
  have e1 := (abs_le.1 e).1
  unfold Behind at h
  rw [lt_val _ _ hd hf, lt_val _ _ eps_fin hsub] at h
  have e2 := (abs_le.1 es).1
  have e3 := (abs_le.1 ep).2
  generalize val (Arith.sub (Arith.dot (faceNormal p) v) (faceDist p)) = s at *
  generalize val (Arith.dot (faceNormal p) v) = pr at *
  generalize val (faceDist p) = d at *
  generalize val (Arith.cmpEpsilon : F) = ep0 at *
  generalize dotR (valV (faceNormal p)) (valV v) = x at *
  unfold u at *
  by_cases h1 : d < pr
  · have h2 : ¬ ep0 < s := fun h2 => h ⟨h1, h2⟩
    rw [abs_of_pos (by linarith : 0 < pr - d)] at *
    linarith
  · linarith

/-- Rounded vector product of vectors of about unit length. -/
theorem cross_err {a b : V3 F} (h : FinV (Arith.cross a b)) (ha : Within (101 / 100) (valV a))
    (hb : Within (101 / 100) (valV b)) :
    Within (7 * u) (subR (valV (Arith.cross a b)) (crossR (valV a) (valV b))) ∧
    Within (2041 / 1000) (crossR (valV a) (valV b)) := by
  rw [cross_eq] at *
  obtain ⟨hx, hy, hz⟩ := h
  have ex := (diff_err hx).2
  have ey := (diff_err hy).2
  have ez := (diff_err hz).2
  have p : ∀ {x y : ℝ}, |x| ≤ 101 / 100 → |y| ≤ 101 / 100 → |x| * |y| ≤ 10201 / 10000 := fun hx hy =>
    (mul_le_mul hx hy (abs_nonneg _) (by norm_num)).trans (by norm_num)
  have q : ∀ {x y z w : ℝ}, |x| * |y| ≤ 10201 / 10000 → |z| * |w| ≤ 10201 / 10000 → |x * y - z * w| ≤ 2041 / 1000 :=
    fun h1 h2 => (abs_sub _ _).trans (by rw [abs_mul, abs_mul]; linarith)
  obtain ⟨ax, ay, az⟩ := ha
  obtain ⟨bx, b2, bz⟩ := hb
  have tl := tiny_le
  unfold Within subR crossR valV at *
  simp only [] at *
  have p1 := p ay bz
  have p2 := p az b2
  have p3 := p az bx
  have p4 := p ax bz
  have p5 := p ax b2
  have p6 := p ay bx
  refine ⟨⟨?_, ?_, ?_⟩, q p1 p2, q p3 p4, q p5 p6⟩ <;> unfold u at * <;> linarith

/-- One coordinate of Cramer's rule. -/
theorem cramer_err {c0 c1 c2 d0 d1 d2 den : F} {e0 e1 e2 M : ℝ} (hM : 1 ≤ M)
    (h : Fin (Arith.div (Arith.add (Arith.add (Arith.mul c0 d0) (Arith.mul c1 d1)) (Arith.mul c2 d2)) den))
    (hden : Fin den) (hp : 0 < val den) (hden7 : val den ≤ 7)
    (h0 : |val c0 - e0| ≤ 7 * u) (h1 : |val c1 - e1| ≤ 7 * u) (h2 : |val c2 - e2| ≤ 7 * u)
    (b0 : |e0| ≤ 2041 / 1000) (b1 : |e1| ≤ 2041 / 1000) (b2 : |e2| ≤ 2041 / 1000)
    (m0 : |val d0| ≤ M) (m1 : |val d1| ≤ M) (m2 : |val d2| ≤ M) :
    |val (Arith.div (Arith.add (Arith.add (Arith.mul c0 d0) (Arith.mul c1 d1)) (Arith.mul c2 d2)) den) * val den -
      (e0 * val d0 + e1 * val d1 + e2 * val d2)| ≤ 47 * u * M := by
  have f1 := div_fin _ _ h
  have f2 := add_fin _ _ f1
  have f3 := add_fin _ _ f2.1
  have tl := tiny_le
  have tp := tiny_pos
  have prod : ∀ {c d : F} {e : ℝ}, Fin (Arith.mul c d) → |val c - e| ≤ 7 * u → |e| ≤ 2041 / 1000 → |val d| ≤ M →
      |val (Arith.mul c d) - e * val d| ≤ 10 * u * M ∧ |val (Arith.mul c d)| ≤ 205 / 100 * M := by
    intro c d e hf hc he hd
    have e1 := mul_err hf
    have hc' := abs_le_of hc
    have a1 : |val c| * |val d| ≤ (2041 / 1000 + 7 * u) * M :=
      mul_le_mul (by linarith) hd (abs_nonneg _) (by have := u_pos; linarith)
    have a2 : |(val c - e) * val d| ≤ 7 * u * M := by
      rw [abs_mul]; exact mul_le_mul hc hd (abs_nonneg _) (by have := u_pos; linarith)
    have a3 : |e * val d| ≤ 2041 / 1000 * M := by
      rw [abs_mul]; exact mul_le_mul he hd (abs_nonneg _) (by norm_num)
    have a4 : |val (Arith.mul c d) - e * val d| ≤ |val (Arith.mul c d) - val c * val d| + |(val c - e) * val d| := by
      have : val (Arith.mul c d) - e * val d = (val (Arith.mul c d) - val c * val d) + (val c - e) * val d := by ring
      rw [this]; exact abs_add_le _ _
    have a5 : |val (Arith.mul c d) - e * val d| ≤ 10 * u * M := by
      unfold u at *; linarith
    refine ⟨a5, (abs_le_of a5).trans ?_⟩
    unfold u at *; linarith
  obtain ⟨p0, q0⟩ := prod f3.1 h0 b0 m0
  obtain ⟨p1, q1⟩ := prod f3.2 h1 b1 m1
  obtain ⟨p2, q2⟩ := prod f2.2 h2 b2 m2
  have s1 := add_val _ _ f2.1
  have s2 := add_val _ _ f1
  have hne := div_ne _ _ h hden
  have s3 := div_val _ _ h hden
  generalize val (Arith.div (Arith.add (Arith.add (Arith.mul c0 d0) (Arith.mul c1 d1)) (Arith.mul c2 d2)) den) = v at *
  generalize val (Arith.add (Arith.add (Arith.mul c0 d0) (Arith.mul c1 d1)) (Arith.mul c2 d2)) = t at *
  generalize val (Arith.add (Arith.mul c0 d0) (Arith.mul c1 d1)) = s at *
  generalize val (Arith.mul c0 d0) = w0 at *
  generalize val (Arith.mul c1 d1) = w1 at *
  generalize val (Arith.mul c2 d2) = w2 at *
  generalize val den = k at *
  generalize e0 * val d0 = x0 at *
  generalize e1 * val d1 = x1 at *
  generalize e2 * val d2 = x2 at *
  have t1 := abs_add_le w0 w1
  have t2 := abs_le_of s1
  have t3 := abs_add_le s w2
  have t4 := abs_le_of s2
  have t5 : |v * k - t| ≤ u * |t| + 7 * tiny := by
    have e : v * k - t = (v - t / k) * k := by field_simp
    rw [e, abs_mul, abs_of_pos hp]
    calc |v - t / k| * k ≤ (u * |t / k| + tiny) * k := mul_le_mul_of_nonneg_right s3 hp.le
      _ = u * |t| + tiny * k := by rw [abs_div, abs_of_pos hp]; field_simp
      _ ≤ _ := by
        have : tiny * k ≤ tiny * 7 := mul_le_mul_of_nonneg_left hden7 tp.le
        linarith
  have t6 : |v * k - (x0 + x1 + x2)| ≤ |v * k - t| + |t - (s + w2)| + |s - (w0 + w1)| + |w0 - x0| + |w1 - x1| + |w2 - x2| := by
    have : v * k - (x0 + x1 + x2) = (v * k - t) + (t - (s + w2)) + (s - (w0 + w1)) + (w0 - x0) + (w1 - x1) + (w2 - x2) := by
      ring
    rw [this]
    refine (abs_add_le _ _).trans ?_
    refine add_le_add ((abs_add_le _ _).trans ?_) le_rfl
    refine add_le_add ((abs_add_le _ _).trans ?_) le_rfl
    refine add_le_add ((abs_add_le _ _).trans ?_) le_rfl
    exact add_le_add (abs_add_le _ _) le_rfl
  unfold u at *
  linarith

/-- The computed intersection of three planes lies on all three, up to rounding. -/
theorem meet_err {p0 p1 p2 : BrushPlane F} {v : V3 F} {M : ℝ} (hM : 1 ≤ M)
    (n0 : FinV (faceNormal p0) ∧ Within (101 / 100) (valV (faceNormal p0)) ∧ |val (faceDist p0)| ≤ M)
    (n1 : FinV (faceNormal p1) ∧ Within (101 / 100) (valV (faceNormal p1)) ∧ |val (faceDist p1)| ≤ M)
    (n2 : FinV (faceNormal p2) ∧ Within (101 / 100) (valV (faceNormal p2)) ∧ |val (faceDist p2)| ≤ M)
    (hv : FinV v) (h : Meet p0 p1 p2 v) :
    ∃ det : ℝ, 999 / 1000000 ≤ det ∧ det ≤ 7 ∧
      |det - dotR (crossR (valV (faceNormal p0)) (valV (faceNormal p1))) (valV (faceNormal p2))| ≤ 47 * u ∧
      ∀ q, q = p0 ∨ q = p1 ∨ q = p2 →
        |dotR (valV (faceNormal q)) (valV v) - val (faceDist q)| * det ≤ 190 * u * M := by
  obtain ⟨den, hden, hlt, rfl⟩ := h
  obtain ⟨f0, w0, m0⟩ := n0
  obtain ⟨f1, w1, m1⟩ := n1
  obtain ⟨f2, w2, m2⟩ := n2
  have up := u_pos
  have tl := tiny_le
  have split : ∀ {a b c e : F}, Fin (Arith.div (Arith.add (Arith.add a b) c) e) → Fin a ∧ Fin b ∧ Fin c := by
    intro a b c e h
    have h1 := add_fin _ _ (div_fin _ _ h)
    exact ⟨(add_fin _ _ h1.1).1, (add_fin _ _ h1.1).2, h1.2⟩
  obtain ⟨hx, hy, hz⟩ := hv
  have fx := split hx
  have fy := split hy
  have fz := split hz
  have g12 : FinV (Arith.cross (faceNormal p1) (faceNormal p2)) :=
    ⟨(mul_fin _ _ fx.1).1, (mul_fin _ _ fy.1).1, (mul_fin _ _ fz.1).1⟩
  have g20 : FinV (Arith.cross (faceNormal p2) (faceNormal p0)) :=
    ⟨(mul_fin _ _ fx.2.1).1, (mul_fin _ _ fy.2.1).1, (mul_fin _ _ fz.2.1).1⟩
  have g01 : FinV (Arith.cross (faceNormal p0) (faceNormal p1)) :=
    ⟨(mul_fin _ _ fx.2.2).1, (mul_fin _ _ fy.2.2).1, (mul_fin _ _ fz.2.2).1⟩
  obtain ⟨a12, b12⟩ := cross_err g12 w1 w2
  obtain ⟨a20, b20⟩ := cross_err g20 w2 w0
  obtain ⟨a01, b01⟩ := cross_err g01 w0 w1
  have wc : Within (205 / 100) (valV (Arith.cross (faceNormal p0) (faceNormal p1))) := by
    have r : ∀ {x y : ℝ}, |x - y| ≤ 7 * u → |y| ≤ 2041 / 1000 → |x| ≤ 205 / 100 := fun h1 h2 => by
      have := abs_le_of h1; unfold u at *; linarith
    exact ⟨r a01.1 b01.1, r a01.2.1 b01.2.1, r a01.2.2 b01.2.2⟩
  have hdf : Fin den := by
    rw [hden]
    exact dot_ok g01 f2 (by norm_num) wc w2 (by rw [large_val]; norm_num)
  have hde : |val den - dotR (crossR (valV (faceNormal p0)) (valV (faceNormal p1))) (valV (faceNormal p2))| ≤ 47 * u := by
    have e1 := dot_err' (hden ▸ hdf) (by norm_num) wc w2
    rw [← hden] at e1
    have e2 := dot_le (by have := u_pos; linarith) a01 w2
    have e3 : val den - dotR (crossR (valV (faceNormal p0)) (valV (faceNormal p1))) (valV (faceNormal p2)) =
        (val den - dotR (valV (Arith.cross (faceNormal p0) (faceNormal p1))) (valV (faceNormal p2))) +
        dotR (subR (valV (Arith.cross (faceNormal p0) (faceNormal p1)))
          (crossR (valV (faceNormal p0)) (valV (faceNormal p1)))) (valV (faceNormal p2)) := by
      simp only [dotR, subR]; ring
    rw [e3]
    refine (abs_add_le _ _).trans ?_
    unfold u at *; linarith
  have hdl : 999 / 1000000 ≤ val den := by
    have : ¬ val den < val (Arith.cmpEpsilon : F) := by
      rw [← lt_val _ _ hdf eps_fin]; simp [hlt]
    have := (abs_le.1 (eps_val (F := F))).1
    unfold u at *; linarith
  have hd7 : val den ≤ 7 := by
    have := dot_le (by norm_num) b01 w2
    have := (abs_le.1 hde).2
    have := le_abs_self (dotR (crossR (valV (faceNormal p0)) (valV (faceNormal p1))) (valV (faceNormal p2)))
    unfold u at *; linarith
  refine ⟨val den, hdl, hd7, hde, ?_⟩
  have hpos : 0 < val den := by linarith
  have cx := cramer_err hM hx hdf hpos hd7 a12.1 a20.1 a01.1 b12.1 b20.1 b01.1 m0 m1 m2
  have cy := cramer_err hM hy hdf hpos hd7 a12.2.1 a20.2.1 a01.2.1 b12.2.1 b20.2.1 b01.2.1 m0 m1 m2
  have cz := cramer_err hM hz hdf hpos hd7 a12.2.2 a20.2.2 a01.2.2 b12.2.2 b20.2.2 b01.2.2 m0 m1 m2
  generalize hvv : V3.sdiv _ den = v at *
  have cx' : |val v.x * val den - ((crossR (valV (faceNormal p1)) (valV (faceNormal p2))).x * val (faceDist p0) +
    (crossR (valV (faceNormal p2)) (valV (faceNormal p0))).x * val (faceDist p1) +
    (crossR (valV (faceNormal p0)) (valV (faceNormal p1))).x * val (faceDist p2))| ≤ 47 * u * M := by
    rw [← hvv]; exact cx
  have cy' : |val v.y * val den - ((crossR (valV (faceNormal p1)) (valV (faceNormal p2))).y * val (faceDist p0) +
    (crossR (valV (faceNormal p2)) (valV (faceNormal p0))).y * val (faceDist p1) +
    (crossR (valV (faceNormal p0)) (valV (faceNormal p1))).y * val (faceDist p2))| ≤ 47 * u * M := by
    rw [← hvv]; exact cy
  have cz' : |val v.z * val den - ((crossR (valV (faceNormal p1)) (valV (faceNormal p2))).z * val (faceDist p0) +
    (crossR (valV (faceNormal p2)) (valV (faceNormal p0))).z * val (faceDist p1) +
    (crossR (valV (faceNormal p0)) (valV (faceNormal p1))).z * val (faceDist p2))| ≤ 47 * u * M := by
    rw [← hvv]; exact cz
  clear cx cy cz
  intro q hq
  have hqw : Within (101 / 100) (valV (faceNormal q)) ∧ |val (faceDist q)| ≤ M := by
    rcases hq with rfl | rfl | rfl
    exacts [⟨w0, m0⟩, ⟨w1, m1⟩, ⟨w2, m2⟩]
  have ident : (valV (faceNormal q)).x * ((crossR (valV (faceNormal p1)) (valV (faceNormal p2))).x * val (faceDist p0) +
      (crossR (valV (faceNormal p2)) (valV (faceNormal p0))).x * val (faceDist p1) +
      (crossR (valV (faceNormal p0)) (valV (faceNormal p1))).x * val (faceDist p2)) +
      (valV (faceNormal q)).y * ((crossR (valV (faceNormal p1)) (valV (faceNormal p2))).y * val (faceDist p0) +
      (crossR (valV (faceNormal p2)) (valV (faceNormal p0))).y * val (faceDist p1) +
      (crossR (valV (faceNormal p0)) (valV (faceNormal p1))).y * val (faceDist p2)) +
      (valV (faceNormal q)).z * ((crossR (valV (faceNormal p1)) (valV (faceNormal p2))).z * val (faceDist p0) +
      (crossR (valV (faceNormal p2)) (valV (faceNormal p0))).z * val (faceDist p1) +
      (crossR (valV (faceNormal p0)) (valV (faceNormal p1))).z * val (faceDist p2)) =
      val (faceDist q) * dotR (crossR (valV (faceNormal p0)) (valV (faceNormal p1))) (valV (faceNormal p2)) := by
    rcases hq with rfl | rfl | rfl <;> simp only [crossR, dotR] <;> ring
  generalize (crossR (valV (faceNormal p1)) (valV (faceNormal p2))).x * val (faceDist p0) +
      (crossR (valV (faceNormal p2)) (valV (faceNormal p0))).x * val (faceDist p1) +
      (crossR (valV (faceNormal p0)) (valV (faceNormal p1))).x * val (faceDist p2) = X at *
  generalize (crossR (valV (faceNormal p1)) (valV (faceNormal p2))).y * val (faceDist p0) +
      (crossR (valV (faceNormal p2)) (valV (faceNormal p0))).y * val (faceDist p1) +
      (crossR (valV (faceNormal p0)) (valV (faceNormal p1))).y * val (faceDist p2) = Y at *
  generalize (crossR (valV (faceNormal p1)) (valV (faceNormal p2))).z * val (faceDist p0) +
      (crossR (valV (faceNormal p2)) (valV (faceNormal p0))).z * val (faceDist p1) +
      (crossR (valV (faceNormal p0)) (valV (faceNormal p1))).z * val (faceDist p2) = Z at *
  generalize dotR (crossR (valV (faceNormal p0)) (valV (faceNormal p1))) (valV (faceNormal p2)) = D at *
  obtain ⟨hqw, hqm⟩ := hqw
  generalize val (faceDist q) = d at *
  generalize valV (faceNormal q) = n at *
  have e1 := dot_le (a := n) (b := ⟨val v.x * val den - X, val v.y * val den - Y, val v.z * val den - Z⟩) (by norm_num) hqw
    ⟨cx', cy', cz'⟩
  have e2 : |d * (D - val den)| ≤ M * (47 * u) := by
    rw [abs_mul, abs_sub_comm]
    exact mul_le_mul hqm hde (abs_nonneg _) (by linarith)
  have e3 : |dotR n (valV v) - d| * val den = |(dotR n (valV v) - d) * val den| := by
    rw [abs_mul, abs_of_pos hpos]
  have e4 : (dotR n (valV v) - d) * val den =
      dotR n ⟨val v.x * val den - X, val v.y * val den - Y, val v.z * val den - Z⟩ + d * (D - val den) := by
    have : d * D = n.x * X + n.y * Y + n.z * Z := ident.symm
    rw [mul_sub, this]
    simp only [dotR, valV]
    ring
  rw [e3, e4]
  refine (abs_add_le _ _).trans ?_
  have : 0 ≤ u * M := mul_nonneg up.le (by linarith)
  linarith

/-- Rounded difference of two points. -/
theorem sub_err {a b : V3 F} {M : ℝ} (hM' : M ≤ 2 ^ 25) (ha : FinV a) (hb : FinV b)
    (wa : Within M (valV a)) (wb : Within M (valV b)) :
    FinV (V3.sub a b) ∧ Within (2 * u * M) (subR (valV (V3.sub a b)) (subR (valV a) (valV b))) ∧
    Within (2 * M) (subR (valV a) (valV b)) := by
  have r : ∀ {x y : F}, Fin x → Fin y → |val x| ≤ M → |val y| ≤ M →
      Fin (Arith.sub x y) ∧ |val (Arith.sub x y) - (val x - val y)| ≤ 2 * u * M ∧ |val x - val y| ≤ 2 * M := by
    intro x y hx hy bx b2
    have h1 := abs_sub (val x) (val y)
    have h2 := sub_ok _ _ hx hy (by rw [large_val]; linarith)
    refine ⟨h2, (sub_val _ _ h2).trans ?_, by linarith⟩
    unfold u; linarith
  obtain ⟨x1, x2, x3⟩ := r ha.1 hb.1 wa.1 wb.1
  obtain ⟨y1, y2, y3⟩ := r ha.2.1 hb.2.1 wa.2.1 wb.2.1
  obtain ⟨z1, z2, z3⟩ := r ha.2.2 hb.2.2 wa.2.2 wb.2.2
  exact ⟨⟨x1, y1, z1⟩, ⟨x2, y2, z2⟩, x3, y3, z3⟩

/-- Product of two perturbed numbers. -/
theorem prod_err {a b A B M : ℝ} (hM : 0 ≤ M) (ha : |a - A| ≤ 2 * u * M) (hb : |b - B| ≤ 2 * u * M)
    (wA : |A| ≤ 2 * M) (wB : |B| ≤ 2 * M) :
    |a * b - A * B| ≤ 801 / 100 * u * (M * M) ∧ |a| * |b| ≤ 401 / 100 * (M * M) := by
  have up := u_pos
  have hb' : |b| ≤ 2001 / 1000 * M := by have := abs_le_of hb; unfold u at *; linarith
  have ha' : |a| ≤ 2001 / 1000 * M := by have := abs_le_of ha; unfold u at *; linarith
  have h1 : |(a - A) * b| ≤ 2 * u * M * (2001 / 1000 * M) := by
    rw [abs_mul]; exact mul_le_mul ha hb' (abs_nonneg _) (by positivity)
  have h2 : |A * (b - B)| ≤ 2 * M * (2 * u * M) := by
    rw [abs_mul]; exact mul_le_mul wA hb (abs_nonneg _) (by positivity)
  have h3 : a * b - A * B = (a - A) * b + A * (b - B) := by ring
  have h4 : 0 ≤ u * (M * M) := by positivity
  constructor
  · rw [h3]
    refine (abs_add_le _ _).trans ?_
    nlinarith
  · have := mul_le_mul ha' hb' (abs_nonneg _) (by positivity)
    have : 0 ≤ M * M := by positivity
    nlinarith

/-- The computed vector product of two edges of a face. -/
theorem edges_err {p : BrushPlane F} {M : ℝ} (hM : 1 ≤ M) (hM' : M ≤ 2 ^ 25)
    (f0 : FinV p.v0) (f1 : FinV p.v1) (f2 : FinV p.v2)
    (w0 : Within M (valV p.v0)) (w1 : Within M (valV p.v1)) (w2 : Within M (valV p.v2)) :
    FinV (Arith.cross (V3.sub p.v2 p.v0) (V3.sub p.v1 p.v0)) ∧
    Within (41 * u * (M * M)) (subR (valV (Arith.cross (V3.sub p.v2 p.v0) (V3.sub p.v1 p.v0)))
      (crossR (subR (valV p.v2) (valV p.v0)) (subR (valV p.v1) (valV p.v0)))) ∧
    Within (9 * (M * M)) (valV (Arith.cross (V3.sub p.v2 p.v0) (V3.sub p.v1 p.v0))) := by
  obtain ⟨fa, ea, wa⟩ := sub_err hM' f2 f0 w2 w0
  obtain ⟨fb, eb, wb⟩ := sub_err hM' f1 f0 w1 w0
  generalize V3.sub p.v2 p.v0 = a at *
  generalize V3.sub p.v1 p.v0 = b at *
  generalize subR (valV p.v2) (valV p.v0) = A at *
  generalize subR (valV p.v1) (valV p.v0) = B at *
  have hM0 : 0 ≤ M := by linarith
  have hMM : 1 ≤ M * M := by nlinarith
  have hMM' : M * M ≤ 2 ^ 50 := by nlinarith
  have tl := tiny_le
  have tp := tiny_pos
  have up := u_pos
  rw [cross_eq]
  have r : ∀ {x y z w : F} {X Y Z W : ℝ}, Fin x → Fin y → Fin z → Fin w →
      |val x - X| ≤ 2 * u * M → |val y - Y| ≤ 2 * u * M → |val z - Z| ≤ 2 * u * M → |val w - W| ≤ 2 * u * M →
      |X| ≤ 2 * M → |Y| ≤ 2 * M → |Z| ≤ 2 * M → |W| ≤ 2 * M →
      Fin (Arith.sub (Arith.mul x y) (Arith.mul z w)) ∧
      |val (Arith.sub (Arith.mul x y) (Arith.mul z w)) - (X * Y - Z * W)| ≤ 41 * u * (M * M) ∧
      |val (Arith.sub (Arith.mul x y) (Arith.mul z w))| ≤ 9 * (M * M) := by
    intro x y z w X Y Z W fx fy fz fw ex ey ez ew bX bY bZ bW
    obtain ⟨g1, g2⟩ := prod_err hM0 ex ey bX bY
    obtain ⟨g3, g4⟩ := prod_err hM0 ez ew bZ bW
    have i1 := mul_ok x y fx fy (by rw [abs_mul, large_val]; linarith)
    have i2 := mul_ok z w fz fw (by rw [abs_mul, large_val]; linarith)
    have j1 := abs_le_of (mul_err i1)
    have j2 := abs_le_of (mul_err i2)
    rw [abs_mul] at j1 j2
    have i3 := sub_ok _ _ i1 i2 ((abs_sub _ _).trans (by rw [large_val]; unfold u at *; linarith))
    have k := (diff_err i3).2
    have e : |val (Arith.sub (Arith.mul x y) (Arith.mul z w)) - (X * Y - Z * W)| ≤ 41 * u * (M * M) := by
      have : val (Arith.sub (Arith.mul x y) (Arith.mul z w)) - (X * Y - Z * W) =
          (val (Arith.sub (Arith.mul x y) (Arith.mul z w)) - (val x * val y - val z * val w)) +
          (val x * val y - X * Y) - (val z * val w - Z * W) := by ring
      rw [this]
      refine (abs_sub _ _).trans ?_
      have := abs_add_le (val (Arith.sub (Arith.mul x y) (Arith.mul z w)) - (val x * val y - val z * val w))
        (val x * val y - X * Y)
      unfold u at *; linarith
    refine ⟨i3, e, (abs_le_of e).trans ?_⟩
    have l1 : |X * Y| ≤ 2 * M * (2 * M) := by
      rw [abs_mul]; exact mul_le_mul bX bY (abs_nonneg _) (by linarith)
    have l2 : |Z * W| ≤ 2 * M * (2 * M) := by
      rw [abs_mul]; exact mul_le_mul bZ bW (abs_nonneg _) (by linarith)
    have := abs_sub (X * Y) (Z * W)
    unfold u at *; linarith
  obtain ⟨ax, ay, az⟩ := fa
  obtain ⟨bx, b2, bz⟩ := fb
  obtain ⟨eax, eay, eaz⟩ := ea
  obtain ⟨ebx, eby, ebz⟩ := eb
  obtain ⟨wax, way, waz⟩ := wa
  obtain ⟨wbx, wby, wbz⟩ := wb
  obtain ⟨x1, x2, x3⟩ := r ay bz az b2 eay ebz eaz eby way wbz waz wby
  obtain ⟨y1, y2, y3⟩ := r az bx ax bz eaz ebx eax ebz waz wbx wax wbz
  obtain ⟨z1, z2, z3⟩ := r ax b2 ay bx eax eby eay ebx wax wby way wbx
  exact ⟨⟨x1, y1, z1⟩, ⟨x2, y2, z2⟩, x3, y3, z3⟩

theorem len_nonneg (a : V3 ℝ) : 0 ≤ lenR a := Real.sqrt_nonneg _
theorem len_sq (a : V3 ℝ) : lenR a * lenR a = dotR a a :=
  Real.mul_self_sqrt (by unfold dotR; nlinarith [mul_self_nonneg a.x, mul_self_nonneg a.y, mul_self_nonneg a.z])
theorem coord_len (a : V3 ℝ) : |a.x| ≤ lenR a ∧ |a.y| ≤ lenR a ∧ |a.z| ≤ lenR a := by
  have h : ∀ t : ℝ, t * t ≤ dotR a a → |t| ≤ lenR a := fun t ht => by
    apply Real.abs_le_sqrt; rw [pow_two]; exact ht
  unfold dotR at h
  refine ⟨h _ ?_, h _ ?_, h _ ?_⟩ <;> nlinarith [mul_self_nonneg a.x, mul_self_nonneg a.y, mul_self_nonneg a.z]

/-- Lengths of nearby vectors. -/
theorem len_err {w W : V3 ℝ} {e : ℝ} (h : Within e (subR w W)) : |lenR w - lenR W| ≤ 3 * e := by
  have he : 0 ≤ e := (abs_nonneg _).trans h.1
  by_cases hz : lenR w + lenR W = 0
  · have h1 := len_nonneg w
    have h2 := len_nonneg W
    have : lenR w = 0 := by linarith
    have : lenR W = 0 := by linarith
    rw [‹lenR w = 0›, ‹lenR W = 0›]; simpa using he
  have hp : 0 < lenR w + lenR W := lt_of_le_of_ne (add_nonneg (len_nonneg _) (len_nonneg _)) (Ne.symm hz)
  have h1 : (lenR w - lenR W) * (lenR w + lenR W) = dotR (subR w W) (addR w W) := by
    have e1 := len_sq w
    have e2 := len_sq W
    have : dotR (subR w W) (addR w W) = dotR w w - dotR W W := by simp only [dotR, subR, addR]; ring
    rw [this, ← e1, ← e2]; ring
  have h2 : Within (lenR w + lenR W) (addR w W) := by
    obtain ⟨a1, a2, a3⟩ := coord_len w
    obtain ⟨b1, b2, b3⟩ := coord_len W
    exact ⟨(abs_add_le _ _).trans (add_le_add a1 b1), (abs_add_le _ _).trans (add_le_add a2 b2),
      (abs_add_le _ _).trans (add_le_add a3 b3)⟩
  have h3 := dot_le he h h2
  rw [← h1, abs_mul, abs_of_pos hp] at h3
  have : |lenR w - lenR W| * (lenR w + lenR W) ≤ 3 * e * (lenR w + lenR W) := by linarith
  exact le_of_mul_le_mul_right this hp

/-- Coordinates of directions of nearby vectors. -/
theorem dir_err {t T l L e : ℝ} (hl : 0 < l) (hL : 0 < L) (ht : |t| ≤ l) (h1 : |t - T| ≤ e) (h2 : |l - L| ≤ 3 * e) :
    |t / l - T / L| ≤ 4 * e / L := by
  have e1 : t / l - T / L = (t - T) / L + (t / l) * ((L - l) / L) := by field_simp; ring
  have e2 : |t / l| ≤ 1 := by rw [abs_div, abs_of_pos hl]; exact (div_le_one hl).2 ht
  rw [e1]
  refine (abs_add_le _ _).trans ?_
  rw [abs_mul, abs_div (t - T), abs_div (L - l), abs_of_pos hL, abs_sub_comm L l]
  have e3 : |t - T| / L ≤ e / L := div_le_div_of_nonneg_right h1 hL.le
  have e4 : |l - L| / L ≤ 3 * e / L := div_le_div_of_nonneg_right h2 hL.le
  have e5 : |t / l| * (|l - L| / L) ≤ 1 * (3 * e / L) := mul_le_mul e2 e4 (by positivity) (by norm_num)
  have : 4 * e / L = e / L + 1 * (3 * e / L) := by ring
  linarith

/-- Either way to normalize divides by the length up to rounding. -/
theorem quot_err {w : V3 F} {s : F} {l : ℝ} (hss : Rounding.sqrt (Arith.dot w w) = s) (hs : Fin s)
    (hsp : 99 / 100 * l ≤ val s) (hs1 : 1 / 2000 ≤ val s) (hll : l ≤ 2 ^ 60) :
    ∃ q : F → F, Arith.normalize w = ⟨q w.x, q w.y, q w.z⟩ ∧ ∀ x : F, Fin x → |val x| ≤ l →
      Fin (q x) ∧ |val (q x) - val x / val s| ≤ 22 / 10 * u := by
  have hs0 : 0 < val s := by linarith
  have tl := tiny_le
  have tp := tiny_pos
  have up := u_pos
  rw [Rounding.normalize_eq, hss]
  have a1 : ∀ x : F, |val x| ≤ l → |val x / val s| ≤ 102 / 100 := fun x hx => by
    rw [abs_div, abs_of_pos hs0, div_le_iff₀ hs0]; linarith
  cases hrec : Rounding.recip F
  · refine ⟨fun x => Arith.div x s, by simp, fun x fx hx => ?_⟩
    have a2 := div_ok x s fx hs hs0.ne' (by rw [large_val]; linarith [a1 x hx])
    refine ⟨a2, (div_val x s a2 hs).trans ?_⟩
    have := a1 x hx
    unfold u at *; linarith
  · refine ⟨fun x => Arith.mul x (Arith.div Arith.one s), by simp, fun x fx hx => ?_⟩
    have b1 : |val (Arith.one : F) / val s| ≤ 2000 := by
      rw [one_val, abs_div, abs_of_pos hs0, abs_one, div_le_iff₀ hs0]; linarith
    have b2 := div_ok Arith.one s one_fin hs hs0.ne' (by rw [large_val]; linarith)
    have b3 := div_val Arith.one s b2 hs
    rw [one_val] at b3 b1
    generalize Arith.div Arith.one s = r at *
    -- the error of the reciprocal, carried over to the product
    have hx0 := abs_nonneg (val x)
    have b4 : |val x * val r - val x / val s| ≤ 103 / 100 * u := by
      have e : val x * val r - val x / val s = val x * (val r - 1 / val s) := by ring
      have e1 : |val x| * |1 / val s| ≤ 102 / 100 := by
        rw [← abs_mul, mul_one_div]; exact a1 x hx
      rw [e, abs_mul]
      have e2 : |val x| * |val r - 1 / val s| ≤ |val x| * (u * |1 / val s| + tiny) :=
        mul_le_mul_of_nonneg_left b3 hx0
      have e3 : |val x| * tiny ≤ 2 ^ 60 * tiny := mul_le_mul_of_nonneg_right (hx.trans hll) tp.le
      have e4 : |val x| * (u * |1 / val s| + tiny) = u * (|val x| * |1 / val s|) + |val x| * tiny := by ring
      have e5 : u * (|val x| * |1 / val s|) ≤ u * (102 / 100) := mul_le_mul_of_nonneg_left e1 up.le
      have e6 : 2 ^ 60 * tiny ≤ 1 / 100 * u := by unfold tiny u; norm_num
      linarith
    have b5 : |val x * val r| ≤ 103 / 100 := by
      have := abs_le_of b4
      have := a1 x hx
      unfold u at *; linarith
    have b6 := mul_ok x r fx b2 (by rw [large_val]; linarith)
    have b7 := mul_val x r b6
    refine ⟨b6, ?_⟩
    have e : val (Arith.mul x r) - val x / val s =
      (val (Arith.mul x r) - val x * val r) + (val x * val r - val x / val s) := by ring
    rw [e]
    refine (abs_add_le _ _).trans ?_
    unfold u at *; linarith

/-- The computed normal of a face is the true one up to rounding, unless its three points are nearly collinear. -/
theorem normal_err {p : BrushPlane F} {M k : ℝ} (hM : 1 ≤ M) (hM' : M ≤ 2 ^ 25) (hk : 1 ≤ k) (hk' : k ≤ 512)
    (f0 : FinV p.v0) (f1 : FinV p.v1) (f2 : FinV p.v2)
    (w0 : Within M (valV p.v0)) (w1 : Within M (valV p.v1)) (w2 : Within M (valV p.v2))
    (hA : M * M ≤ k * lenR (crossR (subR (valV p.v2) (valV p.v0)) (subR (valV p.v1) (valV p.v0)))) :
    FinV (faceNormal p) ∧ Within (101 / 100) (valV (faceNormal p)) ∧
    Within (175 * k * u) (subR (valV (faceNormal p))
      (smulR (1 / lenR (crossR (subR (valV p.v2) (valV p.v0)) (subR (valV p.v1) (valV p.v0))))
        (crossR (subR (valV p.v2) (valV p.v0)) (subR (valV p.v1) (valV p.v0))))) := by
  obtain ⟨fw, ew, ww⟩ := edges_err hM hM' f0 f1 f2 w0 w1 w2
  unfold faceNormal
  generalize Arith.cross (V3.sub p.v2 p.v0) (V3.sub p.v1 p.v0) = w at *
  generalize crossR (subR (valV p.v2) (valV p.v0)) (subR (valV p.v1) (valV p.v0)) = W at *
  have hMM : 1 ≤ M * M := by nlinarith
  have hMM' : M * M ≤ 2 ^ 50 := by nlinarith
  have tl := tiny_le
  have tp := tiny_pos
  have up := u_pos
  have hl := len_err ew
  have cl := coord_len (valV w)
  have hq := dot_ok fw fw (by linarith) ww ww (by rw [large_val]; nlinarith)
  have eq := (dot_err hq).2.2
  have hd : |val w.x| * |val w.x| + |val w.y| * |val w.y| + |val w.z| * |val w.z| = lenR (valV w) * lenR (valV w) := by
    rw [len_sq, ← abs_mul, ← abs_mul, ← abs_mul, abs_mul_self, abs_mul_self, abs_mul_self]; rfl
  rw [hd, ← len_sq] at eq
  have hL0 := len_nonneg W
  have hLle : lenR W ≤ 2 ^ 59 := by
    have h3 := (abs_le.1 hl).1
    have h4 : lenR (valV w) ≤ 3 * (9 * (M * M)) := by
      have h5 := dot_le (by linarith) ww ww
      rw [← len_sq, abs_mul_self] at h5
      by_contra hc
      nlinarith
    unfold u at *; linarith
  generalize lenR W = L at *
  generalize lenR (valV w) = l at *
  have hL : 1 / 512 ≤ L := by nlinarith
  have hkL : 123 * u * (M * M) ≤ 4 / 1000 * L := by
    have : k * L ≤ 512 * L := mul_le_mul_of_nonneg_right hk' hL0
    unfold u; linarith
  have hlL : 99 / 100 * L ≤ l := by have := (abs_le.1 hl).1; linarith
  have hlp : 0 < l := by linarith
  have hl2 : 1 / 1000000 ≤ l * l := by nlinarith
  have eq' : |val (Arith.dot w w) - l * l| ≤ 5 * u * (l * l) := by
    unfold u at *; linarith
  have hq0 : 0 ≤ val (Arith.dot w w) := by
    have := (abs_le.1 eq').1
    unfold u at *; linarith
  have hs := (sqrt_fin _).2 ⟨hq, hq0⟩
  have es := sqrt_val _ hs
  have hr : |Real.sqrt (val (Arith.dot w w)) - l| ≤ 5 * u * l := by
    have r0 := Real.sqrt_nonneg (val (Arith.dot w w))
    have r1 := Real.mul_self_sqrt hq0
    generalize Real.sqrt (val (Arith.dot w w)) = r at *
    have h1 : |r - l| * (r + l) = |val (Arith.dot w w) - l * l| := by
      rw [← r1, ← abs_of_pos (by linarith : 0 < r + l), ← abs_mul]
      congr 1
      ring
    have h2 : |r - l| * l ≤ |r - l| * (r + l) := mul_le_mul_of_nonneg_left (by linarith) (abs_nonneg _)
    have h3 : |r - l| * l ≤ 5 * u * l * l := by linarith
    exact le_of_mul_le_mul_right h3 hlp
  have hsl : |val (Rounding.sqrt (Arith.dot w w)) - l| ≤ 7 * u * l := by
    have r0 := Real.sqrt_nonneg (val (Arith.dot w w))
    generalize Real.sqrt (val (Arith.dot w w)) = r at *
    generalize val (Rounding.sqrt (Arith.dot w w)) = s at *
    have h1 : s - l = (s - r) + (r - l) := by ring
    have h2 := (abs_le.1 hr).2
    rw [h1]
    refine (abs_add_le _ _).trans ?_
    unfold u at *; linarith
  have hse := abs_le.1 hsl
  have hsp : 99 / 100 * l ≤ val (Rounding.sqrt (Arith.dot w w)) := by
    unfold u at *; linarith
  generalize hss : Rounding.sqrt (Arith.dot w w) = s at *
  have hs0 : 0 < val s := by linarith
  have hs1 : 1 / 2000 ≤ val s := by nlinarith
  have hll : l ≤ 2 ^ 60 := by
    have := (abs_le.1 hl).2
    have hWl : L ≤ 2 ^ 59 := hLle
    unfold u at *; linarith
  obtain ⟨q, hqe, hqv⟩ := quot_err hss hs hsp hs1 hll
  rw [hqe]
  have r : ∀ {x : F} {X : ℝ}, Fin x → |val x| ≤ l → |val x - X| ≤ 41 * u * (M * M) →
      Fin (q x) ∧ |val (q x)| ≤ 101 / 100 ∧ |val (q x) - 1 / L * X| ≤ 175 * k * u := by
    intro x X fx hx hX
    obtain ⟨a2, a3⟩ := hqv x fx hx
    have a4 : |val x / val s - val x / l| ≤ 72 / 10 * u := by
      have e : val x / val s - val x / l = (val x / l) * ((l - val s) / val s) := by
        field_simp
      have e1 : |val x / l| ≤ 1 := by rw [abs_div, abs_of_pos hlp]; exact (div_le_one hlp).2 hx
      have e2 : |(l - val s) / val s| ≤ 72 / 10 * u := by
        rw [abs_div, abs_of_pos hs0, abs_sub_comm, div_le_iff₀ hs0]
        have : u * l ≤ u * (100 / 99 * val s) := mul_le_mul_of_nonneg_left (by linarith) up.le
        have : 0 ≤ u * val s := by positivity
        linarith
      rw [e, abs_mul]
      calc |val x / l| * |(l - val s) / val s| ≤ 1 * (72 / 10 * u) :=
            mul_le_mul e1 e2 (abs_nonneg _) (by norm_num)
        _ = _ := one_mul _
    have a5 := dir_err hlp (by linarith : 0 < L) hx hX (by linarith)
    have a6 : 4 * (41 * u * (M * M)) / L ≤ 164 * k * u := by
      rw [div_le_iff₀ (by linarith)]
      have := mul_le_mul_of_nonneg_left hA up.le
      linarith
    have a7 : |val (q x) - X / L| ≤ 175 * k * u := by
      have e : val (q x) - X / L =
        (val (q x) - val x / val s) + (val x / val s - val x / l) + (val x / l - X / L) := by ring
      rw [e]
      refine (abs_add_le _ _).trans ?_
      have := abs_add_le (val (q x) - val x / val s) (val x / val s - val x / l)
      have : u ≤ k * u := by nlinarith
      unfold u at *; linarith
    have a8 : |val (q x)| ≤ 101 / 100 := by
      have b1 := abs_le_of a3
      have b2 := abs_le_of a4
      have b3 : |val x / l| ≤ 1 := by rw [abs_div, abs_of_pos hlp]; exact (div_le_one hlp).2 hx
      unfold u at *; linarith
    refine ⟨a2, a8, ?_⟩
    rwa [one_div_mul_eq_div]
  obtain ⟨x1, x2, x3⟩ := r fw.1 cl.1 ew.1
  obtain ⟨y1, y2, y3⟩ := r fw.2.1 cl.2.1 ew.2.1
  obtain ⟨z1, z2, z3⟩ := r fw.2.2 cl.2.2 ew.2.2
  exact ⟨⟨x1, y1, z1⟩, ⟨x2, y2, z2⟩, x3, y3, z3⟩

end
end Err
end Quarch
