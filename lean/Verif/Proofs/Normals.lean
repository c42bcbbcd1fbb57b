import Verif.Proofs.Rounding
/-
Normalisation with rounding, and sums of normals.
-/
set_option linter.unusedSectionVars false
namespace Quarch
open Spec Geo Rounding
namespace Err

/-- The length of a vector with bounded coordinates. -/
theorem len_le {a : V3 ℝ} {B : ℝ} (hB : 0 ≤ B) (h : Within B a) : lenR a ≤ 3 * B := by
  have h5 := dot_le hB h h
  rw [← len_sq, abs_mul_self] at h5
  by_contra hc
  have := len_nonneg a
  nlinarith

theorem len_unit {a : V3 ℝ} (h : 0 < lenR a) : lenR (smulR (1 / lenR a) a) = 1 := by
  have h1 := len_sq a
  have e : dotR (smulR (1 / lenR a) a) (smulR (1 / lenR a) a) = 1 := by
    have : dotR (smulR (1 / lenR a) a) (smulR (1 / lenR a) a) = dotR a a / (lenR a * lenR a) := by
      simp only [dotR, smulR]; field_simp
    rw [this, ← h1]
    field_simp
  unfold lenR at *
  rw [e, Real.sqrt_one]

theorem cauchy (a b : V3 ℝ) : |dotR a b| ≤ lenR a * lenR b := by
  have ha := len_sq a
  have hb := len_sq b
  have h : dotR a b * dotR a b ≤ (lenR a * lenR b) * (lenR a * lenR b) := by
    have e : (lenR a * lenR b) * (lenR a * lenR b) = dotR a a * dotR b b := by rw [← ha, ← hb]; ring
    rw [e]
    simp only [dotR]
    nlinarith [sq_nonneg (a.x * b.y - a.y * b.x), sq_nonneg (a.x * b.z - a.z * b.x), sq_nonneg (a.y * b.z - a.z * b.y)]
  exact abs_le_of_sq_le_sq (by rw [sq, sq]; exact h) (mul_nonneg (len_nonneg a) (len_nonneg b))

theorem cross_len (a b : V3 ℝ) : lenR (crossR a b) ≤ lenR a * lenR b := by
  have ha := len_sq a
  have hb := len_sq b
  have hc := len_sq (crossR a b)
  have h : lenR (crossR a b) * lenR (crossR a b) ≤ (lenR a * lenR b) * (lenR a * lenR b) := by
    have e : (lenR a * lenR b) * (lenR a * lenR b) = dotR a a * dotR b b := by rw [← ha, ← hb]; ring
    rw [e, hc]
    simp only [dotR, crossR]
    nlinarith [sq_nonneg (a.x * b.x + a.y * b.y + a.z * b.z)]
  exact (le_abs_self _).trans
    (abs_le_of_sq_le_sq (by rw [sq, sq]; exact h) (mul_nonneg (len_nonneg a) (len_nonneg b)))

/-- A sum of one vector and multiples of two others is not short unless the three are nearly dependent. -/
theorem sum_len {n0 n1 n2 : V3 ℝ} {a b : ℝ} (h1 : lenR n1 ≤ 10001 / 10000) (h2 : lenR n2 ≤ 10001 / 10000)
    (hd : 99 / 100000 ≤ dotR (crossR n0 n1) n2) :
    98 / 100000 ≤ lenR (addR n0 (addR (smulR a n1) (smulR b n2))) := by
  have e : dotR (addR n0 (addR (smulR a n1) (smulR b n2))) (crossR n1 n2) = dotR (crossR n0 n1) n2 := by
    simp only [dotR, crossR, addR, smulR]; ring
  have c := cauchy (addR n0 (addR (smulR a n1) (smulR b n2))) (crossR n1 n2)
  rw [e] at c
  have c1 := cross_len n1 n2
  have c2 := len_nonneg n1
  have c3 := len_nonneg n2
  have c4 : lenR n1 * lenR n2 ≤ 10001 / 10000 * (10001 / 10000) := mul_le_mul h1 h2 c3 (by norm_num)
  have c5 := len_nonneg (addR n0 (addR (smulR a n1) (smulR b n2)))
  have c6 := mul_le_mul_of_nonneg_left (c1.trans c4) c5
  have := le_abs_self (dotR (crossR n0 n1) n2)
  linarith

section
variable {F : Type} [Arith F] [Rounding F]

/-- Normalising a vector that is neither very short nor very long. -/
theorem normalize_err {w : V3 F} (fw : FinV w) (hlo : 9 / 10000 ≤ lenR (valV w)) (hhi : lenR (valV w) ≤ 2 ^ 55) :
    FinV (Arith.normalize w) ∧
    Within (10 * u) (subR (valV (Arith.normalize w)) (smulR (1 / lenR (valV w)) (valV w))) ∧
    |lenR (valV (Arith.normalize w)) - 1| ≤ 30 * u := by
  have tl := tiny_le
  have tp := tiny_pos
  have up := u_pos
  have cl := coord_len (valV w)
  have hq := dot_ok fw fw (len_nonneg (valV w)) cl cl (by rw [large_val]; nlinarith)
  have eq := (dot_err hq).2.2
  have hd : |val w.x| * |val w.x| + |val w.y| * |val w.y| + |val w.z| * |val w.z| = lenR (valV w) * lenR (valV w) := by
    rw [len_sq, ← abs_mul, ← abs_mul, ← abs_mul, abs_mul_self, abs_mul_self, abs_mul_self]; rfl
  rw [hd, ← len_sq] at eq
  have hone := len_unit (a := valV w) (by linarith)
  suffices hmain : FinV (Arith.normalize w) ∧
      Within (10 * u) (subR (valV (Arith.normalize w)) (smulR (1 / lenR (valV w)) (valV w))) by
    refine ⟨hmain.1, hmain.2, ?_⟩
    have := len_err hmain.2
    rw [hone] at this
    linarith
  clear hone
  generalize lenR (valV w) = l at *
  have hlp : 0 < l := by linarith
  have hl2 : 1 / 10000000 ≤ l * l := by nlinarith
  have eq' : |val (Arith.dot w w) - l * l| ≤ 5 * u * (l * l) := by
    unfold u at *; linarith
  have hq0 : 0 ≤ val (Arith.dot w w) := by
    have := (abs_le.1 eq').1
    unfold u at *; linarith
  have hs := (sqrt_fin _).2 ⟨hq, hq0⟩
  have es := sqrt_val _ hs
  have hr : |Real.sqrt (val (Arith.dot w w)) - l| ≤ 5 * u * l := by
    have r0 := Real.sqrt_nonneg (val (Arith.dot w w))
    have r1 := Real.mul_self_sqrt hq0
    generalize Real.sqrt (val (Arith.dot w w)) = r at *
    have h1 : |r - l| * (r + l) = |val (Arith.dot w w) - l * l| := by
      rw [← r1, ← abs_of_pos (by linarith : 0 < r + l), ← abs_mul]
      congr 1
      ring
    have h2 : |r - l| * l ≤ |r - l| * (r + l) := mul_le_mul_of_nonneg_left (by linarith) (abs_nonneg _)
    have h3 : |r - l| * l ≤ 5 * u * l * l := by linarith
    exact le_of_mul_le_mul_right h3 hlp
  have hsl : |val (Rounding.sqrt (Arith.dot w w)) - l| ≤ 7 * u * l := by
    have r0 := Real.sqrt_nonneg (val (Arith.dot w w))
    generalize Real.sqrt (val (Arith.dot w w)) = r at *
    generalize val (Rounding.sqrt (Arith.dot w w)) = s at *
    have h1 : s - l = (s - r) + (r - l) := by ring
    have h2 := (abs_le.1 hr).2
    rw [h1]
    refine (abs_add_le _ _).trans ?_
    unfold u at *; linarith
  have hse := abs_le.1 hsl
  have hsp : 99 / 100 * l ≤ val (Rounding.sqrt (Arith.dot w w)) := by
    unfold u at *; linarith
  generalize hss : Rounding.sqrt (Arith.dot w w) = s at *
  have hs0 : 0 < val s := by linarith
  have hs1 : 1 / 2000 ≤ val s := by linarith
  obtain ⟨q, hqe, hqv⟩ := quot_err hss hs hsp hs1 (by linarith)
  rw [hqe]
  have r : ∀ {x : F}, Fin x → |val x| ≤ l → Fin (q x) ∧ |val (q x) - 1 / l * val x| ≤ 10 * u := by
    intro x fx hx
    obtain ⟨a2, a3⟩ := hqv x fx hx
    refine ⟨a2, ?_⟩
    have a4 : |val x / val s - val x / l| ≤ 72 / 10 * u := by
      have e : val x / val s - val x / l = (val x / l) * ((l - val s) / val s) := by
        field_simp
      have e1 : |val x / l| ≤ 1 := by rw [abs_div, abs_of_pos hlp]; exact (div_le_one hlp).2 hx
      have e2 : |(l - val s) / val s| ≤ 72 / 10 * u := by
        rw [abs_div, abs_of_pos hs0, abs_sub_comm, div_le_iff₀ hs0]
        have : u * l ≤ u * (100 / 99 * val s) := mul_le_mul_of_nonneg_left (by linarith) up.le
        have : 0 ≤ u * val s := by positivity
        linarith
      rw [e, abs_mul]
      calc |val x / l| * |(l - val s) / val s| ≤ 1 * (72 / 10 * u) :=
            mul_le_mul e1 e2 (abs_nonneg _) (by norm_num)
        _ = _ := one_mul _
    have e : val (q x) - 1 / l * val x = (val (q x) - val x / val s) + (val x / val s - val x / l) := by ring
    rw [e]
    refine (abs_add_le _ _).trans ?_
    unfold u at *; linarith
  obtain ⟨x1, x3⟩ := r fw.1 cl.1
  obtain ⟨y1, y3⟩ := r fw.2.1 cl.2.1
  obtain ⟨z1, z3⟩ := r fw.2.2 cl.2.2
  exact ⟨⟨x1, y1, z1⟩, x3, y3, z3⟩

/-- Adding two vectors. -/
theorem add_step {a b : V3 F} {A B : ℝ} (fa : FinV a) (fb : FinV b) (ha : Within A (valV a)) (hb : Within B (valV b))
    (h : A + B ≤ 100) : FinV (V3.add a b) ∧ Within (u * (A + B)) (subR (valV (V3.add a b)) (addR (valV a) (valV b))) := by
  have r : ∀ {x y : F}, Fin x → Fin y → |val x| ≤ A → |val y| ≤ B →
      Fin (Arith.add x y) ∧ |val (Arith.add x y) - (val x + val y)| ≤ u * (A + B) := by
    intro x y fx fy hx hy
    have h1 : |val x + val y| ≤ A + B := (abs_add_le _ _).trans (add_le_add hx hy)
    have h2 := add_ok x y fx fy (by rw [large_val]; linarith)
    exact ⟨h2, (add_val x y h2).trans (mul_le_mul_of_nonneg_left h1 u_pos.le)⟩
  obtain ⟨x1, x2⟩ := r fa.1 fb.1 ha.1 hb.1
  obtain ⟨y1, y2⟩ := r fa.2.1 fb.2.1 ha.2.1 hb.2.1
  obtain ⟨z1, z2⟩ := r fa.2.2 fb.2.2 ha.2.2 hb.2.2
  exact ⟨⟨x1, y1, z1⟩, x2, y2, z2⟩

/-- The determinant of the normals of three planes that meet. -/
theorem det_err {p0 p1 p2 : BrushPlane F} {v : V3 F}
    (n0 : FinV (faceNormal p0) ∧ Within (101 / 100) (valV (faceNormal p0)))
    (n1 : FinV (faceNormal p1) ∧ Within (101 / 100) (valV (faceNormal p1)))
    (n2 : FinV (faceNormal p2) ∧ Within (101 / 100) (valV (faceNormal p2))) (h : Meet p0 p1 p2 v) :
    99 / 100000 ≤ dotR (crossR (valV (faceNormal p0)) (valV (faceNormal p1))) (valV (faceNormal p2)) := by
  obtain ⟨den, hden, hlt, rfl⟩ := h
  obtain ⟨f0, w0⟩ := n0
  obtain ⟨f1, w1⟩ := n1
  obtain ⟨f2, w2⟩ := n2
  have up := u_pos
  have tl := tiny_le
  have g01 : FinV (Arith.cross (faceNormal p0) (faceNormal p1)) := by
    have r : ∀ {a b c d : F}, Fin a → Fin b → Fin c → Fin d → |val a| ≤ 101 / 100 → |val b| ≤ 101 / 100 →
        |val c| ≤ 101 / 100 → |val d| ≤ 101 / 100 → Fin (Arith.sub (Arith.mul a b) (Arith.mul c d)) := by
      intro a b c d fa fb fc fd ha hb hc hd
      have q1 : |val a * val b| ≤ 2 := by
        rw [abs_mul]; exact (mul_le_mul ha hb (abs_nonneg _) (by norm_num)).trans (by norm_num)
      have q2 : |val c * val d| ≤ 2 := by
        rw [abs_mul]; exact (mul_le_mul hc hd (abs_nonneg _) (by norm_num)).trans (by norm_num)
      have m1 := mul_ok a b fa fb (by rw [large_val]; linarith)
      have m2 := mul_ok c d fc fd (by rw [large_val]; linarith)
      have e1 := abs_le_of (mul_val a b m1)
      have e2 := abs_le_of (mul_val c d m2)
      refine sub_ok _ _ m1 m2 ((abs_sub _ _).trans ?_)
      rw [large_val]
      unfold u at *; linarith
    rw [cross_eq]
    exact ⟨r f0.2.1 f1.2.2 f0.2.2 f1.2.1 w0.2.1 w1.2.2 w0.2.2 w1.2.1,
      r f0.2.2 f1.1 f0.1 f1.2.2 w0.2.2 w1.1 w0.1 w1.2.2, r f0.1 f1.2.1 f0.2.1 f1.1 w0.1 w1.2.1 w0.2.1 w1.1⟩
  obtain ⟨a01, b01⟩ := cross_err g01 w0 w1
  have wc : Within (205 / 100) (valV (Arith.cross (faceNormal p0) (faceNormal p1))) := by
    have r : ∀ {x y : ℝ}, |x - y| ≤ 7 * u → |y| ≤ 2041 / 1000 → |x| ≤ 205 / 100 := fun h1 h2 => by
      have := abs_le_of h1; unfold u at *; linarith
    exact ⟨r a01.1 b01.1, r a01.2.1 b01.2.1, r a01.2.2 b01.2.2⟩
  have hdf : Fin den := by
    rw [hden]
    exact dot_ok g01 f2 (by norm_num) wc w2 (by rw [large_val]; norm_num)
  have hde : |val den - dotR (crossR (valV (faceNormal p0)) (valV (faceNormal p1))) (valV (faceNormal p2))| ≤ 47 * u := by
    have e1 := dot_err' (hden ▸ hdf) (by norm_num) wc w2
    rw [← hden] at e1
    have e2 := dot_le (by have := u_pos; linarith) a01 w2
    have e3 : val den - dotR (crossR (valV (faceNormal p0)) (valV (faceNormal p1))) (valV (faceNormal p2)) =
        (val den - dotR (valV (Arith.cross (faceNormal p0) (faceNormal p1))) (valV (faceNormal p2))) +
        dotR (subR (valV (Arith.cross (faceNormal p0) (faceNormal p1)))
          (crossR (valV (faceNormal p0)) (valV (faceNormal p1)))) (valV (faceNormal p2)) := by
      simp only [dotR, subR]; ring
    rw [e3]
    refine (abs_add_le _ _).trans ?_
    unfold u at *; linarith
  have : ¬ val den < val (Arith.cmpEpsilon : F) := by
    rw [← lt_val _ _ hdf eps_fin]; simp [hlt]
  have := (abs_le.1 (eps_val (F := F))).1
  have := (abs_le.1 hde).2
  unfold u at *; linarith

/-- The sum a smoothed normal is computed from. -/
theorem phong_sum {p0 p1 p2 : BrushPlane F} (angle : Option Str)
    (n0 : FinV (faceNormal p0) ∧ Within (101 / 100) (valV (faceNormal p0)))
    (n1 : FinV (faceNormal p1) ∧ Within (101 / 100) (valV (faceNormal p1)))
    (n2 : FinV (faceNormal p2) ∧ Within (101 / 100) (valV (faceNormal p2))) :
    ∃ (s : V3 F) (a b : ℝ), (a = 0 ∨ a = 1) ∧ (b = 0 ∨ b = 1) ∧
      (angle.bind (Arith.parse (F := F)) = none → a = 1 ∧ b = 1) ∧
      phongNormal p0 p1 p2 angle = Arith.normalize s ∧ FinV s ∧
      Within (6 * u) (subR (valV s) (addR (valV (faceNormal p0))
        (addR (smulR a (valV (faceNormal p1))) (smulR b (valV (faceNormal p2)))))) := by
  have hfn : ∀ p : BrushPlane F, p.normal = faceNormal p := fun _ => rfl
  obtain ⟨f0, w0⟩ := n0
  obtain ⟨f1, w1⟩ := n1
  obtain ⟨f2, w2⟩ := n2
  have up := u_pos
  obtain ⟨f01, e01⟩ := add_step f0 f1 w0 w1 (by norm_num)
  obtain ⟨f02, e02⟩ := add_step f0 f2 w0 w2 (by norm_num)
  have w01 : Within (203 / 100) (valV (V3.add (faceNormal p0) (faceNormal p1))) := by
    have r : ∀ {x y z : ℝ}, |x - (y + z)| ≤ u * (101 / 100 + 101 / 100) → |y| ≤ 101 / 100 → |z| ≤ 101 / 100 →
        |x| ≤ 203 / 100 := fun h1 h2 h3 => by
      have := abs_le_of h1
      have := (abs_add_le _ _).trans (add_le_add h2 h3)
      unfold u at *; linarith
    exact ⟨r e01.1 w0.1 w1.1, r e01.2.1 w0.2.1 w1.2.1, r e01.2.2 w0.2.2 w1.2.2⟩
  obtain ⟨f012, e012⟩ := add_step f01 f2 w01 w2 (by norm_num)
  -- the four possible sums
  have r3 : ∀ {s t x y z : ℝ}, |t - (x + y)| ≤ u * (101 / 100 + 101 / 100) → |s - (t + z)| ≤ u * (203 / 100 + 101 / 100) →
      |s - (x + (1 * y + 1 * z))| ≤ 6 * u := fun {s t x y z} h1 h2 => by
    have e : s - (x + (1 * y + 1 * z)) = (s - (t + z)) + (t - (x + y)) := by ring
    rw [e]
    refine (abs_add_le _ _).trans ?_
    linarith
  have k012 : Within (6 * u) (subR (valV (V3.add (V3.add (faceNormal p0) (faceNormal p1)) (faceNormal p2)))
      (addR (valV (faceNormal p0)) (addR (smulR 1 (valV (faceNormal p1))) (smulR 1 (valV (faceNormal p2)))))) :=
    ⟨r3 e01.1 e012.1, r3 e01.2.1 e012.2.1, r3 e01.2.2 e012.2.2⟩
  have k01 : Within (6 * u) (subR (valV (V3.add (faceNormal p0) (faceNormal p1)))
      (addR (valV (faceNormal p0)) (addR (smulR 1 (valV (faceNormal p1))) (smulR 0 (valV (faceNormal p2)))))) := by
    have r : ∀ {s x y z : ℝ}, |s - (x + y)| ≤ u * (101 / 100 + 101 / 100) → |s - (x + (1 * y + 0 * z))| ≤ 6 * u :=
      fun {s x y z} h => by
        have e : s - (x + (1 * y + 0 * z)) = s - (x + y) := by ring
        rw [e]; linarith
    exact ⟨r e01.1, r e01.2.1, r e01.2.2⟩
  have k02 : Within (6 * u) (subR (valV (V3.add (faceNormal p0) (faceNormal p2)))
      (addR (valV (faceNormal p0)) (addR (smulR 0 (valV (faceNormal p1))) (smulR 1 (valV (faceNormal p2)))))) := by
    have r : ∀ {s x y z : ℝ}, |s - (x + z)| ≤ u * (101 / 100 + 101 / 100) → |s - (x + (0 * y + 1 * z))| ≤ 6 * u :=
      fun {s x y z} h => by
        have e : s - (x + (0 * y + 1 * z)) = s - (x + z) := by ring
        rw [e]; linarith
    exact ⟨r e02.1, r e02.2.1, r e02.2.2⟩
  have k0 : Within (6 * u) (subR (valV (faceNormal p0))
      (addR (valV (faceNormal p0)) (addR (smulR 0 (valV (faceNormal p1))) (smulR 0 (valV (faceNormal p2)))))) := by
    have r : ∀ {x y z : ℝ}, |x - (x + (0 * y + 0 * z))| ≤ 6 * u := fun {x y z} => by
      have e : x - (x + (0 * y + 0 * z)) = 0 := by ring
      rw [e, abs_zero]; linarith
    exact ⟨r, r, r⟩
  unfold phongNormal
  simp only [hfn]
  cases ha : angle.bind (Arith.parse (F := F)) with
  | none => exact ⟨_, 1, 1, .inr rfl, .inr rfl, fun _ => ⟨rfl, rfl⟩, rfl, f012, k012⟩
  | some t =>
    simp only []
    split <;> split
    · exact ⟨_, 1, 1, .inr rfl, .inr rfl, by simp, rfl, f012, k012⟩
    · exact ⟨_, 0, 1, .inl rfl, .inr rfl, by simp, rfl, f02, k02⟩
    · exact ⟨_, 1, 0, .inr rfl, .inl rfl, by simp, rfl, f01, k01⟩
    · exact ⟨_, 0, 0, .inl rfl, .inl rfl, by simp, rfl, f0, k0⟩

end
end Err
end Quarch
