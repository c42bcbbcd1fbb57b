import Verif.Spec.Spin
import Verif.Props.Gloss
/-
C122: tangents of small brushes in single precision.
-/
set_option linter.unusedSectionVars false
namespace Quarch
open Quarch.Spec Quarch.Spec.F32 Quarch.Geo

section
variable [F32Lib]
open Err

/-- The sign of a number that is not zero is exact. -/
theorem signum_exact {c : F32} (f : isFin c) (h0 : F32.val c ≠ 0) :
    IsG 0 (Arith.signum c) (if 0 < F32.val c then 1 else -1) := by
  rcases c with _ | _ | ⟨s, c, rc⟩ <;> simp only [isFin] at f
  have hc := rep_nonneg rc
  refine ⟨trivial, ?_, by split_ifs <;> simp, by norm_num, by norm_num⟩
  show F32.val (F32.num s 1 rep_one) = _
  cases s
  · have : 0 < F32.val (F32.num false c rc) := by
      simp only [F32.val, sv, Bool.false_eq_true, if_false] at h0 ⊢
      exact lt_of_le_of_ne hc (Ne.symm h0)
    rw [if_pos this]; simp [F32.val, sv]
  · have : ¬ 0 < F32.val (F32.num true c rc) := by simp [F32.val, sv, hc]
    rw [if_neg this]; simp [F32.val, sv]

/-- The vector product of short vectors is finite. -/
theorem cross_short {a b : V3 F32} (fa : Finite3 a) (fb : Finite3 b) (wa : Within (101 / 100) (valV a))
    (wb : Within (101 / 100) (valV b)) : Finite3 (Arith.cross a b) := by
  have L : (2 : ℝ) ^ 100 ≤ large := by unfold large; norm_num
  have u1 : u ≤ 1 / 16000000 := by unfold u; norm_num
  have up : (0 : ℝ) < u := u_pos
  have tl : tiny ≤ 1 := by unfold tiny; norm_num
  have m : ∀ {x y : F32}, isFin x → isFin y → |F32.val x| ≤ 101 / 100 → |F32.val y| ≤ 101 / 100 →
      isFin (Arith.mul x y) ∧ |F32.val (Arith.mul x y)| ≤ 4 := by
    intro x y fx fy hx hy
    have h : |F32.val x * F32.val y| ≤ 101 / 100 * (101 / 100) := by
      rw [abs_mul]; exact mul_le_mul hx hy (abs_nonneg _) (by norm_num)
    have f : isFin (Arith.mul x y) := mul_ok _ _ fx fy (by linarith)
    have e : |F32.val (Arith.mul x y) - F32.val x * F32.val y| ≤ u * |F32.val x * F32.val y| + tiny := mul_val _ _ f
    have := abs_le_of e
    have : u * |F32.val x * F32.val y| ≤ 1 / 16000000 * (101 / 100 * (101 / 100)) := mul_le_mul u1 h (abs_nonneg _) (by norm_num)
    exact ⟨f, by linarith⟩
  have d : ∀ {x y z w : F32}, isFin x → isFin y → isFin z → isFin w → |F32.val x| ≤ 101 / 100 → |F32.val y| ≤ 101 / 100 →
      |F32.val z| ≤ 101 / 100 → |F32.val w| ≤ 101 / 100 → isFin (Arith.sub (Arith.mul x y) (Arith.mul z w)) := by
    intro x y z w fx fy fz fw hx hy hz hw
    obtain ⟨f1, b1⟩ := m fx fy hx hy
    obtain ⟨f2, b2⟩ := m fz fw hz hw
    refine Rounding.sub_ok (F := F32) _ _ f1 f2 ?_
    have := abs_sub (F32.val (Arith.mul x y)) (F32.val (Arith.mul z w))
    show |F32.val _ - F32.val _| ≤ _
    linarith
  rw [Rounding.cross_eq]
  exact ⟨d fa.2.1 fb.2.2 fa.2.2 fb.2.1 wa.2.1 wb.2.2 wa.2.2 wb.2.1, d fa.2.2 fb.1 fa.1 fb.2.2 wa.2.2 wb.1 wa.1 wb.2.2,
    d fa.1 fb.2.1 fa.2.1 fb.1 wa.1 wb.2.1 wa.2.1 wb.1⟩

/-- The normal as computed, with its size. -/
theorem normal_within {N : V3 F32} {n : V3 ℝ} (h : Close (6 * u) (vec N) n) (un : dotR n n = 1) :
    Within (101 / 100) (valV N) ∧ |dotR (vec N) (vec N) - 1| ≤ 1 / 2 ^ 19 := by
  have up : (0 : ℝ) < u := u_pos
  have u1 : u ≤ 1 / 16000000 := by unfold u; norm_num
  have wn := unit_within un
  have k : ∀ {s t : ℝ}, |s - t| ≤ 6 * u → |t| ≤ 1 → |s| ≤ 101 / 100 ∧ |s * s - t * t| ≤ 121 / 10 * u * |t| + 121 / 10 * u / 400 := by
    intro s t h1 h2
    have h3 := abs_le_of h1
    refine ⟨by linarith, ?_⟩
    have e : s * s - t * t = (s - t) * (s - t) + 2 * (t * (s - t)) := by ring
    rw [e]
    refine (abs_add_le _ _).trans ?_
    rw [abs_mul, abs_mul, abs_mul, abs_of_pos (by norm_num : (0 : ℝ) < 2)]
    have i1 : |s - t| * |s - t| ≤ 6 * u * (6 * u) := mul_le_mul h1 h1 (abs_nonneg _) (by linarith)
    have i2 : |t| * |s - t| ≤ |t| * (6 * u) := mul_le_mul_of_nonneg_left h1 (abs_nonneg _)
    have i3 : u * u ≤ 1 / 16000000 * u := mul_le_mul_of_nonneg_right u1 up.le
    have i4 : 0 ≤ u * |t| := mul_nonneg up.le (abs_nonneg _)
    nlinarith
  obtain ⟨k1, e1⟩ := k h.1 wn.1
  obtain ⟨k2, e2⟩ := k h.2.1 wn.2.1
  obtain ⟨k3, e3⟩ := k h.2.2 wn.2.2
  refine ⟨⟨k1, k2, k3⟩, ?_⟩
  have e : dotR (vec N) (vec N) - 1 = ((vec N).x * (vec N).x - n.x * n.x) + ((vec N).y * (vec N).y - n.y * n.y) +
      ((vec N).z * (vec N).z - n.z * n.z) := by rw [← un]; simp only [dotR]; ring
  rw [e]
  refine (abs_add_three _ _ _).trans ?_
  have hu : (1 : ℝ) / 2 ^ 19 = 32 * u := by unfold u; norm_num
  rw [hu]
  have hs : |n.x| + |n.y| + |n.z| ≤ 2 := by
    have h1 := sq_abs n.x
    have h2 := sq_abs n.y
    have h3 := sq_abs n.z
    simp only [dotR] at un
    by_contra hc
    nlinarith [sq_nonneg (|n.x| - |n.y|), sq_nonneg (|n.x| - |n.z|), sq_nonneg (|n.y| - |n.z|)]
  nlinarith

variable [Platform]

theorem built_tangent {textures : TextureInfo} {entity : Entity F32} {planes : List (BrushPlane F32)} {plane : BrushPlane F32}
    {geo : PlaneGeo F32} (h : buildPlane textures entity planes plane = .ok geo) {v : Vertex F32} (hv : v ∈ geo.vertices) :
    vertexTangent plane = .ok v.tangent := by
  obtain ⟨w, hw, rfl⟩ := buildPlane_vertex h hv
  rw [hw.tangent]
  unfold finishNormal
  split <;> rfl

/-- C122: on a small face with texture axes, the tangent is the first axis, and its sign is right as long as the axes are not
nearly in a plane with the normal. -/
theorem C122_valve (textures : TextureInfo) (entity : Entity F32) {planes : List (BrushPlane F32)} {plane : BrushPlane F32}
    {geo : PlaneGeo F32} (h : buildPlane textures entity planes plane = .ok geo) {g : Nat} (hg : g ≤ 20) {R : ℝ} (hR : 1 ≤ R)
    (hR' : R ≤ 64) (hp : NearFace g R plane) {ua va : V3 F32} {uo vo : F32} (huv : plane.uv = .valve ua uo va vo)
    (hu : AxisLike ua) (hva : AxisLike va) (hd : 1 / 100000 ≤ |detR (triOf plane).normal (vec ua) (vec va)|) :
    ∀ v ∈ geo.vertices, v.tangent.1 = ua ∧ isFin v.tangent.2 ∧
      F32.val v.tangent.2 = -signR (detR (triOf plane).normal (vec ua) (vec va)) := by
  intro v hv
  have e := built_tangent h hv
  unfold vertexTangent at e
  rw [huv] at e
  rw [← Outcome.ok.inj e]
  refine ⟨rfl, ?_⟩
  obtain ⟨fN, cN, un⟩ := normal_near hg hR hR' hp
  obtain ⟨wN, -⟩ := normal_within cN un
  generalize (triOf plane).normal = n at *
  generalize plane.normal = N at *
  have up : (0 : ℝ) < u := u_pos
  have u1 : u ≤ 1 / 16000000 := by unfold u; norm_num
  have tl : tiny ≤ u := by unfold tiny u; norm_num
  have L : (2 : ℝ) ^ 100 ≤ large := by unfold large; norm_num
  have wu : Within 1 (valV ua) := hu.2
  have wv : Within 1 (valV va) := hva.2
  have wu' : Within (101 / 100) (valV ua) := ⟨by linarith [wu.1], by linarith [wu.2.1], by linarith [wu.2.2]⟩
  have fc := cross_short fN hu.1 wN wu'
  obtain ⟨c1, c2⟩ := cross_err (F := F32) (a := N) (b := ua) fc wN wu'
  have wc : Within 3 (valV (Arith.cross N ua)) := by
    have t : ∀ {s r : ℝ}, |s - r| ≤ 7 * u → |r| ≤ 2041 / 1000 → |s| ≤ 3 := fun h1 h2 => by
      have := abs_le_of h1; linarith
    exact ⟨t c1.1 c2.1, t c1.2.1 c2.2.1, t c1.2.2 c2.2.2⟩
  have fd : isFin (Arith.dot (Arith.cross N ua) va) :=
    dot_ok (F := F32) (a := Arith.cross N ua) (b := va) fc hva.1 (by norm_num) wc wv (by linarith)
  have gd : |F32.val (Arith.dot (Arith.cross N ua) va) - dotR (vec (Arith.cross N ua)) (vec va)| ≤ 12 * u * (3 * 1) + 4 * tiny :=
    dot_err' (F := F32) fd (by norm_num) wc wv
  have d1 := dot_le (by linarith) c1 wv
  have ud : Within (6 * u) (subR (vec N) n) := cN
  have w2 : Within (12 * u) (crossR (subR (vec N) n) (vec ua)) := by
    have t : ∀ {a b c d : ℝ}, |a| ≤ 6 * u → |b| ≤ 1 → |c| ≤ 6 * u → |d| ≤ 1 → |a * b - c * d| ≤ 12 * u := by
      intro a b c d ha hb hc hd
      refine (abs_sub _ _).trans ?_
      rw [abs_mul, abs_mul]
      have : |a| * |b| ≤ 6 * u * 1 := mul_le_mul ha hb (abs_nonneg _) (by linarith)
      have : |c| * |d| ≤ 6 * u * 1 := mul_le_mul hc hd (abs_nonneg _) (by linarith)
      linarith
    exact ⟨t ud.2.1 wu.2.2 ud.2.2 wu.2.1, t ud.2.2 wu.1 ud.1 wu.2.2, t ud.1 wu.2.1 ud.2.1 wu.1⟩
  have d2 := dot_le (by linarith) w2 wv
  have near : |F32.val (Arith.dot (Arith.cross N ua) va) - detR n (vec ua) (vec va)| ≤ 100 * u := by
    have e : F32.val (Arith.dot (Arith.cross N ua) va) - detR n (vec ua) (vec va) =
        (F32.val (Arith.dot (Arith.cross N ua) va) - dotR (vec (Arith.cross N ua)) (vec va)) +
        dotR (subR (vec (Arith.cross N ua)) (crossR (vec N) (vec ua))) (vec va) +
        dotR (crossR (subR (vec N) n) (vec ua)) (vec va) := by
      simp only [detR, dotR, crossR, subR]; ring
    rw [e]
    refine (abs_add_three _ _ _).trans ?_
    have d1' : |dotR (subR (vec (Arith.cross N ua)) (crossR (vec N) (vec ua))) (vec va)| ≤ 3 * (7 * u * 1) := d1
    have d2' : |dotR (crossR (subR (vec N) n) (vec ua)) (vec va)| ≤ 3 * (12 * u * 1) := d2
    linarith
  have same : (0 < F32.val (Arith.dot (Arith.cross N ua) va) ↔ 0 < detR n (vec ua) (vec va)) ∧
      F32.val (Arith.dot (Arith.cross N ua) va) ≠ 0 := by
    have h100 : 100 * u < 1 / 100000 := by unfold u; norm_num
    rw [abs_le] at near
    rcases le_abs.1 hd with h | h
    · exact ⟨⟨fun _ => by linarith, fun _ => by linarith [near.1]⟩, fun h0 => by linarith [near.1]⟩
    · exact ⟨⟨fun _ => by linarith [near.2], fun _ => by linarith⟩, fun h0 => by linarith [near.2]⟩
  have hs := isG_neg (signum_exact fd same.2)
  refine ⟨hs.fin, hs.val.trans ?_⟩
  unfold signR
  by_cases hpos : 0 < detR n (vec ua) (vec va)
  · rw [if_pos hpos, if_pos (same.1.2 hpos)]; norm_num
  · rw [if_neg hpos, if_neg fun h => hpos (same.1.1 h)]; norm_num

/-- Turning around nearby directions by nearby angles. -/
theorem spun_near {N n a : V3 ℝ} {t s : ℝ} (hN : Within (6 * u) (subR N n)) (un : dotR n n = 1) (wN : Within (101 / 100) N)
    (ha : a = ⟨1, 0, 0⟩ ∨ a = ⟨0, 1, 0⟩) (ht : |t - s| ≤ 30 * u) : Close (180 * u) (spun N t a) (spun n s a) := by
  have up : (0 : ℝ) < u := u_pos
  have u1 : u ≤ 1 / 16000000 := by unfold u; norm_num
  have c0 := (Real.abs_cos_sub_cos_le t s).trans ht
  have s0 := (Real.abs_sin_sub_sin_le t s).trans ht
  have c1 := Real.abs_cos_le_one t
  have s1 := Real.abs_sin_le_one t
  have wn := unit_within un
  unfold spun
  generalize Real.cos t = C at *
  generalize Real.sin t = S at *
  generalize Real.cos s = c at *
  generalize Real.sin s = d at *
  obtain ⟨X, Y, Z⟩ := N
  obtain ⟨x, y, z⟩ := n
  obtain ⟨x1, y1, z1⟩ := wn
  obtain ⟨X1, Y1, Z1⟩ := wN
  obtain ⟨x2, y2, z2⟩ := hN
  simp only [subR] at *
  -- sine times coordinate
  have ps : ∀ {A b : ℝ}, |A - b| ≤ 6 * u → |b| ≤ 1 → |S * A - d * b| ≤ 36 * u := by
    intro A b h1 h2
    have e : S * A - d * b = S * (A - b) + (S - d) * b := by ring
    rw [e]
    refine (abs_add_le _ _).trans ?_
    rw [abs_mul, abs_mul]
    have : |S| * |A - b| ≤ 1 * (6 * u) := mul_le_mul s1 h1 (abs_nonneg _) (by norm_num)
    have : |S - d| * |b| ≤ 30 * u * 1 := mul_le_mul s0 h2 (abs_nonneg _) (by linarith)
    linarith
  -- one minus cosine times two coordinates
  have pc : ∀ {A a B b : ℝ}, |A - a| ≤ 6 * u → |a| ≤ 1 → |B - b| ≤ 6 * u → |b| ≤ 1 → |A| ≤ 101 / 100 →
      |(1 - C) * A * B - (1 - c) * a * b| ≤ 55 * u := by
    intro A a B b h1 h2 h3 h4 h5
    have e : (1 - C) * A * B - (1 - c) * a * b = (1 - C) * (A * (B - b) + (A - a) * b) + (c - C) * (a * b) := by ring
    have k1 : |1 - C| ≤ 2 := by
      rw [abs_le] at *; constructor <;> linarith [c1.1, c1.2]
    have k2 : |A * (B - b) + (A - a) * b| ≤ 121 / 10 * u := by
      refine (abs_add_le _ _).trans ?_
      rw [abs_mul, abs_mul]
      have : |A| * |B - b| ≤ 101 / 100 * (6 * u) := mul_le_mul h5 h3 (abs_nonneg _) (by norm_num)
      have : |A - a| * |b| ≤ 6 * u * 1 := mul_le_mul h1 h4 (abs_nonneg _) (by linarith)
      linarith
    have k3 : |a * b| ≤ 1 := by
      rw [abs_mul]; exact mul_le_one₀ h2 (abs_nonneg _) h4
    rw [e]
    refine (abs_add_le _ _).trans ?_
    rw [abs_mul, abs_mul (c - C), abs_sub_comm c C]
    have : |1 - C| * |A * (B - b) + (A - a) * b| ≤ 2 * (121 / 10 * u) := mul_le_mul k1 k2 (abs_nonneg _) (by norm_num)
    have : |C - c| * |a * b| ≤ 30 * u * 1 := mul_le_mul c0 k3 (abs_nonneg _) (by linarith)
    linarith
  have fin : ∀ {p q r p' q' r' : ℝ}, |p - p'| ≤ 30 * u → |q - q'| ≤ 36 * u → |r - r'| ≤ 55 * u →
      |(p + q + r) - (p' + q' + r')| ≤ 180 * u := by
    intro p q r p' q' r' h1 h2 h3
    rw [abs_le] at *
    constructor <;> linarith [h1.1, h1.2, h2.1, h2.2, h3.1, h3.2]
  have zz : |(0 : ℝ) - 0| ≤ 30 * u := by rw [sub_zero, abs_zero]; linarith
  have zs : |(0 : ℝ) - 0| ≤ 36 * u := by rw [sub_zero, abs_zero]; linarith
  have ng : ∀ {A b : ℝ}, |A - b| ≤ 6 * u → |(-A) - (-b)| ≤ 6 * u := fun h => by
    rw [← abs_neg]; convert h using 2; ring
  rcases ha with rfl | rfl
  · simp only [addR, smulR, crossR, dotR, mul_one, mul_zero, sub_zero, zero_sub, add_zero]
    exact ⟨by simpa using fin c0 zs (pc x2 x1 x2 x1 X1), fin zz (ps z2 z1) (pc x2 x1 y2 y1 X1),
      fin zz (ps (ng y2) (by rwa [abs_neg])) (pc x2 x1 z2 z1 X1)⟩
  · simp only [addR, smulR, crossR, dotR, mul_one, mul_zero, sub_zero, zero_sub, add_zero, zero_add]
    exact ⟨by simpa using fin zz (ps (ng z2) (by rwa [abs_neg])) (pc y2 y1 x2 x1 Y1), by simpa using fin c0 zs (pc y2 y1 y2 y1 Y1),
      by simpa using fin zz (ps x2 x1) (pc y2 y1 z2 z1 Y1)⟩

/-- What the tangent of a small face without texture axes is computed from. -/
theorem nearFace_first {g : Nat} (hg : g ≤ 20) {R : ℝ} (hR : 1 ≤ R) (hR' : R ≤ 64) {p : BrushPlane F32}
    (h : NearFace g R p) (hd : DecidedFace (triOf p).normal) :
    ∃ (V : V3 F32) (s : F32) (z : Int) (a : V3 ℝ), (z = 1 ∨ z = -1) ∧ IsG 0 s z ∧ AxisLike V ∧ vec V = a ∧
      (a = ⟨1, 0, 0⟩ ∨ a = ⟨0, 1, 0⟩) ∧ FirstAxis (triOf p).normal a z ∧
      standardTangent p = .ok (Arith.rotate p.normal (Arith.mul (Arith.neg (Arith.toRadians p.rotation)) s) V,
         Arith.mul s (Arith.signum p.scale.y)) := by
  obtain ⟨l1, l2, l3, l4, l5, l6⟩ := nearFace_sizes hg hR hR' h hd
  obtain ⟨fN, cN, un⟩ := normal_near hg hR hR' h
  obtain ⟨⟨d1, v1⟩, ⟨d2, v2⟩, d3, v3⟩ := dot_coords fN
  have up : (0 : ℝ) < u := u_pos
  have u1 : u ≤ 1 / 16000000 := by unfold u; norm_num
  have zv : F32.val (Arith.zero : F32) = 0 := Rounding.zero_val (F := F32)
  have ov : F32.val (Arith.one : F32) = 1 := Rounding.one_val (F := F32)
  have zf : isFin (Arith.zero : F32) := Rounding.zero_fin (F := F32)
  have of : isFin (Arith.one : F32) := Rounding.one_fin (F := F32)
  have z1 : |F32.val (Arith.zero : F32)| ≤ 1 := by rw [zv]; norm_num
  have o1 : |F32.val (Arith.one : F32)| ≤ 1 := by rw [ov]; norm_num
  have fw : AxisLike (forwardVector : V3 F32) ∧ vec (forwardVector : V3 F32) = ⟨1, 0, 0⟩ :=
    ⟨⟨⟨of, zf, zf⟩, o1, z1, z1⟩, by show (⟨F32.val _, F32.val _, F32.val _⟩ : V3 ℝ) = _; simp only [forwardVector, zv, ov]⟩
  have rt : AxisLike (rightVector : V3 F32) ∧ vec (rightVector : V3 F32) = ⟨0, 1, 0⟩ :=
    ⟨⟨⟨zf, of, zf⟩, z1, o1, z1⟩, by show (⟨F32.val _, F32.val _, F32.val _⟩ : V3 ℝ) = _; simp only [rightVector, zv, ov]⟩
  unfold standardTangent
  simp only [Bool.and_eq_true, l1, l2, l3, l4, l5, l6]
  generalize (triOf p).normal = n at *
  -- the greatest coordinate is not small, so its sign is right
  have sign : ∀ {c : F32} {m : ℝ}, isFin c → |F32.val c - m| ≤ 6 * u → 1 / 4 ≤ m * m →
      IsG 0 (Arith.signum c) (if 0 < m then 1 else -1) := by
    intro c m fc hc hm
    have hm' : 1 / 2 ≤ |m| := by
      by_contra hn
      have := sq_abs m
      nlinarith [abs_nonneg m]
    rw [abs_le] at hc
    rcases le_abs.1 hm' with k | k
    · have := signum_exact fc (by linarith [hc.1] : F32.val c > 0).ne'
      rwa [if_pos (by linarith [hc.1] : 0 < F32.val c), ← if_pos (c := 0 < m) (by linarith : 0 < m) (t := (1 : Int)) (e := -1)] at this
    · have := signum_exact fc (by linarith [hc.2] : F32.val c < 0).ne
      rwa [if_neg (by linarith [hc.2] : ¬ 0 < F32.val c), ← if_neg (c := 0 < m) (by linarith : ¬ 0 < m) (t := (1 : Int)) (e := -1)] at this
  have big : ∀ {x y z : ℝ}, x * x + y * y + z * z = 1 → |x| ≤ |z| → |y| ≤ |z| → 1 / 4 ≤ z * z := by
    intro x y z h1 h2 h3
    have a1 := mul_self_le_mul_self (abs_nonneg x) h2
    have a2 := mul_self_le_mul_self (abs_nonneg y) h3
    rw [abs_mul_abs_self, abs_mul_abs_self] at a1 a2
    linarith
  have un' : n.x * n.x + n.y * n.y + n.z * n.z = 1 := un
  have cx : |F32.val (Arith.dot p.normal forwardVector) - n.x| ≤ 6 * u := by rw [v3]; exact cN.1
  have cy : |F32.val (Arith.dot p.normal rightVector) - n.y| ≤ 6 * u := by rw [v2]; exact cN.2.1
  have cz : |F32.val (Arith.dot p.normal upVector) - n.z| ≤ 6 * u := by rw [v1]; exact cN.2.2
  have pm : ∀ m : ℝ, (if 0 < m then (1 : Int) else -1) = 1 ∨ (if 0 < m then (1 : Int) else -1) = -1 := fun m => by
    split_ifs <;> simp
  have cast : ∀ m : ℝ, (((if 0 < m then (1 : Int) else -1) : Int) : ℝ) = signR m := fun m => by
    unfold signR; split_ifs <;> simp
  by_cases h1 : |n.y| ≤ |n.z| ∧ |n.x| ≤ |n.z|
  · have hs := sign d1 cz (big (by linarith) h1.1 h1.2)
    refine ⟨forwardVector, _, _, _, pm n.z, hs, fw.1, fw.2, .inl rfl, .inl ⟨h1.1, h1.2, rfl, ?_⟩, ?_⟩
    · rw [cast]; congr 1; simp [detR, dotR, crossR]
    · rw [if_pos h1]
  by_cases h2 : |n.z| ≤ |n.y| ∧ |n.x| ≤ |n.y|
  · have hy := big (x := n.z) (y := n.x) (z := n.y) (by linarith) h2.1 h2.2
    have hs := isG_neg (sign d2 cy hy)
    have e : -(if 0 < n.y then (1 : Int) else -1) = if 0 < -n.y then 1 else -1 := by
      rcases lt_trichotomy n.y 0 with k | k | k
      · rw [if_neg (by linarith), if_pos (by linarith)]; rfl
      · rw [k] at hy; norm_num at hy
      · rw [if_pos k, if_neg (by linarith)]
    rw [e] at hs
    refine ⟨forwardVector, _, _, _, pm (-n.y), hs, fw.1, fw.2, .inl rfl,
      .inr (.inl ⟨lt_of_le_of_ne h2.1 fun e => h1 ⟨e.ge, by rw [e]; exact h2.2⟩, h2.2, rfl, ?_⟩), ?_⟩
    · rw [cast]; congr 1; simp [detR, dotR, crossR]
    · rw [if_neg h1, if_pos h2]; rfl
  have h3 : |n.z| < |n.x| ∧ |n.y| < |n.x| := by
    rcases le_total |n.x| |n.z| with a | a <;> rcases le_total |n.x| |n.y| with b | b <;>
      rcases le_total |n.y| |n.z| with c | c
    · exact absurd ⟨c, a⟩ h1
    · exact absurd ⟨c, b⟩ h2
    · exact absurd ⟨c, a⟩ h1
    · exact absurd ⟨b.trans a, a⟩ h1
    · exact absurd ⟨c, b.trans c⟩ h1
    · exact absurd ⟨c, b⟩ h2
    · exact ⟨lt_of_le_of_ne a fun e => h1 ⟨c, e.ge⟩, lt_of_le_of_ne b fun e => h2 ⟨a.trans e.ge, e.ge⟩⟩
    · exact ⟨lt_of_le_of_ne a fun e => h1 ⟨b.trans e.ge, e.ge⟩, lt_of_le_of_ne b fun e => h2 ⟨c, e.ge⟩⟩
  have hs := sign d3 cx (big (x := n.z) (y := n.y) (z := n.x) (by linarith) h3.1.le h3.2.le)
  refine ⟨rightVector, _, _, _, pm n.x, hs, rt.1, rt.2, .inr rfl, .inr (.inr ⟨h3.1, h3.2, rfl, ?_⟩), ?_⟩
  · rw [cast]; congr 1; simp [detR, dotR, crossR]
  · rw [if_neg h1, if_neg h2, if_pos ⟨h3.1.le, h3.2.le⟩]

/-- C122: on a small face without texture axes, the tangent is the first axis of the plane the face is projected onto, turned
around the outward direction by the rotation of the face, up to 1/50000; its sign is exact. -/
theorem C122_standard [AccurateSpin] (textures : TextureInfo) (entity : Entity F32) {planes : List (BrushPlane F32)}
    {plane : BrushPlane F32} {geo : PlaneGeo F32} (h : buildPlane textures entity planes plane = .ok geo) {g : Nat} (hg : g ≤ 20)
    {R : ℝ} (hR : 1 ≤ R) (hR' : R ≤ 64) (hp : NearFace g R plane) {uo vo : F32} (huv : plane.uv = .quake uo vo)
    (hd : DecidedFace (triOf plane).normal) (fr : isFin plane.rotation) (hr : |F32.val plane.rotation| ≤ 360)
    (fs : isFin plane.scale.y) (hs : F32.val plane.scale.y ≠ 0) :
    ∀ v ∈ geo.vertices, ∃ a s, FirstAxis (triOf plane).normal a s ∧ Finite3 v.tangent.1 ∧
      Close (1 / 50000) (vec v.tangent.1) (spun (triOf plane).normal (-(F32.val plane.rotation * Real.pi / 180) * s) a) ∧
      isFin v.tangent.2 ∧ F32.val v.tangent.2 = s * signR (F32.val plane.scale.y) := by
  intro v hv
  have e := built_tangent h hv
  unfold vertexTangent at e
  rw [huv] at e
  simp only [] at e
  obtain ⟨V, s, z, a, hz, gs, hV, eV, ha, hfirst, hst⟩ := nearFace_first hg hR hR' hp hd
  rw [hst] at e
  rw [← Outcome.ok.inj e]
  refine ⟨a, z, hfirst, ?_⟩
  obtain ⟨fN, cN, un⟩ := normal_near hg hR hR' hp
  obtain ⟨wN, lN⟩ := normal_within cN un
  obtain ⟨f1, b1, e1⟩ := radians_near fr hr
  have up : (0 : ℝ) < u := u_pos
  have u1 : u ≤ 1 / 16000000 := by unfold u; norm_num
  have tl : tiny ≤ u / 10 := by unfold tiny u; norm_num
  have L : (2 : ℝ) ^ 100 ≤ large := by unfold large; norm_num
  have fn : isFin (Arith.neg (Arith.toRadians plane.rotation)) := (neg_fin _).2 f1
  have vn : F32.val (Arith.neg (Arith.toRadians plane.rotation)) = -F32.val (Arith.toRadians plane.rotation) := neg_val _
  generalize (Arith.neg (Arith.toRadians plane.rotation) : F32) = A at *
  generalize F32.val (Arith.toRadians plane.rotation) = B at *
  have vs : F32.val s = z := by rw [gs.val]; norm_num
  have az : |(z : ℝ)| = 1 := by rcases hz with rfl | rfl <;> norm_num
  have bs : |B| ≤ 7 := by
    have h1 := abs_le_of e1
    have h2 : |F32.val plane.rotation * Real.pi / 180| ≤ 360 * 3.15 / 180 := by
      rw [abs_div, abs_mul, abs_of_pos Real.pi_pos, abs_of_pos (by norm_num : (0 : ℝ) < 180)]
      gcongr
      exact Real.pi_lt_d2.le
    linarith
  have bm : |F32.val A * F32.val s| = |B| := by rw [vn, vs, abs_mul, az, mul_one, abs_neg]
  have fm : isFin (Arith.mul A s) := mul_ok _ _ fn gs.fin (by show |F32.val A * F32.val s| ≤ _; rw [bm]; linarith)
  have gm : |F32.val (Arith.mul A s) - F32.val A * F32.val s| ≤ u * |F32.val A * F32.val s| + tiny := mul_val _ _ fm
  rw [bm] at gm
  have gm' : |F32.val (Arith.mul A s) - F32.val A * F32.val s| ≤ 8 * u := by nlinarith
  have b8 : |F32.val (Arith.mul A s)| ≤ 8 := by
    have := abs_le_of gm'
    rw [bm] at this
    linarith
  have near : |F32.val (Arith.mul A s) - -(F32.val plane.rotation * Real.pi / 180) * z| ≤ 30 * u := by
    have e2 : F32.val (Arith.mul A s) - -(F32.val plane.rotation * Real.pi / 180) * z =
        (F32.val (Arith.mul A s) - F32.val A * F32.val s) + -(B - F32.val plane.rotation * Real.pi / 180) * z := by
      rw [vn, vs]; ring
    rw [e2]
    refine (abs_add_le _ _).trans ?_
    rw [abs_mul, abs_neg, az, mul_one]
    linarith
  obtain ⟨t1, t2⟩ := AccurateSpin.turn3 plane.normal (Arith.mul A s) V fN lN fm b8 hV
  rw [eV] at t2
  have t3 := close_add t2 (spun_near cN un wN ha near)
  have l : 1 / 2 ^ 18 + 180 * u ≤ 1 / 50000 := by unfold u; norm_num
  refine ⟨t1, ⟨t3.1.trans l, t3.2.1.trans l, t3.2.2.trans l⟩, ?_⟩
  have hm := isG_mul gs (signum_exact fs hs) (by rcases hz with rfl | rfl <;> split_ifs <;> simp) (by norm_num) (by norm_num)
  refine ⟨hm.fin, hm.val.trans ?_⟩
  unfold signR
  split_ifs <;> push_cast <;> norm_num

/-! ### examples -/

/-- All faces of the bevelled block without texture axes and without rotation: the tangent is the first axis of the plane. -/
example [AccurateSpin] (textures : TextureInfo) (entity : Entity F32) (s : IntFace) (hs : s ∈ bevel) (geo : PlaneGeo F32)
    (h : buildPlane textures entity (bevel.map singleFace) (singleFace s) = .ok geo) :
    ∀ v ∈ geo.vertices, ∃ a z, FirstAxis (intTri s).normal a z ∧ Close (1 / 50000) (vec v.tangent.1) a ∧
      F32.val v.tangent.2 = z := by
  have zv : F32.val (Arith.zero : F32) = 0 := Rounding.zero_val (F := F32)
  have ov : F32.val (Arith.one : F32) = 1 := Rounding.one_val (F := F32)
  intro v hv
  obtain ⟨a, z, h1, -, h2, -, h3⟩ := C122_standard textures entity h (g := 0) (R := ((28 : Int) : ℝ)) (by norm_num) (by norm_num)
    (by norm_num) (bevel_near.2 _ (List.mem_map_of_mem hs)) (uo := Arith.zero) (vo := Arith.zero) rfl
    (by rw [bevel_tris.1 s hs]; exact decided_int (bevel_decided s hs).1 (bevel_decided s hs).2)
    trivial (by show |F32.val (Arith.zero : F32)| ≤ 360; rw [zv]; norm_num) trivial
    (by show F32.val (Arith.one : F32) ≠ 0; rw [ov]; norm_num) v hv
  rw [bevel_tris.1 s hs] at h1 h2
  have e1 : F32.val (singleFace s).rotation = 0 := zv
  have e2 : F32.val (singleFace s).scale.y = 1 := ov
  rw [e1, zero_mul, zero_div, neg_zero, zero_mul] at h2
  rw [e2] at h3
  refine ⟨a, z, h1, ?_, ?_⟩
  · have e : spun (intTri s).normal 0 a = a := by simp [spun, addR, smulR]
    rwa [e] at h2
  · rw [h3]; simp [signR]

/-- The slanted face of the block with texture axes. -/
example (textures : TextureInfo) (entity : Entity F32) (geo : PlaneGeo F32)
    (h : buildPlane textures entity (bevel.map laidFace) (laidFace (⟨16, 8, -16⟩, ⟨16, 8, 16⟩, ⟨8, 16, -16⟩)) = .ok geo) :
    ∀ v ∈ geo.vertices, v.tangent.1 = singlePoint ⟨1, 0, 0⟩ ∧ F32.val v.tangent.2 = -1 := by
  have hs : (⟨16, 8, -16⟩, ⟨16, 8, 16⟩, ⟨8, 16, -16⟩) ∈ bevel := by simp [bevel]
  have ax := single_axis (n := ⟨1, 0, 0⟩) (by decide)
  have ay := single_axis (n := ⟨0, 0, -1⟩) (by decide)
  have e : triOf (laidFace (⟨16, 8, -16⟩, ⟨16, 8, 16⟩, ⟨8, 16, -16⟩)) = intTri (⟨16, 8, -16⟩, ⟨16, 8, 16⟩, ⟨8, 16, -16⟩) :=
    (show triOf (laidFace _) = triOf (singleFace _) from rfl).trans (bevel_tris.1 _ hs)
  have hd : detR (intTri (⟨16, 8, -16⟩, ⟨16, 8, 16⟩, ⟨8, 16, -16⟩)).normal ⟨((1 : Int) : ℝ), ((0 : Int) : ℝ), ((0 : Int) : ℝ)⟩
      ⟨((0 : Int) : ℝ), ((0 : Int) : ℝ), ((-1 : Int) : ℝ)⟩ =
        1 / lenR (intTri (⟨16, 8, -16⟩, ⟨16, 8, 16⟩, ⟨8, 16, -16⟩)).raw * 256 := by
    have r : (intTri (⟨16, 8, -16⟩, ⟨16, 8, 16⟩, ⟨8, 16, -16⟩)).raw = ⟨256, 256, 0⟩ := by
      simp [intTri, Tri.raw, crossR, subR]; norm_num
    simp only [Tri.normal, r]
    simp [detR, dotR, crossR, smulR]
  have len : lenR (intTri (⟨16, 8, -16⟩, ⟨16, 8, 16⟩, ⟨8, 16, -16⟩)).raw * lenR (intTri (⟨16, 8, -16⟩, ⟨16, 8, 16⟩, ⟨8, 16, -16⟩)).raw =
      131072 := by
    rw [intTri_len]; norm_num [intDot, intRaw, Spec.turn]
  have l0 := len_nonneg (intTri (⟨16, 8, -16⟩, ⟨16, 8, 16⟩, ⟨8, 16, -16⟩)).raw
  have lb : 1 / 100000 ≤ 1 / lenR (intTri (⟨16, 8, -16⟩, ⟨16, 8, 16⟩, ⟨8, 16, -16⟩)).raw * 256 := by
    have l1 : lenR (intTri (⟨16, 8, -16⟩, ⟨16, 8, 16⟩, ⟨8, 16, -16⟩)).raw ≤ 512 := by nlinarith
    have l2 : 0 < lenR (intTri (⟨16, 8, -16⟩, ⟨16, 8, 16⟩, ⟨8, 16, -16⟩)).raw := by
      rcases l0.lt_or_eq with k | k
      · exact k
      · rw [← k] at len; norm_num at len
    rw [one_div_mul_eq_div, div_le_div_iff₀ (by norm_num) l2]
    linarith
  intro v hv
  obtain ⟨h1, -, h2⟩ := C122_valve textures entity h (g := 0) (R := ((28 : Int) : ℝ)) (by norm_num) (by norm_num) (by norm_num)
    (laid_near _ (List.mem_map_of_mem hs)) rfl ax.1 ay.1 (by rw [e, ax.2, ay.2, hd]; exact lb.trans (le_abs_self _)) v hv
  refine ⟨h1, h2.trans ?_⟩
  rw [e, ax.2, ay.2, hd]
  unfold signR
  rw [if_pos (by linarith)]

end

/-- A library that turns vectors around an axis as well as possible. -/
@[reducible] noncomputable def spinLib : F32Lib where
  recip := false
  parse _ := none
  disp _ := []
  cos a := a
  atan2 y _ := y
  rotate n a v := ⟨F32.ofReal (spun (vec n) (F32.val a) (vec v)).x, F32.ofReal (spun (vec n) (F32.val a) (vec v)).y,
    F32.ofReal (spun (vec n) (F32.val a) (vec v)).z⟩
  rotate2 _ v := v

/-- The requirement on turning around an axis can be met. -/
theorem spinLib_accurate : @AccurateSpin spinLib := by
  let _ := spinLib
  refine ⟨fun n a v _ hn _ _ hv => ?_⟩
  have L : (2 : ℝ) ^ 100 ≤ large := by unfold large; norm_num
  have key : ∀ {t : ℝ}, |t| ≤ 40 → isFin (F32.ofReal t) ∧ |F32.val (F32.ofReal t) - t| ≤ 1 / 2 ^ 18 := by
    intro t ht
    have hf : isFin (F32.ofReal t) := ofAbs_fin.2 (rep_of_le (abs_nonneg t) (by linarith))
    refine ⟨hf, ?_⟩
    rw [ofReal_val hf]
    refine (rnd_err (abs_nonneg t)).trans ?_
    have tl : tiny ≤ 1 / 2 ^ 100 := by unfold tiny; norm_num
    have ul : u = 1 / 2 ^ 24 := by unfold u; norm_num
    rw [ul]
    linarith
  have wn : |(vec n).x| ≤ 2 ∧ |(vec n).y| ≤ 2 ∧ |(vec n).z| ≤ 2 := by
    have h1 := (abs_le.1 hn).2
    simp only [dotR] at h1
    refine ⟨abs_le.2 ⟨?_, ?_⟩, abs_le.2 ⟨?_, ?_⟩, abs_le.2 ⟨?_, ?_⟩⟩ <;>
      nlinarith [mul_self_nonneg (vec n).x, mul_self_nonneg (vec n).y, mul_self_nonneg (vec n).z]
  have wv : |(vec v).x| ≤ 1 ∧ |(vec v).y| ≤ 1 ∧ |(vec v).z| ≤ 1 := hv.2
  have c1 := Real.abs_cos_le_one (F32.val a)
  have s1 := Real.abs_sin_le_one (F32.val a)
  have size : |(spun (vec n) (F32.val a) (vec v)).x| ≤ 40 ∧ |(spun (vec n) (F32.val a) (vec v)).y| ≤ 40 ∧
      |(spun (vec n) (F32.val a) (vec v)).z| ≤ 40 := by
    unfold spun
    generalize Real.cos (F32.val a) = c at *
    generalize Real.sin (F32.val a) = s at *
    generalize vec n = n at *
    generalize vec v = v at *
    have p : ∀ {x y A B : ℝ}, |x| ≤ A → |y| ≤ B → |x * y| ≤ A * B := fun hx hy => by
      rw [abs_mul]; exact mul_le_mul hx hy (abs_nonneg _) ((abs_nonneg _).trans hx)
    have q : ∀ {x y A B : ℝ}, |x| ≤ A → |y| ≤ B → |x + y| ≤ A + B := fun hx hy => (abs_add_le _ _).trans (add_le_add hx hy)
    have r : ∀ {x y A B : ℝ}, |x| ≤ A → |y| ≤ B → |x - y| ≤ A + B := fun hx hy => (abs_sub _ _).trans (add_le_add hx hy)
    have dd : |(1 - c) * dotR n v| ≤ 2 * (2 * 1 + 2 * 1 + 2 * 1) :=
      p ((r (by norm_num : |(1 : ℝ)| ≤ 1) c1).trans (by norm_num)) (q (q (p wn.1 wv.1) (p wn.2.1 wv.2.1)) (p wn.2.2 wv.2.2))
    simp only [addR, smulR, crossR]
    refine ⟨?_, ?_, ?_⟩
    · exact (q (q (p c1 wv.1) (p s1 (r (p wn.2.1 wv.2.2) (p wn.2.2 wv.2.1)))) (p dd wn.1)).trans (by norm_num)
    · exact (q (q (p c1 wv.2.1) (p s1 (r (p wn.2.2 wv.1) (p wn.1 wv.2.2)))) (p dd wn.2.1)).trans (by norm_num)
    · exact (q (q (p c1 wv.2.2) (p s1 (r (p wn.1 wv.2.1) (p wn.2.1 wv.1)))) (p dd wn.2.2)).trans (by norm_num)
  exact ⟨⟨(key size.1).1, (key size.2.1).1, (key size.2.2).1⟩, (key size.1).2, (key size.2.1).2, (key size.2.2).2⟩

end Quarch
