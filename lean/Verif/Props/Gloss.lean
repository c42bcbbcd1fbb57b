import Verif.Spec.Gloss
import Verif.Props.Texels
/-
C121: normals of small brushes in single precision.
-/
set_option linter.unusedSectionVars false
namespace Quarch
open Quarch.Spec Quarch.Spec.F32 Quarch.Geo

section
variable [F32Lib]
open Err

theorem dir_len {s : V3 ℝ} (h : 0 < lenR s) : dotR (directionR s) (directionR s) = 1 := by
  have e := len_sq s
  have : dotR (directionR s) (directionR s) = (1 / lenR s) * (1 / lenR s) * dotR s s := by
    simp only [directionR, dotR, smulR]; ring
  rw [this, ← e]; field_simp

/-- The computed normal of a small face. -/
theorem normal_near {g : Nat} (hg : g ≤ 20) {R : ℝ} (hR : 1 ≤ R) (hR' : R ≤ 64) {p : BrushPlane F32} (h : NearFace g R p) :
    Finite3 p.normal ∧ Close (6 * u) (vec p.normal) (triOf p).normal ∧ dotR (triOf p).normal (triOf p).normal = 1 := by
  have gd := nearFace_good hg hR hR' h
  have hw := unit_within gd.unit
  obtain ⟨r1, r2, r3⟩ := gd.near
  have up : (0 : ℝ) < u := u_pos
  have near : ∀ {N n : ℝ}, |N - n| ≤ 51 / 10 * u * |n| + slack → |n| ≤ 1 → |N - n| ≤ 6 * u := by
    intro N n h1 h2
    have := slack_le
    nlinarith
  exact ⟨gd.fin, ⟨near r1 hw.1, near r2 hw.2.1, near r3 hw.2.2⟩, gd.unit⟩

/-- Directions of nearby vectors. -/
theorem dir_close {w s : V3 ℝ} {e l : ℝ} (h : Close e w s) (hl : 0 < l) (hs : l ≤ lenR s) (he : 6 * e ≤ l) :
    Close (4 * e / l) (directionR w) (directionR s) ∧ l / 2 ≤ lenR w ∧ lenR w ≤ lenR s + l / 2 := by
  have hw : Within e (subR w s) := h
  have le := len_err hw
  have e0 : 0 ≤ e := (abs_nonneg _).trans h.1
  have le' := abs_le.1 le
  have lw : l / 2 ≤ lenR w := by linarith
  obtain ⟨c1, c2, c3⟩ := coord_len w
  have k : ∀ {t T : ℝ}, |t| ≤ lenR w → |t - T| ≤ e → |1 / lenR w * t - 1 / lenR s * T| ≤ 4 * e / l := by
    intro t T ht h1
    have := dir_err (by linarith) (by linarith : 0 < lenR s) ht h1 le
    rw [one_div_mul_eq_div, one_div_mul_eq_div]
    exact this.trans (div_le_div_of_nonneg_left (by linarith) hl hs)
  exact ⟨⟨k c1 h.1, k c2 h.2.1, k c3 h.2.2⟩, lw, by linarith⟩

/-- Normalizing a vector near `s`. -/
theorem normalize_close {w : V3 F32} {s : V3 ℝ} {e l : ℝ} (fw : Finite3 w) (h : Close e (vec w) s) (hl : 1 / 1000 ≤ l)
    (hs : l ≤ lenR s) (hs' : lenR s ≤ 1000) (he : 6 * e ≤ l) :
    Finite3 (Arith.normalize w) ∧ Close (6 * u) (vec (Arith.normalize w)) (directionR (vec w)) ∧
      Close (4 * e / l) (directionR (vec w)) (directionR s) := by
  obtain ⟨h1, h2, h3⟩ := dir_close h (by linarith) hs he
  have e0 : 0 ≤ e := (abs_nonneg _).trans h.1
  have n40 : (1 : ℝ) / 2 ^ 40 ≤ 1 / 2000 := by norm_num
  have p40 : (10000 : ℝ) ≤ 2 ^ 40 := by norm_num
  obtain ⟨f, r1, r2, r3⟩ := normalize_rel (w := w) fw (show (1 : ℝ) / 2 ^ 40 ≤ lenR (vec w) by linarith)
    (show lenR (vec w) ≤ (2 : ℝ) ^ 40 by linarith)
  have hw := unit_within (dir_len (s := vec w) (by linarith))
  have up : (0 : ℝ) < u := u_pos
  have near : ∀ {N n : ℝ}, |N - n| ≤ 51 / 10 * u * |n| + slack → |n| ≤ 1 → |N - n| ≤ 6 * u := by
    intro N n h1 h2
    have := slack_le
    nlinarith
  exact ⟨f, ⟨near r1 hw.1, near r2 hw.2.1, near r3 hw.2.2⟩, h1⟩

theorem close_add {e d : ℝ} {a b c : V3 ℝ} (h1 : Close e a b) (h2 : Close d b c) : Close (e + d) a c := by
  have k : ∀ {x y z : ℝ}, |x - y| ≤ e → |y - z| ≤ d → |x - z| ≤ e + d := fun h1 h2 =>
    (abs_sub_le _ _ _).trans (add_le_add h1 h2)
  exact ⟨k h1.1 h2.1, k h1.2.1 h2.2.1, k h1.2.2 h2.2.2⟩

theorem dir_dir {s : V3 ℝ} (h : 0 < lenR s) : directionR (directionR s) = directionR s := by
  have e : lenR (directionR s) = 1 := by
    unfold lenR; rw [dir_len h]; exact Real.sqrt_one
  rw [directionR.eq_1 (directionR s), e]
  simp [smulR]

/-- Normalizing twice. -/
theorem normalize_twice {w : V3 F32} {s : V3 ℝ} {e l : ℝ} (fw : Finite3 w) (h : Close e (vec w) s) (hl : 1 / 1000 ≤ l)
    (hs : l ≤ lenR s) (hs' : lenR s ≤ 1000) (he : 6 * e ≤ l) :
    Finite3 (Arith.normalize (Arith.normalize w)) ∧
      Close (30 * u + 4 * e / l) (vec (Arith.normalize (Arith.normalize w))) (directionR s) := by
  obtain ⟨f1, c1, c2⟩ := normalize_close fw h hl hs hs' he
  obtain ⟨-, lw, -⟩ := dir_close h (by linarith) hs he
  have l1 : lenR (directionR (vec w)) = 1 := by
    unfold lenR; rw [dir_len (by linarith)]; exact Real.sqrt_one
  obtain ⟨f2, d1, d2⟩ := normalize_close (l := 1) f1 c1 (by norm_num) (by rw [l1]) (by rw [l1]; norm_num)
    (by unfold u; norm_num)
  rw [dir_dir (by linarith)] at d2
  refine ⟨f2, ?_⟩
  have := close_add (close_add d1 d2) c2
  have e' : 6 * u + 4 * (6 * u) / 1 + 4 * e / l = 30 * u + 4 * e / l := by ring
  rwa [e'] at this

theorem add_close {a b : V3 F32} {s t : V3 ℝ} {d e : ℝ} (fa : Finite3 a) (fb : Finite3 b) (ha : Close d (vec a) s)
    (hb : Close e (vec b) t) (hd : d ≤ 1) (he : e ≤ 1) (ws : Within 2 s) (wt : Within 1 t) :
    Finite3 (V3.add a b) ∧ Close (d + e + 5 * u) (vec (V3.add a b)) (addR s t) := by
  have L : (2 : ℝ) ^ 100 ≤ large := by unfold large; norm_num
  have up : (0 : ℝ) < u := u_pos
  have k : ∀ {x y : F32} {X Y : ℝ}, isFin x → isFin y → |F32.val x - X| ≤ d → |F32.val y - Y| ≤ e → |X| ≤ 2 → |Y| ≤ 1 →
      isFin (Arith.add x y) ∧ |F32.val (Arith.add x y) - (X + Y)| ≤ d + e + 5 * u := by
    intro x y X Y fx fy h1 h2 h3 h4
    have b1 := abs_le_of h1
    have b2 := abs_le_of h2
    have b3 := abs_add_le (F32.val x) (F32.val y)
    have f : isFin (Arith.add x y) := add_ok _ _ fx fy (by linarith)
    have e1 : |F32.val (Arith.add x y) - (F32.val x + F32.val y)| ≤ u * |F32.val x + F32.val y| := add_val _ _ f
    refine ⟨f, ?_⟩
    have h5 : u * |F32.val x + F32.val y| ≤ u * 5 := mul_le_mul_of_nonneg_left (by linarith) up.le
    rw [abs_le] at *
    constructor <;> linarith [e1.1, e1.2, h1.1, h1.2, h2.1, h2.2]
  obtain ⟨x1, x2⟩ := k fa.1 fb.1 ha.1 hb.1 ws.1 wt.1
  obtain ⟨y1, y2⟩ := k fa.2.1 fb.2.1 ha.2.1 hb.2.1 ws.2.1 wt.2.1
  obtain ⟨z1, z2⟩ := k fa.2.2 fb.2.2 ha.2.2 hb.2.2 ws.2.2 wt.2.2
  exact ⟨⟨x1, y1, z1⟩, x2, y2, z2⟩

/-- The sum of the normals at a corner is not short. -/
theorem sum_long {n m r s : V3 ℝ} (hm : dotR m m = 1) (hr : dotR r r = 1) (i j : ℝ)
    (hs : s = addR (addR n (smulR i m)) (smulR j r)) : dotR (crossR n m) r ≤ lenR s := by
  have e : dotR (crossR n m) r = dotR s (crossR m r) := by
    rw [hs]; simp only [dotR, crossR, addR, smulR]; ring
  rw [e]
  have h1 := abs_dot_le s (crossR m r)
  have h2 := mag_le (a := s) (b := crossR m r) (len_nonneg s) (by norm_num : (0 : ℝ) ≤ 1) (len_sq s).ge (cross_unit hm hr)
  have := le_abs_self (dotR s (crossR m r))
  linarith

theorem within_sum {n m : V3 ℝ} (hn : dotR n n = 1) (hm : dotR m m = 1) : Within 2 (addR n m) := by
  have h1 := unit_within hn
  have h2 := unit_within hm
  have k : ∀ {a b : ℝ}, |a| ≤ 1 → |b| ≤ 1 → |a + b| ≤ 2 := fun {a b} ha hb => by
    have := abs_add_le a b
    linarith
  exact ⟨k h1.1 h2.1, k h1.2.1 h2.2.1, k h1.2.2 h2.2.2⟩

/-- The normalized sum of the normals of a face and of some of its neighbours at a corner. -/
theorem smooth_near {N M K : V3 F32} {n m k : V3 ℝ} (fN : Finite3 N) (fM : Finite3 M) (fK : Finite3 K)
    (hN : Close (6 * u) (vec N) n) (hM : Close (6 * u) (vec M) m) (hK : Close (6 * u) (vec K) k) (un : dotR n n = 1)
    (um : dotR m m = 1) (uk : dotR k k = 1) (hd : 1 / 64 ≤ dotR (crossR n m) k) (b1 b2 : Bool) {m' k' : V3 ℝ}
    (hm' : m' = if b1 then m else ⟨0, 0, 0⟩) (hk' : k' = if b2 then k else ⟨0, 0, 0⟩) {w w1 : V3 F32}
    (hw1 : w1 = if b1 then V3.add N M else N) (hw : w = if b2 then V3.add w1 K else w1) :
    Finite3 (Arith.normalize (Arith.normalize w)) ∧
      Close (1 / 2000) (vec (Arith.normalize (Arith.normalize w))) (directionR (addR (addR n m') k')) := by
  have up : (0 : ℝ) < u := u_pos
  have u1 : u ≤ 1 / 16000000 := by unfold u; norm_num
  have wn := unit_within un
  have wm := unit_within um
  have wk := unit_within uk
  have wider : ∀ {s : V3 ℝ}, Within 1 s → Within 2 s := fun h => ⟨by linarith [h.1], by linarith [h.2.1], by linarith [h.2.2]⟩
  have mono : ∀ {d e : ℝ} {a b : V3 ℝ}, Close d a b → d ≤ e → Close e a b := fun h hde =>
    ⟨h.1.trans hde, h.2.1.trans hde, h.2.2.trans hde⟩
  have zero : ∀ s : V3 ℝ, addR s ⟨0, 0, 0⟩ = s := fun s => by simp [addR]
  have s1 : Finite3 w1 ∧ Close (17 * u) (vec w1) (addR n m') ∧ Within 2 (addR n m') := by
    cases b1
    · simp only [Bool.false_eq_true, if_false] at hm' hw1
      rw [hm', hw1, zero]
      exact ⟨fN, mono hN (by linarith), wider wn⟩
    · simp only [if_true] at hm' hw1
      rw [hm', hw1]
      obtain ⟨f, c⟩ := add_close fN fM hN hM (by linarith) (by linarith) (wider wn) wm
      exact ⟨f, mono c (by linarith), within_sum un um⟩
  obtain ⟨f1, c1, w1'⟩ := s1
  have s2 : Finite3 w ∧ Close (28 * u) (vec w) (addR (addR n m') k') ∧ Within 3 (addR (addR n m') k') := by
    cases b2
    · simp only [Bool.false_eq_true, if_false] at hk' hw
      rw [hk', hw, zero]
      exact ⟨f1, mono c1 (by linarith), by linarith [w1'.1], by linarith [w1'.2.1], by linarith [w1'.2.2]⟩
    · simp only [if_true] at hk' hw
      rw [hk', hw]
      obtain ⟨f, c⟩ := add_close f1 fK c1 hK (by linarith) (by linarith) w1' wk
      have t : ∀ {a b : ℝ}, |a| ≤ 2 → |b| ≤ 1 → |a + b| ≤ 3 := fun {a b} ha hb => by
        have := abs_add_le a b
        linarith
      exact ⟨f, mono c (by linarith), t w1'.1 wk.1, t w1'.2.1 wk.2.1, t w1'.2.2 wk.2.2⟩
  obtain ⟨f2, c2, w2⟩ := s2
  have long : 1 / 64 ≤ lenR (addR (addR n m') k') := by
    refine hd.trans (sum_long um uk (if b1 then 1 else 0) (if b2 then 1 else 0) ?_)
    rw [hm', hk']
    cases b1 <;> cases b2 <;> simp [addR, smulR]
  have short : lenR (addR (addR n m') k') ≤ 1000 := by
    have h5 := dot_le (by norm_num) w2 w2
    rw [← len_sq, abs_mul_self] at h5
    by_contra hcn
    nlinarith
  obtain ⟨f, c⟩ := normalize_twice (l := 1 / 64) f2 c2 (by norm_num) long short (by unfold u; norm_num)
  refine ⟨f, mono c ?_⟩
  unfold u; norm_num

variable [Platform]

/-- C121: without `_phong` = `1` the normals of a small face are its outward direction up to a millionth. -/
theorem C121_flat (textures : TextureInfo) (entity : Entity F32) {planes : List (BrushPlane F32)} {plane : BrushPlane F32}
    {geo : PlaneGeo F32} (h : buildPlane textures entity planes plane = .ok geo) {g : Nat} (hg : g ≤ 20) {R : ℝ} (hR : 1 ≤ R)
    (hR' : R ≤ 64) (hp : NearFace g R plane) (hphong : entity.properties (str! "_phong") ≠ some (str! "1")) :
    ∀ v ∈ geo.vertices, Finite3 v.normal ∧ Close (1 / 1000000) (vec v.normal) (triOf plane).normal := by
  intro v hv
  obtain ⟨w, hw, rfl⟩ := buildPlane_vertex h hv
  have hp' : isPhong entity = false := by
    unfold isPhong
    exact beq_false_of_ne hphong
  obtain ⟨p1, _, p2, _, hm, hn⟩ := hw.src
  unfold vertexNormal at hn
  rw [hp'] at hn ⊢
  simp only [finishNormal, Bool.false_eq_true, if_false] at hn ⊢
  rw [hn]
  obtain ⟨f, c, -⟩ := normal_near hg hR hR' hp
  have l : 6 * u ≤ 1 / 1000000 := by unfold u; norm_num
  exact ⟨f, c.1.trans l, c.2.1.trans l, c.2.2.trans l⟩

/-- C121: with `_phong` = `1` and no angle, the normal at every corner of a face without doubtful corners is the direction
of the sum of the outward unit normals of the three faces meeting there, up to 1/2000. -/
theorem C121_smooth (textures : TextureInfo) (entity : Entity F32) {planes : List (BrushPlane F32)} {plane : BrushPlane F32}
    {geo : PlaneGeo F32} (h : buildPlane textures entity planes plane = .ok geo) {g : Nat} (hg : g ≤ 20) {R : ℝ} (hR : 1 ≤ R)
    (hR' : R ≤ 64) (hp : ∀ p ∈ planes, NearFace g R p) (hpl : plane ∈ planes) (hn : planes.length ≤ 1024)
    (hc : ClearFace R (planes.map triOf) (triOf plane)) (hphong : entity.properties (str! "_phong") = some (str! "1"))
    (hangle : (entity.properties (str! "_phong_angle")).bind F32Lib.parse = none) :
    ∀ v ∈ geo.vertices, ∃ x, TrueCorner R (planes.map triOf) (triOf plane) x ∧ Close (1 / 2000) (vec v.pos) x ∧
      ∃ p1 ∈ planes, ∃ p2 ∈ planes, (triOf p1).above x = 0 ∧ (triOf p2).above x = 0 ∧
        R ≤ 64 * Tri.spread (triOf plane) (triOf p1) (triOf p2) ∧ Finite3 v.normal ∧ Close (1 / 2000) (vec v.normal)
          (directionR (addR (addR (triOf plane).normal (triOf p1).normal) (triOf p2).normal)) := by
  intro v hv
  obtain ⟨w, hw, hvw, fw, x, hx, -, -, hvx, p1, h1, p2, h2, hnor, a1, a2, hsp⟩ :=
    clear_vertex textures entity h hg hR hR' hp hpl hn hc hv
  have hp' : isPhong entity = true := by
    unfold isPhong
    exact beq_iff_eq.2 hphong
  refine ⟨x, hx, hvx, p1, h1, p2, h2, a1, a2, hsp, ?_⟩
  have e : v.normal = Arith.normalize (Arith.normalize (V3.add (V3.add plane.normal p1.normal) p2.normal)) := by
    rw [hvw, hp']
    simp only [finishNormal, if_true]
    rw [hnor]
    unfold vertexNormal
    rw [hp']
    simp only [if_true]
    unfold phongNormal
    rw [show (entity.getProperty (str! "_phong_angle")).bind Arith.parse = none from hangle]
  rw [e]
  obtain ⟨f0, c0, u0⟩ := normal_near hg hR hR' (hp plane hpl)
  obtain ⟨f1, c1, u1⟩ := normal_near hg hR hR' (hp p1 h1)
  obtain ⟨f2, c2, u2⟩ := normal_near hg hR hR' (hp p2 h2)
  have hd : 1 / 64 ≤ Tri.spread (triOf plane) (triOf p1) (triOf p2) := by linarith
  unfold Tri.spread at hd
  exact smooth_near f0 f1 f2 c0 c1 c2 u0 u1 u2 hd true true rfl rfl rfl rfl

/-- Whether the angle between two faces is small enough, as computed. -/
theorem angle_near [AccurateCos] {a : F32} (fa : isFin a) (ha : |F32.val a| ≤ 360) {N M : V3 F32} {n m : V3 ℝ} (fN : Finite3 N)
    (fM : Finite3 M) (hN : Close (6 * u) (vec N) n) (hM : Close (6 * u) (vec M) m) (un : dotR n n = 1) (um : dotR m m = 1)
    (hd : DecidedAngle (wideCos (F32.val a)) n m) :
    Arith.lt (Arith.cos (Arith.mul (Arith.add a Arith.hundredth) Arith.oneDegree)) (Arith.dot N M) = true ↔
      wideCos (F32.val a) < dotR n m := by
  have up : (0 : ℝ) < u := u_pos
  have u1 : u ≤ 1 / 16000000 := by unfold u; norm_num
  have L : (2 : ℝ) ^ 100 ≤ large := by unfold large; norm_num
  have tl : tiny ≤ 1 / 2 ^ 40 * u := by unfold tiny u; norm_num
  have tp : (0 : ℝ) < tiny := tiny_pos
  -- the threshold
  obtain ⟨fh, eh⟩ := lit (x := 1 / 100) (le_trans (by norm_num) (by norm_num : (1 : ℝ) / 128 ≤ 1 / 100)) (by linarith)
  obtain ⟨fo, eo⟩ := lit (x := 174533 / 10000000) (le_trans (by norm_num) (by norm_num : (1 : ℝ) / 128 ≤ 174533 / 10000000))
    (by linarith)
  have bh : |F32.val (ofReal (1 / 100))| ≤ 1 := by have := abs_le_of eh; rw [abs_of_pos (by norm_num : (0 : ℝ) < 1 / 100)] at this; linarith
  have bo : |F32.val (ofReal (174533 / 10000000))| ≤ 176 / 10000 := by
    have := abs_le_of eo; rw [abs_of_pos (by norm_num : (0 : ℝ) < 174533 / 10000000)] at this; linarith
  have e1 : (Arith.hundredth : F32) = ofReal (1 / 100) := rfl
  have e2 : (Arith.oneDegree : F32) = ofReal (174533 / 10000000) := rfl
  rw [e1, e2]
  generalize hH : ofReal (1 / 100) = H at *
  generalize hO : ofReal (174533 / 10000000) = O at *
  have f1 : isFin (Arith.add a H) := add_ok _ _ fa fh (by have := abs_add_le (F32.val a) (F32.val H); linarith)
  have g1 : |F32.val (Arith.add a H) - (F32.val a + F32.val H)| ≤ u * |F32.val a + F32.val H| := add_val _ _ f1
  have g1' : |F32.val (Arith.add a H) - (F32.val a + 1 / 100)| ≤ 362 * u := by
    have h1 := abs_add_le (F32.val a) (F32.val H)
    have h2 : u * |F32.val a + F32.val H| ≤ u * 361 := mul_le_mul_of_nonneg_left (by linarith) up.le
    rw [abs_le] at *
    constructor <;> linarith [g1.1, g1.2, eh.1, eh.2]
  have b1 : |F32.val (Arith.add a H)| ≤ 361 := by
    have := abs_le_of g1'
    have := abs_add_le (F32.val a) (1 / 100)
    rw [abs_of_pos (by norm_num : (0 : ℝ) < 1 / 100)] at this
    linarith
  generalize (Arith.add a H : F32) = S at *
  have bm : |F32.val S * F32.val O| ≤ 6.4 := by
    rw [abs_mul]
    calc |F32.val S| * |F32.val O| ≤ 361 * (176 / 10000) := mul_le_mul b1 bo (abs_nonneg _) (by norm_num)
      _ ≤ 6.4 := by norm_num
  have f2 : isFin (Arith.mul S O) := mul_ok _ _ f1 fo (by linarith)
  have g2 : |F32.val (Arith.mul S O) - F32.val S * F32.val O| ≤ u * |F32.val S * F32.val O| + tiny := mul_val _ _ f2
  have g2' : |F32.val (Arith.mul S O) - (F32.val a + 1 / 100) * (174533 / 10000000)| ≤ 22 * u := by
    have h1 : F32.val (Arith.mul S O) - (F32.val a + 1 / 100) * (174533 / 10000000) =
      (F32.val (Arith.mul S O) - F32.val S * F32.val O) + F32.val S * (F32.val O - 174533 / 10000000) +
        (F32.val S - (F32.val a + 1 / 100)) * (174533 / 10000000) := by ring
    rw [h1]
    refine (abs_add_three _ _ _).trans ?_
    have h2 : u * |F32.val S * F32.val O| ≤ u * 6.4 := mul_le_mul_of_nonneg_left bm up.le
    have h3 : |F32.val S * (F32.val O - 174533 / 10000000)| ≤ 361 * (u * (174533 / 10000000)) := by
      rw [abs_mul]; exact mul_le_mul b1 eo (abs_nonneg _) (by norm_num)
    have h4 : |(F32.val S - (F32.val a + 1 / 100)) * (174533 / 10000000)| ≤ 362 * u * (174533 / 10000000) := by
      rw [abs_mul, abs_of_pos (by norm_num : (0 : ℝ) < 174533 / 10000000)]
      exact mul_le_mul_of_nonneg_right g1' (by norm_num)
    linarith
  have b2 : |F32.val (Arith.mul S O)| ≤ 8 := by
    have := abs_le_of g2
    have h2 : u * |F32.val S * F32.val O| ≤ u * 6.4 := mul_le_mul_of_nonneg_left bm up.le
    linarith
  generalize (Arith.mul S O : F32) = T at *
  obtain ⟨f3, g3⟩ := AccurateCos.accurate T f2 b2
  have g3' : |F32.val (F32Lib.cos T) - wideCos (F32.val a)| ≤ 38 * u := by
    have h1 := (Real.abs_cos_sub_cos_le (F32.val T) ((F32.val a + 1 / 100) * (174533 / 10000000))).trans g2'
    have h2 : (1 : ℝ) / 2 ^ 20 = 16 * u := by unfold u; norm_num
    unfold wideCos
    rw [h2] at g3
    have := abs_sub_le (F32.val (F32Lib.cos T)) (Real.cos (F32.val T)) (Real.cos ((F32.val a + 1 / 100) * (174533 / 10000000)))
    linarith
  -- the cosine between the normals
  have wn := unit_within un
  have wm := unit_within um
  have k : ∀ {s t : ℝ}, |s - t| ≤ 6 * u → |t| ≤ 1 → |s| ≤ 101 / 100 := fun h1 h2 => by
    have := abs_le_of h1; linarith
  have wN : Within (101 / 100) (valV N) := ⟨k hN.1 wn.1, k hN.2.1 wn.2.1, k hN.2.2 wn.2.2⟩
  have wM : Within (101 / 100) (valV M) := ⟨k hM.1 wm.1, k hM.2.1 wm.2.1, k hM.2.2 wm.2.2⟩
  have fd : isFin (Arith.dot N M) := dot_ok (F := F32) (a := N) (b := M) fN fM (by norm_num) wN wM (by linarith)
  have gd : |F32.val (Arith.dot N M) - dotR (vec N) (vec M)| ≤ 12 * u * (101 / 100 * (101 / 100)) + 4 * tiny :=
    dot_err' (F := F32) fd (by norm_num) wN wM
  have gd' : |dotR (vec N) (vec M) - dotR n m| ≤ 3 * (12 * u + 1 / 10 * u) := by
    have h1 : dotR (vec N) (vec M) - dotR n m = ((vec N).x * (vec M).x - n.x * m.x) + ((vec N).y * (vec M).y - n.y * m.y) +
      ((vec N).z * (vec M).z - n.z * m.z) := by simp only [dotR]; ring
    have q : ∀ {s t S T : ℝ}, |s - S| ≤ 6 * u → |t - T| ≤ 6 * u → |S| ≤ 1 → |T| ≤ 1 → |s * t - S * T| ≤ 12 * u + 1 / 10 * u := by
      intro s t S T h1 h2 h3 h4
      have e : s * t - S * T = (s - S) * t + S * (t - T) := by ring
      have h5 := k h2 h4
      rw [e]
      refine (abs_add_le _ _).trans ?_
      rw [abs_mul, abs_mul]
      have i1 : |s - S| * |t| ≤ 6 * u * (101 / 100) := mul_le_mul h1 h5 (abs_nonneg _) (by positivity)
      have i2 : |S| * |t - T| ≤ 1 * (6 * u) := mul_le_mul h3 h2 (abs_nonneg _) (by norm_num)
      linarith
    rw [h1]
    refine (abs_add_three _ _ _).trans ?_
    have := q hN.1 hM.1 wn.1 wm.1
    have := q hN.2.1 hM.2.1 wn.2.1 wm.2.1
    have := q hN.2.2 hM.2.2 wn.2.2 wm.2.2
    linarith
  refine (rel_fin _ _ _ f3 fd).trans (EReal.coe_lt_coe_iff.trans ?_)
  unfold DecidedAngle at hd
  rw [abs_le] at g3' gd gd'
  generalize wideCos (F32.val a) = c at *
  generalize dotR n m = d at *
  generalize F32.val (F32Lib.cos T) = c' at *
  generalize F32.val (Arith.dot N M) = d' at *
  unfold u tiny at *
  rcases le_abs'.1 hd with h | h
  · exact ⟨fun _ => by linarith, fun _ => by linarith [g3'.1, g3'.2, gd.1, gd.2, gd'.1, gd'.2]⟩
  · exact ⟨fun _ => by linarith [g3'.1, g3'.2, gd.1, gd.2, gd'.1, gd'.2], fun _ => by linarith⟩

/-- C121: with `_phong` = `1` and an angle, only neighbours with a smaller angle contribute. -/
theorem C121_angle [AccurateCos] (textures : TextureInfo) (entity : Entity F32) {planes : List (BrushPlane F32)}
    {plane : BrushPlane F32} {geo : PlaneGeo F32} (h : buildPlane textures entity planes plane = .ok geo) {g : Nat} (hg : g ≤ 20)
    {R : ℝ} (hR : 1 ≤ R) (hR' : R ≤ 64) (hp : ∀ p ∈ planes, NearFace g R p) (hpl : plane ∈ planes) (hn : planes.length ≤ 1024)
    (hc : ClearFace R (planes.map triOf) (triOf plane)) (hphong : entity.properties (str! "_phong") = some (str! "1"))
    {a : F32} (hangle : (entity.properties (str! "_phong_angle")).bind F32Lib.parse = some a) (fa : isFin a)
    (ha : |F32.val a| ≤ 360) (hdec : ∀ p ∈ planes, DecidedAngle (wideCos (F32.val a)) (triOf plane).normal (triOf p).normal) :
    ∀ v ∈ geo.vertices, ∃ x, TrueCorner R (planes.map triOf) (triOf plane) x ∧ Close (1 / 2000) (vec v.pos) x ∧
      ∃ p1 ∈ planes, ∃ p2 ∈ planes, (triOf p1).above x = 0 ∧ (triOf p2).above x = 0 ∧
        R ≤ 64 * Tri.spread (triOf plane) (triOf p1) (triOf p2) ∧ Finite3 v.normal ∧ Close (1 / 2000) (vec v.normal)
          (directionR (addR (addR (triOf plane).normal (share (wideCos (F32.val a)) (triOf plane).normal (triOf p1).normal))
            (share (wideCos (F32.val a)) (triOf plane).normal (triOf p2).normal))) := by
  intro v hv
  obtain ⟨w, hw, hvw, fw, x, hx, -, -, hvx, p1, h1, p2, h2, hnor, a1, a2, hsp⟩ :=
    clear_vertex textures entity h hg hR hR' hp hpl hn hc hv
  have hp' : isPhong entity = true := by
    unfold isPhong
    exact beq_iff_eq.2 hphong
  refine ⟨x, hx, hvx, p1, h1, p2, h2, a1, a2, hsp, ?_⟩
  obtain ⟨f0, c0, u0⟩ := normal_near hg hR hR' (hp plane hpl)
  obtain ⟨f1, c1, u1⟩ := normal_near hg hR hR' (hp p1 h1)
  obtain ⟨f2, c2, u2⟩ := normal_near hg hR hR' (hp p2 h2)
  have hd : 1 / 64 ≤ Tri.spread (triOf plane) (triOf p1) (triOf p2) := by linarith
  unfold Tri.spread at hd
  have k1 := angle_near fa ha f0 f1 c0 c1 u0 u1 (hdec p1 h1)
  have k2 := angle_near fa ha f0 f2 c0 c2 u0 u2 (hdec p2 h2)
  have e : v.normal = Arith.normalize (phongNormal plane p1 p2 (entity.getProperty (str! "_phong_angle"))) := by
    rw [hvw, hp']
    simp only [finishNormal, if_true]
    rw [hnor]
    unfold vertexNormal
    rw [hp']
    simp only [if_true]
  rw [e]
  unfold phongNormal
  rw [show (entity.getProperty (str! "_phong_angle")).bind Arith.parse = some a from hangle]
  simp only []
  refine smooth_near f0 f1 f2 c0 c1 c2 u0 u1 u2 hd _ _ ?_ ?_ rfl rfl
  · unfold share
    exact if_congr k1.symm rfl rfl
  · unfold share
    exact if_congr k2.symm rfl rfl

/-- C121: where only three faces meet, the smooth normal is the same on all of them, up to rounding. -/
theorem C121_shared (textures : TextureInfo) (entity : Entity F32) {planes : List (BrushPlane F32)} {plane : BrushPlane F32}
    {geo : PlaneGeo F32} (h : buildPlane textures entity planes plane = .ok geo) {g : Nat} (hg : g ≤ 20) {R : ℝ} (hR : 1 ≤ R)
    (hR' : R ≤ 64) (hp : ∀ p ∈ planes, NearFace g R p) (hpl : plane ∈ planes) (hn : planes.length ≤ 1024)
    (hc : ClearFace R (planes.map triOf) (triOf plane)) (hphong : entity.properties (str! "_phong") = some (str! "1"))
    (hangle : (entity.properties (str! "_phong_angle")).bind F32Lib.parse = none) :
    ∀ v ∈ geo.vertices, ∃ x, TrueCorner R (planes.map triOf) (triOf plane) x ∧ Close (1 / 2000) (vec v.pos) x ∧
      ∀ a b c : Tri, (∀ t ∈ planes.map triOf, t.above x = 0 → t = a ∨ t = b ∨ t = c) →
        Close (1 / 2000) (vec v.normal) (directionR (addR (addR a.normal b.normal) c.normal)) := by
  intro v hv
  obtain ⟨x, hx, hvx, p1, h1, p2, h2, a1, a2, hsp, -, hcl⟩ :=
    C121_smooth textures entity h hg hR hR' hp hpl hn hc hphong hangle v hv
  refine ⟨x, hx, hvx, fun a b c hall => ?_⟩
  obtain ⟨-, -, -, -, x0, -⟩ := hx.meet
  have k0 := hall _ (List.mem_map_of_mem hpl) x0
  have k1 := hall _ (List.mem_map_of_mem h1) a1
  have k2 := hall _ (List.mem_map_of_mem h2) a2
  have hpos : 0 < Tri.spread (triOf plane) (triOf p1) (triOf p2) := by linarith
  generalize triOf plane = t0 at *
  generalize triOf p1 = t1 at *
  generalize triOf p2 = t2 at *
  have d1 : t0 ≠ t1 := by
    rintro rfl
    have : Tri.spread t0 t0 t2 = 0 := by simp only [Tri.spread, dotR, crossR]; ring
    linarith
  have d2 : t0 ≠ t2 := by
    rintro rfl
    have : Tri.spread t0 t1 t0 = 0 := by simp only [Tri.spread, dotR, crossR]; ring
    linarith
  have d3 : t1 ≠ t2 := by
    rintro rfl
    have : Tri.spread t0 t1 t1 = 0 := by simp only [Tri.spread, dotR, crossR]; ring
    linarith
  have e : addR (addR a.normal b.normal) c.normal = addR (addR t0.normal t1.normal) t2.normal := by
    rcases k0 with rfl | rfl | rfl <;> rcases k1 with rfl | rfl | rfl <;> rcases k2 with rfl | rfl | rfl <;>
      first
      | exact absurd rfl d1
      | exact absurd rfl d2
      | exact absurd rfl d3
      | rfl
      | (simp only [addR]; congr 1 <;> ring)
  rw [e]
  exact hcl

end

/-! ### examples -/

section
open Err

/-- A library that reads one angle, and whose cosine is as good as possible. -/
@[reducible] noncomputable def cosLib : F32Lib where
  recip := false
  parse s := if s = str! "60" then some (F32.ofReal ((60 : Int) : ℝ)) else none
  disp _ := []
  cos a := F32.ofReal (Real.cos (F32.val a))
  atan2 y _ := y
  rotate _ _ v := v
  rotate2 _ v := v

/-- The requirement on the cosine can be met. -/
theorem cosLib_accurate : @AccurateCos cosLib := by
  let _ := cosLib
  refine ⟨fun a _ _ => ?_⟩
  have c1 := Real.abs_cos_le_one (F32.val a)
  have L : (2 : ℝ) ^ 100 ≤ large := by unfold large; norm_num
  have hf : isFin (F32.ofReal (Real.cos (F32.val a))) := ofAbs_fin.2 (rep_of_le (abs_nonneg _) (by linarith))
  refine ⟨hf, ?_⟩
  show |F32.val (F32.ofReal (Real.cos (F32.val a))) - Real.cos (F32.val a)| ≤ 1 / 2 ^ 20
  rw [ofReal_val hf]
  refine (rnd_err (abs_nonneg _)).trans ?_
  have tl : tiny ≤ 1 / 2 ^ 100 := by unfold tiny; norm_num
  have ul : u = 1 / 2 ^ 24 := by unfold u; norm_num
  rw [ul]
  linarith

/-- The cosine of the angle between two faces with points in whole units. -/
theorem int_cos (s t : IntFace) (hs : 0 < intDot (intRaw s) (intRaw s)) (ht : 0 < intDot (intRaw t) (intRaw t)) :
    (intDot (intRaw s) (intRaw t) ≤ 0 → dotR (intTri s).normal (intTri t).normal ≤ 0) ∧
    (0 ≤ intDot (intRaw s) (intRaw t) → 36 * (intDot (intRaw s) (intRaw s) * intDot (intRaw t) (intRaw t)) ≤
      100 * (intDot (intRaw s) (intRaw t) * intDot (intRaw s) (intRaw t)) → 6 / 10 ≤ dotR (intTri s).normal (intTri t).normal) := by
  have e : dotR (intTri s).normal (intTri t).normal =
      ((intDot (intRaw s) (intRaw t) : Int) : ℝ) * (1 / lenR (intTri s).raw * (1 / lenR (intTri t).raw)) := by
    have : ((intDot (intRaw s) (intRaw t) : Int) : ℝ) = dotR (intTri s).raw (intTri t).raw := by
      rw [intTri_raw, intTri_raw]; simp [dotR, intDot]
    rw [this]
    simp only [Tri.normal, smulR, dotR]
    ring
  have ls : lenR (intTri s).raw * lenR (intTri s).raw = ((intDot (intRaw s) (intRaw s) : Int) : ℝ) := intTri_len s
  have lt : lenR (intTri t).raw * lenR (intTri t).raw = ((intDot (intRaw t) (intRaw t) : Int) : ℝ) := intTri_len t
  have hs' : (0 : ℝ) < ((intDot (intRaw s) (intRaw s) : Int) : ℝ) := by exact_mod_cast hs
  have ht' : (0 : ℝ) < ((intDot (intRaw t) (intRaw t) : Int) : ℝ) := by exact_mod_cast ht
  have ps : 0 < lenR (intTri s).raw := by
    rcases (len_nonneg (intTri s).raw).lt_or_eq with h | h
    · exact h
    · rw [← h] at ls; linarith
  have pt : 0 < lenR (intTri t).raw := by
    rcases (len_nonneg (intTri t).raw).lt_or_eq with h | h
    · exact h
    · rw [← h] at lt; linarith
  rw [e]
  generalize lenR (intTri s).raw = a at *
  generalize lenR (intTri t).raw = b at *
  constructor
  · intro h
    have : ((intDot (intRaw s) (intRaw t) : Int) : ℝ) ≤ 0 := by exact_mod_cast h
    exact mul_nonpos_of_nonpos_of_nonneg this (by positivity)
  · intro h0 h
    have h' : 36 * (((intDot (intRaw s) (intRaw s) : Int) : ℝ) * ((intDot (intRaw t) (intRaw t) : Int) : ℝ)) ≤
      100 * (((intDot (intRaw s) (intRaw t) : Int) : ℝ) * ((intDot (intRaw s) (intRaw t) : Int) : ℝ)) := by exact_mod_cast h
    have h0' : (0 : ℝ) ≤ ((intDot (intRaw s) (intRaw t) : Int) : ℝ) := by exact_mod_cast h0
    rw [← ls, ← lt] at h'
    generalize ((intDot (intRaw s) (intRaw t) : Int) : ℝ) = d at *
    have hab : 6 * (a * b) ≤ 10 * d := by
      refine abs_le_of_sq_le_sq' (a := 6 * (a * b)) (b := 10 * d) (by nlinarith) (by linarith) |>.2
    rw [show d * (1 / a * (1 / b)) = d / (a * b) by field_simp]
    rw [div_le_div_iff₀ (by norm_num) (by positivity)]
    linarith

theorem bevel_angles : ∀ s ∈ bevel, ∀ t ∈ bevel, 0 < intDot (intRaw s) (intRaw s) ∧ (intDot (intRaw s) (intRaw t) ≤ 0 ∨
    0 ≤ intDot (intRaw s) (intRaw t) ∧ 36 * (intDot (intRaw s) (intRaw s) * intDot (intRaw t) (intRaw t)) ≤
      100 * (intDot (intRaw s) (intRaw t) * intDot (intRaw s) (intRaw t))) := by decide

/-- Sixty degrees. -/
theorem wide_sixty : |wideCos 60 - 1 / 2| ≤ 1 / 100 := by
  rw [← Real.cos_pi_div_three]
  unfold wideCos
  refine (Real.abs_cos_sub_cos_le _ _).trans ?_
  have h1 := Real.pi_gt_d2
  have h2 := Real.pi_lt_d2
  rw [abs_le]
  constructor <;> linarith

/-- An entity with the given keys. -/
def smoothEntity {F : Type} (angle : Option Str) : Entity F :=
  ⟨fun k => if k = str! "_phong" then some (str! "1") else if k = str! "_phong_angle" then angle else none, []⟩

/-- The three faces of the bevelled block at a corner. -/
def bevelCorner : IntFace × IntFace × IntFace :=
  ((⟨-16, -16, -16⟩, ⟨-16, 16, -16⟩, ⟨-16, -16, 16⟩), (⟨-16, -16, -16⟩, ⟨-16, -16, 16⟩, ⟨16, -16, -16⟩),
    (⟨-16, -16, 16⟩, ⟨-16, 16, 16⟩, ⟨16, -16, 16⟩))

theorem bevel_meeting : ∀ t ∈ bevel, (intDot (intRaw t) ⟨-16, -16, 16⟩ = intDot (intRaw t) t.1) →
    t = bevelCorner.1 ∨ t = bevelCorner.2.1 ∨ t = bevelCorner.2.2 := by decide

/-- Without an angle every face of the block has the same normal in that corner. -/
example [F32Lib] [Platform] (textures : TextureInfo) (hpa : F32Lib.parse (str! "none") = none) (s : IntFace) (hs : s ∈ bevel)
    (geo : PlaneGeo F32)
    (h : buildPlane textures (smoothEntity (some (str! "none"))) (bevel.map singleFace) (singleFace s) = .ok geo) :
    ∀ v ∈ geo.vertices, ∃ x, TrueCorner ((28 : Int) : ℝ) (bevel.map intTri) (intTri s) x ∧ Close (1 / 2000) (vec v.pos) x ∧
      (x = ⟨-16, -16, 16⟩ → Close (1 / 2000) (vec v.normal) (directionR (addR (addR (intTri bevelCorner.1).normal
        (intTri bevelCorner.2.1).normal) (intTri bevelCorner.2.2).normal))) := by
  intro v hv
  obtain ⟨x, hx, hvx, k⟩ := C121_shared textures (smoothEntity (some (str! "none"))) h (g := 0) (R := ((28 : Int) : ℝ))
    (by norm_num) (by norm_num) (by norm_num) bevel_near.2 (List.mem_map_of_mem hs) (by simp [bevel]) (bevel_clearFace s hs)
    rfl hpa v hv
  rw [bevel_tris.2, bevel_tris.1 s hs] at hx
  rw [bevel_tris.2] at k
  refine ⟨x, hx, hvx, ?_⟩
  rintro rfl
  refine k _ _ _ fun t ht h0 => ?_
  obtain ⟨f, hf, rfl⟩ := List.mem_map.1 ht
  have pos : 0 < lenR (intTri f).raw := by
    have h1 := intTri_len f
    have h2 : (0 : ℝ) < ((intDot (intRaw f) (intRaw f) : Int) : ℝ) := by exact_mod_cast (bevel_angles f hf f hf).1
    rcases (len_nonneg (intTri f).raw).lt_or_eq with h | h
    · exact h
    · rw [← h] at h1; linarith
  have e : (intTri f).above ⟨-16, -16, 16⟩ = 1 / lenR (intTri f).raw *
      ((intDot (intRaw f) ⟨-16, -16, 16⟩ - intDot (intRaw f) f.1 : Int) : ℝ) := by
    simp only [Tri.above, Tri.normal, smulR, intTri_raw]
    simp only [dotR, subR, intDot, intTri]
    push_cast
    ring
  rw [e] at h0
  rcases mul_eq_zero.1 h0 with h | h
  · exact absurd h (by positivity)
  · have h' : intDot (intRaw f) ⟨-16, -16, 16⟩ - intDot (intRaw f) f.1 = 0 := by exact_mod_cast h
    rcases bevel_meeting f hf (by omega) with rfl | rfl | rfl
    · exact .inl rfl
    · exact .inr (.inl rfl)
    · exact .inr (.inr rfl)

/-- Without smoothing every face of the block has its own normal. -/
example [F32Lib] [Platform] (textures : TextureInfo) (s : IntFace) (hs : s ∈ bevel) (geo : PlaneGeo F32)
    (h : buildPlane textures ⟨fun _ => none, []⟩ (bevel.map singleFace) (singleFace s) = .ok geo) :
    ∀ v ∈ geo.vertices, Finite3 v.normal ∧ Close (1 / 1000000) (vec v.normal) (intTri s).normal := by
  rw [← bevel_tris.1 s hs]
  exact C121_flat textures ⟨fun _ => none, []⟩ h (g := 0) (R := ((28 : Int) : ℝ)) (by norm_num) (by norm_num) (by norm_num)
    (bevel_near.2 _ (List.mem_map_of_mem hs)) (by simp)

/-- With an angle of sixty degrees the slanted face of the bevelled block is smoothed with its neighbours at the sides, but
not with the upper face. -/
example [Platform] (geo : letI := cosLib; PlaneGeo F32) (s : IntFace) (hs : s ∈ bevel) (textures : TextureInfo) :
    letI := cosLib
    buildPlane textures (smoothEntity (some (str! "60"))) (bevel.map singleFace) (singleFace s) = .ok geo →
    ∀ v ∈ geo.vertices, ∃ x, TrueCorner ((28 : Int) : ℝ) (bevel.map intTri) (intTri s) x ∧ Close (1 / 2000) (vec v.pos) x ∧
      ∃ t1 ∈ bevel, ∃ t2 ∈ bevel, Close (1 / 2000) (vec v.normal) (directionR (addR (addR (intTri s).normal
        (share (1 / 2) (intTri s).normal (intTri t1).normal)) (share (1 / 2) (intTri s).normal (intTri t2).normal))) := by
  let _ := cosLib
  have _ := cosLib_accurate
  intro h v hv
  have f60 : isFin (F32.ofReal ((60 : Int) : ℝ)) ∧ F32.val (F32.ofReal ((60 : Int) : ℝ)) = 60 := by
    have := is_ofReal (z := 60) (by norm_num)
    exact ⟨this.fin, by rw [this.val]; norm_num⟩
  have wide := abs_le.1 wide_sixty
  have far : ∀ t ∈ bevel, dotR (intTri s).normal (intTri t).normal ≤ 0 ∨ 6 / 10 ≤ dotR (intTri s).normal (intTri t).normal := by
    intro t ht
    obtain ⟨p, k⟩ := bevel_angles s hs t ht
    obtain ⟨q, -⟩ := bevel_angles t ht s hs
    rcases k with k | k
    · exact .inl ((int_cos s t p q).1 k)
    · exact .inr ((int_cos s t p q).2 k.1 k.2)
  obtain ⟨x, hx, hvx, p1, h1, p2, h2, -, -, -, -, hcl⟩ :=
    C121_angle textures (smoothEntity (some (str! "60"))) h (g := 0) (R := ((28 : Int) : ℝ)) (by norm_num) (by norm_num)
      (by norm_num) bevel_near.2 (List.mem_map_of_mem hs) (by simp [bevel]) (bevel_clearFace s hs) rfl
      (a := F32.ofReal ((60 : Int) : ℝ)) rfl f60.1 (by rw [f60.2]; norm_num) (by
        intro p hp
        obtain ⟨t, ht, rfl⟩ := List.mem_map.1 hp
        rw [bevel_tris.1 t ht, bevel_tris.1 s hs, f60.2]
        unfold DecidedAngle
        rcases far t ht with h | h
        · exact le_abs.2 (.inl (by linarith))
        · exact le_abs.2 (.inr (by linarith))) v hv
  obtain ⟨t1, m1, rfl⟩ := List.mem_map.1 h1
  obtain ⟨t2, m2, rfl⟩ := List.mem_map.1 h2
  rw [bevel_tris.2, bevel_tris.1 s hs] at hx
  rw [bevel_tris.1 s hs, bevel_tris.1 t1 m1, bevel_tris.1 t2 m2, f60.2] at hcl
  refine ⟨x, hx, hvx, t1, m1, t2, m2, ?_⟩
  have same : ∀ t ∈ bevel, share (wideCos 60) (intTri s).normal (intTri t).normal =
      share (1 / 2) (intTri s).normal (intTri t).normal := by
    intro t ht
    unfold share
    rcases far t ht with h | h
    · rw [if_neg (by linarith), if_neg (by linarith)]
    · rw [if_pos (by linarith), if_pos (by linarith)]
  rwa [same t1 m1, same t2 m2] at hcl

end

end Quarch
