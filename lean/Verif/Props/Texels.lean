import Verif.Spec.Texels
import Verif.Props.Clear
import Verif.Props.BoxUV
import Verif.Props.Flat
import Mathlib.Analysis.Real.Pi.Bounds
import Mathlib.Analysis.SpecialFunctions.Trigonometric.Bounds
/-
C120: texture coordinates of small brushes in single precision.
-/
set_option linter.unusedSectionVars false
namespace Quarch
open Quarch.Spec Quarch.Spec.F32 Quarch.Geo

section
variable [F32Lib]
open Err

theorem ofNat_size {w : Nat} (h : w ≤ 2 ^ 13) : isFin (Arith.ofNat w : F32) ∧ F32.val (Arith.ofNat w : F32) = w := by
  obtain ⟨f, e⟩ := ofAbs_rep (s := false) (rep_nat (n := w) (by omega))
  exact ⟨f, by rw [show (Arith.ofNat w : F32) = ofAbs false w from rfl, e]; simp [sv]⟩

/-- From a position along a texture axis to the texture coordinate. -/
theorem texel_near {c s o : F32} {w : Nat} {q : ℝ} (fc : isFin c) (hc : |F32.val c - q| ≤ 24000 * u) (hq : |q| ≤ 200)
    (fs : isFin s) (hs : 1 / 4 ≤ |F32.val s|) (fo : isFin o) (ho : |F32.val o| ≤ 2 ^ 13) (hw : 1 ≤ w) (hw' : w ≤ 2 ^ 13) :
    AtTexel w (Arith.add (Arith.div (Arith.div c (Arith.ofNat w)) s) (Arith.div o (Arith.ofNat w)))
      (q / F32.val s + F32.val o) := by
  obtain ⟨fw, vw⟩ := ofNat_size hw'
  have W1 : (1 : ℝ) ≤ w := by exact_mod_cast hw
  have W2 : (w : ℝ) ≤ 2 ^ 13 := by exact_mod_cast hw'
  have W0 : (0 : ℝ) < w := by linarith
  have hs0 : F32.val s ≠ 0 := by
    intro h; rw [h, abs_zero] at hs; linarith
  have hsp : 0 < |F32.val s| := by linarith
  have up : (0 : ℝ) < u := u_pos
  have u1 : u ≤ 1 / 16000000 := by unfold u; norm_num
  have tp : (0 : ℝ) < tiny := tiny_pos
  have tl : tiny ≤ 1 / 2 ^ 40 * u := by unfold tiny u; norm_num
  have L : (2 : ℝ) ^ 100 ≤ large := by unfold large; norm_num
  have scale : ∀ {x b : ℝ}, |x| ≤ b → |x / F32.val s| ≤ 4 * b := by
    intro x b hx
    rw [abs_div, div_le_iff₀ hsp]
    have := abs_nonneg x
    nlinarith
  have less : ∀ {x b : ℝ}, |x| ≤ b → |x / (w : ℝ)| ≤ b := by
    intro x b hx
    rw [abs_div, abs_of_pos W0]
    exact (div_le_self (abs_nonneg _) W1).trans hx
  have bc : |F32.val c| ≤ 201 := by
    have := abs_le_of hc
    unfold u at *; linarith
  -- the first division
  have f1 : isFin (Arith.div c (Arith.ofNat w)) :=
    div_ok _ _ fc fw (by rw [vw]; exact W0.ne') (by rw [vw]; exact (less bc).trans (by linarith))
  have e1 : |F32.val (Arith.div c (Arith.ofNat w)) - F32.val c / F32.val (Arith.ofNat w : F32)| ≤ u * |F32.val c / F32.val (Arith.ofNat w : F32)| + tiny :=
    div_val _ _ f1 fw
  rw [vw] at e1
  generalize hd1 : (Arith.div c (Arith.ofNat w) : F32) = d1 at *
  have b1 : |F32.val d1| ≤ 202 := by
    have := abs_le_of e1
    have := less bc
    nlinarith
  -- the second division
  have f2 : isFin (Arith.div d1 s) := div_ok _ _ f1 fs hs0 ((scale b1).trans (by linarith))
  have e2 : |F32.val (Arith.div d1 s) - F32.val d1 / F32.val s| ≤ u * |F32.val d1 / F32.val s| + tiny := div_val _ _ f2 fs
  generalize hd2 : (Arith.div d1 s : F32) = d2 at *
  -- the offset
  have f3 : isFin (Arith.div o (Arith.ofNat w)) :=
    div_ok _ _ fo fw (by rw [vw]; exact W0.ne') (by rw [vw]; exact (less ho).trans (by linarith))
  have e3 : |F32.val (Arith.div o (Arith.ofNat w)) - F32.val o / F32.val (Arith.ofNat w : F32)| ≤ u * |F32.val o / F32.val (Arith.ofNat w : F32)| + tiny :=
    div_val _ _ f3 fw
  rw [vw] at e3
  generalize hd3 : (Arith.div o (Arith.ofNat w) : F32) = d3 at *
  have b2 : |F32.val d2| ≤ 900 := by
    have := abs_le_of e2
    have := scale b1
    nlinarith
  have b3 : |F32.val d3| ≤ 8200 := by
    have := abs_le_of e3
    have := less ho
    nlinarith
  have f4 : isFin (Arith.add d2 d3) := add_ok _ _ f2 f3 (by
    have := abs_add_le (F32.val d2) (F32.val d3); linarith)
  have e4 : |F32.val (Arith.add d2 d3) - (F32.val d2 + F32.val d3)| ≤ u * |F32.val d2 + F32.val d3| := add_val _ _ f4
  generalize hd4 : (Arith.add d2 d3 : F32) = d4 at *
  refine ⟨f4, ?_⟩
  -- everything in texels
  have T : ∀ {x y r : ℝ}, |x - y / w| ≤ u * |y / w| + r → |x * w - y| ≤ u * |y| + r * w := by
    intro x y r h
    have h1 : x * w - y = (x - y / w) * w := by field_simp
    have h2 : |y / w| * w = |y| := by rw [abs_div, abs_of_pos W0]; field_simp
    rw [h1, abs_mul, abs_of_pos W0]
    calc |x - y / w| * w ≤ (u * |y / w| + r) * w := mul_le_mul_of_nonneg_right h W0.le
      _ = u * (|y / w| * w) + r * w := by ring
      _ = _ := by rw [h2]
  have g1 := T e1
  have g3 := T e3
  have tw : tiny * w ≤ u := by
    calc tiny * w ≤ (1 / 2 ^ 40 * u) * 2 ^ 13 := mul_le_mul tl W2 W0.le (by positivity)
      _ ≤ u := by nlinarith
  have B1 : |F32.val d1 * w| ≤ 202 := by
    have := abs_le_of g1
    nlinarith
  have g2 : |F32.val d2 * w - F32.val d1 * w / F32.val s| ≤ 809 * u := by
    have h1 : F32.val d2 * w - F32.val d1 * w / F32.val s = (F32.val d2 - F32.val d1 / F32.val s) * w := by ring
    have h2 : |F32.val d1 / F32.val s| * w = |F32.val d1 * w / F32.val s| := by
      rw [show F32.val d1 * w / F32.val s = F32.val d1 / F32.val s * w by ring, abs_mul, abs_of_pos W0]
    rw [h1, abs_mul, abs_of_pos W0]
    calc _ ≤ (u * |F32.val d1 / F32.val s| + tiny) * w := mul_le_mul_of_nonneg_right e2 W0.le
      _ = u * (|F32.val d1 / F32.val s| * w) + tiny * w := by ring
      _ ≤ u * (4 * 202) + u := add_le_add (mul_le_mul_of_nonneg_left (h2 ▸ scale B1) up.le) tw
      _ = 809 * u := by ring
  have g2' : |F32.val d1 * w / F32.val s - q / F32.val s| ≤ 4 * (24203 * u) := by
    rw [← sub_div]
    apply scale
    have h1 : F32.val d1 * w - q = (F32.val d1 * w - F32.val c) + (F32.val c - q) := by ring
    rw [h1]
    refine (abs_add_le _ _).trans ?_
    nlinarith
  have g3' : |F32.val d3 * w - F32.val o| ≤ 8193 * u := by
    have : u * |F32.val o| ≤ u * 2 ^ 13 := mul_le_mul_of_nonneg_left ho up.le
    linarith
  have B2 : |F32.val d2 * w + F32.val d3 * w| ≤ 9100 := by
    have h1 := abs_le_of g2
    have h2 := scale B1
    have h3 := abs_le_of g3'
    have := abs_add_le (F32.val d2 * w) (F32.val d3 * w)
    nlinarith
  have g4 : |F32.val d4 * w - (F32.val d2 * w + F32.val d3 * w)| ≤ 9100 * u := by
    have h1 : F32.val d4 * w - (F32.val d2 * w + F32.val d3 * w) = (F32.val d4 - (F32.val d2 + F32.val d3)) * w := by ring
    have h2 : |F32.val d2 + F32.val d3| * w = |F32.val d2 * w + F32.val d3 * w| := by
      rw [← add_mul, abs_mul, abs_of_pos W0]
    rw [h1, abs_mul, abs_of_pos W0]
    calc _ ≤ (u * |F32.val d2 + F32.val d3|) * w := mul_le_mul_of_nonneg_right e4 W0.le
      _ = u * (|F32.val d2 + F32.val d3| * w) := by ring
      _ ≤ u * 9100 := mul_le_mul_of_nonneg_left (h2 ▸ B2) up.le
      _ = 9100 * u := by ring
  rw [abs_le] at *
  unfold u at *
  constructor <;> linarith [g4.1, g4.2, g3'.1, g3'.2, g2.1, g2.2, g2'.1, g2'.2]

/-- The position along a texture axis. -/
theorem axis_near {a v : V3 F32} {x : V3 ℝ} (ha : AxisLike a) (fv : Finite3 v) (hv : Close (7400 * u) (vec v) x)
    (hx : lenR x ≤ 64) : isFin (Arith.dot a v) ∧ |F32.val (Arith.dot a v) - dotR (vec a) x| ≤ 24000 * u ∧
      |dotR (vec a) x| ≤ 200 := by
  obtain ⟨fa, a1, a2, a3⟩ := ha
  obtain ⟨x1, x2, x3⟩ := coord_len x
  have wx : Within 64 x := ⟨x1.trans hx, x2.trans hx, x3.trans hx⟩
  have wa : Within 1 (valV a) := ⟨a1, a2, a3⟩
  have u1 : u ≤ 1 / 16000000 := by unfold u; norm_num
  have k : ∀ {s t : ℝ}, |s - t| ≤ 7400 * u → |t| ≤ 64 → |s| ≤ 65 := fun h1 h2 => by
    have := abs_le_of h1; linarith
  have wv : Within 65 (valV v) := ⟨k hv.1 wx.1, k hv.2.1 wx.2.1, k hv.2.2 wx.2.2⟩
  have f : isFin (Arith.dot a v) := dot_ok (F := F32) (a := a) (b := v) (B := 1) (M := 65) fa fv (by norm_num) wa wv (by unfold large; norm_num)
  have e := dot_err' (F := F32) (B := 1) (M := 65) f (by norm_num) wa wv
  have e' : |F32.val (Arith.dot a v) - dotR (vec a) (vec v)| ≤ 12 * u * (1 * 65) + 4 * tiny := e
  have tl : tiny ≤ 1 / 2 ^ 40 * u := by unfold tiny u; norm_num
  have d : |dotR (vec a) (vec v) - dotR (vec a) x| ≤ 3 * (7400 * u) := by
    have h1 : dotR (vec a) (vec v) - dotR (vec a) x = (vec a).x * ((vec v).x - x.x) + (vec a).y * ((vec v).y - x.y) +
      (vec a).z * ((vec v).z - x.z) := by simp only [dotR]; ring
    have m : ∀ {s t : ℝ}, |s| ≤ 1 → |t| ≤ 7400 * u → |s * t| ≤ 7400 * u := fun hs ht => by
      rw [abs_mul]; exact (mul_le_of_le_one_left (abs_nonneg _) hs).trans ht
    rw [h1]
    have h2 := abs_add_three ((vec a).x * ((vec v).x - x.x)) ((vec a).y * ((vec v).y - x.y)) ((vec a).z * ((vec v).z - x.z))
    have := m a1 hv.1
    have := m a2 hv.2.1
    have := m a3 hv.2.2
    unfold vec at *
    linarith
  refine ⟨f, ?_, ?_⟩
  · have h1 : F32.val (Arith.dot a v) - dotR (vec a) x = (F32.val (Arith.dot a v) - dotR (vec a) (vec v)) +
      (dotR (vec a) (vec v) - dotR (vec a) x) := by ring
    rw [h1]
    refine (abs_add_le _ _).trans ?_
    have : 0 < u := u_pos
    linarith
  · have h := dot_le (a := vec a) (B := 1) (M := 64) (by norm_num) wa wx
    linarith

variable [Platform]

/-- A built corner, the point it was found at, and the true corner. -/
theorem clear_vertex (textures : TextureInfo) (entity : Entity F32) {planes : List (BrushPlane F32)} {plane : BrushPlane F32}
    {geo : PlaneGeo F32} (h : buildPlane textures entity planes plane = .ok geo) {g : Nat} (hg : g ≤ 20) {R : ℝ} (hR : 1 ≤ R)
    (hR' : R ≤ 64) (hp : ∀ p ∈ planes, NearFace g R p) (hpl : plane ∈ planes) (hn : planes.length ≤ 1024)
    (hc : ClearFace R (planes.map triOf) (triOf plane)) {v : Vertex F32} (hv : v ∈ geo.vertices) :
    ∃ w : Vertex F32, VertexOf (textures plane.texture) entity planes plane w ∧
      v = { finishNormal (isPhong entity) w with pos := recentre geo.center w.pos } ∧ Finite3 w.pos ∧
      ∃ x, TrueCorner R (planes.map triOf) (triOf plane) x ∧ Close (7400 * u) (vec w.pos) x ∧ Finite3 v.pos ∧
        Close (1 / 2000) (vec v.pos) x ∧ ∃ p1 ∈ planes, ∃ p2 ∈ planes, w.normal = vertexNormal entity plane p1 p2 ∧
          (triOf p1).above x = 0 ∧ (triOf p2).above x = 0 ∧ R ≤ 64 * Tri.spread (triOf plane) (triOf p1) (triOf p2) := by
  obtain ⟨pts, -, hcen, hfound, hdiff, hall⟩ := corners_center textures entity planes plane geo h
  obtain ⟨-, -, -, -, hmean⟩ := clear_list hg hR hR' hp hpl hn hc hfound hdiff
  obtain ⟨w, hw, hvw⟩ := buildPlane_vertex h hv
  obtain ⟨p1, h1, p2, h2, hm, hnor⟩ := hw.src
  have hf : Found planes plane w.pos := ⟨⟨p1, h1, p2, h2, hm⟩, hw.hull⟩
  obtain ⟨x, hx, fw, hwx, -, a1, a2, hsp⟩ := clear_meet hg hR hR' hp hpl hc h1 h2 hm hw.hull
  obtain ⟨y, hy, -⟩ := hall w.pos hf
  obtain ⟨fc, hcW⟩ := hmean (List.ne_nil_of_mem hy)
  rw [← hcen] at fc hcW
  have hpos : v.pos = recentre geo.center w.pos := by rw [hvw]
  have k : ∀ {a b : F32} {s : ℝ}, isFin a → isFin b → |F32.val a| ≤ 70 → |s| ≤ R → |F32.val b - s| ≤ 7400 * u →
      isFin (Arith.add (Arith.sub b a) a) ∧ |F32.val (Arith.add (Arith.sub b a) a) - s| ≤ 1 / 2000 := by
    intro a b s fa fb ha hs hbs
    have hb := abs_le_of hbs
    obtain ⟨f, e⟩ := back_ok (M := 70) (by norm_num) fa fb ha (by unfold u at *; linarith)
    refine ⟨f, ?_⟩
    have e1 : F32.val (Arith.add (Arith.sub b a) a) - s = (F32.val (Arith.add (Arith.sub b a) a) - F32.val b) +
      (F32.val b - s) := by ring
    rw [e1]
    refine (abs_add_le _ _).trans ?_
    unfold u at *; linarith
  obtain ⟨x1, x2, x3⟩ := coord_len x
  have kx := k fc.1 fw.1 hcW.1 (x1.trans hx.dist) hwx.1
  have ky := k fc.2.1 fw.2.1 hcW.2.1 (x2.trans hx.dist) hwx.2.1
  have kz := k fc.2.2 fw.2.2 hcW.2.2 (x3.trans hx.dist) hwx.2.2
  refine ⟨w, hw, hvw, fw, x, hx, hwx, ?_⟩
  rw [hpos]
  exact ⟨⟨kx.1, ky.1, kz.1⟩, ⟨kx.2, ky.2, kz.2⟩, p1, h1, p2, h2, hnor, a1, a2, hsp⟩

/-- C120: with texture axes, every corner of a face without doubtful corners gets the texture coordinate of its true corner,
up to a hundredth of a texel. -/
theorem C120_valve (textures : TextureInfo) (entity : Entity F32) {planes : List (BrushPlane F32)} {plane : BrushPlane F32}
    {geo : PlaneGeo F32} (h : buildPlane textures entity planes plane = .ok geo) {g : Nat} (hg : g ≤ 20) {R : ℝ} (hR : 1 ≤ R)
    (hR' : R ≤ 64) (hp : ∀ p ∈ planes, NearFace g R p) (hpl : plane ∈ planes) (hn : planes.length ≤ 1024)
    (hc : ClearFace R (planes.map triOf) (triOf plane)) {tx : Texture} (ht : textures plane.texture = some tx)
    {ua va : V3 F32} {uo vo : F32} (huv : plane.uv = .valve ua uo va vo) (hl : ModestLayout tx plane uo vo)
    (hu : AxisLike ua) (hva : AxisLike va) :
    ∀ v ∈ geo.vertices, ∃ x, TrueCorner R (planes.map triOf) (triOf plane) x ∧ Finite3 v.pos ∧
      Close (1 / 2000) (vec v.pos) x ∧ ∃ uv, v.uv = some uv ∧
        AtTexel tx.width uv.x (dotR (vec ua) x / F32.val plane.scale.x + F32.val uo) ∧
        AtTexel tx.height uv.y (dotR (vec va) x / F32.val plane.scale.y + F32.val vo) := by
  intro v hv
  obtain ⟨w, hw, hvw, fw, x, hx, hwx, fv, hvx, -⟩ := clear_vertex textures entity h hg hR hR' hp hpl hn hc hv
  refine ⟨x, hx, fv, hvx, ?_⟩
  obtain ⟨uv, e, e'⟩ := hw.uv.2 tx ht
  have hx64 := hx.dist.trans hR'
  obtain ⟨f1, n1, q1⟩ := axis_near hu fw hwx hx64
  obtain ⟨f2, n2, q2⟩ := axis_near hva fw hwx hx64
  have hvuv : v.uv = w.uv := by rw [hvw]; unfold finishNormal; split <;> rfl
  refine ⟨uv, hvuv.trans e', ?_⟩
  simp only [vertexUV, huv] at e
  cases e
  exact ⟨texel_near f1 n1 q1 hl.x.1 hl.x.2 hl.u.1 hl.u.2 hl.width.1 hl.width.2,
    texel_near f2 n2 q2 hl.y.1 hl.y.2 hl.v.1 hl.v.2 hl.height.1 hl.height.2⟩

/-- The scalar product with an axis is the coordinate. -/
theorem dot_coords {n : V3 F32} (h : Finite3 n) :
    (isFin (Arith.dot n upVector) ∧ F32.val (Arith.dot n upVector) = F32.val n.z) ∧
    (isFin (Arith.dot n rightVector) ∧ F32.val (Arith.dot n rightVector) = F32.val n.y) ∧
    (isFin (Arith.dot n forwardVector) ∧ F32.val (Arith.dot n forwardVector) = F32.val n.x) := by
  obtain ⟨hx, hy, hz⟩ := h
  obtain ⟨x1, x2⟩ := mul_zero_val hx
  obtain ⟨y1, y2⟩ := mul_zero_val hy
  obtain ⟨z1, z2⟩ := mul_zero_val hz
  have ox := mul_one_val hx
  have oy := mul_one_val hy
  have oz := mul_one_val hz
  refine ⟨?_, ?_, ?_⟩
  · obtain ⟨s1, s2⟩ := add_zero_fin x1 y1 (.inl x2)
    obtain ⟨t1, t2⟩ := add_zero_fin s1 (oz.symm ▸ hz) (.inl (by rw [s2, x2, y2, add_zero]))
    exact ⟨t1, t2.trans (by rw [s2, x2, y2, oz]; ring)⟩
  · obtain ⟨s1, s2⟩ := add_zero_fin x1 (oy.symm ▸ hy) (.inl x2)
    obtain ⟨t1, t2⟩ := add_zero_fin s1 z1 (.inr z2)
    exact ⟨t1, t2.trans (by rw [s2, x2, z2, oy]; ring)⟩
  · obtain ⟨s1, s2⟩ := add_zero_fin (ox.symm ▸ hx) y1 (.inr y2)
    obtain ⟨t1, t2⟩ := add_zero_fin s1 z1 (.inr z2)
    exact ⟨t1, t2.trans (by rw [s2, y2, z2, ox]; ring)⟩

/-- Numbers of the same size are divided to numbers of the same size. -/
theorem div_size {a b s : F32} (fa : isFin a) (fb : isFin b) (h : |F32.val a| = |F32.val b|) (f1 : isFin (Arith.div a s))
    (f2 : isFin (Arith.div b s)) : |F32.val (Arith.div a s)| = |F32.val (Arith.div b s)| := by
  cases a with
  | nan => exact absurd fa (by simp [isFin])
  | inf s => exact absurd fa (by simp [isFin])
  | num sa a ra =>
    cases b with
    | nan => exact absurd fb (by simp [isFin])
    | inf s => exact absurd fb (by simp [isFin])
    | num sb b rb =>
      have k : ∀ (s : Bool) {c : ℝ}, 0 ≤ c → |sv s c| = c := fun s c hc => by
        unfold sv; split <;> simp [abs_of_nonneg hc]
      have hab : a = b := by
        have h' : |sv sa a| = |sv sb b| := h
        rwa [k _ (rep_nonneg ra), k _ (rep_nonneg rb)] at h'
      subst hab
      cases s with
      | nan => exact absurd f1 (by simp [Arith.div, F32.div, isFin])
      | inf t => simp [Arith.div, F32.div, F32.val, sv]
      | num t c rc =>
        have hc : c ≠ 0 := by
          have := div_ne _ _ f1 trivial
          intro h0; subst h0; exact this (by simp [F32.val, sv])
        have e : ∀ (s : Bool) (r : Rep a), (Arith.div (F32.num s a r) (F32.num t c rc) : F32) = ofAbs (xor s t) (a / c) := by
          intro s r
          show F32.div _ _ = _
          simp only [F32.div, if_neg hc]
        rw [e] at f1 f2
        rw [e, e, ofAbs_val f1, ofAbs_val f2, k _ (rnd_nonneg _), k _ (rnd_nonneg _)]

theorem mul_size {a b s : F32} (fa : isFin a) (fb : isFin b) (h : |F32.val a| = |F32.val b|) (f1 : isFin (Arith.mul a s))
    (f2 : isFin (Arith.mul b s)) : |F32.val (Arith.mul a s)| = |F32.val (Arith.mul b s)| := by
  cases a with
  | nan => exact absurd fa (by simp [isFin])
  | inf s => exact absurd fa (by simp [isFin])
  | num sa a ra =>
    cases b with
    | nan => exact absurd fb (by simp [isFin])
    | inf s => exact absurd fb (by simp [isFin])
    | num sb b rb =>
      have k : ∀ (s : Bool) {c : ℝ}, 0 ≤ c → |sv s c| = c := fun s c hc => by
        unfold sv; split <;> simp [abs_of_nonneg hc]
      have hab : a = b := by
        have h' : |sv sa a| = |sv sb b| := h
        rwa [k _ (rep_nonneg ra), k _ (rep_nonneg rb)] at h'
      subst hab
      obtain ⟨-, fs⟩ := mul_fin _ _ f1
      cases s with
      | nan => exact absurd fs (by simp [isFin])
      | inf t => exact absurd fs (by simp [isFin])
      | num t c rc =>
        change isFin (ofAbs _ _) at f1 f2
        show |F32.val (ofAbs _ _)| = |F32.val (ofAbs _ _)|
        rw [ofAbs_val f1, ofAbs_val f2, k _ (rnd_nonneg _), k _ (rnd_nonneg _)]

/-- Coordinates of the same size stay so. -/
theorem normalize_size {w : V3 F32} (hw : Finite3 w) (hn : Finite3 (Arith.normalize w)) :
    (|F32.val w.x| = |F32.val w.y| → |F32.val (Arith.normalize w).x| = |F32.val (Arith.normalize w).y|) ∧
    (|F32.val w.x| = |F32.val w.z| → |F32.val (Arith.normalize w).x| = |F32.val (Arith.normalize w).z|) ∧
    (|F32.val w.y| = |F32.val w.z| → |F32.val (Arith.normalize w).y| = |F32.val (Arith.normalize w).z|) := by
  obtain ⟨wx, wy, wz⟩ := hw
  obtain ⟨nx, ny, nz⟩ := hn
  change isFin (F32.normalize w).x at nx
  change isFin (F32.normalize w).y at ny
  change isFin (F32.normalize w).z at nz
  show (_ → |F32.val (F32.normalize w).x| = |F32.val (F32.normalize w).y|) ∧
    (_ → |F32.val (F32.normalize w).x| = |F32.val (F32.normalize w).z|) ∧
    (_ → |F32.val (F32.normalize w).y| = |F32.val (F32.normalize w).z|)
  unfold F32.normalize at *
  cases hr : F32Lib.recip
  · rw [hr] at nx ny nz
    simp only [Bool.false_eq_true, if_false] at *
    exact ⟨fun h => div_size wx wy h nx ny, fun h => div_size wx wz h nx nz, fun h => div_size wy wz h ny nz⟩
  · rw [hr] at nx ny nz
    simp only [if_true] at *
    exact ⟨fun h => mul_size wx wy h nx ny, fun h => mul_size wx wz h nx nz, fun h => mul_size wy wz h ny nz⟩

/-- The vector product of the edges is exact. -/
theorem nearFace_cross {g : Nat} (hg : g ≤ 20) {R : ℝ} {p : BrushPlane F32} (h : NearFace g R p) :
    Finite3 (Arith.cross (V3.sub p.v2 p.v0) (V3.sub p.v1 p.v0)) ∧
      vec (Arith.cross (V3.sub p.v2 p.v0) (V3.sub p.v1 p.v0)) = (triOf p).raw := by
  obtain ⟨⟨n0, n1, n2, hp, hl, hs⟩, h0⟩ := h
  obtain ⟨e2, e1⟩ := gridFace_edges hp
  obtain ⟨x1, x2⟩ := hs .x
  obtain ⟨y1, y2⟩ := hs .y
  obtain ⟨z1, z2⟩ := hs .z
  simp only [Axis.of] at x1 x2 y1 y2 z1 z2
  have hc := isGV_cross e2 e1 (A := 2048) (B := 2048) ⟨x2, y2, z2⟩ ⟨x1, y1, z1⟩ (by norm_num) (by omega) (by omega)
  simp only [] at hc
  refine ⟨⟨hc.x.fin, hc.y.fin, hc.z.fin⟩, ?_⟩
  have ev : ∀ {v : V3 F32} {n : V3 Int}, GridPoint g v n → vec v = ⟨n.x / 2 ^ g, n.y / 2 ^ g, n.z / 2 ^ g⟩ := by
    intro v n hv
    show (⟨F32.val v.x, F32.val v.y, F32.val v.z⟩ : V3 ℝ) = _
    rw [hv.x.2, hv.y.2, hv.z.2]
  have hpow : (2 : ℝ) ^ (-(g : Int) + -(g : Int)) = 1 / 2 ^ g * (1 / 2 ^ g) := by
    rw [zpow_add₀ (by norm_num), zpow_neg, zpow_natCast]; ring
  show (⟨F32.val _, F32.val _, F32.val _⟩ : V3 ℝ) = _
  rw [hc.x.val, hc.y.val, hc.z.val, hpow]
  unfold Tri.raw triOf
  simp only []
  rw [ev hp.p0, ev hp.p1, ev hp.p2]
  simp only [crossR, subR]
  push_cast
  congr 1 <;> ring

/-- Which coordinate of the computed normal is greater. -/
theorem sizes_decided {N n M m : ℝ} (hd : Decided n m) (h1 : |N - n| ≤ 6 * u) (h2 : |M - m| ≤ 6 * u)
    (he : |n| = |m| → |N| = |M|) : |N| ≤ |M| ↔ |n| ≤ |m| := by
  rcases hd with h | h
  · rw [he h, h]; simp
  have a1 := abs_le.1 ((abs_abs_sub_abs_le N n).trans h1)
  have a2 := abs_le.1 ((abs_abs_sub_abs_le M m).trans h2)
  have : (0 : ℝ) < u := u_pos
  have : u ≤ 1 / 16000000 := by unfold u; norm_num
  rcases le_abs'.1 h with h | h
  · constructor <;> intro _ <;> linarith
  · constructor <;> intro _ <;> linarith

/-- Which coordinate of the direction of a small face is greatest, as computed. -/
theorem nearFace_sizes {g : Nat} (hg : g ≤ 20) {R : ℝ} (hR : 1 ≤ R) (hR' : R ≤ 64) {p : BrushPlane F32}
    (h : NearFace g R p) (hd : DecidedFace (triOf p).normal) :
    (Arith.le (Arith.abs (Arith.dot p.normal rightVector)) (Arith.abs (Arith.dot p.normal upVector)) = true ↔
      |(triOf p).normal.y| ≤ |(triOf p).normal.z|) ∧
    (Arith.le (Arith.abs (Arith.dot p.normal forwardVector)) (Arith.abs (Arith.dot p.normal upVector)) = true ↔
      |(triOf p).normal.x| ≤ |(triOf p).normal.z|) ∧
    (Arith.le (Arith.abs (Arith.dot p.normal upVector)) (Arith.abs (Arith.dot p.normal rightVector)) = true ↔
      |(triOf p).normal.z| ≤ |(triOf p).normal.y|) ∧
    (Arith.le (Arith.abs (Arith.dot p.normal forwardVector)) (Arith.abs (Arith.dot p.normal rightVector)) = true ↔
      |(triOf p).normal.x| ≤ |(triOf p).normal.y|) ∧
    (Arith.le (Arith.abs (Arith.dot p.normal upVector)) (Arith.abs (Arith.dot p.normal forwardVector)) = true ↔
      |(triOf p).normal.z| ≤ |(triOf p).normal.x|) ∧
    (Arith.le (Arith.abs (Arith.dot p.normal rightVector)) (Arith.abs (Arith.dot p.normal forwardVector)) = true ↔
      |(triOf p).normal.y| ≤ |(triOf p).normal.x|) := by
  have gd := nearFace_good hg hR hR' h
  obtain ⟨fc, ec⟩ := nearFace_cross hg h
  have fn : Finite3 p.normal := gd.fin
  have en : (triOf p).normal = unitNormal p := rfl
  obtain ⟨c1, c2, c3⟩ := normalize_size fc fn
  obtain ⟨⟨d1, v1⟩, ⟨d2, v2⟩, d3, v3⟩ := dot_coords fn
  have hw := unit_within gd.unit
  obtain ⟨r1, r2, r3⟩ := gd.near
  have up : (0 : ℝ) < u := u_pos
  have near : ∀ {N n : ℝ}, |N - n| ≤ 51 / 10 * u * |n| + slack → |n| ≤ 1 → |N - n| ≤ 6 * u := by
    intro N n h1 h2
    have := slack_le
    nlinarith
  have n1 : |F32.val p.normal.x - (triOf p).normal.x| ≤ 6 * u := near r1 hw.1
  have n2 : |F32.val p.normal.y - (triOf p).normal.y| ≤ 6 * u := near r2 hw.2.1
  have n3 : |F32.val p.normal.z - (triOf p).normal.z| ≤ 6 * u := near r3 hw.2.2
  have hl : 1 / lenR (triOf p).raw ≠ 0 := by
    intro h0
    have h1 := gd.unit
    rw [← en] at h1
    unfold Tri.normal at h1
    rw [h0] at h1
    simp [dotR, smulR] at h1
  have size : ∀ {s t : ℝ}, |1 / lenR (triOf p).raw * s| = |1 / lenR (triOf p).raw * t| → |s| = |t| := by
    intro s t h
    rw [abs_mul, abs_mul] at h
    exact mul_left_cancel₀ (abs_ne_zero.2 hl) h
  have ex : F32.val (Arith.cross (V3.sub p.v2 p.v0) (V3.sub p.v1 p.v0)).x = (triOf p).raw.x := by rw [← ec]; rfl
  have ey : F32.val (Arith.cross (V3.sub p.v2 p.v0) (V3.sub p.v1 p.v0)).y = (triOf p).raw.y := by rw [← ec]; rfl
  have ez : F32.val (Arith.cross (V3.sub p.v2 p.v0) (V3.sub p.v1 p.v0)).z = (triOf p).raw.z := by rw [← ec]; rfl
  have kxy := sizes_decided hd.1 n1 n2 fun h => c1 (by rw [ex, ey]; exact size h)
  have kxz := sizes_decided hd.2.1 n1 n3 fun h => c2 (by rw [ex, ez]; exact size h)
  have kyz := sizes_decided hd.2.2 n2 n3 fun h => c3 (by rw [ey, ez]; exact size h)
  have sym : ∀ {s t : ℝ}, Decided s t → Decided t s := fun h => h.imp Eq.symm fun h => by rwa [abs_sub_comm]
  have kyx := sizes_decided (sym hd.1) n2 n1 fun h => (c1 (by rw [ex, ey]; exact size h.symm)).symm
  have kzx := sizes_decided (sym hd.2.1) n3 n1 fun h => (c2 (by rw [ex, ez]; exact size h.symm)).symm
  have kzy := sizes_decided (sym hd.2.2) n3 n2 fun h => (c3 (by rw [ey, ez]; exact size h.symm)).symm
  have le : ∀ {a b : F32}, isFin a → isFin b → (Arith.le (Arith.abs a) (Arith.abs b) = true ↔ |F32.val a| ≤ |F32.val b|) := by
    intro a b ha hb
    refine (rel_fin _ _ _ ((abs_fin a).2 ha) ((abs_fin b).2 hb)).trans ?_
    rw [abs_val, abs_val]
    exact EReal.coe_le_coe_iff
  have l1 := le d2 d1
  rw [v2, v1, kyz] at l1
  have l2 := le d3 d1
  rw [v3, v1, kxz] at l2
  have l3 := le d1 d2
  rw [v2, v1, kzy] at l3
  have l4 := le d3 d2
  rw [v3, v2, kxy] at l4
  have l5 := le d1 d3
  rw [v3, v1, kzx] at l5
  have l6 := le d2 d3
  rw [v3, v2, kyx] at l6
  exact ⟨l1, l2, l3, l4, l5, l6⟩

/-- The plane onto which a small face is projected. -/
theorem nearFace_projected {g : Nat} (hg : g ≤ 20) {R : ℝ} (hR : 1 ≤ R) (hR' : R ≤ 64) {p : BrushPlane F32}
    (h : NearFace g R p) (hd : DecidedFace (triOf p).normal) :
    ∃ a : Axis, (∀ x, Projected (triOf p).normal x (planar a x).x (planar a x).y) ∧
      ∀ (x : V3 F32) (tx : Texture) (uo vo : F32), standardUV x p tx uo vo =
        .ok (V2.add (V2.div (V2.div (Arith.rotate2 (Arith.toRadians p.rotation) (planarF a x)) tx.size) p.scale)
          (V2.div ⟨uo, vo⟩ tx.size)) := by
  obtain ⟨l1, l2, l3, l4, l5, l6⟩ := nearFace_sizes hg hR hR' h hd
  unfold standardUV
  simp only [Bool.and_eq_true, l1, l2, l3, l4, l5, l6]
  generalize (triOf p).normal = n at *
  by_cases h1 : |n.y| ≤ |n.z| ∧ |n.x| ≤ |n.z|
  · exact ⟨.z, fun x => .inl ⟨h1.1, h1.2, rfl, rfl⟩, fun x tx uo vo => by simp [h1, planarF]⟩
  by_cases h2 : |n.z| ≤ |n.y| ∧ |n.x| ≤ |n.y|
  · refine ⟨.y, fun x => .inr (.inl ⟨lt_of_le_of_ne h2.1 fun e => h1 ⟨e.ge, by rw [e]; exact h2.2⟩, h2.2, rfl, rfl⟩),
      fun x tx uo vo => ?_⟩
    rw [if_neg h1, if_pos h2]; rfl
  have h3 : |n.z| < |n.x| ∧ |n.y| < |n.x| := by
    rcases le_total |n.x| |n.z| with a | a <;> rcases le_total |n.x| |n.y| with b | b <;>
      rcases le_total |n.y| |n.z| with c | c
    · exact absurd ⟨c, a⟩ h1
    · exact absurd ⟨c, b⟩ h2
    · exact absurd ⟨c, a⟩ h1
    · exact absurd ⟨b.trans a, a⟩ h1
    · exact absurd ⟨c, b.trans c⟩ h1
    · exact absurd ⟨c, b⟩ h2
    · exact ⟨lt_of_le_of_ne a fun e => h1 ⟨c, e.ge⟩, lt_of_le_of_ne b fun e => h2 ⟨a.trans e.ge, e.ge⟩⟩
    · exact ⟨lt_of_le_of_ne a fun e => h1 ⟨b.trans e.ge, e.ge⟩, lt_of_le_of_ne b fun e => h2 ⟨c, e.ge⟩⟩
  refine ⟨.x, fun x => .inr (.inr ⟨h3.1, h3.2, rfl, rfl⟩), fun x tx uo vo => ?_⟩
  rw [if_neg h1, if_neg h2, if_pos ⟨h3.1.le, h3.2.le⟩]; rfl

/-- Degrees to radians. -/
theorem radians_near {a : F32} (fa : isFin a) (ha : |F32.val a| ≤ 360) : isFin (Arith.toRadians a) ∧
    |F32.val (Arith.toRadians a)| ≤ 8 ∧ |F32.val (Arith.toRadians a) - F32.val a * Real.pi / 180| ≤ 21 * u := by
  have p3 := Real.pi_gt_three
  have p4 : Real.pi < 3.15 := Real.pi_lt_d2
  have up : (0 : ℝ) < u := u_pos
  have u1 : u ≤ 1 / 16000000 := by unfold u; norm_num
  have tp : (0 : ℝ) < tiny := tiny_pos
  have tl : tiny ≤ 1 / 2 ^ 40 * u := by unfold tiny u; norm_num
  have L : (2 : ℝ) ^ 100 ≤ large := by unfold large; norm_num
  obtain ⟨fp, ep⟩ := lit (x := Real.pi) (le_trans (by norm_num) p3.le) (by linarith)
  have hd : Is (ofReal ((180 : Int) : ℝ)) 180 := is_ofReal (by norm_num)
  have h180 : Is (ofReal (180 : ℝ)) 180 := by simpa using hd
  have v180 : F32.val (ofReal (180 : ℝ)) = 180 := by rw [h180.val]; norm_num
  generalize hP : ofReal Real.pi = P at *
  have bp : |F32.val P| ≤ 4 := by
    have := abs_le_of ep
    rw [abs_of_pos Real.pi_pos] at this
    nlinarith
  have bq : |F32.val P / F32.val (ofReal (180 : ℝ))| ≤ 1 / 40 := by
    rw [v180, abs_div, abs_of_pos (by norm_num : (0 : ℝ) < 180)]; linarith
  have fc : isFin (div P (ofReal 180)) := div_ok _ _ fp h180.fin (by rw [v180]; norm_num) (by linarith)
  have e1 := div_val P (ofReal 180) fc h180.fin
  have er : (Arith.toRadians a : F32) = mul a (div P (ofReal 180)) := by rw [← hP]; rfl
  generalize hC : div P (ofReal 180) = C at *
  rw [v180] at e1 bq
  have e1' : |F32.val C - Real.pi / 180| ≤ 1 / 1000 * 37 * u := by
    have h1 : F32.val C - Real.pi / 180 = (F32.val C - F32.val P / 180) + (F32.val P - Real.pi) / 180 := by ring
    rw [h1]
    refine (abs_add_le _ _).trans ?_
    rw [abs_div _ (180 : ℝ), abs_of_pos (by norm_num : (0 : ℝ) < 180)]
    have bP : |F32.val P / 180| ≤ 316 / 18000 := by
      rw [abs_div, abs_of_pos (by norm_num : (0 : ℝ) < 180)]
      have := abs_le_of ep
      rw [abs_of_pos Real.pi_pos] at this
      rw [div_le_div_iff₀ (by norm_num) (by norm_num)]
      nlinarith
    have : u * |F32.val P / 180| ≤ u * (316 / 18000) := mul_le_mul_of_nonneg_left bP up.le
    have : u * Real.pi ≤ u * 3.15 := mul_le_mul_of_nonneg_left p4.le up.le
    linarith
  have bC : |F32.val C| ≤ 176 / 10000 := by
    have := abs_le_of e1'
    rw [abs_of_pos (by positivity : (0 : ℝ) < Real.pi / 180)] at this
    nlinarith
  have bm : |F32.val a * F32.val C| ≤ 6.4 := by
    rw [abs_mul]
    calc |F32.val a| * |F32.val C| ≤ 360 * (176 / 10000) := mul_le_mul ha bC (abs_nonneg _) (by norm_num)
      _ ≤ 6.4 := by norm_num
  have fm : isFin (mul a C) := mul_ok _ _ fa fc (by linarith)
  have e2 := mul_val a C fm
  rw [er]
  refine ⟨fm, ?_, ?_⟩
  · have := abs_le_of e2
    nlinarith
  · have h1 : F32.val (mul a C) - F32.val a * Real.pi / 180 = (F32.val (mul a C) - F32.val a * F32.val C) +
      F32.val a * (F32.val C - Real.pi / 180) := by ring
    rw [h1]
    refine (abs_add_le _ _).trans ?_
    have h2 : |F32.val a * (F32.val C - Real.pi / 180)| ≤ 360 * (1 / 1000 * 37 * u) := by
      rw [abs_mul]; exact mul_le_mul ha e1' (abs_nonneg _) (by norm_num)
    have h3 : u * |F32.val a * F32.val C| ≤ u * 6.4 := mul_le_mul_of_nonneg_left bm up.le
    linarith

/-- The position on the texture before it is scaled: the projected point, turned. -/
theorem turned_near [AccurateTurn] {r : F32} (fr : isFin r) (hr : |F32.val r| ≤ 360) {v : V2 F32} {x y : ℝ} (f1 : isFin v.x)
    (f2 : isFin v.y) (hx : |F32.val v.x - x| ≤ 7400 * u) (hy : |F32.val v.y - y| ≤ 7400 * u) (bx : |x| ≤ 64) (by' : |y| ≤ 64) :
    (isFin (Arith.rotate2 (Arith.toRadians r) v).x ∧ |F32.val (Arith.rotate2 (Arith.toRadians r) v).x -
      (Real.cos (F32.val r * Real.pi / 180) * x - Real.sin (F32.val r * Real.pi / 180) * y)| ≤ 24000 * u ∧
      |Real.cos (F32.val r * Real.pi / 180) * x - Real.sin (F32.val r * Real.pi / 180) * y| ≤ 200) ∧
    (isFin (Arith.rotate2 (Arith.toRadians r) v).y ∧ |F32.val (Arith.rotate2 (Arith.toRadians r) v).y -
      (Real.sin (F32.val r * Real.pi / 180) * x + Real.cos (F32.val r * Real.pi / 180) * y)| ≤ 24000 * u ∧
      |Real.sin (F32.val r * Real.pi / 180) * x + Real.cos (F32.val r * Real.pi / 180) * y| ≤ 200) := by
  obtain ⟨fa, ba, ea⟩ := radians_near fr hr
  rw [show (Arith.rotate2 (Arith.toRadians r) v : V2 F32) = F32Lib.rotate2 (Arith.toRadians r) v from rfl]
  have up : (0 : ℝ) < u := u_pos
  have u1 : u = 1 / 2 ^ 24 := by unfold u; norm_num
  have vx : |F32.val v.x| ≤ 65 := by have := abs_le_of hx; rw [u1] at this; linarith
  have vy : |F32.val v.y| ≤ 65 := by have := abs_le_of hy; rw [u1] at this; linarith
  obtain ⟨g1, g2, e1, e2⟩ := AccurateTurn.turn2 (Arith.toRadians r) v fa ba f1 f2 (by linarith) (by linarith)
  generalize F32.val r * Real.pi / 180 = t at *
  generalize F32.val (Arith.toRadians r) = a at *
  have hc : |Real.cos a - Real.cos t| ≤ 21 * u := (Real.abs_cos_sub_cos_le a t).trans ea
  have hs : |Real.sin a - Real.sin t| ≤ 21 * u := (Real.abs_sin_sub_sin_le a t).trans ea
  have ct := Real.abs_cos_le_one t
  have st := Real.abs_sin_le_one t
  have part : ∀ {c c' w z : ℝ}, |c - c'| ≤ 21 * u → |c'| ≤ 1 → |w| ≤ 65 → |w - z| ≤ 7400 * u → |c * w - c' * z| ≤ 8765 * u := by
    intro c c' w z h1 h2 h3 h4
    have e : c * w - c' * z = (c - c') * w + c' * (w - z) := by ring
    rw [e]
    refine (abs_add_le _ _).trans ?_
    rw [abs_mul, abs_mul]
    have : |c - c'| * |w| ≤ 21 * u * 65 := mul_le_mul h1 h3 (abs_nonneg _) (by positivity)
    have : |c'| * |w - z| ≤ 1 * (7400 * u) := mul_le_mul h2 h4 (abs_nonneg _) (by norm_num)
    linarith
  have small : ∀ {c z : ℝ}, |c| ≤ 1 → |z| ≤ 64 → |c * z| ≤ 64 := by
    intro c z h1 h2
    rw [abs_mul]; exact (mul_le_of_le_one_left (abs_nonneg _) h1).trans h2
  have q1 := part hc ct vx hx
  have q2 := part hs st vy hy
  have q3 := part hs st vx hx
  have q4 := part hc ct vy hy
  have b : (|F32.val v.x| + |F32.val v.y|) / 2 ^ 20 + 1 / 2 ^ 100 ≤ 2081 * u := by rw [u1]; linarith
  have s1 := small ct bx
  have s2 := small st by'
  have s3 := small st bx
  have s4 := small ct by'
  refine ⟨⟨g1, ?_, ?_⟩, g2, ?_, ?_⟩
  · have e1' := e1.trans b
    rw [abs_le] at *
    constructor <;> linarith [e1'.1, e1'.2, q1.1, q1.2, q2.1, q2.2]
  · rw [abs_le] at *
    constructor <;> linarith [s1.1, s1.2, s2.1, s2.2]
  · have e2' := e2.trans b
    rw [abs_le] at *
    constructor <;> linarith [e2'.1, e2'.2, q3.1, q3.2, q4.1, q4.2]
  · rw [abs_le] at *
    constructor <;> linarith [s3.1, s3.2, s4.1, s4.2]

/-- C120: without texture axes the face is projected along the axis closest to its direction; every corner of a face
without doubtful corners gets the texture coordinate of its true corner, up to a hundredth of a texel. -/
theorem C120_standard [AccurateTurn] (textures : TextureInfo) (entity : Entity F32) {planes : List (BrushPlane F32)}
    {plane : BrushPlane F32} {geo : PlaneGeo F32} (h : buildPlane textures entity planes plane = .ok geo) {g : Nat} (hg : g ≤ 20)
    {R : ℝ} (hR : 1 ≤ R) (hR' : R ≤ 64) (hp : ∀ p ∈ planes, NearFace g R p) (hpl : plane ∈ planes) (hn : planes.length ≤ 1024)
    (hc : ClearFace R (planes.map triOf) (triOf plane)) {tx : Texture} (ht : textures plane.texture = some tx)
    {uo vo : F32} (huv : plane.uv = .quake uo vo) (hl : ModestLayout tx plane uo vo)
    (hd : DecidedFace (triOf plane).normal) (fr : isFin plane.rotation) (hr : |F32.val plane.rotation| ≤ 360) :
    ∀ v ∈ geo.vertices, ∃ x, TrueCorner R (planes.map triOf) (triOf plane) x ∧ Finite3 v.pos ∧
      Close (1 / 2000) (vec v.pos) x ∧ ∃ uv, v.uv = some uv ∧ ∃ s t, Projected (triOf plane).normal x s t ∧
        AtTexel tx.width uv.x ((Real.cos (F32.val plane.rotation * Real.pi / 180) * s -
          Real.sin (F32.val plane.rotation * Real.pi / 180) * t) / F32.val plane.scale.x + F32.val uo) ∧
        AtTexel tx.height uv.y ((Real.sin (F32.val plane.rotation * Real.pi / 180) * s +
          Real.cos (F32.val plane.rotation * Real.pi / 180) * t) / F32.val plane.scale.y + F32.val vo) := by
  intro v hv
  obtain ⟨w, hw, hvw, fw, x, hx, hwx, fv, hvx, -⟩ := clear_vertex textures entity h hg hR hR' hp hpl hn hc hv
  refine ⟨x, hx, fv, hvx, ?_⟩
  obtain ⟨uv, e, e'⟩ := hw.uv.2 tx ht
  have hx64 := hx.dist.trans hR'
  obtain ⟨x1, x2, x3⟩ := coord_len x
  have hvuv : v.uv = w.uv := by rw [hvw]; unfold finishNormal; split <;> rfl
  refine ⟨uv, hvuv.trans e', ?_⟩
  obtain ⟨a, hproj, hsel⟩ := nearFace_projected hg hR hR' (hp plane hpl) hd
  simp only [vertexUV, huv] at e
  rw [hsel] at e
  refine ⟨_, _, hproj x, ?_⟩
  have neg : ∀ {z : F32} {r : ℝ}, |F32.val z - r| ≤ 7400 * u → |F32.val (Arith.neg z) - -r| ≤ 7400 * u := by
    intro z r h
    rw [show F32.val (Arith.neg z) = - F32.val z from neg_val z, ← abs_neg]
    rwa [show -(-F32.val z - -r) = F32.val z - r by ring]
  have key : isFin (planarF a w.pos).x ∧ isFin (planarF a w.pos).y ∧ |F32.val (planarF a w.pos).x - (planar a x).x| ≤ 7400 * u ∧
      |F32.val (planarF a w.pos).y - (planar a x).y| ≤ 7400 * u ∧ |(planar a x).x| ≤ 64 ∧ |(planar a x).y| ≤ 64 := by
    have y1 := x1.trans hx64
    have y2 := x2.trans hx64
    have y3 := x3.trans hx64
    cases a
    · exact ⟨fw.2.1, (neg_fin _).2 fw.2.2, hwx.2.1, neg hwx.2.2, y2, by rw [planar, abs_neg]; exact y3⟩
    · exact ⟨fw.1, (neg_fin _).2 fw.2.2, hwx.1, neg hwx.2.2, y1, by rw [planar, abs_neg]; exact y3⟩
    · exact ⟨fw.1, (neg_fin _).2 fw.2.1, hwx.1, neg hwx.2.1, y1, by rw [planar, abs_neg]; exact y2⟩
  obtain ⟨k1, k2, k3, k4, k5, k6⟩ := key
  obtain ⟨⟨f1, n1, q1⟩, f2, n2, q2⟩ := turned_near fr hr k1 k2 k3 k4 k5 k6
  cases e
  exact ⟨texel_near f1 n1 q1 hl.x.1 hl.x.2 hl.u.1 hl.u.2 hl.width.1 hl.width.2,
    texel_near f2 n2 q2 hl.y.1 hl.y.2 hl.v.1 hl.v.2 hl.height.1 hl.height.2⟩

/-- C120: where two faces with the same texture, axes, offsets and scales meet, their texture coordinates differ by at most
a sixteenth of a texel. -/
theorem C120_seam (textures : TextureInfo) (entity : Entity F32) {planes : List (BrushPlane F32)} {a b : BrushPlane F32}
    {ga gb : PlaneGeo F32} (ha : buildPlane textures entity planes a = .ok ga) (hb : buildPlane textures entity planes b = .ok gb)
    {g : Nat} (hg : g ≤ 20) {R : ℝ} (hR : 1 ≤ R) (hR' : R ≤ 64) (hp : ∀ p ∈ planes, NearFace g R p) (hma : a ∈ planes)
    (hmb : b ∈ planes) (hn : planes.length ≤ 1024) (hca : ClearFace R (planes.map triOf) (triOf a))
    (hcb : ClearFace R (planes.map triOf) (triOf b)) {tx : Texture} (ht : textures a.texture = some tx)
    (hte : b.texture = a.texture) (hue : b.uv = a.uv) (hse : b.scale = a.scale)
    {ua va : V3 F32} {uo vo : F32} (huv : a.uv = .valve ua uo va vo) (hl : ModestLayout tx a uo vo)
    (hu : AxisLike ua) (hva : AxisLike va) :
    ∀ v ∈ ga.vertices, ∀ w ∈ gb.vertices, Close (1 / 500) (vec v.pos) (vec w.pos) → ∃ p q, v.uv = some p ∧ w.uv = some q ∧
      |F32.val p.x - F32.val q.x| * tx.width ≤ 1 / 16 ∧ |F32.val p.y - F32.val q.y| * tx.height ≤ 1 / 16 := by
  intro v hv w hw hvw
  obtain ⟨x, -, -, hx, p, hp', p1, p2⟩ := C120_valve textures entity ha hg hR hR' hp hma hn hca ht huv hl hu hva v hv
  obtain ⟨y, -, -, hy, q, hq', q1, q2⟩ := C120_valve textures entity hb hg hR hR' hp hmb hn hcb (by rw [hte]; exact ht)
    (by rw [hue]; exact huv) ⟨hl.width, hl.height, by rw [hse]; exact hl.x, by rw [hse]; exact hl.y, hl.u, hl.v⟩ hu hva w hw
  rw [hse] at q1 q2
  refine ⟨p, q, hp', hq', ?_⟩
  have near : ∀ {s t s' t' : ℝ}, |s - s'| ≤ 1 / 2000 → |t - t'| ≤ 1 / 2000 → |s - t| ≤ 1 / 500 → |s' - t'| ≤ 3 / 1000 := by
    intro s t s' t' h1 h2 h3
    rw [abs_le] at *
    constructor <;> linarith [h1.1, h1.2, h2.1, h2.2, h3.1, h3.2]
  have nx := near hx.1 hy.1 hvw.1
  have ny := near hx.2.1 hy.2.1 hvw.2.1
  have nz := near hx.2.2 hy.2.2 hvw.2.2
  have key : ∀ {c : V3 F32} {s o : F32} {n : Nat} {i j : F32}, AxisLike c → 1 / 4 ≤ |F32.val s| →
      AtTexel n i (dotR (vec c) x / F32.val s + F32.val o) → AtTexel n j (dotR (vec c) y / F32.val s + F32.val o) →
      |F32.val i - F32.val j| * n ≤ 1 / 16 := by
    intro c s o n i j hc hs h1 h2
    have d : |dotR (vec c) x - dotR (vec c) y| ≤ 9 / 1000 := by
      have e : dotR (vec c) x - dotR (vec c) y = (vec c).x * (x.x - y.x) + (vec c).y * (x.y - y.y) + (vec c).z * (x.z - y.z) := by
        simp only [dotR]; ring
      have m : ∀ {s t : ℝ}, |s| ≤ 1 → |t| ≤ 3 / 1000 → |s * t| ≤ 3 / 1000 := fun hs ht => by
        rw [abs_mul]; exact (mul_le_of_le_one_left (abs_nonneg _) hs).trans ht
      rw [e]
      have h2 := abs_add_three ((vec c).x * (x.x - y.x)) ((vec c).y * (x.y - y.y)) ((vec c).z * (x.z - y.z))
      have := m hc.2.1 nx
      have := m hc.2.2.1 ny
      have := m hc.2.2.2 nz
      unfold vec at *
      linarith
    have d' : |dotR (vec c) x / F32.val s - dotR (vec c) y / F32.val s| ≤ 36 / 1000 := by
      rw [← sub_div, abs_div, div_le_iff₀ (by linarith)]
      linarith
    have e : |F32.val i - F32.val j| * n = |F32.val i * n - F32.val j * n| := by
      rw [← sub_mul, abs_mul, abs_of_nonneg (Nat.cast_nonneg n : (0 : ℝ) ≤ n)]
    rw [e]
    have h1 := h1.2
    have h2 := h2.2
    rw [abs_le] at *
    constructor <;> linarith [h1.1, h1.2, h2.1, h2.2, d'.1, d'.2]
  exact ⟨key hu hl.x.2 p1 q1, key hva hl.y.2 p2 q2⟩


/-! ### examples -/

/-- A library that turns vectors as well as possible. -/
@[reducible] noncomputable def turnLib : F32Lib where
  recip := false
  parse _ := none
  disp _ := []
  cos a := a
  atan2 y _ := y
  rotate _ _ v := v
  rotate2 a v := ⟨F32.ofReal (Real.cos (F32.val a) * F32.val v.x - Real.sin (F32.val a) * F32.val v.y),
    F32.ofReal (Real.sin (F32.val a) * F32.val v.x + Real.cos (F32.val a) * F32.val v.y)⟩

/-- The requirement on turning can be met. -/
theorem turnLib_accurate : @AccurateTurn turnLib := by
  let _ := turnLib
  refine ⟨fun a v _ _ _ _ hx hy => ?_⟩
  have c1 := Real.abs_cos_le_one (F32.val a)
  have s1 := Real.abs_sin_le_one (F32.val a)
  have key : ∀ {t : ℝ}, |t| ≤ |F32.val v.x| + |F32.val v.y| → isFin (F32.ofReal t) ∧
      |F32.val (F32.ofReal t) - t| ≤ (|F32.val v.x| + |F32.val v.y|) / 2 ^ 20 + 1 / 2 ^ 100 := by
    intro t ht
    have hf : isFin (F32.ofReal t) := ofAbs_fin.2 (rep_of_le (abs_nonneg t) (by
      have : (2 : ℝ) ^ 100 ≤ large := by unfold large; norm_num
      linarith))
    refine ⟨hf, ?_⟩
    rw [ofReal_val hf]
    refine (rnd_err (abs_nonneg t)).trans ?_
    have tl : tiny ≤ 1 / 2 ^ 100 := by unfold tiny; norm_num
    have ul : u ≤ 1 / 2 ^ 20 := by unfold u; norm_num
    have up : (0 : ℝ) < u := u_pos
    have : u * |t| ≤ 1 / 2 ^ 20 * (|F32.val v.x| + |F32.val v.y|) := mul_le_mul ul ht (abs_nonneg _) (by norm_num)
    linarith
  have m : ∀ {c z : ℝ}, |c| ≤ 1 → |c * z| ≤ |z| := fun h => by
    rw [abs_mul]; exact mul_le_of_le_one_left (abs_nonneg _) h
  have k1 := key (t := Real.cos (F32.val a) * F32.val v.x - Real.sin (F32.val a) * F32.val v.y)
    ((abs_sub _ _).trans (add_le_add (m c1) (m s1)))
  have k2 := key (t := Real.sin (F32.val a) * F32.val v.x + Real.cos (F32.val a) * F32.val v.y)
    ((abs_add_le _ _).trans (add_le_add (m s1) (m c1)))
  exact ⟨k1.1, k2.1, k1.2, k2.2⟩

/-- A face with points in whole units is projected onto a clear plane if it is not too long. -/
theorem decided_int {t : IntFace} (h : intDot (intRaw t) (intRaw t) ≤ 10000 * 10000) (h0 : 0 < intDot (intRaw t) (intRaw t)) :
    DecidedFace (intTri t).normal := by
  have hd : lenR (intTri t).raw * lenR (intTri t).raw = ((intDot (intRaw t) (intRaw t) : Int) : ℝ) := by
    rw [len_sq, intTri_raw]; simp [dotR, intDot]
  have h0' : (0 : ℝ) < ((intDot (intRaw t) (intRaw t) : Int) : ℝ) := by exact_mod_cast h0
  have h' : ((intDot (intRaw t) (intRaw t) : Int) : ℝ) ≤ 10000 * 10000 := by exact_mod_cast h
  have ln := len_nonneg (intTri t).raw
  have lp : 0 < lenR (intTri t).raw := lt_of_le_of_ne ln fun e => by rw [← e] at hd; linarith
  have ll : lenR (intTri t).raw ≤ 10000 := by by_contra hc; nlinarith
  have k : ∀ i j : Int, Decided (1 / lenR (intTri t).raw * i) (1 / lenR (intTri t).raw * j) := by
    intro i j
    have hp : 0 < 1 / lenR (intTri t).raw := by positivity
    unfold Decided
    rw [abs_mul, abs_mul, abs_of_pos hp, ← mul_sub, abs_mul, abs_of_pos hp]
    rcases eq_or_ne |i| |j| with e | e
    · left
      have : |(i : ℝ)| = |(j : ℝ)| := by exact_mod_cast e
      rw [this]
    · right
      have h1 : 1 ≤ |(|i| - |j|)| := Int.one_le_abs (sub_ne_zero.2 e)
      have h2 : (1 : ℝ) ≤ |(|(i : ℝ)| - |(j : ℝ)|)| := by exact_mod_cast h1
      have h3 : 1 / 10000 ≤ 1 / lenR (intTri t).raw := one_div_le_one_div_of_le lp ll
      nlinarith
  unfold DecidedFace Tri.normal
  generalize lenR (intTri t).raw = l at *
  rw [intTri_raw]
  exact ⟨k _ _, k _ _, k _ _⟩

theorem bevel_tris : (∀ t ∈ bevel, triOf (singleFace t) = intTri t) ∧
    (bevel.map singleFace).map triOf = bevel.map intTri := by
  have ht : ∀ t ∈ bevel, triOf (singleFace t) = intTri t := fun t h => single_tri (bevel_near.1 t h)
  refine ⟨ht, ?_⟩
  rw [List.map_map]
  exact List.map_congr_left ht

theorem bevel_clearFace (s : IntFace) (hs : s ∈ bevel) :
    ClearFace ((28 : Int) : ℝ) ((bevel.map singleFace).map triOf) (triOf (singleFace s)) := by
  rw [bevel_tris.2, bevel_tris.1 s hs]
  exact clearCheck_true (by norm_num) (X := 60) (by norm_num) (bevel_clear s hs)

theorem bevel_decided : ∀ s ∈ bevel, intDot (intRaw s) (intRaw s) ≤ 10000 * 10000 ∧ 0 < intDot (intRaw s) (intRaw s) := by
  decide

/-- All faces of the bevelled block, also the slanted one, on a texture of 64 by 128 texels without texture axes. -/
example [AccurateTurn] (entity : Entity F32) (s : IntFace) (hs : s ∈ bevel) (geo : PlaneGeo F32)
    (h : buildPlane (fun _ => some ⟨64, 128⟩) entity (bevel.map singleFace) (singleFace s) = .ok geo) :
    ∀ v ∈ geo.vertices, ∃ x, TrueCorner ((28 : Int) : ℝ) (bevel.map intTri) (intTri s) x ∧ Close (1 / 2000) (vec v.pos) x ∧
      ∃ uv, v.uv = some uv ∧ ∃ p q, Projected (intTri s).normal x p q ∧ AtTexel 64 uv.x p ∧ AtTexel 128 uv.y q := by
  have z : F32.val (Arith.zero : F32) = 0 := by rw [is_zero.val]; norm_num
  have o : F32.val (Arith.one : F32) = 1 := by rw [is_one.val]; norm_num
  have k := C120_standard (fun _ => some ⟨64, 128⟩) entity h (g := 0) (R := ((28 : Int) : ℝ)) (by norm_num) (by norm_num)
    (by norm_num) bevel_near.2 (List.mem_map_of_mem hs) (by simp [bevel]) (bevel_clearFace s hs) rfl
    (uo := Arith.zero) (vo := Arith.zero) rfl
    ⟨by norm_num, by norm_num, ⟨trivial, by show 1 / 4 ≤ |F32.val (Arith.one : F32)|; rw [o]; norm_num⟩,
      ⟨trivial, by show 1 / 4 ≤ |F32.val (Arith.one : F32)|; rw [o]; norm_num⟩, ⟨trivial, by rw [z]; norm_num⟩,
      ⟨trivial, by rw [z]; norm_num⟩⟩
    (by rw [bevel_tris.1 s hs]; exact decided_int (bevel_decided s hs).1 (bevel_decided s hs).2)
    trivial (by show |F32.val (Arith.zero : F32)| ≤ 360; rw [z]; norm_num)
  intro v hv
  obtain ⟨x, hx, -, hc, uv, huv, p, q, hpr, h1, h2⟩ := k v hv
  rw [bevel_tris.2, bevel_tris.1 s hs] at hx
  rw [bevel_tris.1 s hs] at hpr
  refine ⟨x, hx, hc, uv, huv, p, q, hpr, ?_⟩
  have e1 : F32.val (singleFace s).rotation = 0 := z
  have e2 : F32.val (singleFace s).scale.x = 1 := o
  have e3 : F32.val (singleFace s).scale.y = 1 := o
  rw [e1, e2, z] at h1
  rw [e1, e3, z] at h2
  simp only [zero_mul, zero_div, Real.cos_zero, Real.sin_zero, one_mul, sub_zero, zero_add, add_zero, div_one] at h1 h2
  exact ⟨h1, h2⟩

/-- A face of the block with texture axes, the texture shown twice as large and moved by five texels. -/
noncomputable def laidFace (s : IntFace) : BrushPlane F32 :=
  { singleFace s with
    uv := .valve (singlePoint ⟨1, 0, 0⟩) (F32.ofReal ((5 : Int) : ℝ)) (singlePoint ⟨0, 0, -1⟩) (F32.ofReal ((-5 : Int) : ℝ))
    scale := ⟨F32.ofReal ((2 : Int) : ℝ), F32.ofReal ((-2 : Int) : ℝ)⟩ }

theorem laid_layout (s : IntFace) : ModestLayout ⟨64, 128⟩ (laidFace s) (F32.ofReal ((5 : Int) : ℝ)) (F32.ofReal ((-5 : Int) : ℝ)) := by
  have k : ∀ z : Int, z.natAbs < 100 → isFin (F32.ofReal (z : ℝ)) ∧ F32.val (F32.ofReal (z : ℝ)) = z := fun z hz =>
    ⟨(is_ofReal (by omega)).fin, (is_ofReal (by omega)).val⟩
  refine ⟨by norm_num, by norm_num, ⟨(k 2 (by norm_num)).1, ?_⟩, ⟨(k (-2) (by norm_num)).1, ?_⟩,
    ⟨(k 5 (by norm_num)).1, ?_⟩, ⟨(k (-5) (by norm_num)).1, ?_⟩⟩
  · show 1 / 4 ≤ |F32.val (F32.ofReal ((2 : Int) : ℝ))|
    rw [(k 2 (by norm_num)).2]; norm_num
  · show 1 / 4 ≤ |F32.val (F32.ofReal ((-2 : Int) : ℝ))|
    rw [(k (-2) (by norm_num)).2]; norm_num
  · rw [(k 5 (by norm_num)).2]; norm_num
  · rw [(k (-5) (by norm_num)).2]; norm_num

theorem single_axis {n : V3 Int} (h : n.x.natAbs ≤ 1 ∧ n.y.natAbs ≤ 1 ∧ n.z.natAbs ≤ 1) : AxisLike (singlePoint n) ∧
    vec (singlePoint n) = ⟨n.x, n.y, n.z⟩ := by
  have k : ∀ z : Int, z.natAbs ≤ 1 → isFin (F32.ofReal (z : ℝ)) ∧ F32.val (F32.ofReal (z : ℝ)) = z ∧ |(z : ℝ)| ≤ 1 := fun z hz => by
    refine ⟨(is_ofReal (by omega)).fin, (is_ofReal (by omega)).val, ?_⟩
    have h : |z| ≤ 1 := abs_le.2 ⟨by omega, by omega⟩
    exact_mod_cast h
  obtain ⟨x1, x2, x3⟩ := k _ h.1
  obtain ⟨y1, y2, y3⟩ := k _ h.2.1
  obtain ⟨z1, z2, z3⟩ := k _ h.2.2
  have e : vec (singlePoint n) = ⟨n.x, n.y, n.z⟩ := by
    show (⟨F32.val _, F32.val _, F32.val _⟩ : V3 ℝ) = _
    simp only [singlePoint, x2, y2, z2]
  exact ⟨⟨⟨x1, y1, z1⟩, by simp only [singlePoint]; rw [x2]; exact x3, by simp only [singlePoint]; rw [y2]; exact y3,
    by simp only [singlePoint]; rw [z2]; exact z3⟩, e⟩

theorem laid_near : ∀ p ∈ bevel.map laidFace, NearFace 0 ((28 : Int) : ℝ) p := by
  intro p hp
  obtain ⟨t, ht, rfl⟩ := List.mem_map.1 hp
  obtain ⟨⟨n0, n1, n2, hg, hs⟩, hl⟩ := bevel_near.2 _ (List.mem_map_of_mem (f := singleFace) ht)
  exact ⟨⟨n0, n1, n2, ⟨hg.fine, hg.p0, hg.p1, hg.p2⟩, hs⟩, hl⟩

theorem laid_tris : (bevel.map laidFace).map triOf = (bevel.map singleFace).map triOf := by
  rw [List.map_map, List.map_map]; rfl

/-- The corners of every face of the block with these axes. -/
example (entity : Entity F32) (s : IntFace) (hs : s ∈ bevel) (geo : PlaneGeo F32)
    (h : buildPlane (fun _ => some ⟨64, 128⟩) entity (bevel.map laidFace) (laidFace s) = .ok geo) :
    ∀ v ∈ geo.vertices, ∃ x, TrueCorner ((28 : Int) : ℝ) (bevel.map intTri) (intTri s) x ∧ Close (1 / 2000) (vec v.pos) x ∧
      ∃ uv, v.uv = some uv ∧ AtTexel 64 uv.x (x.x / 2 + 5) ∧ AtTexel 128 uv.y (x.z / 2 - 5) := by
  have k : ∀ z : Int, z.natAbs < 100 → F32.val (F32.ofReal (z : ℝ)) = z := fun z hz => (is_ofReal (by omega)).val
  intro v hv
  have ax := single_axis (n := ⟨1, 0, 0⟩) (by decide)
  have ay := single_axis (n := ⟨0, 0, -1⟩) (by decide)
  obtain ⟨x, hx, -, hc, uv, huv, h1, h2⟩ := C120_valve (fun _ => some ⟨64, 128⟩) entity h (g := 0) (R := ((28 : Int) : ℝ))
    (by norm_num) (by norm_num) (by norm_num) laid_near (List.mem_map_of_mem hs) (by simp [bevel])
    (by rw [laid_tris]; exact bevel_clearFace s hs) rfl rfl (laid_layout s) ax.1 ay.1 v hv
  rw [laid_tris, bevel_tris.2, show triOf (laidFace s) = triOf (singleFace s) from rfl, bevel_tris.1 s hs] at hx
  refine ⟨x, hx, hc, uv, huv, ?_⟩
  rw [ax.2, show F32.val (laidFace s).scale.x = _ from k 2 (by norm_num), k 5 (by norm_num)] at h1
  rw [ay.2, show F32.val (laidFace s).scale.y = _ from k (-2) (by norm_num), k (-5) (by norm_num)] at h2
  constructor
  · have e : dotR ⟨((1 : Int) : ℝ), ((0 : Int) : ℝ), ((0 : Int) : ℝ)⟩ x / ((2 : Int) : ℝ) + ((5 : Int) : ℝ) = x.x / 2 + 5 := by
      simp [dotR]
    rwa [e] at h1
  · have e : dotR ⟨((0 : Int) : ℝ), ((0 : Int) : ℝ), ((-1 : Int) : ℝ)⟩ x / ((-2 : Int) : ℝ) + ((-5 : Int) : ℝ) = x.z / 2 - 5 := by
      simp [dotR]; ring
    rwa [e] at h2

/-- Where two faces of the block meet, the texture goes on. -/
example (entity : Entity F32) (s t : IntFace) (hs : s ∈ bevel) (ht : t ∈ bevel) (ga gb : PlaneGeo F32)
    (ha : buildPlane (fun _ => some ⟨64, 128⟩) entity (bevel.map laidFace) (laidFace s) = .ok ga)
    (hb : buildPlane (fun _ => some ⟨64, 128⟩) entity (bevel.map laidFace) (laidFace t) = .ok gb) :
    ∀ v ∈ ga.vertices, ∀ w ∈ gb.vertices, Close (1 / 500) (vec v.pos) (vec w.pos) → ∃ p q, v.uv = some p ∧ w.uv = some q ∧
      |F32.val p.x - F32.val q.x| * (64 : Nat) ≤ 1 / 16 ∧ |F32.val p.y - F32.val q.y| * (128 : Nat) ≤ 1 / 16 :=
  C120_seam (fun _ => some ⟨64, 128⟩) entity ha hb (g := 0) (R := ((28 : Int) : ℝ))
    (by norm_num) (by norm_num) (by norm_num) laid_near (List.mem_map_of_mem hs) (List.mem_map_of_mem ht) (by simp [bevel])
    (by rw [laid_tris]; exact bevel_clearFace s hs) (by rw [laid_tris]; exact bevel_clearFace t ht) rfl rfl rfl rfl rfl
    (laid_layout s) (single_axis (by decide)).1 (single_axis (by decide)).1

end

end Quarch
