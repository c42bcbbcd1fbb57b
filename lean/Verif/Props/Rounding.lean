import Verif.Proofs.Rounding
import Verif.Props.Geo
/-
C81: where the corners are with rounding.
-/
set_option linter.unusedSectionVars false
namespace Quarch
open Spec Geo Rounding

section
variable {F : Type} [Arith F] [Rounding F]
open Err

theorem unit_sq {w : V3 ℝ} (h : 0 < lenR w) : dotR (smulR (1 / lenR w) w) (smulR (1 / lenR w) w) = 1 := by
  have := len_sq w
  have e : dotR (smulR (1 / lenR w) w) (smulR (1 / lenR w) w) = (1 / lenR w) * (1 / lenR w) * dotR w w := by
    simp only [dotR, smulR]; ring
  rw [e, ← this]
  field_simp

theorem unit_within {n : V3 ℝ} (h : dotR n n = 1) : Within 1 n := by
  have hl : lenR n = 1 := by unfold lenR; rw [h]; exact Real.sqrt_one
  have := coord_len n
  rwa [hl] at this

/-- The determinant of unit vectors is at most one. -/
theorem det_le_one {a b c : V3 ℝ} (ha : dotR a a = 1) (hb : dotR b b = 1) (hc : dotR c c = 1) :
    dotR (crossR a b) c ≤ 1 := by
  have h1 : dotR (crossR a b) (crossR a b) ≤ 1 := by
    have : dotR (crossR a b) (crossR a b) = dotR a a * dotR b b - dotR a b * dotR a b := by
      simp only [dotR, crossR]; ring
    rw [this, ha, hb]; nlinarith [mul_self_nonneg (dotR a b)]
  generalize crossR a b = w at *
  unfold dotR at *
  nlinarith [mul_self_nonneg (w.x - c.x), mul_self_nonneg (w.y - c.y), mul_self_nonneg (w.z - c.z)]

/-- What is known about the computed plane of a good face. -/
structure Computed (M k : ℝ) (p : BrushPlane F) : Prop where
  fin : FinV (faceNormal p)
  le : Within (101 / 100) (valV (faceNormal p))
  near : Within (175 * k * u) (subR (valV (faceNormal p)) (unitNormal p))
  distFin : Fin (faceDist p)
  distLe : |val (faceDist p)| ≤ 4 * M
  distNear : |val (faceDist p) - dotR (valV (faceNormal p)) (valV p.v0)| ≤ 122 / 10 * u * M
  unit : dotR (unitNormal p) (unitNormal p) = 1

theorem computed {M k : ℝ} {p : BrushPlane F} (hM : 1 ≤ M) (hM' : M ≤ 2 ^ 25) (hk : 1 ≤ k) (hk' : k ≤ 512)
    (h : GoodFace M k p) : Computed M k p := by
  obtain ⟨h1, h2, h3⟩ := normal_err hM hM' hk hk' h.fin0 h.fin1 h.fin2 h.le0 h.le1 h.le2 h.area
  have hf : Fin (faceDist p) := dot_ok h1 h.fin0 (by norm_num) h2 h.le0 (by rw [large_val]; linarith)
  have e := dot_err' hf (by norm_num) h2 h.le0
  have e' := dot_le (by norm_num) h2 h.le0
  have tl := tiny_le
  have e2 : |val (faceDist p) - dotR (valV (faceNormal p)) (valV p.v0)| ≤ 122 / 10 * u * M := by
    refine e.trans ?_
    unfold u at *; linarith
  refine ⟨h1, h2, h3, hf, ?_, e2, ?_⟩
  · have := abs_le_of e2
    unfold u at *; linarith
  · refine unit_sq ?_
    have := h.area
    have : 1 ≤ M * M := by nlinarith
    have : 0 ≤ lenR (edgeNormal p) := len_nonneg _
    nlinarith

/-- Height above the true plane, from the position before recentring and the computed plane. -/
theorem height_err {M k : ℝ} {p : BrushPlane F} {x v : V3 ℝ} (hM : 1 ≤ M) (hk : 1 ≤ k) (h : Computed M k p)
    (h0 : Within M (valV p.v0)) (hx : Within M x) (hxv : Within (4 * u * M) (subR x v)) :
    |height p x - (dotR (valV (faceNormal p)) v - val (faceDist p))| ≤ 1075 * k * u * M := by
  have up := u_pos
  have hxp : Within (2 * M) (subR x (valV p.v0)) :=
    ⟨(abs_sub _ _).trans (by linarith [hx.1, h0.1]), (abs_sub _ _).trans (by linarith [hx.2.1, h0.2.1]),
      (abs_sub _ _).trans (by linarith [hx.2.2, h0.2.2])⟩
  have e1 := dot_le (by positivity) h.near hxp
  have e2 := dot_le (by norm_num) h.le hxv
  have e3 := h.distNear
  have e : height p x - (dotR (valV (faceNormal p)) v - val (faceDist p)) =
      - dotR (subR (valV (faceNormal p)) (unitNormal p)) (subR x (valV p.v0)) +
      dotR (valV (faceNormal p)) (subR x v) + (val (faceDist p) - dotR (valV (faceNormal p)) (valV p.v0)) := by
    unfold height
    simp only [dotR, subR]; ring
  rw [e]
  refine (abs_add_le _ _).trans ?_
  have := abs_add_le (- dotR (subR (valV (faceNormal p)) (unitNormal p)) (subR x (valV p.v0)))
    (dotR (valV (faceNormal p)) (subR x v))
  rw [abs_neg] at this
  have hz : 0 ≤ u * M := by positivity
  have : u * M ≤ k * (u * M) := le_mul_of_one_le_left hz hk
  linarith

variable [Platform] [LawfulEq F]

/-- C81: with rounding, corners are inside the brush up to 0.001 and rounding. -/
theorem C81_corner_inside (textures : TextureInfo) (entity : Entity F) (planes : List (BrushPlane F))
    (plane : BrushPlane F) (geo : PlaneGeo F) (h : buildPlane textures entity planes plane = .ok geo)
    (M k : ℝ) (hM : 1 ≤ M) (hM' : M ≤ 2 ^ 25) (hk : 1 ≤ k) (hk' : k ≤ 512) (hg : ∀ p ∈ planes, GoodFace M k p)
    (v : Vertex F) (hv : v ∈ geo.vertices) (hf : FinV v.pos) (hw : Within M (valV v.pos))
    (hc : Within M (valV geo.center)) (p : BrushPlane F) (hp : p ∈ planes) :
    height p (valV v.pos) ≤ 1 / 1000 + 1200 * k * u * M := by
  obtain ⟨pts, hperm, hfound, -⟩ := C20_corners_distinct_complete textures entity planes plane geo h
  obtain ⟨y, hy, e⟩ := List.mem_map.1 (hperm.mem_iff.1 (List.mem_map_of_mem hv))
  rw [← e] at hf hw ⊢
  obtain ⟨fy, -, hd⟩ := recentre_err hf hc hw
  have hcp := computed hM hM' hk hk' (hg p hp)
  have he := height_err hM hk hcp (hg p hp).le0 hw hd
  have hwy : Within (2 * (4 * M)) (valV y) := by
    have r : ∀ {a b : ℝ}, |a - b| ≤ 4 * u * M → |a| ≤ M → |b| ≤ 2 * (4 * M) := fun h1 h2 => by
      rw [abs_sub_comm] at h1
      have := abs_le_of h1
      unfold u at *; linarith
    exact ⟨r hd.1 hw.1, r hd.2.1 hw.2.1, r hd.2.2 hw.2.2⟩
  have hb := behind_err (M := 4 * M) (by linarith) (by linarith) hcp.fin hcp.le hcp.distFin hcp.distLe fy hwy
    ((hfound y hy).2 p hp)
  have := (abs_le.1 he).2
  have hz : 0 ≤ u * M := mul_nonneg u_pos.le (by linarith)
  have : u * M ≤ k * (u * M) := le_mul_of_one_le_left hz hk
  linarith

/-- C81: with rounding, a corner lies on its face and on two further faces up to rounding, the more so the larger
the determinant of their normals. -/
theorem C81_corner_on_planes (textures : TextureInfo) (entity : Entity F) (planes : List (BrushPlane F))
    (plane : BrushPlane F) (geo : PlaneGeo F) (h : buildPlane textures entity planes plane = .ok geo)
    (M k : ℝ) (hM : 1 ≤ M) (hM' : M ≤ 2 ^ 25) (hk : 1 ≤ k) (hk' : k ≤ 512) (hg : ∀ p ∈ planes, GoodFace M k p)
    (hpl : plane ∈ planes)
    (v : Vertex F) (hv : v ∈ geo.vertices) (hf : FinV v.pos) (hw : Within M (valV v.pos))
    (hc : Within M (valV geo.center)) :
    ∃ p1 ∈ planes, ∃ p2 ∈ planes, ∃ det : ℝ, 999 / 1000000 ≤ det ∧
      |det - dotR (crossR (unitNormal plane) (unitNormal p1)) (unitNormal p2)| ≤ 3240 * k * u ∧
      |height plane (valV v.pos)| ≤ 2000 * k * u * M / det ∧
      |height p1 (valV v.pos)| ≤ 2000 * k * u * M / det ∧
      |height p2 (valV v.pos)| ≤ 2000 * k * u * M / det := by
  obtain ⟨pts, hperm, hfound, -⟩ := C20_corners_distinct_complete textures entity planes plane geo h
  obtain ⟨y, hy, e⟩ := List.mem_map.1 (hperm.mem_iff.1 (List.mem_map_of_mem hv))
  rw [← e] at hf hw ⊢
  obtain ⟨fy, -, hd⟩ := recentre_err hf hc hw
  obtain ⟨⟨p1, hp1, p2, hp2, hm⟩, -⟩ := hfound y hy
  have c0 := computed hM hM' hk hk' (hg plane hpl)
  have c1 := computed hM hM' hk hk' (hg p1 hp1)
  have c2 := computed hM hM' hk hk' (hg p2 hp2)
  obtain ⟨det, hdl, -, hde, hq⟩ := meet_err (M := 4 * M) (by linarith) ⟨c0.fin, c0.le, c0.distLe⟩
    ⟨c1.fin, c1.le, c1.distLe⟩ ⟨c2.fin, c2.le, c2.distLe⟩ fy hm
  have up := u_pos
  have hdet : |det - dotR (crossR (unitNormal plane) (unitNormal p1)) (unitNormal p2)| ≤ 3240 * k * u := by
    have hδ : 0 ≤ 175 * k * u := by positivity
    have pr : ∀ {a b A B : ℝ}, |a - A| ≤ 175 * k * u → |b - B| ≤ 175 * k * u → |b| ≤ 101 / 100 → |A| ≤ 1 →
        |a * b - A * B| ≤ 201 / 100 * (175 * k * u) := by
      intro a b A B h1 h2 h3 h4
      have e1 : a * b - A * B = (a - A) * b + A * (b - B) := by ring
      have e2 : |(a - A) * b| ≤ 175 * k * u * (101 / 100) := by
        rw [abs_mul]; exact mul_le_mul h1 h3 (abs_nonneg _) hδ
      have e3 : |A * (b - B)| ≤ 1 * (175 * k * u) := by
        rw [abs_mul]; exact mul_le_mul h4 h2 (abs_nonneg _) (by norm_num)
      rw [e1]
      refine (abs_add_le _ _).trans ?_
      linarith
    have n0 := unit_within c0.unit
    have n1 := unit_within c1.unit
    have near : Within (402 / 100 * (175 * k * u)) (subR (crossR (valV (faceNormal plane)) (valV (faceNormal p1)))
        (crossR (unitNormal plane) (unitNormal p1))) := by
      have d2 : ∀ {a b c d : ℝ}, |a - b| ≤ 201 / 100 * (175 * k * u) → |c - d| ≤ 201 / 100 * (175 * k * u) →
          |(a - c) - (b - d)| ≤ 402 / 100 * (175 * k * u) := by
        intro a b c d h1 h2
        have : (a - c) - (b - d) = (a - b) - (c - d) := by ring
        rw [this]
        refine (abs_sub _ _).trans ?_
        linarith
      refine ⟨d2 (pr c0.near.2.1 c1.near.2.2 c1.le.2.2 n0.2.1) (pr c0.near.2.2 c1.near.2.1 c1.le.2.1 n0.2.2),
        d2 (pr c0.near.2.2 c1.near.1 c1.le.1 n0.2.2) (pr c0.near.1 c1.near.2.2 c1.le.2.2 n0.1),
        d2 (pr c0.near.1 c1.near.2.1 c1.le.2.1 n0.1) (pr c0.near.2.1 c1.near.1 c1.le.1 n0.2.1)⟩
    have cr : Within 2 (crossR (unitNormal plane) (unitNormal p1)) := by
      have d3 : ∀ {a b c d : ℝ}, |a| ≤ 1 → |b| ≤ 1 → |c| ≤ 1 → |d| ≤ 1 → |a * b - c * d| ≤ 2 := by
        intro a b c d h1 h2 h3 h4
        refine (abs_sub _ _).trans ?_
        rw [abs_mul, abs_mul]
        have := mul_le_mul h1 h2 (abs_nonneg _) (by norm_num)
        have := mul_le_mul h3 h4 (abs_nonneg _) (by norm_num)
        linarith
      exact ⟨d3 n0.2.1 n1.2.2 n0.2.2 n1.2.1, d3 n0.2.2 n1.1 n0.1 n1.2.2, d3 n0.1 n1.2.1 n0.2.1 n1.1⟩
    have e1 := dot_le (by positivity) near c2.le
    have e2 := dot_le (by norm_num) cr c2.near
    have e3 : det - dotR (crossR (unitNormal plane) (unitNormal p1)) (unitNormal p2) =
        (det - dotR (crossR (valV (faceNormal plane)) (valV (faceNormal p1))) (valV (faceNormal p2))) +
        dotR (subR (crossR (valV (faceNormal plane)) (valV (faceNormal p1))) (crossR (unitNormal plane) (unitNormal p1)))
          (valV (faceNormal p2)) +
        dotR (crossR (unitNormal plane) (unitNormal p1)) (subR (valV (faceNormal p2)) (unitNormal p2)) := by
      simp only [dotR, subR]; ring
    rw [e3]
    refine (abs_add_le _ _).trans ?_
    have := abs_add_le (det - dotR (crossR (valV (faceNormal plane)) (valV (faceNormal p1))) (valV (faceNormal p2)))
      (dotR (subR (crossR (valV (faceNormal plane)) (valV (faceNormal p1))) (crossR (unitNormal plane) (unitNormal p1)))
          (valV (faceNormal p2)))
    have : u ≤ k * u := le_mul_of_one_le_left up.le hk
    linarith
  have hdu : det ≤ 11 / 10 := by
    have := (abs_le.1 hdet).2
    have := det_le_one c0.unit c1.unit c2.unit
    have : k * u ≤ 512 * u := mul_le_mul_of_nonneg_right hk' up.le
    unfold u at *; linarith
  have hpos : 0 < det := by linarith
  have fin : ∀ q ∈ planes, q = plane ∨ q = p1 ∨ q = p2 →
      |height q (valV (recentre geo.center y))| ≤ 2000 * k * u * M / det := by
    intro q hqm hq3
    have cq := computed hM hM' hk hk' (hg q hqm)
    have he := height_err hM hk cq (hg q hqm).le0 hw hd
    have hh := hq q hq3
    rw [le_div_iff₀ hpos]
    have e1 := abs_le_of he
    have e2 : |height q (valV (recentre geo.center y))| * det ≤
        (|dotR (valV (faceNormal q)) (valV y) - val (faceDist q)| + 1075 * k * u * M) * det :=
      mul_le_mul_of_nonneg_right e1 hpos.le
    have e3 : 1075 * k * u * M * det ≤ 1075 * k * u * M * (11 / 10) :=
      mul_le_mul_of_nonneg_left hdu (by positivity)
    have : u * M ≤ k * (u * M) := le_mul_of_one_le_left (by positivity) hk
    nlinarith
  exact ⟨p1, hp1, p2, hp2, det, hdl, hdet, fin plane hpl (.inl rfl), fin p1 hp1 (.inr (.inl rfl)),
    fin p2 hp2 (.inr (.inr rfl))⟩

end
end Quarch
