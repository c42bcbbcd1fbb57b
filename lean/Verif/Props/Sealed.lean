import Verif.Spec.Sealed
import Verif.Props.Outline
import Verif.Props.Watertight
/-
C119: in single precision the triangles of a firm brush close up to a thousandth of a unit.
-/
set_option linter.unusedSectionVars false
namespace Quarch
open Quarch.Spec Quarch.Spec.F32 Quarch.Geo

section
variable [F32Lib]
open Err

/-- The exact plane of a face; only the points matter. -/
noncomputable def exactPlane (p : BrushPlane F32) : BrushPlane ℝ where
  v0 := vec p.v0
  v1 := vec p.v1
  v2 := vec p.v2
  texture := []
  uv := .quake 0 0
  rotation := 0
  scale := ⟨1, 1⟩
  extra := .none

theorem exactPlane_raw (p : BrushPlane F32) : rawNormal (exactPlane p) = (triOf p).raw := rfl

theorem exactPlane_ht (p : BrushPlane F32) (x : V3 ℝ) : Poly.ht (exactPlane p) x = dotR (triOf p).raw (subR x (triOf p).1) := rfl

theorem tri_above (t : Tri) (x : V3 ℝ) : t.above x = 1 / lenR t.raw * dotR t.raw (subR x t.1) := by
  simp only [Tri.above, Tri.normal, dotR, smulR, subR]; ring

theorem tri_spread (s t r : Tri) : Tri.spread s t r =
    1 / lenR s.raw * (1 / lenR t.raw) * (1 / lenR r.raw) * detR s.raw t.raw r.raw := by
  simp only [Tri.spread, Tri.normal, detR, dotR, crossR, smulR]; ring

theorem nearFace_len {g : Nat} (hg : g ≤ 20) {R : ℝ} (hR : 1 ≤ R) (hR' : R ≤ 64) {p : BrushPlane F32}
    (h : NearFace g R p) : 0 < lenR (triOf p).raw := by
  have hu := (nearFace_good hg hR hR' h).unit
  refine lt_of_le_of_ne (len_nonneg _) fun e => ?_
  have hz : unitNormal p = smulR (1 / lenR (triOf p).raw) (triOf p).raw := rfl
  rw [hz, ← e] at hu
  simp [dotR, smulR] at hu

/-- Three independent directions determine a point. -/
theorem point_once {a b c x y : V3 ℝ} (h : detR a b c ≠ 0) (e0 : dotR a x = dotR a y) (e1 : dotR b x = dotR b y)
    (e2 : dotR c x = dotR c y) : x = y := by
  simp only [detR, dotR, crossR] at *
  have kx := mul_left_cancel₀ h (b := x.x) (c := y.x) (by
    linear_combination (b.y * c.z - b.z * c.y) * e0 + (c.y * a.z - c.z * a.y) * e1 + (a.y * b.z - a.z * b.y) * e2)
  have ky := mul_left_cancel₀ h (b := x.y) (c := y.y) (by
    linear_combination (b.z * c.x - b.x * c.z) * e0 + (c.z * a.x - c.x * a.z) * e1 + (a.z * b.x - a.x * b.z) * e2)
  have kz := mul_left_cancel₀ h (b := x.z) (c := y.z) (by
    linear_combination (b.x * c.y - b.y * c.x) * e0 + (c.x * a.y - c.y * a.x) * e1 + (a.x * b.y - a.y * b.x) * e2)
  cases x; cases y
  simp_all

variable {g : Nat} {R : ℝ} {planes : List (BrushPlane F32)}

theorem firm_len (hf : ClearBody g R planes) {p : BrushPlane F32} (hp : p ∈ planes) : 0 < lenR (triOf p).raw :=
  nearFace_len hf.grid hf.least hf.most (hf.near p hp)

theorem firm_ht (hf : ClearBody g R planes) {p : BrushPlane F32} (hp : p ∈ planes) (x : V3 ℝ) :
    Poly.ht (exactPlane p) x = lenR (triOf p).raw * (triOf p).above x := by
  have := firm_len hf hp
  rw [exactPlane_ht, tri_above]
  field_simp

theorem firm_ht_nonpos (hf : ClearBody g R planes) {p : BrushPlane F32} (hp : p ∈ planes) (x : V3 ℝ) :
    Poly.ht (exactPlane p) x ≤ 0 ↔ (triOf p).above x ≤ 0 := by
  rw [firm_ht hf hp]
  exact mul_nonpos_iff_pos_imp_nonpos.trans ⟨fun h => h.1 (firm_len hf hp), fun h => ⟨fun _ => h, fun h' => (firm_len hf hp).le⟩⟩

theorem firm_ht_zero (hf : ClearBody g R planes) {p : BrushPlane F32} (hp : p ∈ planes) (x : V3 ℝ) :
    Poly.ht (exactPlane p) x = 0 ↔ (triOf p).above x = 0 := by
  rw [firm_ht hf hp, mul_eq_zero]
  exact ⟨fun h => h.resolve_left (firm_len hf hp).ne', .inr⟩

theorem firm_det (hf : ClearBody g R planes) {p q r : BrushPlane F32} (hp : p ∈ planes) (hq : q ∈ planes) (hr : r ∈ planes) :
    detR (rawNormal (exactPlane p)) (rawNormal (exactPlane q)) (rawNormal (exactPlane r)) ≠ 0 ↔
      Tri.spread (triOf p) (triOf q) (triOf r) ≠ 0 := by
  have h1 := firm_len hf hp
  have h2 := firm_len hf hq
  have h3 := firm_len hf hr
  simp only [exactPlane_raw]
  rw [tri_spread, mul_ne_zero_iff]
  exact ⟨fun h => ⟨by positivity, h⟩, fun h => h.2⟩

/-- The corners of a face are its true corners. -/
theorem firm_corner (hf : ClearBody g R planes) {f : BrushPlane F32} (hm : f ∈ planes) (x : V3 ℝ) :
    Poly.Corner (planes.map exactPlane) (exactPlane f) x ↔ TrueCorner R (planes.map triOf) (triOf f) x := by
  constructor
  · rintro ⟨hin, h0, p', hp', q', hq', hd, hp0, hq0⟩
    obtain ⟨p, hp, rfl⟩ := List.mem_map.1 hp'
    obtain ⟨q, hq, rfl⟩ := List.mem_map.1 hq'
    rw [firm_ht_zero hf hm] at h0
    rw [firm_ht_zero hf hp] at hp0
    rw [firm_ht_zero hf hq] at hq0
    rw [firm_det hf hm hp hq] at hd
    have hin' : ∀ s ∈ planes, (triOf s).above x ≤ 0 := fun s hs =>
      (firm_ht_nonpos hf hs x).1 (hin _ (List.mem_map_of_mem hs))
    have key : ∀ p ∈ planes, ∀ q ∈ planes, (triOf p).above x = 0 → (triOf q).above x = 0 →
        0 < Tri.spread (triOf f) (triOf p) (triOf q) → TrueCorner R (planes.map triOf) (triOf f) x := by
      intro p hp q hq hp0 hq0 hpos
      have hbig := (hf.firm f hm p hp q hq).resolve_left (not_le.2 hpos)
      obtain ⟨y, y0, y1, y2, hy⟩ := (hf.clear f hm _ (List.mem_map_of_mem hp) _ (List.mem_map_of_mem hq)).resolve_left
        (not_le.2 hbig)
      have e : y = x := by
        have k : ∀ {t : BrushPlane F32}, t ∈ planes → (triOf t).above y = 0 → (triOf t).above x = 0 →
            dotR (triOf t).raw y = dotR (triOf t).raw x := by
          intro t ht a b
          rw [← firm_ht_zero hf ht, exactPlane_ht, dotR_sub] at a b
          linarith
        exact point_once (by have := (firm_det hf hm hp hq).2 hpos.ne'; simpa only [exactPlane_raw] using this)
          (k hm y0 h0) (k hp y1 hp0) (k hq y2 hq0)
      subst e
      rcases hy with ⟨hd, hs, -⟩ | ⟨_, -, -, -, s, hs, hge⟩
      · refine ⟨hd, ⟨_, List.mem_map_of_mem hp, _, List.mem_map_of_mem hq, h0, hp0, hq0, hs⟩, fun s hs => ?_⟩
        obtain ⟨r, hr, rfl⟩ := List.mem_map.1 hs
        exact hin' r hr
      · obtain ⟨r, hr, rfl⟩ := List.mem_map.1 hs
        have := hin' r hr
        linarith
    rcases lt_or_gt_of_ne hd with h | h
    · refine key q hq p hp hq0 hp0 ?_
      have e : Tri.spread (triOf f) (triOf q) (triOf p) = - Tri.spread (triOf f) (triOf p) (triOf q) := by
        simp only [Tri.spread, dotR, crossR]; ring
      rw [e]; linarith
    · exact key p hp q hq hp0 hq0 h
  · rintro ⟨-, ⟨t1, h1, t2, h2, x0, x1, x2, hs⟩, hin⟩
    obtain ⟨p, hp, rfl⟩ := List.mem_map.1 h1
    obtain ⟨q, hq, rfl⟩ := List.mem_map.1 h2
    refine ⟨fun s hs => ?_, (firm_ht_zero hf hm x).2 x0, _, List.mem_map_of_mem hp, _, List.mem_map_of_mem hq,
      (firm_det hf hm hp hq).2 ?_, (firm_ht_zero hf hp x).2 x1, (firm_ht_zero hf hq x).2 x2⟩
    · obtain ⟨r, hr, rfl⟩ := List.mem_map.1 hs
      exact (firm_ht_nonpos hf hr x).2 (hin _ (List.mem_map_of_mem hr))
    · have := hf.least
      intro e
      rw [e] at hs
      linarith

theorem firm_bounded (hf : ClearBody g R planes) : Poly.Bounded (planes.map exactPlane) := by
  obtain ⟨M, hM⟩ := hf.bounded
  exact ⟨M, fun x hx => hM x fun p hp => (firm_ht_nonpos hf hp x).1 (hx _ (List.mem_map_of_mem hp))⟩

theorem firm_solid (hf : ClearBody g R planes) : Poly.Solid (planes.map exactPlane) := by
  obtain ⟨y, hy⟩ := hf.solid
  refine ⟨y, fun q hq => ?_⟩
  obtain ⟨p, hp, rfl⟩ := List.mem_map.1 hq
  rw [firm_ht hf hp]
  exact mul_neg_of_pos_of_neg (firm_len hf hp) (hy p hp)

theorem firm_points (hf : ClearBody g R planes) : ∀ q ∈ planes.map exactPlane, NonDegenerate q := by
  intro q hq e
  obtain ⟨p, hp, rfl⟩ := List.mem_map.1 hq
  have := firm_len hf hp
  rw [← exactPlane_raw, e] at this
  simp [lenR, dotR, zeroR] at this

variable [Platform] [AccurateAtan2]

/-- The corners of a face of a firm brush, each built corner with the true corner it stands for, in order. -/
theorem firm_outline (hf : FirmBrush g R planes) {textures : TextureInfo} {entity : Entity F32} {f : BrushPlane F32}
    (hm : f ∈ planes) {face : PlaneGeo F32} (h : buildPlane textures entity planes f = .ok face) :
    ∃ xs : List (V3 ℝ), xs.Nodup ∧ List.Forall₂ (fun p x => Close (1 / 2000) (vec p) x) (face.vertices.map (·.pos)) xs ∧
      Turns (rawNormal (exactPlane f)) xs ∧ ∀ x, x ∈ xs ↔ Poly.Corner (planes.map exactPlane) (exactPlane f) x := by
  obtain ⟨xs, hnd, hx, hl, hsh⟩ := hf.corners f hm
  have ha : xs.Pairwise Apart := by
    refine hnd.imp_of_mem fun {a b} ha hb hne => ?_
    by_contra hcon
    unfold Apart at hcon
    push Not at hcon
    obtain ⟨c1, c2, c3⟩ := hcon
    exact hne (hf.far f hm f hm a b ((hx a).1 ha) ((hx b).1 hb) ⟨by linarith, by linarith, by linarith⟩)
  obtain ⟨xs', hpm, h1, h2, -⟩ := C118_outline textures entity h hf.grid hf.least hf.most hf.near hm hf.count (hf.clear f hm)
    (hf.simple f hm) xs hx ha hl hsh
  refine ⟨xs', hpm.nodup_iff.2 hnd, by rwa [List.forall₂_map_left_iff], ?_, fun x => by
    rw [hpm.mem_iff, hx, firm_corner hf.toClearBody hm]⟩
  intro i j k a b c hij hjk ha hb hc
  have h3 := h2 i j k a b c hij hjk ha hb hc
  have e : dotR (crossR (subR b a) (subR c a)) (triOf f).normal =
      1 / lenR (triOf f).raw * Poly.tri (rawNormal (exactPlane f)) a b c := by
    rw [exactPlane_raw]
    simp only [Poly.tri, Tri.normal, dotR, smulR]; ring
  rw [e] at h3
  have hl := firm_len hf.toClearBody hm
  by_contra hcon
  have := mul_nonneg (by positivity : (0 : ℝ) ≤ 1 / lenR (triOf f).raw) (not_lt.1 hcon)
  linarith

theorem forall2_get {α β : Type} {r : α → β → Prop} {l : List α} {m : List β} (h : List.Forall₂ r l m) {i : Nat} {a : α}
    (ha : l[i]? = some a) : ∃ b, m[i]? = some b ∧ r a b := by
  obtain ⟨hi, rfl⟩ := List.getElem?_eq_some_iff.1 ha
  have hl : i < m.length := by rw [← h.length_eq]; exact hi
  exact ⟨m[i], List.getElem?_eq_getElem hl, by simpa using (List.forall₂_iff_get.1 h).2 i hi hl⟩

theorem forall2_get' {α β : Type} {r : α → β → Prop} {l : List α} {m : List β} (h : List.Forall₂ r l m) {i : Nat} {b : β}
    (hb : m[i]? = some b) : ∃ a, l[i]? = some a ∧ r a b :=
  forall2_get h.flip hb

theorem close_join {d e : ℝ} {a b x : V3 ℝ} (h : Close d a x) (h' : Close e b x) : Close (d + e) a b := by
  have k : ∀ {s t u : ℝ}, |s - u| ≤ d → |t - u| ≤ e → |s - t| ≤ d + e := by
    intro s t u h1 h2
    have : s - t = (s - u) - (t - u) := by ring
    rw [this]
    exact (abs_sub _ _).trans (by linarith)
  exact ⟨k h.1 h'.1, k h.2.1 h'.2.1, k h.2.2 h'.2.2⟩

theorem close_symm {d : ℝ} {a b : V3 ℝ} (h : Close d a b) : Close d b a := by
  obtain ⟨h1, h2, h3⟩ := h
  exact ⟨by rwa [abs_sub_comm], by rwa [abs_sub_comm], by rwa [abs_sub_comm]⟩

/-- C119: every side of every triangle of a firm brush is, up to a thousandth of a unit, in the opposite direction a side of a
triangle of the brush. -/
theorem C119_watertight (textures : TextureInfo) (entity : Entity F32) (brush : Brush F32) (geo : BrushGeo F32)
    (h : buildBrush textures entity brush = .ok geo) (hf : FirmBrush g R brush.planes) (i t s : Nat) (a b : V3 F32)
    (hs : Side geo i t s a b) : ∃ i' t' s' a' b', Side geo i' t' s' b' a' ∧ Close (1 / 1000) (vec a') (vec a) ∧
      Close (1 / 1000) (vec b') (vec b) := by
  obtain ⟨f, face, m, n, hpl, hface, hb, hfs, ha, hb'⟩ := (side_iff h i t s a b).1 hs
  rcases fan_reverse hfs with ⟨t', s', hr⟩ | hnext
  · exact ⟨i, t', s', a, b, (side_iff h i t' s' b a).2 ⟨f, face, n, m, hpl, hface, hb, hr, hb', ha⟩,
      by unfold Close; norm_num, by unfold Close; norm_num⟩
  · have hfm := List.mem_of_getElem? hpl
    obtain ⟨xs, hnd, hcl, htn, hco⟩ := firm_outline hf hfm hb
    have hlen : xs.length = face.vertices.length := by rw [← hcl.length_eq, List.length_map]
    obtain ⟨x, hx, ax⟩ := forall2_get hcl ha
    obtain ⟨y, hy, by'⟩ := forall2_get hcl hb'
    obtain ⟨b3, bm, bn, bne⟩ := fan_bounds hfs
    have hxy : x ≠ y := by
      rintro rfl
      exact bne ((List.getElem?_inj (by omega) hnd).1 (hx.trans hy.symm))
    have hedge : Poly.Edge (brush.planes.map exactPlane) (exactPlane f) x y := by
      refine ⟨(hco x).1 (List.mem_of_getElem? hx), (hco y).1 (List.mem_of_getElem? hy), hxy, ?_, ?_⟩
      · intro c hc
        obtain ⟨k, hk⟩ := List.mem_iff_getElem?.1 ((hco c).2 hc)
        by_cases h1 : k = m
        · subst h1; rw [hk] at hx; cases hx; rw [tri_left]
        · by_cases h2 : k = n
          · subst h2; rw [hk] at hy; cases hy; rw [tri_right]
          · refine (turns_side htn hx (b := y) ?_ k hk h1 ?_).le
            · rw [hlen, ← hnext]; exact hy
            · rw [hlen, ← hnext]; exact h2
      · obtain ⟨c, hc, hlt⟩ := fan_third htn (t := t) (s := s) (by rw [hlen]; exact hfs) hx hy
        exact ⟨c, (hco c).1 hc, hlt⟩
    obtain ⟨g', hg', _, he⟩ := Poly.edge_shared (firm_bounded hf.toClearBody) (firm_solid hf.toClearBody) (firm_points hf.toClearBody)
      (List.mem_map_of_mem hfm) hedge
    obtain ⟨q, hq, rfl⟩ := List.mem_map.1 hg'
    obtain ⟨j, hj⟩ := List.mem_iff_getElem?.1 hq
    obtain ⟨hlen', hfaces⟩ := brush_face h
    have hjl := (List.getElem?_eq_some_iff.1 hj).1
    have hgf : geo.planes[j]? = some (geo.planes[j]'(by omega)) := List.getElem?_eq_getElem _
    generalize geo.planes[j]'(by omega) = face' at hgf
    have hb2 := hfaces j q face' hj hgf
    obtain ⟨ys, hnd2, hcl2, htn2, hco2⟩ := firm_outline hf hq hb2
    have hlen2 : ys.length = face'.vertices.length := by rw [← hcl2.length_eq, List.length_map]
    obtain ⟨iy, hiy⟩ := List.mem_iff_getElem?.1 ((hco2 y).2 he.left)
    obtain ⟨ix, hix⟩ := List.mem_iff_getElem?.1 ((hco2 x).2 he.right)
    have hne : iy ≠ ix := by
      rintro rfl; rw [hiy] at hix; cases hix; exact hxy rfl
    have hnx := turns_next htn2 hne hiy hix fun c hc => he.side c ((hco2 c).1 hc)
    have h1 := (List.getElem?_eq_some_iff.1 hiy).1
    have h2 := (List.getElem?_eq_some_iff.1 hix).1
    obtain ⟨c, hc, hlt⟩ := he.third
    obtain ⟨ic, hic⟩ := List.mem_iff_getElem?.1 ((hco2 c).2 hc)
    have h3 := (List.getElem?_eq_some_iff.1 hic).1
    have n1 : ic ≠ ix := by
      rintro rfl; rw [hic] at hix; cases hix; rw [tri_right] at hlt; exact lt_irrefl _ hlt
    have n2 : ic ≠ iy := by
      rintro rfl; rw [hic] at hiy; cases hiy; rw [tri_left] at hlt; exact lt_irrefl _ hlt
    obtain ⟨t', s', hfs'⟩ := fan_next (n := ys.length) (m := iy) (by omega) h1
    rw [← hnx, hlen2] at hfs'
    obtain ⟨a', hia, ca⟩ := forall2_get' hcl2 hix
    obtain ⟨b'', hib, cb⟩ := forall2_get' hcl2 hiy
    refine ⟨j, t', s', a', b'', (side_iff h j t' s' b'' a').2 ⟨q, face', iy, ix, hj, hgf, hb2, hfs', hib, hia⟩, ?_, ?_⟩
    · have := close_join ca ax; norm_num at this; exact this
    · have := close_join cb by'; norm_num at this; exact this

/-- C119: and it is a side of one triangle only, even up to a five-hundredth of a unit, if no plane is given twice. -/
theorem C119_once (textures : TextureInfo) (entity : Entity F32) (brush : Brush F32) (geo : BrushGeo F32)
    (h : buildBrush textures entity brush = .ok geo) (hf : FirmBrush g R brush.planes)
    (hd : brush.planes.Pairwise fun p q => ¬ ∀ x, (triOf p).above x = 0 ↔ (triOf q).above x = 0) (i t s i' t' s' : Nat)
    (a b a' b' : V3 F32) (hs : Side geo i t s a b) (hs' : Side geo i' t' s' a' b') (hca : Close (1 / 500) (vec a) (vec a'))
    (hcb : Close (1 / 500) (vec b) (vec b')) : i = i' ∧ t = t' ∧ s = s' := by
  obtain ⟨f, face, m, n, hpl, hface, hb, hfs, ha, hb1⟩ := (side_iff h i t s a b).1 hs
  obtain ⟨q, face', m', n', hpl', hface', hbq, hfs', ha', hb2⟩ := (side_iff h i' t' s' a' b').1 hs'
  have chord : ∀ (f : BrushPlane F32) (face : PlaneGeo F32) (t s m n : Nat) (a b : V3 F32), f ∈ brush.planes →
      buildPlane textures entity brush.planes f = .ok face → FanSide face.vertices.length t s m n →
      (face.vertices.map (·.pos))[m]? = some a → (face.vertices.map (·.pos))[n]? = some b →
      ∃ x y, Close (1 / 2000) (vec a) x ∧ Close (1 / 2000) (vec b) y ∧
        Poly.Chord (brush.planes.map exactPlane) (exactPlane f) x y := by
    intro f face t s m n a b hfm hb hfs ha hb'
    obtain ⟨xs, hnd, hcl, htn, hco⟩ := firm_outline hf hfm hb
    have hlen : xs.length = face.vertices.length := by rw [← hcl.length_eq, List.length_map]
    obtain ⟨x, hx, ax⟩ := forall2_get hcl ha
    obtain ⟨y, hy, by'⟩ := forall2_get hcl hb'
    obtain ⟨b3, bm, bn, bne⟩ := fan_bounds hfs
    obtain ⟨c, hc, hlt⟩ := fan_third htn (t := t) (s := s) (by rw [hlen]; exact hfs) hx hy
    refine ⟨x, y, ax, by', (hco x).1 (List.mem_of_getElem? hx), (hco y).1 (List.mem_of_getElem? hy), ?_, c, (hco c).1 hc, hlt⟩
    rintro rfl
    exact bne ((List.getElem?_inj (by omega) hnd).1 (hx.trans hy.symm))
  have hfm := List.mem_of_getElem? hpl
  have hqm := List.mem_of_getElem? hpl'
  obtain ⟨x, y, ax, by', hch⟩ := chord f face t s m n a b hfm hb hfs ha hb1
  obtain ⟨x', y', ax', by'', hch'⟩ := chord q face' t' s' m' n' a' b' hqm hbq hfs' ha' hb2
  have same : ∀ {p r : BrushPlane F32} {c c' : V3 F32} {z z' : V3 ℝ}, p ∈ brush.planes → r ∈ brush.planes →
      Close (1 / 2000) (vec c) z → Close (1 / 2000) (vec c') z' → Close (1 / 500) (vec c) (vec c') →
      Poly.Corner (brush.planes.map exactPlane) (exactPlane p) z → Poly.Corner (brush.planes.map exactPlane) (exactPlane r) z' →
      z = z' := by
    intro p r c c' z z' hp hr h1 h2 h3 h4 h5
    refine hf.far p hp r hr z z' ((firm_corner hf.toClearBody hp z).1 h4) ((firm_corner hf.toClearBody hr z').1 h5) ?_
    have k := close_join (close_symm h1) (close_join (close_symm h2) h3)
    obtain ⟨k1, k2, k3⟩ := k
    exact ⟨by linarith, by linarith, by linarith⟩
  have ex := same hfm hqm ax ax' hca hch.left hch'.left
  have ey := same hfm hqm by' by'' hcb hch.right hch'.right
  rw [← ex, ← ey] at hch'
  have hsame := (Poly.chord_once (firm_solid hf.toClearBody) (firm_points hf.toClearBody) (List.mem_map_of_mem hfm) (List.mem_map_of_mem hqm)
    hch hch').1
  have hsame : ∀ z, (triOf f).above z = 0 ↔ (triOf q).above z = 0 := fun z => by
    rw [← firm_ht_zero hf.toClearBody hfm, ← firm_ht_zero hf.toClearBody hqm]; exact hsame z
  have hii : i = i' := by
    obtain ⟨l, e⟩ := List.getElem?_eq_some_iff.1 hpl
    obtain ⟨l', e'⟩ := List.getElem?_eq_some_iff.1 hpl'
    rcases lt_trichotomy i i' with hlt | he | hlt
    · have := List.pairwise_iff_getElem.1 hd i i' l l' hlt
      rw [e, e'] at this
      exact absurd hsame this
    · exact he
    · have := List.pairwise_iff_getElem.1 hd i' i l' l hlt
      rw [e, e'] at this
      exact absurd (fun x => (hsame x).symm) this
  subst hii
  rw [hface] at hface'
  cases hface'
  obtain ⟨xs, hnd, hcl, -, hco⟩ := firm_outline hf hfm hb
  have num : ∀ {k k' : Nat} {c c' : V3 F32}, (face.vertices.map (·.pos))[k]? = some c →
      (face.vertices.map (·.pos))[k']? = some c' → Close (1 / 500) (vec c) (vec c') → k = k' := by
    intro k k' c c' hc hc' hcc
    obtain ⟨z, hz, cz⟩ := forall2_get hcl hc
    obtain ⟨z', hz', cz'⟩ := forall2_get hcl hc'
    have e := same hfm hfm cz cz' hcc ((hco z).1 (List.mem_of_getElem? hz)) ((hco z').1 (List.mem_of_getElem? hz'))
    exact (List.getElem?_inj (List.getElem?_eq_some_iff.1 hz).1 hnd).1 (by rw [hz, hz', e])
  have e1 := num ha ha' hca
  have e2 := num hb1 hb2 hcb
  subst e1 e2
  exact ⟨rfl, fan_inj hfs hfs'⟩

end

/-! ### examples -/

section

/-- The corners of the bevelled block. -/
def bevelPoints : List (V3 Int) :=
  [⟨-16, -16, -16⟩, ⟨-16, 16, -16⟩, ⟨16, -16, -16⟩, ⟨16, 8, -16⟩, ⟨8, 16, -16⟩,
   ⟨-16, -16, 16⟩, ⟨-16, 16, 16⟩, ⟨16, -16, 16⟩, ⟨16, 8, 16⟩, ⟨8, 16, 16⟩]

/-- The corners of one of its faces. -/
def bevelFace (f : IntFace) : List (V3 Int) := bevelPoints.filter fun c => intDot (intRaw f) c = intDot (intRaw f) f.1

theorem bevelFace_exact : ∀ s ∈ bevel, exactCheck bevel s (bevelFace s) = true := by decide

/-- Directions, in quarters, in which the corners stick out. -/
def bevelOut (c : V3 Int) : V3 Int :=
  ⟨if c.x = 8 then 1 else c.x.sign * 2, if c.y = 8 then 1 else c.y.sign * 2, c.z.sign * 2⟩

theorem bevelOut_out : ∀ c ∈ bevelPoints, intDot (bevelOut c) (bevelOut c) ≤ 16 ∧
    ∀ d ∈ bevelPoints, d ≠ c → intDot (bevelOut c) d + 1 ≤ intDot (bevelOut c) c := by decide

/-- A whole point. -/
def intVec (c : V3 Int) : V3 ℝ := ⟨c.x, c.y, c.z⟩

theorem intVec_inj {c d : V3 Int} (h : intVec c = intVec d) : c = d := by
  simp only [intVec, V3.mk.injEq, Int.cast_inj] at h
  cases c; cases d
  simp_all

theorem intVec_close {c d : V3 Int} (h : Close (1 / 250) (intVec c) (intVec d)) : c = d := by
  have k : ∀ {i j : Int}, |(i : ℝ) - j| ≤ 1 / 250 → i = j := by
    intro i j hij
    by_contra hne
    have h1 : (1 : ℝ) ≤ |(i : ℝ) - j| := by
      have : (1 : Int) ≤ |i - j| := Int.one_le_abs (sub_ne_zero.2 hne)
      exact_mod_cast this
    linarith
  obtain ⟨h1, h2, h3⟩ := h
  have e1 := k h1
  have e2 := k h2
  have e3 := k h3
  cases c; cases d
  simp_all

/-- The bevelled block is firm. -/
theorem bevel_firm [F32Lib] : FirmBrush 0 ((28 : Int) : ℝ) (bevel.map singleFace) := by
  have ht : ∀ t ∈ bevel, triOf (singleFace t) = intTri t := fun t h => single_tri (bevel_near.1 t h)
  have hm : (bevel.map singleFace).map triOf = bevel.map intTri := by
    rw [List.map_map]
    exact List.map_congr_left ht
  have hco : ∀ s ∈ bevel, ∀ x, x ∈ (bevelFace s).map intVec ↔
      TrueCorner ((28 : Int) : ℝ) ((bevel.map singleFace).map triOf) (triOf (singleFace s)) x := by
    intro s hs x
    rw [hm, ht s hs]
    exact exactCheck_corners (by norm_num) (bevel_clear s hs) (bevelFace_exact s hs) x
  have hraw : ∀ s ∈ bevel, ∀ x : V3 ℝ, (triOf (singleFace s)).above x ≤ 0 →
      (intRaw s).x * x.x + (intRaw s).y * x.y + (intRaw s).z * x.z ≤ ((intDot (intRaw s) s.1 : Int) : ℝ) := by
    intro s hs x hx
    have hl := nearFace_len (g := 0) (R := ((28 : Int) : ℝ)) (by norm_num) (by norm_num) (by norm_num)
      (bevel_near.2 _ (List.mem_map_of_mem hs))
    rw [ht s hs] at hx hl
    rw [tri_above] at hx
    have h1 : dotR (intTri s).raw (subR x (intTri s).1) ≤ 0 := by
      by_contra hcon
      have := mul_pos (by positivity : (0 : ℝ) < 1 / lenR (intTri s).raw) (not_le.1 hcon)
      linarith
    rw [intTri_raw] at h1
    simp only [dotR, subR, intTri] at h1
    simp only [intDot]
    push_cast
    linarith
  refine ⟨⟨by norm_num, by norm_num, by norm_num, bevel_near.2, by simp [bevel], ?clear, ?firm, ⟨⟨0, 0, 0⟩, ?solid⟩,
    ⟨16, ?bounded⟩⟩, ?simple, ?corners, ?far⟩
  case clear =>
    intro p hp
    obtain ⟨s, hs, rfl⟩ := List.mem_map.1 hp
    rw [hm, ht s hs]
    exact clearCheck_true (by norm_num) (X := 60) (by norm_num) (bevel_clear s hs)
  case simple =>
    intro p hp
    obtain ⟨s, hs, rfl⟩ := List.mem_map.1 hp
    exact exactCheck_simple (bevel_clear s hs) (bevelFace_exact s hs) ht hs
  case firm =>
    intro p hp q hq r hr
    obtain ⟨s, hs, rfl⟩ := List.mem_map.1 hp
    obtain ⟨t, htm, rfl⟩ := List.mem_map.1 hq
    obtain ⟨f, hf, rfl⟩ := List.mem_map.1 hr
    rw [ht s hs, ht t htm, ht f hf]
    by_cases hd : 0 < Tri.spread (intTri s) (intTri t) (intTri f)
    · right
      have hd' := spread_pos hd
      have hk := bevel_clear s hs t htm f hf
      simp only [clearCheck, Bool.or_eq_true, Bool.and_eq_true, decide_eq_true_eq] at hk
      obtain ⟨-, ⟨⟨-, hw⟩, -⟩ | ⟨⟨-, hw⟩, -⟩⟩ := hk.resolve_left (not_le.2 hd')
      · have := intTri_spread_ge hd' (R := 28) (by norm_num) (k := 64) (by norm_num) (by simpa using hw)
        norm_num at this ⊢
        linarith
      · have := intTri_spread_ge hd' (R := 60) (by norm_num) (k := 1000) (by norm_num) (by simpa using hw)
        norm_num at this ⊢
        linarith
    · exact .inl (not_lt.1 hd)
  case corners =>
    intro p hp
    obtain ⟨s, hs, rfl⟩ := List.mem_map.1 hp
    refine ⟨(bevelFace s).map intVec, ?_, hco s hs, ?_, ?_⟩
    · refine List.Nodup.map (fun _ _ => intVec_inj) (List.Nodup.filter _ (by decide))
    · rw [List.length_map]
      exact (List.length_filter_le _ _).trans (by decide)
    · intro x hx
      obtain ⟨c, hc, rfl⟩ := List.mem_map.1 hx
      obtain ⟨o1, o2⟩ := bevelOut_out c (List.mem_filter.1 hc).1
      refine ⟨smulR (1 / 4) (intVec (bevelOut c)), ?_, ?_⟩
      · refine Real.sqrt_le_one.2 ?_
        have : ((intDot (bevelOut c) (bevelOut c) : Int) : ℝ) ≤ 16 := by exact_mod_cast o1
        simp only [intDot] at this
        push_cast at this
        simp only [dotR, smulR, intVec]
        linarith
      · intro y hy hne
        obtain ⟨d, hd, rfl⟩ := List.mem_map.1 hy
        have h1 := o2 d (List.mem_filter.1 hd).1 fun e => hne (by rw [e])
        have : ((intDot (bevelOut c) d : Int) : ℝ) + 1 ≤ ((intDot (bevelOut c) c : Int) : ℝ) := by exact_mod_cast h1
        simp only [intDot] at this
        push_cast at this
        simp only [dotR, smulR, intVec]
        linarith
  case far =>
    intro p hp q hq x y hx hy hxy
    obtain ⟨s, hs, rfl⟩ := List.mem_map.1 hp
    obtain ⟨t, htm, rfl⟩ := List.mem_map.1 hq
    obtain ⟨c, hc, rfl⟩ := List.mem_map.1 ((hco s hs x).2 hx)
    obtain ⟨d, hd, rfl⟩ := List.mem_map.1 ((hco t htm y).2 hy)
    rw [intVec_close hxy]
  case solid =>
    intro p hp
    obtain ⟨s, hs, rfl⟩ := List.mem_map.1 hp
    have hl := nearFace_len (g := 0) (R := ((28 : Int) : ℝ)) (by norm_num) (by norm_num) (by norm_num)
      (bevel_near.2 _ (List.mem_map_of_mem hs))
    rw [ht s hs] at hl ⊢
    have all : ∀ s ∈ bevel, 0 < intDot (intRaw s) s.1 := by decide
    have hpos := all s hs
    have hposr : (0 : ℝ) < ((intDot (intRaw s) s.1 : Int) : ℝ) := by exact_mod_cast hpos
    rw [tri_above, intTri_raw]
    rw [intTri_raw] at hl
    refine mul_neg_of_pos_of_neg (by positivity) ?_
    simp only [intDot] at hposr
    push_cast at hposr
    simp only [dotR, subR, intTri]
    linarith
  case bounded =>
    intro x hx
    have k : ∀ s ∈ bevel, (intRaw s).x * x.x + (intRaw s).y * x.y + (intRaw s).z * x.z ≤ ((intDot (intRaw s) s.1 : Int) : ℝ) :=
      fun s hs => hraw s hs x (hx _ (List.mem_map_of_mem hs))
    simp only [bevel, List.mem_cons, List.not_mem_nil, or_false, forall_eq_or_imp, forall_eq, intRaw, intDot, Spec.turn] at k
    obtain ⟨k1, k2, k3, k4, k5, k6, -⟩ := k
    norm_num at k1 k2 k3 k4 k5 k6
    refine ⟨abs_le.2 ⟨?_, ?_⟩, abs_le.2 ⟨?_, ?_⟩, abs_le.2 ⟨?_, ?_⟩⟩ <;> linarith

/-- Its triangles close. -/
example [F32Lib] [Platform] [AccurateAtan2] (textures : TextureInfo) (entity : Entity F32) (geo : BrushGeo F32)
    (h : buildBrush textures entity ⟨bevel.map singleFace⟩ = .ok geo) (i t s : Nat) (a b : V3 F32) (hs : Side geo i t s a b) :
    ∃ i' t' s' a' b', Side geo i' t' s' b' a' ∧ Close (1 / 1000) (vec a') (vec a) ∧ Close (1 / 1000) (vec b') (vec b) :=
  C119_watertight textures entity _ geo h bevel_firm i t s a b hs

theorem bevel_distinct [F32Lib] : (bevel.map singleFace).Pairwise fun p q =>
    ¬ ∀ x, (triOf p).above x = 0 ↔ (triOf q).above x = 0 := by
  have hd : bevel.Pairwise fun s t => bevelPoints.any (fun c => decide (intDot (intRaw s) c = intDot (intRaw s) s.1) &&
      decide (intDot (intRaw t) c ≠ intDot (intRaw t) t.1)) = true := by decide
  rw [List.pairwise_map]
  refine hd.imp_of_mem fun {s t} hs ht hany hsame => ?_
  simp only [List.any_eq_true, Bool.and_eq_true, decide_eq_true_eq] at hany
  obtain ⟨c, -, h1, h2⟩ := hany
  have k : ∀ s ∈ bevel, ((triOf (singleFace s)).above (intVec c) = 0 ↔ intDot (intRaw s) c = intDot (intRaw s) s.1) := by
    intro s hs
    have hl := firm_len bevel_firm.toClearBody (List.mem_map_of_mem (f := singleFace) hs)
    rw [single_tri (bevel_near.1 s hs)] at hl ⊢
    have e : dotR (intTri s).raw (subR (intVec c) (intTri s).1) =
        ((intDot (intRaw s) c : Int) : ℝ) - ((intDot (intRaw s) s.1 : Int) : ℝ) := by
      rw [intTri_raw]
      simp only [dotR, subR, intTri, intVec, intDot]
      push_cast
      ring
    rw [tri_above, mul_eq_zero, e, sub_eq_zero, Int.cast_inj]
    exact ⟨fun h => h.resolve_left (by positivity), .inr⟩
  exact h2 ((k t ht).1 ((hsame _).1 ((k s hs).2 h1)))

/-- And no two of them share a side in the same direction. -/
example [F32Lib] [Platform] [AccurateAtan2] (textures : TextureInfo) (entity : Entity F32) (geo : BrushGeo F32)
    (h : buildBrush textures entity ⟨bevel.map singleFace⟩ = .ok geo) (i t s i' t' s' : Nat) (a b : V3 F32)
    (hs : Side geo i t s a b) (hs' : Side geo i' t' s' a b) : i = i' ∧ t = t' ∧ s = s' :=
  C119_once textures entity _ geo h bevel_firm bevel_distinct i t s i' t' s' a b a b hs hs'
    (by unfold Close; norm_num) (by unfold Close; norm_num)

end
end Quarch
