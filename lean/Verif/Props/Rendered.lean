import Verif.Spec.Rendered
import Verif.Props.Sealed
import Verif.Props.Tiling
import Verif.Props.BoxSolid
/-
C123: a map of firm brushes is drawn right up to 1/2000 of a unit in single precision, from the text to the scene.
C124: the same for collision.
-/
set_option linter.unusedSectionVars false
namespace Quarch
open Quarch.Spec Quarch.Spec.F32 Quarch.Geo Scene

/-! ### points near each other -/

theorem close_comb {e r s t : ℝ} {a b c a' b' c' : V3 ℝ} (hr : 0 ≤ r) (hs : 0 ≤ s) (ht : 0 ≤ t) (h : r + s + t = 1)
    (ha : Close e a a') (hb : Close e b b') (hc : Close e c c') :
    Close e (addR (smulR r a) (addR (smulR s b) (smulR t c))) (addR (smulR r a') (addR (smulR s b') (smulR t c'))) := by
  have k : ∀ {x y z x' y' z' : ℝ}, |x - x'| ≤ e → |y - y'| ≤ e → |z - z'| ≤ e →
      |r * x + (s * y + t * z) - (r * x' + (s * y' + t * z'))| ≤ e := by
    intro x y z x' y' z' h1 h2 h3
    rw [abs_le] at *
    have e1 : e = r * e + s * e + t * e := by linear_combination (-e) * h
    constructor <;> nlinarith [mul_le_mul_of_nonneg_left h1.1 hr, mul_le_mul_of_nonneg_left h1.2 hr,
      mul_le_mul_of_nonneg_left h2.1 hs, mul_le_mul_of_nonneg_left h2.2 hs,
      mul_le_mul_of_nonneg_left h3.1 ht, mul_le_mul_of_nonneg_left h3.2 ht]
  exact ⟨k ha.1 hb.1 hc.1, k ha.2.1 hb.2.1 hc.2.1, k ha.2.2 hb.2.2 hc.2.2⟩

theorem close_mix {e t : ℝ} {a b a' b' : V3 ℝ} (h0 : 0 ≤ t) (h1 : t ≤ 1) (ha : Close e a a') (hb : Close e b b') :
    Close e (addR (smulR (1 - t) a) (smulR t b)) (addR (smulR (1 - t) a') (smulR t b')) := by
  have k : ∀ {x y x' y' : ℝ}, |x - x'| ≤ e → |y - y'| ≤ e →
      |(1 - t) * x + t * y - ((1 - t) * x' + t * y')| ≤ e := by
    intro x y x' y' h2 h3
    rw [abs_le] at *
    constructor <;> nlinarith [mul_le_mul_of_nonneg_left h2.1 (sub_nonneg.2 h1), mul_le_mul_of_nonneg_left h2.2 (sub_nonneg.2 h1),
      mul_le_mul_of_nonneg_left h3.1 h0, mul_le_mul_of_nonneg_left h3.2 h0]
  exact ⟨k ha.1 hb.1, k ha.2.1 hb.2.1, k ha.2.2 hb.2.2⟩

/-- A triangle whose corners are near those of another one is near it. -/
theorem triangle_near {e : ℝ} {a b c a' b' c' x : V3 ℝ} (ha : Close e a a') (hb : Close e b b') (hc : Close e c c')
    (hx : InTriangle a b c x) : ∃ y, InTriangle a' b' c' y ∧ Close e x y := by
  obtain ⟨r, s, t, hr, hs, ht, hsum, rfl⟩ := hx
  exact ⟨_, ⟨r, s, t, hr, hs, ht, hsum, rfl⟩, close_comb hr hs ht hsum ha hb hc⟩

/-- The hull of points near a convex set is near it. -/
theorem hull_near {e : ℝ} {pts : List (V3 ℝ)} {C : V3 ℝ → Prop}
    (hC : ∀ a b, C a → C b → ∀ t : ℝ, 0 ≤ t → t ≤ 1 → C (addR (smulR (1 - t) a) (smulR t b)))
    (hp : ∀ p ∈ pts, ∃ q, C q ∧ Close e p q) {x : V3 ℝ} (hx : InHullOf pts x) : ∃ y, C y ∧ Close e x y := by
  refine hx (fun x => ∃ y, C y ∧ Close e x y) ?_ hp
  rintro a b ⟨a', ha, ha'⟩ ⟨b', hb, hb'⟩ t h0 h1
  exact ⟨_, hC _ _ ha hb t h0 h1, close_mix h0 h1 ha' hb'⟩

theorem hull_convex (pts : List (V3 ℝ)) (a b : V3 ℝ) (ha : InHullOf pts a) (hb : InHullOf pts b) (t : ℝ) (h0 : 0 ≤ t)
    (h1 : t ≤ 1) : InHullOf pts (addR (smulR (1 - t) a) (smulR t b)) := fun C hC hp =>
  hC _ _ (ha C hC hp) (hb C hC hp) t h0 h1

/-! ### fans of corners in order -/

open Poly in
/-- Corners in order form a fan that covers the face. -/
theorem fan_tiles {planes : List (BrushPlane ℝ)} (hb : Bounded planes) {plane : BrushPlane ℝ} (hn : NonDegenerate plane)
    {pts : List (V3 ℝ)} (hco : ∀ c, c ∈ pts ↔ Corner planes plane c) (htn : Turns (rawNormal plane) pts)
    (h3 : 3 ≤ pts.length) {x : V3 ℝ} (h0 : ht plane x = 0) (hin : In planes x) :
    ∃ t a b c, pts[0]? = some a ∧ pts[t + 1]? = some b ∧ pts[t + 2]? = some c ∧ InTriangle a b c x := by
  have hside : ∀ {m : Nat} {a b : V3 ℝ}, pts[m]? = some a → pts[next pts.length m]? = some b →
      tri (rawNormal plane) a b x ≤ 0 := by
    intro m a b ha hb'
    have e : ∀ y, tri (rawNormal plane) a b y =
        dotR (crossR (rawNormal plane) (subR b a)) y - dotR (crossR (rawNormal plane) (subR b a)) a := fun y => by
      simp only [tri, dotR, crossR, subR]; ring
    obtain ⟨c, hc, hle⟩ := corner_beyond hb hn hin h0 (crossR (rawNormal plane) (subR b a))
    obtain ⟨k, hk⟩ := List.mem_iff_getElem?.1 ((hco c).2 hc)
    have hle2 : tri (rawNormal plane) a b x ≤ tri (rawNormal plane) a b c := by rw [e, e]; linarith
    refine hle2.trans ?_
    by_cases h1 : k = m
    · subst h1; rw [hk] at ha; cases ha; rw [tri_left]
    · by_cases h2 : k = next pts.length m
      · subst h2; rw [hk] at hb'; cases hb'; rw [tri_right]
      · exact (turns_side htn ha hb' k hk h1 h2).le
  have hget : ∀ i, i < pts.length → pts[i]? = some (pts.getD i zeroR) := fun i hi => by
    rw [List.getD_eq_getElem?_getD, List.getElem?_eq_getElem hi]; rfl
  have hon : ∀ i, i < pts.length → ht plane (pts.getD i zeroR) = 0 := fun i hi =>
    ((hco _).1 (List.mem_of_getElem? (hget i hi))).2.1
  obtain ⟨i, h1, h2, hT⟩ := fan_covers (n := rawNormal plane) hn (p := fun i => pts.getD i zeroR)
    (m := pts.length - 1) (by omega) (x := x)
    (fun i hi => by rw [ht_sub, hon i (by omega), hon 0 (by omega)]; ring)
    (by rw [ht_sub, h0, hon 0 (by omega)]; ring)
    (fun i h1 h2 => htn 0 i (i + 1) _ _ _ (by omega) (by omega) (hget 0 (by omega)) (hget i (by omega))
      (hget (i + 1) (by omega)))
    (fun i hi => hside (hget i (by omega)) (by
      unfold next; rw [if_pos (by omega)]; exact hget (i + 1) (by omega)))
    (hside (hget _ (by omega)) (by
      unfold next; rw [if_neg (by omega)]; exact hget 0 (by omega)))
  refine ⟨i - 1, _, _, _, hget 0 (by omega), ?_, ?_, hT⟩
  · rw [show i - 1 + 1 = i by omega]; exact hget i (by omega)
  · rw [show i - 1 + 2 = i + 1 by omega]; exact hget (i + 1) (by omega)

/-! ### faces and brushes -/

open Poly in
/-- In a bounded body no point is beyond all corners, in any direction. -/
theorem beyond_body {planes : List (BrushPlane ℝ)} (hb : Bounded planes)
    (hnd : ∀ p ∈ planes, NonDegenerate p) {x : V3 ℝ} (hx : In planes x) (w : V3 ℝ) :
    ∃ f ∈ planes, ∃ c, Corner planes f c ∧ dotR w x ≤ dotR w c := by
  obtain ⟨d, hd, hw⟩ : ∃ d, d ≠ zeroR ∧ 0 ≤ dotR w d := by
    by_cases h0 : w = zeroR
    · exact ⟨⟨1, 0, 0⟩, by simp [zeroR], by rw [h0]; simp [dotR, zeroR]⟩
    · exact ⟨w, h0, (self_ne h0).le⟩
  obtain ⟨t, ht, hin, g, hg, _, hon⟩ := slide hb hx hd
  obtain ⟨c, hc, hle⟩ := corner_beyond hb (hnd g hg) hin hon w
  refine ⟨g, hg, c, hc, le_trans ?_ hle⟩
  rw [dot_go]
  have := mul_nonneg ht hw
  linarith

theorem ht_weighed (p : BrushPlane ℝ) (a b c : V3 ℝ) {r s t : ℝ} (h : r + s + t = 1) :
    Poly.ht p (addR (smulR r a) (addR (smulR s b) (smulR t c))) = r * Poly.ht p a + s * Poly.ht p b + t * Poly.ht p c := by
  have e : r = 1 - s - t := by linarith
  subst e
  simp only [Poly.ht, dotR, subR, addR, smulR]; ring

/-- A product of vectors across `n` that has no part along `n` is zero. -/
theorem cross_along_zero {n u v : V3 ℝ} (hn : n ≠ zeroR) (hu : dotR n u = 0) (hv : dotR n v = 0)
    (h : dotR (crossR u v) n = 0) : crossR u v = ⟨0, 0, 0⟩ := by
  have hnn := Poly.self_ne hn
  have k : ∀ w : ℝ, dotR n n * w = 0 → w = 0 := fun w hw => (mul_eq_zero.1 hw).resolve_left hnn.ne'
  simp only [dotR, crossR] at hu hv h k ⊢
  rw [V3.mk.injEq]
  refine ⟨k _ ?_, k _ ?_, k _ ?_⟩
  · linear_combination n.x * h + (u.y * n.z - u.z * n.y) * hv + (n.y * v.z - n.z * v.y) * hu
  · linear_combination n.y * h + (u.z * n.x - u.x * n.z) * hv + (n.z * v.x - n.x * v.z) * hu
  · linear_combination n.z * h + (u.x * n.y - u.y * n.x) * hv + (n.x * v.y - n.y * v.x) * hu

section
variable [F32Lib] [Platform] {g : Nat} {R : ℝ} {planes : List (BrushPlane F32)}

theorem fan_triangle {textures : TextureInfo} {entity : Entity F32} {plane : BrushPlane F32} {face : PlaneGeo F32}
    (h : buildPlane textures entity planes plane = .ok face) (u v w : Vertex F32) :
    TriangleOf face.vertices face.indices u v w ↔ ∃ t, face.vertices[0]? = some u ∧ face.vertices[t + 1]? = some v ∧
      face.vertices[t + 2]? = some w := by
  have hfan := C19_fan _ _ _ _ _ h
  constructor
  · rintro ⟨t, i, j, k, hi, hj, hk, hu, hv, hw⟩
    have ht : t < face.vertices.length - 2 := by
      have := (List.getElem?_eq_some_iff.1 hi).1
      rw [hfan.1] at this
      omega
    obtain ⟨f0, f1, f2⟩ := hfan.2 t ht
    rw [f0] at hi; rw [f1] at hj; rw [f2] at hk
    cases hi; cases hj; cases hk
    exact ⟨t, hu, hv, hw⟩
  · rintro ⟨t, hu, hv, hw⟩
    have ht : t < face.vertices.length - 2 := by
      have := (List.getElem?_eq_some_iff.1 hw).1
      omega
    obtain ⟨f0, f1, f2⟩ := hfan.2 t ht
    exact ⟨t, _, _, _, f0, f1, f2, hu, hv, hw⟩

theorem inBrush_iff (hf : ClearBody g R planes) (x : V3 ℝ) : InBrush32 planes x ↔ Poly.In (planes.map exactPlane) x := by
  unfold InBrush32 Poly.In
  rw [List.forall_mem_map]
  exact forall₂_congr fun q hq => (firm_ht_nonpos hf hq x).symm

theorem onFace32_iff (hf : ClearBody g R planes) {p : BrushPlane F32} (hp : p ∈ planes) (x : V3 ℝ) :
    OnFace32 planes p x ↔ Poly.In (planes.map exactPlane) x ∧ Poly.ht (exactPlane p) x = 0 := by
  unfold OnFace32
  rw [inBrush_iff hf, firm_ht_zero hf hp]
  exact and_comm

theorem hasArea32_iff (hf : ClearBody g R planes) {p : BrushPlane F32} (hp : p ∈ planes) :
    HasArea32 planes p ↔ Poly.Wide (planes.map exactPlane) (exactPlane p) := by
  have hn : NonDegenerate (exactPlane p) := firm_points hf _ (List.mem_map_of_mem hp)
  unfold HasArea32 Poly.Wide
  simp only [onFace32_iff hf hp]
  refine exists_congr fun a => exists_congr fun b => exists_congr fun c => ?_
  refine and_congr_right fun ha => and_congr_right fun hb => and_congr_right fun hc => not_congr ?_
  constructor
  · intro h
    simp only [Poly.tri, h, dotR]; ring
  · intro h
    refine cross_along_zero hn ?_ ?_ h
    · rw [Poly.ht_sub, hb.2, ha.2]; ring
    · rw [Poly.ht_sub, hc.2, ha.2]; ring

theorem inBrush_convex (planes : List (BrushPlane F32)) (a b : V3 ℝ) (ha : InBrush32 planes a) (hb : InBrush32 planes b)
    (t : ℝ) (h0 : 0 ≤ t) (h1 : t ≤ 1) : InBrush32 planes (addR (smulR (1 - t) a) (smulR t b)) := by
  intro q hq
  have e : (triOf q).above (addR (smulR (1 - t) a) (smulR t b)) = (1 - t) * (triOf q).above a + t * (triOf q).above b := by
    simp only [Tri.above, dotR, subR, addR, smulR]; ring
  rw [e]
  have := mul_nonpos_of_nonneg_of_nonpos (sub_nonneg.2 h1) (ha q hq)
  have := mul_nonpos_of_nonneg_of_nonpos h0 (hb q hq)
  linarith

theorem firm_finite (hf : ClearBody g R planes) {textures : TextureInfo} {entity : Entity F32} {f : BrushPlane F32}
    (hm : f ∈ planes) {face : PlaneGeo F32} (h : buildPlane textures entity planes f = .ok face) :
    ∀ v ∈ face.vertices, Finite3 v.pos := fun v hv =>
  ((C117_corners textures entity h hf.grid hf.least hf.most hf.near hm hf.count (hf.clear f hm)).2 v hv).1

variable [AccurateAtan2] {brush : Brush F32}

/-- The triangles of a face of a firm brush agree with the exact face up to 1/2000 of a unit; a face without area has
none. -/
theorem firm_face (hf : FirmBrush g R planes) {textures : TextureInfo} {entity : Entity F32} {p : BrushPlane F32}
    (hm : p ∈ planes) {face : PlaneGeo F32} (h : buildPlane textures entity planes p = .ok face) :
    Agrees (1 / 2000)
      (fun x => ∃ u v w, TriangleOf face.vertices face.indices u v w ∧ InTriangle (vec u.pos) (vec v.pos) (vec w.pos) x)
      (fun y => HasArea32 planes p ∧ OnFace32 planes p y) := by
  obtain ⟨xs, hnd, hfa, htn, hco⟩ := firm_outline hf hm h
  have hn : NonDegenerate (exactPlane p) := firm_points hf.toClearBody _ (List.mem_map_of_mem hm)
  rw [List.forall₂_map_left_iff] at hfa
  have hlen := hfa.length_eq
  constructor
  · rintro x ⟨u, v, w, hT, hx⟩
    obtain ⟨t, hu, hv, hw⟩ := (fan_triangle h u v w).1 hT
    obtain ⟨a, ha, ca⟩ := forall2_get hfa hu
    obtain ⟨b, hb, cb⟩ := forall2_get hfa hv
    obtain ⟨c, hc, cc⟩ := forall2_get hfa hw
    obtain ⟨y, hy, cy⟩ := triangle_near ca cb cc hx
    have ka := (hco a).1 (List.mem_of_getElem? ha)
    have kb := (hco b).1 (List.mem_of_getElem? hb)
    have kc := (hco c).1 (List.mem_of_getElem? hc)
    refine ⟨y, ⟨(hasArea32_iff hf.toClearBody hm).2 ⟨a, b, c, ⟨ka.1, ka.2.1⟩, ⟨kb.1, kb.2.1⟩, ⟨kc.1, kc.2.1⟩,
      (htn 0 (t + 1) (t + 2) a b c (by omega) (by omega) ha hb hc).ne⟩, (onFace32_iff hf.toClearBody hm y).2 ?_⟩, cy⟩
    obtain ⟨r, s, q, hr, hs, hq, hsum, rfl⟩ := hy
    constructor
    · intro pl hpl
      rw [ht_weighed _ _ _ _ hsum]
      have := mul_nonpos_of_nonneg_of_nonpos hr (ka.1 pl hpl)
      have := mul_nonpos_of_nonneg_of_nonpos hs (kb.1 pl hpl)
      have := mul_nonpos_of_nonneg_of_nonpos hq (kc.1 pl hpl)
      linarith
    · rw [ht_weighed _ _ _ _ hsum, ka.2.1, kb.2.1, kc.2.1]; ring
  · rintro y ⟨hw, hy⟩
    obtain ⟨hin, h0⟩ := (onFace32_iff hf.toClearBody hm y).1 hy
    have h3 := Poly.wide_corners (firm_bounded hf.toClearBody) hn ((hasArea32_iff hf.toClearBody hm).1 hw) (fun c => (hco c).symm) hnd
    obtain ⟨t, a, b, c, ha, hb, hc, hT⟩ := fan_tiles (firm_bounded hf.toClearBody) hn hco htn h3 h0 hin
    obtain ⟨u, hu, cu⟩ := forall2_get' hfa ha
    obtain ⟨v, hv, cv⟩ := forall2_get' hfa hb
    obtain ⟨w, hw', cw⟩ := forall2_get' hfa hc
    obtain ⟨x, hx, cx⟩ := triangle_near (close_symm cu) (close_symm cv) (close_symm cw) hT
    exact ⟨x, ⟨u, v, w, (fan_triangle h u v w).2 ⟨t, hu, hv, hw'⟩, hx⟩, close_symm cx⟩

theorem firm_wide (hf : ClearBody g R planes) {y : V3 ℝ} (hy : OnBorder32 planes y) :
    ∃ p ∈ planes, HasArea32 planes p ∧ OnFace32 planes p y := by
  obtain ⟨hin, p, hp, h0⟩ := hy
  obtain ⟨q', hq', hw, hq0⟩ := Poly.on_wide (firm_solid hf) (firm_points hf) (List.mem_map_of_mem hp)
    ((inBrush_iff hf y).1 hin) ((firm_ht_zero hf hp y).2 h0)
  obtain ⟨q, hq, rfl⟩ := List.mem_map.1 hq'
  exact ⟨q, hq, (hasArea32_iff hf hq).2 hw, (firm_ht_zero hf hq y).1 hq0, hin⟩

/-- The points of the built faces of a firm brush: each near a true corner, and each true corner near one. -/
theorem firm_built (hf : ClearBody g R brush.planes) {textures : TextureInfo} {entity : Entity F32} {geo : BrushGeo F32}
    (h : buildBrush textures entity brush = .ok geo) :
    (∀ p ∈ geo.planes, ∀ v ∈ p.vertices, Finite3 v.pos ∧ ∃ f ∈ brush.planes, ∃ x,
      Poly.Corner (brush.planes.map exactPlane) (exactPlane f) x ∧ Close (1 / 2000) (vec v.pos) x) ∧
    ∀ f ∈ brush.planes, ∀ x, Poly.Corner (brush.planes.map exactPlane) (exactPlane f) x →
      ∃ p ∈ geo.planes, ∃ v ∈ p.vertices, Finite3 v.pos ∧ Close (1 / 2000) (vec v.pos) x := by
  unfold buildBrush at h
  obtain ⟨pgs, h1, h2⟩ := Outcome.bind_eq_ok.1 h
  cases h2
  constructor
  · intro p hp v hv
    obtain ⟨f, hfm, hb⟩ := mapOut_mem h1 hp
    obtain ⟨hfin, x, hx, hc⟩ := (C117_corners textures entity hb hf.grid hf.least hf.most hf.near hfm hf.count
      (hf.clear f hfm)).2 v hv
    exact ⟨hfin, f, hfm, x, (firm_corner hf hfm x).2 hx, hc⟩
  · intro f hfm x hx
    obtain ⟨p, hp, hb⟩ := mapOut_mem' h1 hfm
    obtain ⟨v, hv, hfin, hc⟩ := (C117_corners textures entity hb hf.grid hf.least hf.most hf.near hfm hf.count
      (hf.clear f hfm)).1 x ((firm_corner hf hfm x).1 hx)
    exact ⟨p, hp, v, hv, hfin, hc⟩

/-- The hull of the corners of a firm brush agrees with the brush up to 1/2000 of a unit. -/
theorem firm_hull (hf : ClearBody g R brush.planes) {textures : TextureInfo} {entity : Entity F32} {geo : BrushGeo F32}
    (h : buildBrush textures entity brush = .ok geo) {points : List (V3 F32)}
    (k1 : ∀ x ∈ points, ∃ p ∈ geo.planes, ∃ v ∈ p.vertices, v.pos = x)
    (k2 : ∀ p ∈ geo.planes, ∀ v ∈ p.vertices, ∃ x ∈ points, SamePlace x v.pos)
    (hfinite : ∀ f ∈ brush.planes, ∃ xs : List (V3 ℝ), ∀ x, x ∈ xs ↔ TrueCorner R (brush.planes.map triOf) (triOf f) x) :
    Agrees (1 / 2000) (InHullOf (points.map vec)) (InBrush32 brush.planes) := by
  obtain ⟨b1, b2⟩ := firm_built hf h
  constructor
  · intro x hx
    refine hull_near (inBrush_convex brush.planes) ?_ hx
    intro q hq
    obtain ⟨p, hp, rfl⟩ := List.mem_map.1 hq
    obtain ⟨pg, hpg, v, hv, rfl⟩ := k1 p hp
    obtain ⟨-, f, hfm, y, hy, hc⟩ := b1 pg hpg v hv
    exact ⟨y, (inBrush_iff hf y).2 hy.1, hc⟩
  · intro y hy
    obtain ⟨pts, hpts⟩ : ∃ pts : List (V3 ℝ), ∀ c, c ∈ pts ↔ ∃ f ∈ brush.planes,
        Poly.Corner (brush.planes.map exactPlane) (exactPlane f) c := by
      have : ∀ l : List (BrushPlane F32), (∀ f ∈ l, f ∈ brush.planes) → ∃ pts : List (V3 ℝ), ∀ c, c ∈ pts ↔ ∃ f ∈ l,
          Poly.Corner (brush.planes.map exactPlane) (exactPlane f) c := by
        intro l
        induction l with
        | nil => exact fun _ => ⟨[], by simp⟩
        | cons f l ih =>
          intro hl
          obtain ⟨pts, hp⟩ := ih fun f hf => hl f (by simp [hf])
          obtain ⟨xs, hx⟩ := hfinite f (hl f (by simp))
          refine ⟨xs ++ pts, fun c => ?_⟩
          rw [List.mem_append, hp, hx, ← firm_corner hf (hl f (by simp))]
          simp
      exact this brush.planes fun _ h => h
    have hh : InHullOf pts y := by
      refine hull_of_support fun w => ?_
      obtain ⟨f', hf', c, hc, hle⟩ := beyond_body (firm_bounded hf) (firm_points hf) ((inBrush_iff hf y).1 hy) w
      obtain ⟨f, hfm, rfl⟩ := List.mem_map.1 hf'
      exact ⟨c, (hpts c).2 ⟨f, hfm, hc⟩, hle⟩
    obtain ⟨x, hx, hc⟩ := hull_near (C := InHullOf (points.map vec)) (hull_convex _) (fun c hc => by
      obtain ⟨f, hfm, hcc⟩ := (hpts c).1 hc
      obtain ⟨pg, hpg, v, hv, hfin, hcl⟩ := b2 f hfm c hcc
      obtain ⟨x, hx, hs⟩ := k2 pg hpg v hv
      refine ⟨vec x, fun C _ hp => hp _ (List.mem_map_of_mem hx), ?_⟩
      rw [same_vec hfin hs]
      exact close_symm hcl) hh
    exact ⟨x, hx, close_symm hc⟩

theorem firm_corners (hf : FirmBrush g R planes) (f : BrushPlane F32) (hm : f ∈ planes) :
    ∃ xs : List (V3 ℝ), ∀ x, x ∈ xs ↔ TrueCorner R (planes.map triOf) (triOf f) x := by
  obtain ⟨xs, -, hx, -⟩ := hf.corners f hm
  exact ⟨xs, hx⟩

theorem firm_nonempty (hf : ClearBody g R planes) : planes ≠ [] := by
  rintro rfl
  obtain ⟨M, hM⟩ := hf.bounded
  have := (hM ⟨|M| + 1, 0, 0⟩ (by simp)).1
  simp only at this
  have h1 := le_abs_self M
  have h2 := le_abs_self (|M| + 1)
  linarith

/-! ### scenes -/

/-- C123: every drawn point is within 1/2000 of a unit of a point of a shown face that has an area, and every point of such
a face is that near to a drawn point. -/
theorem C123_picture (depth : Nat)
    (order : List (Str × List (BrushGeo F32)) → List (Str × List (BrushGeo F32))) (horder : ∀ l, (order l).Perm l)
    (config : Config F32) (nodes : List (Node F32)) (h : Quarch.run depth order config = .ok nodes)
    (text : Str) (ht : config.mapFile = some text) (entities : List (Entity F32)) (hl : LoadsAs text entities)
    (hb : ∀ e ∈ entities, Anchored entities e → ∀ br ∈ e.brushes, IsFirm br.planes) :
    Agrees (1 / 2000) (Drawn32 nodes) (fun y => ∃ e ∈ entities, Anchored entities e ∧ ∃ br ∈ e.brushes, ∃ p ∈ br.planes,
      ShownFace config e br p ∧ HasArea32 br.planes p ∧ OnFace32 br.planes p y) := by
  obtain ⟨h1, h2⟩ := C87_triangles depth order horder config nodes h text ht entities hl
  constructor
  · rintro x ⟨o, v, s, a, b, c, hocc, hs, hT, hx⟩
    obtain ⟨e, he, ha, br, hbr, p, hpm, hsh, face, hface, u, v, w, hT', e1, e2, e3⟩ := h1 o v s a b c hocc hs hT
    obtain ⟨g, R, hf⟩ := hb e he ha br hbr
    have hfin := firm_finite hf.toClearBody hpm hface
    obtain ⟨m1, m2, m3⟩ := triangle_mem hT'
    rw [same_vec (hfin _ m1) e1, same_vec (hfin _ m2) e2, same_vec (hfin _ m3) e3] at hx
    obtain ⟨y, hy, hc⟩ := (firm_face hf hpm hface).1 x ⟨u, v, w, hT', hx⟩
    exact ⟨y, ⟨e, he, ha, br, hbr, p, hpm, hsh, hy⟩, hc⟩
  · rintro y ⟨e, he, ha, br, hbr, p, hpm, hsh, hy⟩
    obtain ⟨g, R, hf⟩ := hb e he ha br hbr
    obtain ⟨face, hface, hd⟩ := h2 e he ha br hbr p hpm hsh
    have hfin := firm_finite hf.toClearBody hpm hface
    obtain ⟨x, ⟨u, v, w, hT, hx⟩, hc⟩ := (firm_face hf hpm hface).2 y hy
    obtain ⟨o, vis, s, a, b, c, hocc, hs, hT', e1, e2, e3⟩ := hd u v w hT
    obtain ⟨m1, m2, m3⟩ := triangle_mem hT
    rw [← same_vec (hfin _ m1) e1, ← same_vec (hfin _ m2) e2, ← same_vec (hfin _ m3) e3] at hx
    exact ⟨x, ⟨o, vis, s, a, b, c, hocc, hs, hT', hx⟩, hc⟩

/-- C123: if all faces are to be shown and all entities are reached, the picture agrees with the borders of the brushes. -/
theorem C123_everything (depth : Nat)
    (order : List (Str × List (BrushGeo F32)) → List (Str × List (BrushGeo F32))) (horder : ∀ l, (order l).Perm l)
    (config : Config F32) (nodes : List (Node F32)) (h : Quarch.run depth order config = .ok nodes)
    (text : Str) (ht : config.mapFile = some text) (entities : List (Entity F32)) (hl : LoadsAs text entities)
    (hb : ∀ e ∈ entities, ∀ br ∈ e.brushes, IsFirm br.planes) (ha : ∀ e ∈ entities, Anchored entities e)
    (hs : ∀ e ∈ entities, ∀ br ∈ e.brushes, ∀ p ∈ br.planes, ShownFace config e br p) :
    Agrees (1 / 2000) (Drawn32 nodes) (fun y => ∃ e ∈ entities, ∃ br ∈ e.brushes, OnBorder32 br.planes y) := by
  obtain ⟨h1, h2⟩ := C123_picture depth order horder config nodes h text ht entities hl fun e he _ => hb e he
  constructor
  · intro x hx
    obtain ⟨y, ⟨e, he, -, br, hbr, p, hpm, -, -, hy⟩, hc⟩ := h1 x hx
    exact ⟨y, ⟨e, he, br, hbr, hy.2, p, hpm, hy.1⟩, hc⟩
  · rintro y ⟨e, he, br, hbr, hy⟩
    obtain ⟨g, R, hf⟩ := hb e he br hbr
    obtain ⟨p, hpm, har, hon⟩ := firm_wide hf.toClearBody hy
    exact h2 y ⟨e, he, ha e he, br, hbr, p, hpm, hs e he br hbr p hpm, har, hon⟩

/-- C124: the convex shapes of the scene agree with the brushes with convex collision up to 1/2000 of a unit. -/
theorem C124_filled (depth : Nat)
    (order : List (Str × List (BrushGeo F32)) → List (Str × List (BrushGeo F32))) (horder : ∀ l, (order l).Perm l)
    (config : Config F32) (nodes : List (Node F32)) (h : Quarch.run depth order config = .ok nodes)
    (text : Str) (ht : config.mapFile = some text) (entities : List (Entity F32)) (hl : LoadsAs text entities)
    (hb : ∀ e ∈ entities, Anchored entities e → ∀ br ∈ e.brushes, IsFirm br.planes) :
    Agrees (1 / 2000) (InSolid32 nodes) (fun y => ∃ e ∈ entities, Anchored entities e ∧ ∃ br ∈ e.brushes,
      SolidAs config e br .convex ∧ InBrush32 br.planes y) := by
  obtain ⟨h1, h2⟩ := C88_convex depth order horder config nodes h text ht entities hl
  constructor
  · rintro x ⟨o, shapes, shape, hs, hocc, hx⟩
    obtain ⟨e, he, ha, br, hbr, hsolid, bg, hbg, -, k1, k2, -⟩ := h1 o shapes shape hocc hs
    obtain ⟨g, R, hf⟩ := hb e he ha br hbr
    obtain ⟨y, hy, hc⟩ := (firm_hull hf.toClearBody hbg k1 k2 (firm_corners hf)).1 x hx
    exact ⟨y, ⟨e, he, ha, br, hbr, hsolid, hy⟩, hc⟩
  · rintro y ⟨e, he, ha, br, hbr, hsolid, hy⟩
    obtain ⟨g, R, hf⟩ := hb e he ha br hbr
    obtain ⟨bg, hbg, o, shapes, shape, hocc, hs, -, k1, k2, -⟩ := h2 e he ha br hbr (firm_nonempty hf.toClearBody) hsolid
    obtain ⟨x, hx, hc⟩ := (firm_hull hf.toClearBody hbg k1 k2 (firm_corners hf)).2 y hy
    exact ⟨x, ⟨o, shapes, shape, hs, hocc, hx⟩, hc⟩

/-- C124: the triangles of the concave shapes of the scene agree with the borders of the brushes with concave collision up
to 1/2000 of a unit. -/
theorem C124_covered (depth : Nat)
    (order : List (Str × List (BrushGeo F32)) → List (Str × List (BrushGeo F32))) (horder : ∀ l, (order l).Perm l)
    (config : Config F32) (nodes : List (Node F32)) (h : Quarch.run depth order config = .ok nodes)
    (text : Str) (ht : config.mapFile = some text) (entities : List (Entity F32)) (hl : LoadsAs text entities)
    (hb : ∀ e ∈ entities, Anchored entities e → ∀ br ∈ e.brushes, IsFirm br.planes) :
    Agrees (1 / 2000) (OnSolid32 nodes) (fun y => ∃ e ∈ entities, Anchored entities e ∧ ∃ br ∈ e.brushes,
      SolidAs config e br .concave ∧ OnBorder32 br.planes y) := by
  obtain ⟨h1, h2⟩ := C88_concave depth order horder config nodes h text ht entities hl
  constructor
  · rintro x ⟨o, shapes, s, hs, hocc, a, b, c, hT, hx⟩
    obtain ⟨e, he, ha, br, hbr, hsolid, p, hpm, face, hface, u, v, w, hT', e1, e2, e3⟩ := h1 o shapes s a b c hocc hs hT
    obtain ⟨g, R, hf⟩ := hb e he ha br hbr
    have hfin := firm_finite hf.toClearBody hpm hface
    obtain ⟨m1, m2, m3⟩ := triangle_mem hT'
    rw [same_vec (hfin _ m1) e1, same_vec (hfin _ m2) e2, same_vec (hfin _ m3) e3] at hx
    obtain ⟨y, ⟨-, hy⟩, hc⟩ := (firm_face hf hpm hface).1 x ⟨u, v, w, hT', hx⟩
    exact ⟨y, ⟨e, he, ha, br, hbr, hsolid, hy.2, p, hpm, hy.1⟩, hc⟩
  · rintro y ⟨e, he, ha, br, hbr, hsolid, hy⟩
    obtain ⟨g, R, hf⟩ := hb e he ha br hbr
    obtain ⟨p, hpm, har, hon⟩ := firm_wide hf.toClearBody hy
    obtain ⟨face, hface, hd⟩ := h2 e he ha br hbr hsolid p hpm
    have hfin := firm_finite hf.toClearBody hpm hface
    obtain ⟨x, ⟨u, v, w, hT, hx⟩, hc⟩ := (firm_face hf hpm hface).2 y ⟨har, hon⟩
    obtain ⟨o, shapes, s, a, b, c, hocc, hs, hT', e1, e2, e3⟩ := hd u v w hT
    obtain ⟨m1, m2, m3⟩ := triangle_mem hT
    rw [← same_vec (hfin _ m1) e1, ← same_vec (hfin _ m2) e2, ← same_vec (hfin _ m3) e3] at hx
    exact ⟨x, ⟨o, shapes, s, hs, hocc, a, b, c, hT', hx⟩, hc⟩

theorem body_map (textures : TextureInfo) (entities : List (Entity F32))
    (hb : ∀ e ∈ entities, ∀ br ∈ e.brushes, ∃ g R, ClearBody g R br.planes) : ∃ gs, Geo.run textures entities = .ok gs := by
  refine mapOut_isOk.2 fun e he => ?_
  have hok : ∀ br ∈ e.brushes, ∃ geo, buildBrush textures e br = .ok geo := fun br hbr => by
    obtain ⟨g, R, hf⟩ := hb e he br hbr
    refine C116_builds textures e br fun p hp => ?_
    obtain ⟨⟨n0, n1, n2, h1, h2⟩, -⟩ := hf.near p hp
    exact ⟨g, n0, n1, n2, h1, h2⟩
  obtain ⟨bgs, hm⟩ := mapOut_isOk.2 hok
  unfold Geo.buildEntity
  rw [hm, Outcome.ok_bind]
  exact ⟨_, rfl⟩

theorem firm_map (textures : TextureInfo) (entities : List (Entity F32))
    (hb : ∀ e ∈ entities, ∀ br ∈ e.brushes, IsFirm br.planes) : ∃ gs, Geo.run textures entities = .ok gs :=
  body_map textures entities fun e he br hbr => by
    obtain ⟨g, R, hf⟩ := hb e he br hbr
    exact ⟨g, R, hf.toClearBody⟩

/-- C123: a map file whose brushes are firm loads, under the conditions on its entities of C91; if all is to be shown, the
picture agrees with the borders of the brushes. -/
theorem C123_loads (depth : Nat)
    (order : List (Str × List (BrushGeo F32)) → List (Str × List (BrushGeo F32))) (horder : ∀ l, (order l).Perm l)
    (config : Config F32) (text : Str) (ht : config.mapFile = some text) (entities : List (Entity F32))
    (hm : MapIs text entities) (hb : ∀ e ∈ entities, ∀ br ∈ e.brushes, IsFirm br.planes)
    (hworld : ∃ pre w post, entities = pre ++ w :: post ∧ w.properties (str! "classname") = some (str! "worldspawn") ∧
      ∀ e ∈ pre ++ post, e.properties (str! "classname") ≠ some (str! "worldspawn"))
    (hnamed : ∀ e ∈ entities, ∃ name, e.properties (str! "classname") = some name)
    (hids : ∀ e ∈ entities, ∀ k ∈ [str! "_tb_id", str! "_tb_group"], ∀ s, e.properties k = some s → ∃ i, ReadsI32 s i)
    (htree : ¬ Loop entities) (hd : entities.length ≤ depth) :
    ∃ nodes, Quarch.run depth order config = .ok nodes ∧
      ((∀ e ∈ entities, Anchored entities e) →
       (∀ e ∈ entities, ∀ br ∈ e.brushes, ∀ p ∈ br.planes, ShownFace config e br p) →
       Agrees (1 / 2000) (Drawn32 nodes) fun y => ∃ e ∈ entities, ∃ br ∈ e.brushes, OnBorder32 br.planes y) := by
  obtain ⟨nodes, hn⟩ := C92_enough depth order horder config entities
    ⟨⟨text, ht, hm⟩, hworld, (geo_succeeds config.textureInfo entities).1 (firm_map _ entities hb), fun e he _ => hnamed e he,
      fun e he _ _ => hids e he, htree⟩ hd
  exact ⟨nodes, hn, fun ha hs =>
    C123_everything depth order horder config nodes hn text ht entities ((C92_text text entities).2 hm) hb ha hs⟩

/-- C124: a map file whose brushes are firm loads, under the conditions on its entities of C91; if all brushes are to have
convex collision it fills the brushes, and if all are to have concave collision it covers their borders. -/
theorem C124_loads (depth : Nat)
    (order : List (Str × List (BrushGeo F32)) → List (Str × List (BrushGeo F32))) (horder : ∀ l, (order l).Perm l)
    (config : Config F32) (text : Str) (ht : config.mapFile = some text) (entities : List (Entity F32))
    (hm : MapIs text entities) (hb : ∀ e ∈ entities, ∀ br ∈ e.brushes, IsFirm br.planes)
    (hworld : ∃ pre w post, entities = pre ++ w :: post ∧ w.properties (str! "classname") = some (str! "worldspawn") ∧
      ∀ e ∈ pre ++ post, e.properties (str! "classname") ≠ some (str! "worldspawn"))
    (hnamed : ∀ e ∈ entities, ∃ name, e.properties (str! "classname") = some name)
    (hids : ∀ e ∈ entities, ∀ k ∈ [str! "_tb_id", str! "_tb_group"], ∀ s, e.properties k = some s → ∃ i, ReadsI32 s i)
    (htree : ¬ Loop entities) (hd : entities.length ≤ depth) :
    ∃ nodes, Quarch.run depth order config = .ok nodes ∧
      ((∀ e ∈ entities, Anchored entities e) →
       ((∀ e ∈ entities, ∀ br ∈ e.brushes, SolidAs config e br .convex) →
        Agrees (1 / 2000) (InSolid32 nodes) fun y => ∃ e ∈ entities, ∃ br ∈ e.brushes, InBrush32 br.planes y) ∧
       ((∀ e ∈ entities, ∀ br ∈ e.brushes, SolidAs config e br .concave) →
        Agrees (1 / 2000) (OnSolid32 nodes) fun y => ∃ e ∈ entities, ∃ br ∈ e.brushes, OnBorder32 br.planes y)) := by
  obtain ⟨nodes, hn, -⟩ := C123_loads depth order horder config text ht entities hm hb hworld hnamed hids htree hd
  have hl := (C92_text text entities).2 hm
  refine ⟨nodes, hn, fun ha => ⟨fun hs => ?_, fun hs => ?_⟩⟩
  · obtain ⟨h1, h2⟩ := C124_filled depth order horder config nodes hn text ht entities hl fun e he _ => hb e he
    refine ⟨fun x hx => ?_, ?_⟩
    · obtain ⟨y, ⟨e, he, -, br, hbr, -, hy⟩, hc⟩ := h1 x hx
      exact ⟨y, ⟨e, he, br, hbr, hy⟩, hc⟩
    · rintro y ⟨e, he, br, hbr, hy⟩
      exact h2 y ⟨e, he, ha e he, br, hbr, hs e he br hbr, hy⟩
  · obtain ⟨h1, h2⟩ := C124_covered depth order horder config nodes hn text ht entities hl fun e he _ => hb e he
    refine ⟨fun x hx => ?_, ?_⟩
    · obtain ⟨y, ⟨e, he, -, br, hbr, -, hy⟩, hc⟩ := h1 x hx
      exact ⟨y, ⟨e, he, br, hbr, hy⟩, hc⟩
    · rintro y ⟨e, he, br, hbr, hy⟩
      exact h2 y ⟨e, he, ha e he, br, hbr, hs e he br hbr, hy⟩

end
end Quarch
