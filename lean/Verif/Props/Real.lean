import Verif.Proofs.Real
import Verif.Proofs.Forge
import Verif.Spec.Instances
/-
C20–C23 and C26 in exact arithmetic, C70.
-/
set_option linter.unusedSectionVars false
namespace Quarch
open Spec Geo

section
variable [RealText] [Platform]

/-- Exact arithmetic never aborts: geometry exists for every list of entities. -/
theorem C21_geometry_exists (textures : TextureInfo) (entities : List (Entity ℝ)) :
    ∃ gs, Geo.run textures entities = .ok gs := run_real textures entities

/-- C20 in exact arithmetic: the corners are pairwise different and are exactly the points in which the face
meets two other faces of the brush (in the order that makes the determinant positive and not below 0.001)
and which are inside the brush up to 0.001. -/
theorem C20_exact_corners (textures : TextureInfo) (entity : Entity ℝ) (planes : List (BrushPlane ℝ))
    (plane : BrushPlane ℝ) (geo : PlaneGeo ℝ) (h : buildPlane textures entity planes plane = .ok geo) :
    (geo.vertices.map (·.pos)).Nodup ∧
    ∀ x, x ∈ geo.vertices.map (·.pos) ↔
      (∃ p1 ∈ planes, ∃ p2 ∈ planes, 1 / 1000 ≤ unitDet plane p1 p2 ∧ OnPlane plane x ∧ OnPlane p1 x ∧
        OnPlane p2 x) ∧ ∀ p ∈ planes, WithinR (1 / 1000) p x := by
  obtain ⟨h1, h2⟩ := corners_real h
  exact ⟨h1, fun x => (h2 x).trans found_real⟩

/-- C21: every corner lies on its face, on two further planes (the three normals are independent) and inside
the brush up to 0.001. -/
theorem C21_corners_on_face_inside_brush (textures : TextureInfo) (entity : Entity ℝ)
    (planes : List (BrushPlane ℝ)) (plane : BrushPlane ℝ) (geo : PlaneGeo ℝ)
    (h : buildPlane textures entity planes plane = .ok geo) (v : Vertex ℝ) (hv : v ∈ geo.vertices) :
    OnPlane plane v.pos ∧
    (∃ p1 ∈ planes, ∃ p2 ∈ planes, detR (rawNormal plane) (rawNormal p1) (rawNormal p2) ≠ 0 ∧
      OnPlane p1 v.pos ∧ OnPlane p2 v.pos) ∧
    ∀ p ∈ planes, WithinR (1 / 1000) p v.pos := by
  obtain ⟨⟨p1, hp1, p2, hp2, hd, h0, h1, h2⟩, hb⟩ :=
    ((C20_exact_corners _ _ _ _ _ h).2 v.pos).1 (List.mem_map_of_mem hv)
  refine ⟨h0, ⟨p1, hp1, p2, hp2, ?_, h1, h2⟩, hb⟩
  intro e
  unfold unitDet at hd
  rw [e, zero_div] at hd
  norm_num at hd

/-- C21 for a whole map. -/
theorem C21_whole_map (textures : TextureInfo) (entities : List (Entity ℝ)) :
    ∃ gs, Geo.run textures entities = .ok gs ∧
    List.Forall₂ (fun e g => List.Forall₂ (fun b bg => List.Forall₂ (fun p pg =>
      ∀ v ∈ pg.vertices, OnPlane p v.pos ∧
        (∃ p1 ∈ b.planes, ∃ p2 ∈ b.planes, detR (rawNormal p) (rawNormal p1) (rawNormal p2) ≠ 0 ∧
          OnPlane p1 v.pos ∧ OnPlane p2 v.pos) ∧ ∀ q ∈ b.planes, WithinR (1 / 1000) q v.pos)
      b.planes bg.planes) e.brushes g.brushes) entities gs := by
  obtain ⟨gs, h⟩ := run_real textures entities
  refine ⟨gs, h, (run_faces h).imp fun e g hg => hg.imp fun b bg hb => hb.imp fun p pg hp v hv => ?_⟩
  exact C21_corners_on_face_inside_brush _ _ _ _ _ hp v hv

/-- C22: three planes of the brush that meet in a point of the brush at a sufficient angle make that point a
corner of the first of them – in whatever order the planes are written. -/
theorem C22_corner_of_face (textures : TextureInfo) (entity : Entity ℝ) (planes planes' : List (BrushPlane ℝ))
    (hperm : planes.Perm planes') (p0 p1 p2 : BrushPlane ℝ) (h1 : p1 ∈ planes)
    (h2 : p2 ∈ planes) (x : V3 ℝ) (hdet : 1 / 1000 ≤ |unitDet p0 p1 p2|) (hx0 : OnPlane p0 x)
    (hx1 : OnPlane p1 x) (hx2 : OnPlane p2 x) (hin : ∀ p ∈ planes, WithinR (1 / 1000) p x) :
    ∃ geo, buildPlane textures entity planes' p0 = .ok geo ∧ x ∈ geo.vertices.map (·.pos) := by
  obtain ⟨geo, hg⟩ := buildPlane_real textures entity planes' p0
  refine ⟨geo, hg, ((C20_exact_corners _ _ _ _ _ hg).2 x).2 ⟨?_, fun p hp => hin p (hperm.mem_iff.2 hp)⟩⟩
  rcases le_total 0 (unitDet p0 p1 p2) with hs | hs
  · rw [abs_of_nonneg hs] at hdet
    exact ⟨p1, hperm.mem_iff.1 h1, p2, hperm.mem_iff.1 h2, hdet, hx0, hx1, hx2⟩
  · rw [abs_of_nonpos hs, ← unitDet_swap] at hdet
    exact ⟨p2, hperm.mem_iff.1 h2, p1, hperm.mem_iff.1 h1, hdet, hx0, hx2, hx1⟩

/-- C22: the point is a corner of each of the three faces. -/
theorem C22_corner_of_all_three (textures : TextureInfo) (entity : Entity ℝ)
    (planes planes' : List (BrushPlane ℝ)) (hperm : planes.Perm planes') (p0 p1 p2 : BrushPlane ℝ)
    (h0 : p0 ∈ planes) (h1 : p1 ∈ planes) (h2 : p2 ∈ planes) (x : V3 ℝ) (hdet : 1 / 1000 ≤ |unitDet p0 p1 p2|)
    (hx0 : OnPlane p0 x) (hx1 : OnPlane p1 x) (hx2 : OnPlane p2 x)
    (hin : ∀ p ∈ planes, WithinR (1 / 1000) p x) :
    ∀ q ∈ [p0, p1, p2], ∃ geo, buildPlane textures entity planes' q = .ok geo ∧
      x ∈ geo.vertices.map (·.pos) := by
  intro q hq
  simp only [List.mem_cons, List.not_mem_nil, or_false] at hq
  rcases hq with rfl | rfl | rfl
  · exact C22_corner_of_face _ _ _ _ hperm _ _ _ h1 h2 x hdet hx0 hx1 hx2 hin
  · exact C22_corner_of_face _ _ _ _ hperm _ _ _ h2 h0 x (by rw [unitDet_rotate]; exact hdet) hx1 hx2 hx0 hin
  · exact C22_corner_of_face _ _ _ _ hperm _ _ _ h0 h1 x
      (by rw [unitDet_rotate, unitDet_rotate]; exact hdet) hx2 hx0 hx1 hin

/-- C23 in exact arithmetic: reordering the faces of a brush gives the same corners (as a multiset). -/
theorem C23_exact_order_independent (textures textures' : TextureInfo) (entity entity' : Entity ℝ)
    (planes planes' : List (BrushPlane ℝ)) (hp : planes.Perm planes') (plane : BrushPlane ℝ)
    (geo geo' : PlaneGeo ℝ) (h : buildPlane textures entity planes plane = .ok geo)
    (h' : buildPlane textures' entity' planes' plane = .ok geo') :
    (geo.vertices.map (·.pos)).Perm (geo'.vertices.map (·.pos)) := by
  obtain ⟨a1, a2⟩ := corners_real h
  obtain ⟨b1, b2⟩ := corners_real h'
  refine (List.perm_ext_iff_of_nodup a1 b1).2 fun x => ?_
  rw [a2, b2]
  unfold Found
  simp only [hp.mem_iff]

/-! ### C26 -/

theorem foldl_add_real (l : List (V3 ℝ)) (a : V3 ℝ) : l.foldl V3.add a = addR a (sumR l) := by
  induction l generalizing a with
  | nil => simp [addR, sumR]
  | cons x xs ih =>
    rw [List.foldl_cons, ih]
    simp only [v3_add, addR, sumR, List.map_cons, List.sum_cons]
    apply V3.ext' <;> simp only [] <;> ring

theorem mean_real (l : List (V3 ℝ)) : mean l = smulR (1 / (max l.length 1 : Nat)) (sumR l) := by
  unfold mean
  rw [foldl_add_real]
  simp [v3_sdiv, smulR, addR, zeroR, div_eq_inv_mul]

theorem sumR_sub (l : List (V3 ℝ)) (c : V3 ℝ) :
    sumR (l.map fun x => subR x c) = subR (sumR l) (smulR l.length c) := by
  induction l with
  | nil => simp [sumR, subR, smulR]
  | cons x xs ih =>
    simp only [sumR, subR, smulR, List.map_cons, List.sum_cons, List.length_cons, List.map_map] at ih ⊢
    injection ih with i1 i2 i3
    push_cast
    apply V3.ext'
    · simp only []; rw [i1]; ring
    · simp only []; rw [i2]; ring
    · simp only []; rw [i3]; ring

/-- `c` is the mean of `l`: times the number of elements it is their sum, the deviations add up to zero, and
it is zero for the empty list. -/
def IsMean (l : List (V3 ℝ)) (c : V3 ℝ) : Prop :=
  smulR l.length c = sumR l ∧ sumR (l.map fun x => subR x c) = zeroR ∧ (l = [] → c = zeroR)

theorem isMean_mean (l : List (V3 ℝ)) : IsMean l (mean l) := by
  have h1 : smulR l.length (mean l) = sumR l := by
    rw [mean_real]
    cases l with
    | nil => simp [smulR, sumR]
    | cons x xs =>
      have : ((max (x :: xs).length 1 : Nat) : ℝ) = (x :: xs).length := by simp
      rw [this]
      have hne : ((x :: xs).length : ℝ) ≠ 0 := by
        rw [List.length_cons]; positivity
      simp only [smulR]
      apply V3.ext' <;> simp only [] <;> field_simp
  refine ⟨h1, ?_, ?_⟩
  · rw [sumR_sub, h1]; simp [subR, zeroR]
  · rintro rfl
    rw [mean_real]; simp [smulR, sumR, zeroR]

/-- Only one point is the mean of a non-empty list. -/
theorem isMean_unique {l : List (V3 ℝ)} {c d : V3 ℝ} (h : IsMean l c) (h' : IsMean l d) : c = d := by
  cases l with
  | nil => rw [h.2.2 rfl, h'.2.2 rfl]
  | cons x xs =>
    have e := h.1.trans h'.1.symm
    have hne : ((x :: xs).length : ℝ) ≠ 0 := by
      rw [List.length_cons]; positivity
    simp only [smulR] at e
    injection e with e1 e2 e3
    exact V3.ext' (mul_left_cancel₀ hne e1) (mul_left_cancel₀ hne e2) (mul_left_cancel₀ hne e3)

theorem sumR_perm {l l' : List (V3 ℝ)} (h : l.Perm l') : sumR l = sumR l' := by
  unfold sumR
  rw [(h.map _).sum_eq, (h.map (fun v : V3 ℝ => v.y)).sum_eq, (h.map (fun v : V3 ℝ => v.z)).sum_eq]

theorem isMean_perm {l l' : List (V3 ℝ)} (h : l.Perm l') {c : V3 ℝ} (hm : IsMean l c) : IsMean l' c := by
  refine ⟨?_, ?_, fun e => hm.2.2 (by subst e; simpa using h)⟩
  · rw [← h.length_eq, ← sumR_perm h]; exact hm.1
  · rw [← sumR_perm (h.map _)]; exact hm.2.1

/-- C26: the centre of a face is the mean of its corners. -/
theorem C26_face_center (textures : TextureInfo) (entity : Entity ℝ) (planes : List (BrushPlane ℝ))
    (plane : BrushPlane ℝ) (geo : PlaneGeo ℝ) (h : buildPlane textures entity planes plane = .ok geo) :
    IsMean (geo.vertices.map (·.pos)) geo.center := by
  obtain ⟨pvs, h1, h2, h3⟩ := buildPlane_perm h
  have hp := h3.map (fun v : Vertex ℝ => v.pos)
  rw [List.map_map] at hp
  have he : (uniqueVertices (isPhong entity) pvs).map
      ((fun v : Vertex ℝ => v.pos) ∘ fun v => { v with pos := recentre geo.center v.pos }) =
      (uniqueVertices (isPhong entity) pvs).map (·.pos) :=
    List.map_congr_left fun v _ => recentre_real _ _
  rw [he] at hp
  refine isMean_perm hp.symm ?_
  rw [h2]
  exact isMean_mean _

/-- C26: the centre of a brush is the mean of its face centres. -/
theorem C26_brush_center (textures : TextureInfo) (entity : Entity ℝ) (brush : Brush ℝ) (geo : BrushGeo ℝ)
    (h : buildBrush textures entity brush = .ok geo) :
    geo.planes.length = brush.planes.length ∧ IsMean (geo.planes.map (·.center)) geo.center := by
  unfold buildBrush at h
  obtain ⟨pgs, h1, h2⟩ := Outcome.bind_eq_ok.1 h
  cases h2
  exact ⟨mapOut_length h1, isMean_mean _⟩

/-- C26: the centre of an entity without `origin` is the mean of its brush centres. -/
theorem C26_entity_center (textures : TextureInfo) (entity : Entity ℝ) (geo : EntityGeo ℝ)
    (horigin : entity.properties (str! "origin") = none)
    (h : Geo.buildEntity textures entity = .ok geo) :
    geo.brushes.length = entity.brushes.length ∧ IsMean (geo.brushes.map (·.center)) geo.center := by
  unfold Geo.buildEntity at h
  obtain ⟨bgs, h1, h2⟩ := Outcome.bind_eq_ok.1 h
  have ho : entity.properties.get? (str! "origin") = none := horigin
  rw [ho] at h2
  cases h2
  exact ⟨mapOut_length h1, isMean_mean _⟩

/-! ### C70 -/

theorem toI32_unit {c : ℝ} (h0 : 0 ≤ c) (h1 : c ≤ 1) : Arith.toI32 (Arith.mul c Arith.c255) = ⌊255 * c⌋ := by
  show max (-2147483648) (min 2147483647 (if 0 ≤ c * 255 then ⌊c * 255⌋ else ⌈c * 255⌉)) = _
  rw [if_pos (by positivity), mul_comm c]
  have a : ⌊255 * c⌋ ≤ 255 := by
    have : ⌊255 * c⌋ ≤ ⌊(255 : ℝ)⌋ := Int.floor_le_floor (by linarith)
    simpa using this
  have b : 0 ≤ ⌊255 * c⌋ := Int.floor_nonneg.2 (by positivity)
  omega

/-- The text `r g b`. -/
def rgbText (r g b : Nat) : Str := dec r ++ ' ' :: (dec g ++ ' ' :: dec b)

theorem rgbText_inj {r g b r' g' b' : Nat} (h : rgbText r g b = rgbText r' g' b') : r = r' ∧ g = g' ∧ b = b' := by
  have hn : ∀ n : Nat, ' ' ∉ dec n := fun n => dec_notMem _ (by decide)
  obtain ⟨e1, e2⟩ := split_first (hn r) (hn r') h
  obtain ⟨e3, e4⟩ := split_first (hn g) (hn g') e2
  exact ⟨Int.ofNat.inj (dec_inj e1), Int.ofNat.inj (dec_inj e3), Int.ofNat.inj (dec_inj e4)⟩

/-- C70: the printed colour consists of the integer parts of 255 times the components, at most 255 each. -/
theorem C70_color_text (c : Color ℝ) (hr : 0 ≤ c.r ∧ c.r ≤ 1) (hg : 0 ≤ c.g ∧ c.g ≤ 1) (hb : 0 ≤ c.b ∧ c.b ≤ 1) :
    ∃ r g b : Nat, r ≤ 255 ∧ g ≤ 255 ∧ b ≤ 255 ∧
      (r ≤ 255 * c.r ∧ 255 * c.r < r + 1) ∧ (g ≤ 255 * c.g ∧ 255 * c.g < g + 1) ∧
      (b ≤ 255 * c.b ∧ 255 * c.b < b + 1) ∧
      c.toStr = rgbText r g b := by
  have key : ∀ x : ℝ, 0 ≤ x → x ≤ 1 → ∃ n : Nat, n ≤ 255 ∧ ((n : ℝ) ≤ 255 * x ∧ 255 * x < n + 1) ∧
      Arith.toI32 (Arith.mul x Arith.c255) = (n : Int) := by
    intro x h0 h1
    have hn : 0 ≤ ⌊255 * x⌋ := Int.floor_nonneg.2 (by positivity)
    have hle : ⌊255 * x⌋ ≤ 255 := by
      have : ⌊255 * x⌋ ≤ ⌊(255 : ℝ)⌋ := Int.floor_le_floor (by linarith)
      simpa using this
    obtain ⟨n, e⟩ := Int.eq_ofNat_of_zero_le hn
    refine ⟨n, by omega, ?_, by rw [toI32_unit h0 h1, e]⟩
    have f1 := Int.floor_le (255 * x)
    have f2 := Int.lt_floor_add_one (255 * x)
    rw [e] at f1 f2
    exact ⟨by exact_mod_cast f1, by exact_mod_cast f2⟩
  obtain ⟨r, r1, r2, r3⟩ := key c.r hr.1 hr.2
  obtain ⟨g, g1, g2, g3⟩ := key c.g hg.1 hg.2
  obtain ⟨b, b1, b2, b3⟩ := key c.b hb.1 hb.2
  refine ⟨r, g, b, r1, g1, b1, r2, g2, b2, ?_⟩
  unfold Color.toStr rgbText
  rw [r3, g3, b3, showInt_eq, showInt_eq, showInt_eq]
  simp

/-- C70: a larger component never prints as a smaller number. -/
theorem C70_monotone (c d : Color ℝ) (hr : 0 ≤ c.r ∧ c.r ≤ d.r ∧ d.r ≤ 1) (hg : 0 ≤ c.g ∧ c.g ≤ d.g ∧ d.g ≤ 1)
    (hb : 0 ≤ c.b ∧ c.b ≤ d.b ∧ d.b ≤ 1) (r g b r' g' b' : Nat)
    (hc : c.toStr = rgbText r g b) (hd : d.toStr = rgbText r' g' b') : r ≤ r' ∧ g ≤ g' ∧ b ≤ b' := by
  obtain ⟨r1, g1, b1, -, -, -, hr1, hg1, hb1, e1⟩ := C70_color_text c ⟨hr.1, by linarith⟩ ⟨hg.1, by linarith⟩
    ⟨hb.1, by linarith⟩
  obtain ⟨r2, g2, b2, -, -, -, hr2, hg2, hb2, e2⟩ := C70_color_text d ⟨by linarith, by linarith⟩
    ⟨by linarith, by linarith⟩ ⟨by linarith, by linarith⟩
  obtain ⟨rfl, rfl, rfl⟩ := rgbText_inj (hc.symm.trans e1)
  obtain ⟨rfl, rfl, rfl⟩ := rgbText_inj (hd.symm.trans e2)
  have key : ∀ (x y : ℝ) (m n : Nat), x ≤ y → (m : ℝ) ≤ 255 * x → 255 * y < n + 1 → m ≤ n := by
    intro x y m n h h1 h2
    have : (m : ℝ) < n + 1 := by linarith
    have : m < n + 1 := by exact_mod_cast this
    omega
  exact ⟨key _ _ _ _ hr.2.1 hr1.1 hr2.2, key _ _ _ _ hg.2.1 hg1.1 hg2.2, key _ _ _ _ hb.2.1 hb1.1 hb2.2⟩

/-- C70: a colour within the range of the hypotheses, with its text. -/
example : (⟨0, 1 / 2, 1⟩ : Color ℝ).toStr = str! "0 127 255" := by
  obtain ⟨r, g, b, -, -, -, hr, hg, hb, e⟩ := C70_color_text ⟨0, 1 / 2, 1⟩ (by norm_num) (by norm_num) (by norm_num)
  have h1 : r = 0 := by
    have : (r : ℝ) ≤ 0 := by simpa using hr.1
    exact_mod_cast le_antisymm this (by positivity)
  have h2 : g = 127 := by
    have a1 : (g : ℝ) < 128 := by have := hg.1; norm_num at this; linarith
    have a2 : (126 : ℝ) < g := by have := hg.2; norm_num at this; linarith
    have b1 : g < 128 := by exact_mod_cast a1
    have b2 : 126 < g := by exact_mod_cast a2
    omega
  have h3 : b = 255 := by
    have a1 : (b : ℝ) < 256 := by have := hb.1; norm_num at this; linarith
    have a2 : (254 : ℝ) < b := by have := hb.2; norm_num at this; linarith
    have b1 : b < 256 := by exact_mod_cast a1
    have b2 : 254 < b := by exact_mod_cast a2
    omega
  rw [e, h1, h2, h3]
  decide

end
end Quarch
