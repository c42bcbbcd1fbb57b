import Verif.Proofs.Tiling
import Verif.Props.Hull
/-
C85: the triangles of a brush tile its surface.
-/
set_option linter.unusedSectionVars false
namespace Quarch
namespace Spec

/-- Triangle number `t` of a face. -/
def FaceTriangle (face : PlaneGeo ℝ) (t : Nat) (a b c : V3 ℝ) : Prop :=
  ∃ i j k u v w, face.indices[3 * t]? = some i ∧ face.indices[3 * t + 1]? = some j ∧
    face.indices[3 * t + 2]? = some k ∧ face.vertices[i]? = some u ∧ face.vertices[j]? = some v ∧
    face.vertices[k]? = some w ∧ u.pos = a ∧ v.pos = b ∧ w.pos = c

end Spec

open Spec Geo Poly

section
variable [RealText] [Platform]

theorem faceTriangle_iff {textures : TextureInfo} {entity : Entity ℝ} {planes : List (BrushPlane ℝ)}
    {plane : BrushPlane ℝ} {face : PlaneGeo ℝ} (h : buildPlane textures entity planes plane = .ok face)
    (t : Nat) (a b c : V3 ℝ) :
    FaceTriangle face t a b c ↔ (face.vertices.map (·.pos))[0]? = some a ∧
      (face.vertices.map (·.pos))[t + 1]? = some b ∧ (face.vertices.map (·.pos))[t + 2]? = some c := by
  have hfan := C19_fan _ _ _ _ _ h
  simp only [List.getElem?_map, Option.map_eq_some_iff]
  constructor
  · rintro ⟨i, j, k, u, v, w, hi, hj, hk, hu, hv, hw, rfl, rfl, rfl⟩
    have ht : t < face.vertices.length - 2 := by
      have := (List.getElem?_eq_some_iff.1 hi).1
      rw [hfan.1] at this
      omega
    obtain ⟨f0, f1, f2⟩ := hfan.2 t ht
    rw [f0] at hi; rw [f1] at hj; rw [f2] at hk
    cases hi; cases hj; cases hk
    exact ⟨⟨u, hu, rfl⟩, ⟨v, hv, rfl⟩, w, hw, rfl⟩
  · rintro ⟨⟨u, hu, rfl⟩, ⟨v, hv, rfl⟩, w, hw, rfl⟩
    have ht : t < face.vertices.length - 2 := by
      have := (List.getElem?_eq_some_iff.1 hw).1
      omega
    obtain ⟨f0, f1, f2⟩ := hfan.2 t ht
    exact ⟨_, _, _, u, v, w, f0, f1, f2, hu, hv, hw, rfl, rfl, rfl⟩

/-- What holds on the corners of a triangle along a plane holds in the triangle. -/
theorem ht_comb (p : BrushPlane ℝ) (a b c : V3 ℝ) {r s t : ℝ} (h : r + s + t = 1) :
    ht p (addR (smulR r a) (addR (smulR s b) (smulR t c))) = r * ht p a + s * ht p b + t * ht p c := by
  have e : r = 1 - s - t := by linarith
  subst e
  simp only [ht, dotR, subR, addR, smulR]; ring

/-- The points of a face are to the inner side of its border. -/
theorem face_side {textures : TextureInfo} {entity : Entity ℝ} {planes : List (BrushPlane ℝ)}
    (hp : ProperBrush planes) {plane : BrushPlane ℝ} (hm : plane ∈ planes) {face : PlaneGeo ℝ}
    (h : buildPlane textures entity planes plane = .ok face) {x : V3 ℝ} (hx : In planes x) (h0 : ht plane x = 0)
    {m : Nat} {a b : V3 ℝ} (ha : (face.vertices.map (·.pos))[m]? = some a)
    (hb : (face.vertices.map (·.pos))[next face.vertices.length m]? = some b) : tri (rawNormal plane) a b x ≤ 0 := by
  have htn := proper_turns hp hm h
  -- the signed area grows in one direction
  have e : ∀ y, tri (rawNormal plane) a b y =
      dotR (crossR (rawNormal plane) (subR b a)) y - dotR (crossR (rawNormal plane) (subR b a)) a := fun y => by
    simp only [tri, dotR, crossR, subR]; ring
  obtain ⟨c, hc, hle⟩ := corner_beyond (proper_bounded hp) (hp.points _ hm) hx h0
    (crossR (rawNormal plane) (subR b a))
  obtain ⟨k, hk⟩ := List.mem_iff_getElem?.1 ((proper_corner hp hm h c).2 hc)
  have hle2 : tri (rawNormal plane) a b x ≤ tri (rawNormal plane) a b c := by rw [e, e]; linarith
  refine hle2.trans ?_
  by_cases h1 : k = m
  · subst h1; rw [hk] at ha; cases ha; rw [tri_left]
  · by_cases h2 : k = next face.vertices.length m
    · subst h2; rw [hk] at hb; cases hb; rw [tri_right]
    · exact (turns_side htn ha (b := b) (by rw [List.length_map]; exact hb) k hk h1
        (by rw [List.length_map]; exact h2)).le

/-- C85: the triangles of a face with at least three corners cover exactly the part of its plane that is in the
brush. -/
theorem C85_covers (textures : TextureInfo) (entity : Entity ℝ) (planes : List (BrushPlane ℝ))
    (hp : ProperBrush planes) (plane : BrushPlane ℝ) (hm : plane ∈ planes) (face : PlaneGeo ℝ)
    (h : buildPlane textures entity planes plane = .ok face) (h3 : 3 ≤ face.vertices.length) (x : V3 ℝ) :
    (OnPlane plane x ∧ ∀ p ∈ planes, WithinR 0 p x) ↔ ∃ t a b c, FaceTriangle face t a b c ∧ InTriangle a b c x := by
  have hco := proper_corner hp hm h
  have htn := proper_turns hp hm h
  have hside := @face_side _ _ _ _ _ hp _ hm _ h x
  simp only [faceTriangle_iff h]
  have hlen : (face.vertices.map (·.pos)).length = face.vertices.length := List.length_map _
  generalize face.vertices.map (·.pos) = pts at *
  constructor
  · rintro ⟨h0, hin⟩
    have h0 : ht plane x = 0 := h0
    have hin : In planes x := fun p hpm => (within_zero p x).1 (hin p hpm)
    have hget : ∀ i, i < face.vertices.length → pts[i]? = some (pts.getD i zeroR) := fun i hi => by
      rw [List.getD_eq_getElem?_getD, List.getElem?_eq_getElem (by omega)]; rfl
    have hon : ∀ i, i < face.vertices.length → ht plane (pts.getD i zeroR) = 0 := fun i hi =>
      ((hco _).1 (List.mem_of_getElem? (hget i hi))).2.1
    obtain ⟨i, h1, h2, hT⟩ := fan_covers (n := rawNormal plane) (hp.points _ hm) (p := fun i => pts.getD i zeroR)
      (m := face.vertices.length - 1) (by omega) (x := x)
      (fun i hi => by rw [ht_sub, hon i (by omega), hon 0 (by omega)]; ring)
      (by rw [ht_sub, h0, hon 0 (by omega)]; ring)
      (fun i h1 h2 => htn 0 i (i + 1) _ _ _ (by omega) (by omega) (hget 0 (by omega)) (hget i (by omega))
        (hget (i + 1) (by omega)))
      (fun i hi => hside hin h0 (hget i (by omega)) (by
        unfold next; rw [if_pos (by omega)]; exact hget (i + 1) (by omega)))
      (hside hin h0 (hget _ (by omega)) (by
        unfold next; rw [if_neg (by omega)]; exact hget 0 (by omega)))
    refine ⟨i - 1, _, _, _, ⟨hget 0 (by omega), ?_, ?_⟩, hT⟩
    · rw [show i - 1 + 1 = i by omega]; exact hget i (by omega)
    · rw [show i - 1 + 2 = i + 1 by omega]; exact hget (i + 1) (by omega)
  · rintro ⟨t, a, b, c, ⟨ha, hb, hc⟩, r, s, u, hr, hs, hu, hsum, rfl⟩
    have ca := (hco a).1 (List.mem_of_getElem? ha)
    have cb := (hco b).1 (List.mem_of_getElem? hb)
    have cc := (hco c).1 (List.mem_of_getElem? hc)
    refine ⟨?_, fun p hpm => (within_zero p _).2 ?_⟩
    · show ht plane _ = 0
      rw [ht_comb _ _ _ _ hsum, ca.2.1, cb.2.1, cc.2.1]; ring
    · rw [ht_comb _ _ _ _ hsum]
      have := mul_nonpos_of_nonneg_of_nonpos hr (ca.1 p hpm)
      have := mul_nonpos_of_nonneg_of_nonpos hs (cb.1 p hpm)
      have := mul_nonpos_of_nonneg_of_nonpos hu (cc.1 p hpm)
      linarith

/-- C85: the triangles of a face do not overlap. -/
theorem C85_no_overlap (textures : TextureInfo) (entity : Entity ℝ) (planes : List (BrushPlane ℝ))
    (hp : ProperBrush planes) (plane : BrushPlane ℝ) (hm : plane ∈ planes) (face : PlaneGeo ℝ)
    (h : buildPlane textures entity planes plane = .ok face) (t t' : Nat) (a b c a' b' c' x : V3 ℝ)
    (h1 : FaceTriangle face t a b c) (h2 : FaceTriangle face t' a' b' c') (hx : InsideTriangle a b c x)
    (hx' : InsideTriangle a' b' c' x) : t = t' := by
  have htn := proper_turns hp hm h
  rw [faceTriangle_iff h] at h1 h2
  generalize face.vertices.map (·.pos) = pts at *
  -- the point of the earlier triangle is before the first side of the later one
  have key : ∀ (t t' : Nat) (a b c b' c' : V3 ℝ), t < t' → pts[0]? = some a → pts[t + 1]? = some b →
      pts[t + 2]? = some c → pts[t' + 1]? = some b' → pts[t' + 2]? = some c' → InsideTriangle a b c x →
      InsideTriangle a b' c' x → False := by
    intro t t' a b c b' c' hlt ha hb hc hb' hc' ⟨r, s, u, hr, hs, hu, hsum, e⟩ ⟨r', s', u', hr', hs', hu', hsum', e'⟩
    have k1 : tri (rawNormal plane) a b' x < 0 := by
      rw [e', tri_comb _ _ _ _ _ hsum', tri_right, mul_zero, zero_add]
      exact mul_neg_of_pos_of_neg hu' (htn 0 (t' + 1) (t' + 2) _ _ _ (by omega) (by omega) ha hb' hc')
    have k2 : 0 < tri (rawNormal plane) a b' x := by
      rw [e, tri_comb _ _ _ _ _ hsum]
      have hpos : ∀ q, tri (rawNormal plane) a q b' < 0 → 0 < tri (rawNormal plane) a b' q := fun q hq => by
        have e1 : tri (rawNormal plane) a b' q = - tri (rawNormal plane) a q b' := by
          simp only [tri, dotR, crossR, subR]; ring
        linarith
      have k3 := mul_pos hs (hpos b (htn 0 (t + 1) (t' + 1) _ _ _ (by omega) (by omega) ha hb hb'))
      have k4 : 0 ≤ tri (rawNormal plane) a b' c := by
        rcases Nat.lt_or_ge (t + 2) (t' + 1) with hl | hl
        · exact (hpos c (htn 0 (t + 2) (t' + 1) _ _ _ (by omega) (by omega) ha hc hb')).le
        · have : t' + 1 = t + 2 := by omega
          rw [this, hc] at hb'
          cases hb'
          rw [tri_right]
      have := mul_nonneg hu.le k4
      linarith
    linarith
  obtain ⟨ha, hb, hc⟩ := h1
  obtain ⟨ha', hb', hc'⟩ := h2
  rw [ha] at ha'
  cases ha'
  rcases lt_trichotomy t t' with hl | hl | hl
  · exact (key t t' a b c b' c' hl ha hb hc hb' hc' hx hx').elim
  · exact hl
  · exact (key t' t a b' c' b c hl ha hb' hc' hb hc hx' hx).elim

/-- C85: the triangles of all faces of a brush together are exactly its boundary, also when some of the planes
only touch the body. -/
theorem C85_boundary (textures : TextureInfo) (entity : Entity ℝ) (brush : Brush ℝ) (geo : BrushGeo ℝ)
    (h : buildBrush textures entity brush = .ok geo) (hp : ProperBrush brush.planes) (x : V3 ℝ) :
    ((∀ p ∈ brush.planes, WithinR 0 p x) ∧ ∃ p ∈ brush.planes, OnPlane p x) ↔
    ∃ face ∈ geo.planes, ∃ t a b c, FaceTriangle face t a b c ∧ InTriangle a b c x := by
  obtain ⟨hlen, hface⟩ := brush_face h
  constructor
  · rintro ⟨hin, p, hpm, h0⟩
    obtain ⟨g, hg, hw, hg0⟩ := on_wide hp.solid hp.points hpm
      (fun p hpm => (within_zero p x).1 (hin p hpm)) h0
    obtain ⟨j, hj⟩ := List.mem_iff_getElem?.1 hg
    have hjl := (List.getElem?_eq_some_iff.1 hj).1
    have hgf : geo.planes[j]? = some (geo.planes[j]'(by omega)) := List.getElem?_eq_getElem _
    have hb := hface j g _ hj hgf
    have h3 := wide_corners (proper_bounded hp) (hp.points _ hg) hw (fun c => (proper_corner hp hg hb c).symm)
      (C20_exact_corners _ _ _ _ _ hb).1
    exact ⟨_, List.mem_of_getElem? hgf, (C85_covers _ _ _ hp g hg _ hb (by simpa using h3) x).1 ⟨hg0, hin⟩⟩
  · rintro ⟨face, hf, t, a, b, c, hT, hx⟩
    obtain ⟨j, hj⟩ := List.mem_iff_getElem?.1 hf
    have hjl := (List.getElem?_eq_some_iff.1 hj).1
    have hgf : brush.planes[j]? = some (brush.planes[j]'(by omega)) := List.getElem?_eq_getElem _
    have hb := hface j _ face hgf hj
    have h3 : 3 ≤ face.vertices.length := by
      have := (List.getElem?_eq_some_iff.1 ((faceTriangle_iff hb t a b c).1 hT).2.2).1
      rw [List.length_map] at this
      omega
    obtain ⟨h0, hin⟩ := (C85_covers _ _ _ hp _ (List.mem_of_getElem? hgf) face hb h3 x).2 ⟨t, a, b, c, hT, hx⟩
    exact ⟨hin, _, List.mem_of_getElem? hgf, h0⟩

/-- C85 for a face of the cube: it has two triangles, which are different, and a point of the face is in one. -/
example (textures : TextureInfo) (entity : Entity ℝ) : ∃ face,
    buildPlane textures entity Cube.planes Cube.xp = .ok face ∧ 3 ≤ face.vertices.length ∧
    (∃ t a b c, FaceTriangle face t a b c ∧ InTriangle a b c ⟨1, 1 / 2, 1 / 3⟩) ∧
    (∃ a b c x, FaceTriangle face 0 a b c ∧ InsideTriangle a b c x) ∧
    (∃ a b c x, FaceTriangle face 1 a b c ∧ InsideTriangle a b c x) ∧
    ∀ a b c a' b' c' x, FaceTriangle face 0 a b c → FaceTriangle face 1 a' b' c' → InsideTriangle a b c x →
      ¬ InsideTriangle a' b' c' x := by
  have hm : Cube.xp ∈ Cube.planes := by simp [Cube.planes]
  obtain ⟨face, h⟩ := buildPlane_real textures entity Cube.planes Cube.xp
  have h4 := Cube.four _ _ _ h
  have hmid : ∀ a b c, ∃ x, InsideTriangle a b c x := fun a b c =>
    ⟨_, 1 / 3, 1 / 3, 1 / 3, by norm_num, by norm_num, by norm_num, by norm_num, rfl⟩
  have htri : ∀ t, t + 2 < 4 → ∃ a b c, FaceTriangle face t a b c := fun t ht =>
    ⟨_, _, _, (faceTriangle_iff h t _ _ _).2 ⟨List.getElem?_eq_getElem (by rw [List.length_map, h4]; omega),
      List.getElem?_eq_getElem (by rw [List.length_map, h4]; omega),
      List.getElem?_eq_getElem (by rw [List.length_map, h4]; omega)⟩⟩
  refine ⟨face, h, by omega, (C85_covers _ _ _ Cube.proper _ hm face h (by omega) _).1 ⟨?_, ?_⟩, ?_, ?_, ?_⟩
  · norm_num [OnPlane, Cube.face, Cube.xp, rawNormal, dotR, crossR, subR]
  · rw [Cube.inside]; norm_num
  · obtain ⟨a, b, c, ht⟩ := htri 0 (by omega)
    obtain ⟨x, hx⟩ := hmid a b c
    exact ⟨a, b, c, x, ht, hx⟩
  · obtain ⟨a, b, c, ht⟩ := htri 1 (by omega)
    obtain ⟨x, hx⟩ := hmid a b c
    exact ⟨a, b, c, x, ht, hx⟩
  · intro a b c a' b' c' x h1 h2 hx hx'
    exact absurd (C85_no_overlap _ _ _ Cube.proper _ hm face h 0 1 _ _ _ _ _ _ x h1 h2 hx hx') (by decide)

/-- C85 for the cube: a point of its top is in a triangle, its middle is not. -/
example (textures : TextureInfo) (entity : Entity ℝ) : ∃ geo, buildBrush textures entity ⟨Cube.planes⟩ = .ok geo ∧
    (∃ face ∈ geo.planes, ∃ t a b c, FaceTriangle face t a b c ∧ InTriangle a b c ⟨1 / 2, 1 / 3, 1⟩) ∧
    ¬ ∃ face ∈ geo.planes, ∃ t a b c, FaceTriangle face t a b c ∧ InTriangle a b c ⟨1 / 2, 1 / 2, 1 / 2⟩ := by
  obtain ⟨pgs, hp⟩ := mapOut_isOk.2 fun (plane : BrushPlane ℝ) (_ : plane ∈ Cube.planes) =>
    buildPlane_real textures entity Cube.planes plane
  have hb : ∃ geo, buildBrush textures entity ⟨Cube.planes⟩ = .ok geo := by
    unfold buildBrush; rw [hp]; exact ⟨_, rfl⟩
  obtain ⟨geo, h⟩ := hb
  refine ⟨geo, h, (C85_boundary _ _ _ geo h Cube.proper _).1 ⟨?_, Cube.zp, by simp [Cube.planes], ?_⟩, ?_⟩
  · rw [Cube.inside]; norm_num
  · norm_num [OnPlane, Cube.face, Cube.zp, rawNormal, dotR, crossR, subR]
  · rw [← C85_boundary _ _ _ geo h Cube.proper]
    rintro ⟨_, p, hp, h0⟩
    rcases Cube.mem_planes hp with rfl | rfl | rfl | rfl | rfl | rfl <;>
      norm_num [OnPlane, Cube.face, Cube.xp, Cube.xn, Cube.yp, Cube.yn, Cube.zp, Cube.zn, rawNormal, dotR, crossR, subR] at h0

end
end Quarch
