import Verif.Props.Geo
import Verif.Props.RealUV
import Verif.Proofs.Wind
import Mathlib.Algebra.Order.BigOperators.Group.List
/-
C24 and C25 in exact arithmetic: winding.
-/
set_option linter.unusedSectionVars false
namespace Quarch
open Spec Geo

/-- Convex position: every point is the only furthest one in some direction. -/
def ConvexPosition (pts : List (V3 ℝ)) : Prop :=
  ∀ x ∈ pts, ∃ w : V3 ℝ, ∀ y ∈ pts, y ≠ x → dotR w y < dotR w x

/-- Twice the area of the triangle, seen against the direction `n`: positive if it turns counter-clockwise. -/
def turn (n a b c : V3 ℝ) : ℝ := dotR (crossR (subR b a) (subR c a)) n

section
variable [RealText] [Platform]

/-- C24 in exact arithmetic: corners relative to the centre come in non-increasing angle in the axes of the
face (first edge, and the direction perpendicular to it). -/
theorem C24_exact_winding (textures : TextureInfo) (entity : Entity ℝ) (planes : List (BrushPlane ℝ))
    (plane : BrushPlane ℝ) (geo : PlaneGeo ℝ) (h : buildPlane textures entity planes plane = .ok geo) :
    (geo.vertices.map (·.pos)).Pairwise fun a b =>
      Complex.arg ⟨dotR (subR b geo.center) (unitR (subR plane.v1 plane.v0)),
        dotR (subR b geo.center) (crossR (unitR (rawNormal plane)) (unitR (subR plane.v1 plane.v0)))⟩ ≤
      Complex.arg ⟨dotR (subR a geo.center) (unitR (subR plane.v1 plane.v0)),
        dotR (subR a geo.center) (crossR (unitR (rawNormal plane)) (unitR (subR plane.v1 plane.v0)))⟩ := by
  obtain ⟨_, rel, _, _, h1, h2⟩ := C24_winding _ _ _ _ _ h
  have hs := h2 (fun a _ b _ hab => by rw [ar_lt] at hab; rw [ar_lt_false]; exact hab.le)
    (fun a _ b _ c _ hab hbc => by rw [ar_lt_false] at *; exact hbc.trans hab)
  rw [h1, List.pairwise_map]
  refine hs.imp ?_
  intro a b hab
  rw [ar_lt_false] at hab
  have e : ∀ x : V3 ℝ, subR (V3.add x geo.center) geo.center = x := by
    intro x; simp [subR, addR]
  have e2 : ∀ x : V3 ℝ, faceAngle plane x = Complex.arg ⟨dotR x (unitR (subR plane.v1 plane.v0)),
      dotR x (crossR (unitR (rawNormal plane)) (unitR (subR plane.v1 plane.v0)))⟩ := by
    intro x
    unfold faceAngle
    rw [show faceNormal plane = unitR (rawNormal plane) from by rw [← normalize_unitR]; rfl, normalize_unitR]
    rfl
  rw [e, e, ← e2, ← e2]
  exact hab

end

/-! ### axes of a face -/

theorem rawNormal_perp (p : BrushPlane ℝ) : dotR (rawNormal p) (subR p.v1 p.v0) = 0 := by
  simp only [rawNormal, dotR, crossR, subR]; ring

theorem edge_ne_zero {p : BrushPlane ℝ} (h : NonDegenerate p) : subR p.v1 p.v0 ≠ zeroR := by
  intro e
  apply h
  unfold rawNormal
  rw [e]
  simp [crossR, zeroR]

theorem dotR_unitR (a b : V3 ℝ) : dotR (unitR a) b = dotR a b / lenR a := by
  simp only [unitR, dotR, smulR]; ring

/-- In an orthonormal frame `u`, `n × u`, `n`: vectors perpendicular to `n`. -/
theorem frame_dot {n u : V3 ℝ} (hn : dotR n n = 1) (hu : dotR u u = 1) (hp : dotR n u = 0) (w d : V3 ℝ)
    (hd : dotR n d = 0) :
    dotR w d = dotR w u * dotR d u + dotR w (crossR n u) * dotR d (crossR n u) := by
  have id : (dotR n n * dotR u u - dotR n u * dotR n u) * dotR w d =
      dotR w (crossR n u) * dotR d (crossR n u) +
      (dotR u u * dotR n d - dotR n u * dotR d u) * dotR w n +
      (dotR n n * dotR d u - dotR n u * dotR n d) * dotR w u := by
    simp only [dotR, crossR]; ring
  rw [hn, hu, hp, hd] at id
  linarith

/-- Orientation in that frame. -/
theorem frame_turn {n u : V3 ℝ} (hu : dotR u u = 1) (hp : dotR n u = 0) (d e : V3 ℝ) :
    dotR (crossR d e) n = dotR d u * dotR e (crossR n u) - dotR d (crossR n u) * dotR e u := by
  have id : dotR d u * dotR e (crossR n u) - dotR d (crossR n u) * dotR e u =
      dotR (crossR d e) n * dotR u u - dotR (crossR d e) u * dotR n u := by
    simp only [dotR, crossR]; ring
  rw [id, hu, hp]; ring

theorem dotR_sum (w : V3 ℝ) (l : List (V3 ℝ)) : dotR w (sumR l) = (l.map (dotR w)).sum := by
  induction l with
  | nil => simp [sumR, dotR]
  | cons x xs ih =>
    rw [List.map_cons, List.sum_cons, ← ih]
    simp only [sumR, dotR, List.map_cons, List.sum_cons]; ring

theorem dotR_sub (w a b : V3 ℝ) : dotR w (subR a b) = dotR w a - dotR w b := by
  simp only [dotR, subR]; ring

theorem dotR_comm (a b : V3 ℝ) : dotR a b = dotR b a := by simp only [dotR]; ring

/-- The mean of points on a plane is on the plane. -/
theorem mean_onPlane {p : BrushPlane ℝ} {l : List (V3 ℝ)} {c : V3 ℝ} (hm : IsMean l c) (hne : l ≠ [])
    (h : ∀ x ∈ l, OnPlane p x) : OnPlane p c := by
  unfold OnPlane at *
  have h1 : dotR (rawNormal p) (sumR l) = l.length * dotR (rawNormal p) p.v0 := by
    rw [dotR_sum]
    clear hm hne
    induction l with
    | nil => simp
    | cons x xs ih =>
      rw [List.map_cons, List.sum_cons, ih fun y hy => h y (by simp [hy])]
      have := h x (by simp)
      rw [dotR_sub] at this
      push_cast [List.length_cons]
      linarith
  rw [← hm.1] at h1
  have hl : (l.length : ℝ) ≠ 0 := by
    have := List.length_pos_of_ne_nil hne
    positivity
  have h2 : dotR (rawNormal p) (smulR l.length c) = l.length * dotR (rawNormal p) c := by
    simp only [dotR, smulR]; ring
  rw [h2] at h1
  rw [dotR_sub, mul_left_cancel₀ hl h1, sub_self]

/-- An extreme point is further out than the mean. -/
theorem mean_lt {l : List (V3 ℝ)} {c x y w : V3 ℝ} (hm : IsMean l c) (hy : y ∈ l) (hxy : y ≠ x)
    (hw : ∀ y ∈ l, y ≠ x → dotR w y < dotR w x) : dotR w c < dotR w x := by
  have h1 : dotR w (sumR l) = l.length * dotR w c := by
    rw [← hm.1]; simp only [dotR, smulR]; ring
  rw [dotR_sum] at h1
  have h2 : (l.map (dotR w)).sum < (l.map fun _ => dotR w x).sum := by
    refine List.sum_lt_sum _ _ (fun z hz => ?_) ⟨y, hy, hw y hy hxy⟩
    by_cases hzx : z = x
    · rw [hzx]
    · exact (hw z hz hzx).le
  have h3 : (l.map fun _ => dotR w x).sum = l.length * dotR w x := by simp
  rw [h3, h1] at h2
  exact lt_of_mul_lt_mul_left h2 (by positivity)

section
variable [RealText] [Platform]

/-- C25: if the corners of a face are in convex position, every three of them in the order of the list turn
clockwise, seen from outside (against the face normal). -/
theorem C25_all_triples_clockwise (textures : TextureInfo) (entity : Entity ℝ) (planes : List (BrushPlane ℝ))
    (plane : BrushPlane ℝ) (geo : PlaneGeo ℝ) (h : buildPlane textures entity planes plane = .ok geo)
    (hconv : ConvexPosition (geo.vertices.map (·.pos))) (i j k : Nat) (hij : i < j) (hjk : j < k)
    (hk : k < geo.vertices.length) :
    turn (rawNormal plane) geo.vertices[i].pos geo.vertices[j].pos geo.vertices[k].pos < 0 := by
  have hsort := C24_exact_winding _ _ _ _ _ h
  have hmean := C26_face_center _ _ _ _ _ h
  obtain ⟨hnd, hon⟩ := corners_real h
  obtain ⟨pts, hpts⟩ : ∃ pts, pts = geo.vertices.map (·.pos) := ⟨_, rfl⟩
  have hlen : pts.length = geo.vertices.length := by rw [hpts, List.length_map]
  have hget : ∀ m (hm : m < geo.vertices.length), geo.vertices[m].pos = pts[m]'(by omega) := by
    intro m hm
    simp [hpts]
  rw [hget i (by omega), hget j (by omega), hget k hk]
  rw [← hpts] at hsort hmean hnd hon hconv
  have hmem : ∀ m (hm : m < pts.length), pts[m] ∈ pts := fun m hm => List.getElem_mem hm
  have hneq : ∀ m m' (hm : m < pts.length) (hm' : m' < pts.length), m ≠ m' → pts[m] ≠ pts[m'] := by
    intro m m' hm hm' hne e
    exact hne ((List.Nodup.getElem_inj_iff hnd).1 e)
  have hne : pts ≠ [] := by
    intro e; rw [e] at hlen; simp at hlen; omega
  have hplane : ∀ x ∈ pts, OnPlane plane x := fun x hx => (found_real.1 ((hon x).1 hx)).1.elim
    fun _ ⟨_, _, _, _, h0, _⟩ => h0
  have hndeg : NonDegenerate plane := by
    obtain ⟨⟨p1, _, p2, _, hd, _⟩, _⟩ := found_real.1 ((hon _).1 (hmem k (by omega)))
    exact (unitDet_ne_zero (p0 := plane) (p1 := p1) (p2 := p2)
      (fun e0 => by rw [e0] at hd; norm_num at hd)).1
  have hcen := mean_onPlane hmean hne hplane
  -- frame
  obtain ⟨n, hn⟩ : ∃ n, n = unitR (rawNormal plane) := ⟨_, rfl⟩
  obtain ⟨u, hu⟩ : ∃ u, u = unitR (subR plane.v1 plane.v0) := ⟨_, rfl⟩
  have hn1 : dotR n n = 1 := lenR_one_dot (hn ▸ lenR_unitR hndeg)
  have hu1 : dotR u u = 1 := lenR_one_dot (hu ▸ lenR_unitR (edge_ne_zero hndeg))
  have hnu : dotR n u = 0 := by
    rw [hn, hu, dotR_unitR, dotR_comm, dotR_unitR, dotR_comm, rawNormal_perp]; simp
  have hl := lenR_pos hndeg
  have hdn : ∀ x ∈ pts, dotR n (subR x geo.center) = 0 := by
    intro x hx
    have e1 := hplane x hx
    have e2 := hcen
    unfold OnPlane at e1 e2
    rw [dotR_sub] at e1 e2
    rw [hn, dotR_unitR, dotR_sub]
    rw [show dotR (rawNormal plane) x - dotR (rawNormal plane) geo.center = 0 by linarith, zero_div]
  rw [← hn, ← hu] at hsort
  -- points in the plane
  let z : V3 ℝ → ℂ := fun x => ⟨dotR (subR x geo.center) u, dotR (subR x geo.center) (crossR n u)⟩
  have hext : ∀ a ∈ pts, ∀ b ∈ pts, ∀ c ∈ pts, b ≠ a → c ≠ a → Wind.Ext (z a) (z b) (z c) := by
    intro a ha b hb c hc hba hca
    obtain ⟨w, hw⟩ := hconv a ha
    have hf : ∀ x ∈ pts, Wind.lin (dotR w u) (dotR w (crossR n u)) (z x) = dotR w x - dotR w geo.center := by
      intro x hx
      have := frame_dot hn1 hu1 hnu w (subR x geo.center) (hdn x hx)
      rw [dotR_sub] at this
      rw [this]
      rfl
    refine ⟨dotR w u, dotR w (crossR n u), ?_, ?_, ?_⟩
    · rw [hf a ha]
      have := mean_lt hmean hb hba hw
      linarith
    · rw [hf a ha, hf b hb]
      have := hw b hb hba
      linarith
    · rw [hf a ha, hf c hc]
      have := hw c hc hca
      linarith
  have hi : i < pts.length := by omega
  have hj : j < pts.length := by omega
  have hk' : k < pts.length := by omega
  have nij := hneq i j hi hj (by omega)
  have nik := hneq i k hi hk' (by omega)
  have njk := hneq j k hj hk' (by omega)
  have mi := hmem i hi
  have mj := hmem j hj
  have mk := hmem k hk'
  have s1 : (z pts[j]).arg ≤ (z pts[i]).arg := List.pairwise_iff_getElem.1 hsort i j hi hj hij
  have s2 : (z pts[k]).arg ≤ (z pts[j]).arg := List.pairwise_iff_getElem.1 hsort j k hj hk' hjk
  have x_i := hext _ mi _ mj _ mk nij.symm nik.symm
  have x_j := hext _ mj _ mi _ mk nij njk.symm
  have x_k := hext _ mk _ mi _ mj nik njk
  have s1' : (z pts[j]).arg < (z pts[i]).arg := lt_of_le_of_ne s1 (Wind.arg_ne x_j x_i)
  have s2' : (z pts[k]).arg < (z pts[j]).arg := lt_of_le_of_ne s2 (Wind.arg_ne x_k.swap x_j.swap)
  have ho := Wind.orient x_k.swap x_j.swap x_i.swap s2' s1'
  have ht : turn n pts[i] pts[j] pts[k] =
      -(Wind.cr (z pts[k]) (z pts[j]) + Wind.cr (z pts[j]) (z pts[i]) + Wind.cr (z pts[i]) (z pts[k])) := by
    unfold turn
    rw [frame_turn hu1 hnu]
    simp only [Wind.cr, z, dotR, subR]
    ring
  have hfin : turn (rawNormal plane) pts[i] pts[j] pts[k] =
      lenR (rawNormal plane) * turn n pts[i] pts[j] pts[k] := by
    unfold turn
    rw [dotR_comm, dotR_comm (crossR _ _) n, hn, dotR_unitR]
    field_simp
  rw [hfin, ht]
  have := mul_pos hl ho
  linarith

/-- C25: no triangle of the fan is flipped – all turn clockwise with respect to the outward normal. -/
theorem C25_fan_same_direction (textures : TextureInfo) (entity : Entity ℝ) (planes : List (BrushPlane ℝ))
    (plane : BrushPlane ℝ) (geo : PlaneGeo ℝ) (h : buildPlane textures entity planes plane = .ok geo)
    (hconv : ConvexPosition (geo.vertices.map (·.pos))) (t i j k : Nat) (a b c : Vertex ℝ)
    (hi : geo.indices[3 * t]? = some i) (hj : geo.indices[3 * t + 1]? = some j)
    (hk : geo.indices[3 * t + 2]? = some k) (ha : geo.vertices[i]? = some a) (hb : geo.vertices[j]? = some b)
    (hc : geo.vertices[k]? = some c) : turn (rawNormal plane) a.pos b.pos c.pos < 0 := by
  have hfan := C19_fan _ _ _ _ _ h
  have ht : t < geo.vertices.length - 2 := by
    have h1 := hfan.1
    have h2 := (List.getElem?_eq_some_iff.1 hk).1
    omega
  obtain ⟨e1, e2, e3⟩ := hfan.2 t ht
  rw [e1] at hi; rw [e2] at hj; rw [e3] at hk
  cases hi; cases hj; cases hk
  obtain ⟨_, rfl⟩ := List.getElem?_eq_some_iff.1 ha
  obtain ⟨_, rfl⟩ := List.getElem?_eq_some_iff.1 hb
  obtain ⟨_, rfl⟩ := List.getElem?_eq_some_iff.1 hc
  exact C25_all_triples_clockwise _ _ _ _ _ h hconv 0 (t + 1) (t + 2) (by omega) (by omega) (by omega)

/-- C25: corners of a face that are all exactly inside the brush (none uses the tolerance of 0.001) are in convex
position. -/
theorem C25_exact_corners_convex (textures : TextureInfo) (entity : Entity ℝ) (planes : List (BrushPlane ℝ))
    (plane : BrushPlane ℝ) (geo : PlaneGeo ℝ) (h : buildPlane textures entity planes plane = .ok geo)
    (hin : ∀ v ∈ geo.vertices, ∀ p ∈ planes, WithinR 0 p v.pos) :
    ConvexPosition (geo.vertices.map (·.pos)) := by
  obtain ⟨hnd, hon⟩ := corners_real h
  intro x hx
  obtain ⟨⟨p1, hp1, p2, hp2, hd, h0, h1, h2⟩, _⟩ := found_real.1 ((hon x).1 hx)
  have hne : unitDet plane p1 p2 ≠ 0 := fun e0 => by rw [e0] at hd; norm_num at hd
  have hraw : detR (rawNormal plane) (rawNormal p1) (rawNormal p2) ≠ 0 := fun e => hne (by
    unfold unitDet; rw [e, zero_div])
  refine ⟨addR (rawNormal p1) (rawNormal p2), ?_⟩
  intro y hy hyx
  have hy0 : OnPlane plane y := (found_real.1 ((hon y).1 hy)).1.elim fun _ ⟨_, _, _, _, h0, _⟩ => h0
  obtain ⟨vy, hvy, rfl⟩ := List.mem_map.1 hy
  have b1 := hin vy hvy p1 hp1
  have b2 := hin vy hvy p2 hp2
  unfold WithinR at b1 b2
  rw [zero_mul, dotR_sub] at b1 b2
  unfold OnPlane at h0 h1 h2 hy0
  rw [dotR_sub] at h0 h1 h2 hy0
  have hadd : ∀ z : V3 ℝ, dotR (addR (rawNormal p1) (rawNormal p2)) z =
      dotR (rawNormal p1) z + dotR (rawNormal p2) z := by
    intro z; simp only [dotR, addR]; ring
  rw [hadd, hadd]
  by_contra hn
  have hn := not_lt.1 hn
  have e1 : dotR (rawNormal p1) vy.pos = dotR (rawNormal p1) x := by linarith
  have e2 : dotR (rawNormal p2) vy.pos = dotR (rawNormal p2) x := by linarith
  have e0 : dotR (rawNormal plane) vy.pos = dotR (rawNormal plane) x := by linarith
  exact hyx (((cramer hraw _ _ _ vy.pos).2 ⟨e0, e1, e2⟩).trans ((cramer hraw _ _ _ x).2 ⟨rfl, rfl, rfl⟩).symm)

end
end Quarch
