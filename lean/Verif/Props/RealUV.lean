import Verif.Spec.Projected
import Verif.Props.RealNormal
/-
C30: texture coordinates in exact arithmetic.
-/
set_option linter.unusedSectionVars false
namespace Quarch
open Spec Geo

section
variable [RealText] [Platform]

theorem vertex_uv_real {textures : TextureInfo} {entity : Entity ℝ} {planes : List (BrushPlane ℝ)}
    {plane : BrushPlane ℝ} {geo : PlaneGeo ℝ} (h : buildPlane textures entity planes plane = .ok geo)
    {tx : Texture} (htx : textures plane.texture = some tx) {v : Vertex ℝ} (hv : v ∈ geo.vertices) :
    NonDegenerate plane ∧ ∃ uv, v.uv = some uv ∧ vertexUV v.pos plane tx = .ok uv := by
  obtain ⟨w, hw, rfl⟩ := buildPlane_vertex h hv
  obtain ⟨uv, h1, h2⟩ := hw.uv.2 tx htx
  obtain ⟨p1, _, p2, _, hm, _⟩ := hw.src
  have hd := (meet_real.1 hm).1
  refine ⟨(unitDet_ne_zero (p0 := plane) (p1 := p1) (p2 := p2) (fun e0 => by rw [e0] at hd; norm_num at hd)).1,
    uv, ?_, ?_⟩
  · simpa using h2
  · simp only [recentre_real]; exact h1

/-- C30, Valve layout: the coordinate is the position along the axis divided by texture size and scale, plus the
offset divided by the texture size. -/
theorem C30_valve (textures : TextureInfo) (entity : Entity ℝ) (planes : List (BrushPlane ℝ))
    (plane : BrushPlane ℝ) (geo : PlaneGeo ℝ) (h : buildPlane textures entity planes plane = .ok geo)
    (tx : Texture) (htx : textures plane.texture = some tx) (uAxis vAxis : V3 ℝ) (uOff vOff : ℝ)
    (huv : plane.uv = .valve uAxis uOff vAxis vOff) (v : Vertex ℝ) (hv : v ∈ geo.vertices) :
    v.uv = some ⟨dotR uAxis v.pos / (tx.width * plane.scale.x) + uOff / tx.width,
                 dotR vAxis v.pos / (tx.height * plane.scale.y) + vOff / tx.height⟩ := by
  obtain ⟨_, uv, e, hu⟩ := vertex_uv_real h htx hv
  unfold vertexUV at hu
  rw [huv] at hu
  have := Outcome.ok.inj hu
  rw [e, ← this]
  simp [V2.div, V2.add, Texture.size, div_div]

/-- C30, Valve layout: two vertices (of faces with the same texture attributes) that differ by `k` texture
widths, scaled, along the texture axis differ by exactly `k` tiles in `u`; `v` is the same if the axes are
perpendicular. -/
theorem C30_valve_tile (textures : TextureInfo) (entity entity' : Entity ℝ) (planes planes' : List (BrushPlane ℝ))
    (p q : BrushPlane ℝ) (geo geo' : PlaneGeo ℝ) (h : buildPlane textures entity planes p = .ok geo)
    (h' : buildPlane textures entity' planes' q = .ok geo') (hpq : p.texture = q.texture) (hpu : p.uv = q.uv)
    (hps : p.scale = q.scale)
    (tx : Texture) (htx : textures p.texture = some tx) (uAxis vAxis : V3 ℝ) (uOff vOff : ℝ)
    (huv : p.uv = .valve uAxis uOff vAxis vOff) (hunit : lenR uAxis = 1) (hperp : dotR vAxis uAxis = 0)
    (hw : 0 < tx.width) (hs : p.scale.x ≠ 0) (v w : Vertex ℝ) (hv : v ∈ geo.vertices) (hw' : w ∈ geo'.vertices)
    (k : ℝ) (hpos : w.pos = addR v.pos (smulR (k * (tx.width * p.scale.x)) uAxis)) :
    ∃ a b : ℝ, v.uv = some ⟨a, b⟩ ∧ w.uv = some ⟨a + k, b⟩ := by
  have e1 := C30_valve _ _ _ _ _ h tx htx _ _ _ _ huv v hv
  have e2 := C30_valve _ _ _ _ _ h' tx (hpq ▸ htx) _ _ _ _ (hpu ▸ huv) w hw'
  rw [← hps] at e2
  refine ⟨_, _, e1, ?_⟩
  rw [e2, hpos]
  have hd := lenR_one_dot hunit
  have hne : (tx.width : ℝ) * p.scale.x ≠ 0 := by
    have : (tx.width : ℝ) ≠ 0 := by positivity
    exact mul_ne_zero this hs
  have a1 : dotR uAxis (addR v.pos (smulR (k * (tx.width * p.scale.x)) uAxis)) =
      dotR uAxis v.pos + k * (tx.width * p.scale.x) := by
    have : dotR uAxis (addR v.pos (smulR (k * (tx.width * p.scale.x)) uAxis)) =
      dotR uAxis v.pos + k * (tx.width * p.scale.x) * dotR uAxis uAxis := by
        simp only [dotR, addR, smulR]; ring
    rw [this, hd, mul_one]
  have a2 : dotR vAxis (addR v.pos (smulR (k * (tx.width * p.scale.x)) uAxis)) = dotR vAxis v.pos := by
    have : dotR vAxis (addR v.pos (smulR (k * (tx.width * p.scale.x)) uAxis)) =
      dotR vAxis v.pos + k * (tx.width * p.scale.x) * dotR vAxis uAxis := by
        simp only [dotR, addR, smulR]; ring
    rw [this, hperp, mul_zero, add_zero]
  rw [a1, a2, add_div, mul_div_assoc, div_self hne]
  congr 2
  ring

/-- C30, standard layout: the projected position, turned by the rotation of the face, divided by texture size
and scale, plus the offset divided by the texture size. -/
theorem C30_standard (textures : TextureInfo) (entity : Entity ℝ) (planes : List (BrushPlane ℝ))
    (plane : BrushPlane ℝ) (geo : PlaneGeo ℝ) (h : buildPlane textures entity planes plane = .ok geo)
    (tx : Texture) (htx : textures plane.texture = some tx) (uOff vOff : ℝ)
    (huv : plane.uv = .quake uOff vOff) (v : Vertex ℝ) (hv : v ∈ geo.vertices) :
    ∃ a b : ℝ, Projected (rawNormal plane) v.pos a b ∧
      v.uv = some
        ⟨(Real.cos (plane.rotation * Real.pi / 180) * a - Real.sin (plane.rotation * Real.pi / 180) * b) /
            (tx.width * plane.scale.x) + uOff / tx.width,
         (Real.sin (plane.rotation * Real.pi / 180) * a + Real.cos (plane.rotation * Real.pi / 180) * b) /
            (tx.height * plane.scale.y) + vOff / tx.height⟩ := by
  obtain ⟨hnd, uv, e, hu⟩ := vertex_uv_real h htx hv
  have hl := lenR_pos hnd
  unfold vertexUV at hu
  rw [huv] at hu
  simp only [standardUV] at hu
  have hx : Arith.abs (Arith.dot plane.normal forwardVector) = |(rawNormal plane).x| / lenR (rawNormal plane) := by
    have : plane.normal = unitR (rawNormal plane) := by rw [← normalize_unitR]; rfl
    rw [this]
    simp [dotR, forwardVector, unitR, smulR, abs_mul, abs_of_pos hl, div_eq_inv_mul]
  have hy : Arith.abs (Arith.dot plane.normal rightVector) = |(rawNormal plane).y| / lenR (rawNormal plane) := by
    have : plane.normal = unitR (rawNormal plane) := by rw [← normalize_unitR]; rfl
    rw [this]
    simp [dotR, rightVector, unitR, smulR, abs_mul, abs_of_pos hl, div_eq_inv_mul]
  have hz : Arith.abs (Arith.dot plane.normal upVector) = |(rawNormal plane).z| / lenR (rawNormal plane) := by
    have : plane.normal = unitR (rawNormal plane) := by rw [← normalize_unitR]; rfl
    rw [this]
    simp [dotR, upVector, unitR, smulR, abs_mul, abs_of_pos hl, div_eq_inv_mul]
  rw [hx, hy, hz] at hu
  simp only [Bool.and_eq_true, ar_le, div_le_div_iff_of_pos_right hl] at hu
  have fin : ∀ a b : ℝ, Outcome.ok (V2.add (V2.div (V2.div (Arith.rotate2 (Arith.toRadians plane.rotation)
      (⟨a, b⟩ : V2 ℝ)) tx.size) plane.scale) (V2.div ⟨uOff, vOff⟩ tx.size)) = Outcome.ok uv →
      v.uv = some
        ⟨(Real.cos (plane.rotation * Real.pi / 180) * a - Real.sin (plane.rotation * Real.pi / 180) * b) /
            (tx.width * plane.scale.x) + uOff / tx.width,
         (Real.sin (plane.rotation * Real.pi / 180) * a + Real.cos (plane.rotation * Real.pi / 180) * b) /
            (tx.height * plane.scale.y) + vOff / tx.height⟩ := by
    intro a b hab
    rw [e, ← Outcome.ok.inj hab]
    simp [V2.div, V2.add, Texture.size, div_div, Arith.rotate2, Arith.toRadians]
  by_cases c1 : |(rawNormal plane).y| ≤ |(rawNormal plane).z| ∧ |(rawNormal plane).x| ≤ |(rawNormal plane).z|
  · rw [if_pos c1] at hu
    exact ⟨_, _, .inl ⟨c1.1, c1.2, rfl, rfl⟩, fin _ _ hu⟩
  · rw [if_neg c1] at hu
    by_cases c2 : |(rawNormal plane).z| ≤ |(rawNormal plane).y| ∧ |(rawNormal plane).x| ≤ |(rawNormal plane).y|
    · rw [if_pos c2] at hu
      refine ⟨_, _, .inr (.inl ⟨?_, c2.2, rfl, rfl⟩), fin _ _ hu⟩
      by_contra hc
      exact c1 ⟨not_lt.1 hc, c2.2.trans (not_lt.1 hc)⟩
    · rw [if_neg c2] at hu
      by_cases c3 : |(rawNormal plane).z| ≤ |(rawNormal plane).x| ∧ |(rawNormal plane).y| ≤ |(rawNormal plane).x|
      · rw [if_pos c3] at hu
        refine ⟨_, _, .inr (.inr ⟨?_, ?_, rfl, rfl⟩), fin _ _ hu⟩
        · by_contra hc
          exact c1 ⟨c3.2.trans (not_lt.1 hc), not_lt.1 hc⟩
        · by_contra hc
          exact c2 ⟨c3.1.trans (not_lt.1 hc), not_lt.1 hc⟩
      · rw [if_neg c3] at hu
        cases hu

/-- C30: the projection is determined by direction and position. -/
theorem spec_C30_projected_unique (n x : V3 ℝ) (a b a' b' : ℝ) (h : Projected n x a b) (h' : Projected n x a' b') :
    a = a' ∧ b = b' := by
  unfold Projected at *
  rcases h with ⟨h1, h2, rfl, rfl⟩ | ⟨h1, h2, rfl, rfl⟩ | ⟨h1, h2, rfl, rfl⟩ <;>
    rcases h' with ⟨h3, h4, rfl, rfl⟩ | ⟨h3, h4, rfl, rfl⟩ | ⟨h3, h4, rfl, rfl⟩ <;>
    first | exact ⟨rfl, rfl⟩ | (exfalso; linarith)

end
end Quarch
