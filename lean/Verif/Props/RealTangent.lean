import Verif.Props.RealUV
import Mathlib.Tactic.LinearCombination
/-
C73 (tangents) and C74 (tangents follow the texture) in exact arithmetic.
-/
set_option linter.unusedSectionVars false
namespace Quarch
open Spec Geo

/-- Sign of a number, counting zero as positive. -/
noncomputable def sgn (a : ℝ) : ℝ := open Classical in if a < 0 then -1 else 1

/-- `a` turned around the unit vector `n` by the angle `t` (Rodrigues' formula). -/
noncomputable def turned (n : V3 ℝ) (t : ℝ) (a : V3 ℝ) : V3 ℝ :=
  addR (addR (smulR (Real.cos t) a) (smulR (Real.sin t) (crossR n a))) (smulR ((1 - Real.cos t) * dotR n a) n)

/-- The first axis of the plane onto which a face with outward direction `n` is projected, and the sign of its
orientation. -/
def TangentAxis (n a : V3 ℝ) (s : ℝ) : Prop :=
  (|n.y| ≤ |n.z| ∧ |n.x| ≤ |n.z| ∧ a = ⟨1, 0, 0⟩ ∧ s = sgn n.z) ∨
  (|n.z| < |n.y| ∧ |n.x| ≤ |n.y| ∧ a = ⟨1, 0, 0⟩ ∧ s = -sgn n.y) ∨
  (|n.z| < |n.x| ∧ |n.y| < |n.x| ∧ a = ⟨0, 1, 0⟩ ∧ s = sgn n.x)

theorem sgn_div {a l : ℝ} (hl : 0 < l) : sgn (a / l) = sgn a := by
  unfold sgn
  simp only [div_neg_iff, hl, not_lt_of_gt hl, and_true, and_false, false_or]

theorem sgn_mul_self (a : ℝ) : sgn a * a = |a| := by
  unfold sgn
  split
  · rename_i h; rw [abs_of_neg h]; ring
  · rename_i h; rw [abs_of_nonneg (not_lt.1 h)]; ring

theorem sgn_sq (a : ℝ) : sgn a * sgn a = 1 := by
  unfold sgn; split <;> norm_num

theorem turned_zero (n a : V3 ℝ) : turned n 0 a = a := by
  apply V3.ext' <;> simp [turned, addR, smulR]

section
variable [RealText] [Platform]

/-- Turning keeps lengths. -/
theorem lenR_turned {n : V3 ℝ} (hn : lenR n = 1) (t : ℝ) (a : V3 ℝ) : lenR (turned n t a) = lenR a := by
  have h1 : dotR n n = 1 := by have := lenR_sq n; rw [hn] at this; linarith
  have h2 := Real.sin_sq_add_cos_sq t
  unfold lenR
  congr 1
  unfold turned
  generalize Real.cos t = c at *
  generalize Real.sin t = s at *
  obtain ⟨nx, ny, nz⟩ := n
  obtain ⟨x, y, z⟩ := a
  simp only [dotR, addR, smulR, crossR] at *
  linear_combination (x*x + y*y + z*z) * h2 +
    (s^2 * (x*x + y*y + z*z) + (1 - c)^2 * (nx * x + ny * y + nz * z)^2) * h1 +
    (-(nx * x + ny * y + nz * z)^2) * h2

theorem rotate_turned {n : V3 ℝ} (hn : lenR n = 1) (t : ℝ) (a : V3 ℝ) : Arith.rotate n t a = turned n t a := by
  have h1 : dotR n n = 1 := by have := lenR_sq n; rw [hn] at this; linarith
  have hc : Real.cos t = 2 * Real.cos (t / 2) ^ 2 - 1 := by rw [← Real.cos_two_mul]; ring_nf
  have hs : Real.sin t = 2 * Real.sin (t / 2) * Real.cos (t / 2) := by rw [← Real.sin_two_mul]; ring_nf
  have h2 := Real.sin_sq_add_cos_sq (t / 2)
  show (⟨_, _, _⟩ : V3 ℝ) = _
  unfold turned
  rw [hc, hs]
  clear hc hs
  generalize Real.cos (t / 2) = c at *
  generalize Real.sin (t / 2) = s at *
  obtain ⟨nx, ny, nz⟩ := n
  obtain ⟨x, y, z⟩ := a
  simp only [dotR, addR, smulR, crossR] at *
  apply V3.ext' <;> simp only []
  · linear_combination (-s^2 * x) * h1 + (2 * nx * (nx * x + ny * y + nz * z) - x) * h2
  · linear_combination (-s^2 * y) * h1 + (2 * ny * (nx * x + ny * y + nz * z) - y) * h2
  · linear_combination (-s^2 * z) * h1 + (2 * nz * (nx * x + ny * y + nz * z) - z) * h2

theorem vertex_tangent_real {textures : TextureInfo} {entity : Entity ℝ} {planes : List (BrushPlane ℝ)}
    {plane : BrushPlane ℝ} {geo : PlaneGeo ℝ} (h : buildPlane textures entity planes plane = .ok geo)
    {v : Vertex ℝ} (hv : v ∈ geo.vertices) :
    NonDegenerate plane ∧ vertexTangent plane = .ok v.tangent := by
  obtain ⟨w, hw, rfl⟩ := buildPlane_vertex h hv
  obtain ⟨p1, _, p2, _, hm, _⟩ := hw.src
  have hd := (meet_real.1 hm).1
  refine ⟨(unitDet_ne_zero (p0 := plane) (p1 := p1) (p2 := p2) (fun e0 => by rw [e0] at hd; norm_num at hd)).1, ?_⟩
  simpa using hw.tangent

theorem normal_unitR (p : BrushPlane ℝ) : p.normal = unitR (rawNormal p) := by rw [← normalize_unitR]; rfl

theorem ar_signum (a : ℝ) : Arith.signum a = sgn a := rfl

/-- C73, Valve layout: the tangent is the first texture axis; the sign is that of the orientation of outward
direction, first and second axis, reversed. -/
theorem C73_valve (textures : TextureInfo) (entity : Entity ℝ) (planes : List (BrushPlane ℝ))
    (plane : BrushPlane ℝ) (geo : PlaneGeo ℝ) (h : buildPlane textures entity planes plane = .ok geo)
    (uAxis vAxis : V3 ℝ) (uOff vOff : ℝ) (huv : plane.uv = .valve uAxis uOff vAxis vOff) (v : Vertex ℝ)
    (hv : v ∈ geo.vertices) :
    v.tangent = (uAxis, -sgn (detR (rawNormal plane) uAxis vAxis)) := by
  obtain ⟨hnd, e⟩ := vertex_tangent_real h hv
  have hl := lenR_pos hnd
  unfold vertexTangent at e
  rw [huv] at e
  rw [← Outcome.ok.inj e]
  congr 1
  simp only [ar_neg, ar_signum, ar_dot, ar_cross, normal_unitR]
  congr 1
  rw [← sgn_div (a := detR (rawNormal plane) uAxis vAxis) hl]
  congr 1
  simp only [detR, dotR, crossR, unitR, smulR]
  field_simp

/-- C73, standard layout: the tangent is the first axis of the projection plane, turned around the outward unit
normal by the rotation of the face (against it or with it, by the side the face is seen from); it has length
one; the sign is that side, times the sign of the second scale. -/
theorem C73_standard (textures : TextureInfo) (entity : Entity ℝ) (planes : List (BrushPlane ℝ))
    (plane : BrushPlane ℝ) (geo : PlaneGeo ℝ) (h : buildPlane textures entity planes plane = .ok geo)
    (uOff vOff : ℝ) (huv : plane.uv = .quake uOff vOff) (v : Vertex ℝ) (hv : v ∈ geo.vertices) :
    ∃ a s, TangentAxis (rawNormal plane) a s ∧
      v.tangent = (turned (unitR (rawNormal plane)) (-(plane.rotation * Real.pi / 180) * s) a,
        s * sgn plane.scale.y) ∧
      lenR v.tangent.1 = 1 := by
  obtain ⟨hnd, e⟩ := vertex_tangent_real h hv
  have hl := lenR_pos hnd
  have hu := lenR_unitR hnd
  unfold vertexTangent at e
  rw [huv] at e
  simp only [standardTangent] at e
  have hx : Arith.dot plane.normal forwardVector = (rawNormal plane).x / lenR (rawNormal plane) := by
    rw [normal_unitR]; simp [dotR, forwardVector, unitR, smulR, div_eq_inv_mul]
  have hy : Arith.dot plane.normal rightVector = (rawNormal plane).y / lenR (rawNormal plane) := by
    rw [normal_unitR]; simp [dotR, rightVector, unitR, smulR, div_eq_inv_mul]
  have hz : Arith.dot plane.normal upVector = (rawNormal plane).z / lenR (rawNormal plane) := by
    rw [normal_unitR]; simp [dotR, upVector, unitR, smulR, div_eq_inv_mul]
  rw [hx, hy, hz] at e
  simp only [ar_abs, abs_div, abs_of_pos hl, Bool.and_eq_true, ar_le, div_le_div_iff_of_pos_right hl, ar_signum,
    sgn_div hl] at e
  have fin : ∀ (a : V3 ℝ) (s : ℝ), lenR a = 1 →
      Outcome.ok (Arith.rotate plane.normal (Arith.mul (Arith.neg (Arith.toRadians plane.rotation)) s) a,
        Arith.mul s (sgn plane.scale.y)) = Outcome.ok v.tangent →
      v.tangent = (turned (unitR (rawNormal plane)) (-(plane.rotation * Real.pi / 180) * s) a,
        s * sgn plane.scale.y) ∧ lenR v.tangent.1 = 1 := by
    intro a s ha hab
    have e1 := (Outcome.ok.inj hab).symm
    rw [normal_unitR, rotate_turned hu] at e1
    rw [e1]
    refine ⟨rfl, ?_⟩
    rw [lenR_turned hu, ha]
  have hf : lenR (forwardVector : V3 ℝ) = 1 := by simp [lenR, dotR, forwardVector]
  have hr : lenR (rightVector : V3 ℝ) = 1 := by simp [lenR, dotR, rightVector]
  by_cases c1 : |(rawNormal plane).y| ≤ |(rawNormal plane).z| ∧ |(rawNormal plane).x| ≤ |(rawNormal plane).z|
  · simp only [if_pos c1] at e
    exact ⟨_, _, .inl ⟨c1.1, c1.2, rfl, rfl⟩, fin _ _ hf e⟩
  · simp only [if_neg c1] at e
    by_cases c2 : |(rawNormal plane).z| ≤ |(rawNormal plane).y| ∧ |(rawNormal plane).x| ≤ |(rawNormal plane).y|
    · simp only [if_pos c2] at e
      refine ⟨_, _, .inr (.inl ⟨?_, c2.2, rfl, rfl⟩), fin _ _ hf e⟩
      by_contra hc
      exact c1 ⟨not_lt.1 hc, c2.2.trans (not_lt.1 hc)⟩
    · simp only [if_neg c2] at e
      by_cases c3 : |(rawNormal plane).z| ≤ |(rawNormal plane).x| ∧ |(rawNormal plane).y| ≤ |(rawNormal plane).x|
      · simp only [if_pos c3] at e
        refine ⟨_, _, .inr (.inr ⟨?_, ?_, rfl, rfl⟩), fin _ _ hr e⟩
        · by_contra hc
          exact c1 ⟨c3.2.trans (not_lt.1 hc), not_lt.1 hc⟩
        · by_contra hc
          exact c2 ⟨c3.1.trans (not_lt.1 hc), not_lt.1 hc⟩
      · simp only [if_neg c3] at e
        cases e

/-- Third direction of the tangent frame on a face with outward direction `n`: across the tangent, on the side
the sign says. -/
noncomputable def bitangent (plane : BrushPlane ℝ) (t : V3 ℝ × ℝ) : V3 ℝ :=
  smulR t.2 (crossR (unitR (rawNormal plane)) t.1)

theorem dotR_move (a x d : V3 ℝ) (k : ℝ) : dotR a (addR x (smulR k d)) = dotR a x + k * dotR a d := by
  simp only [dotR, addR, smulR]; ring

theorem dotR_self_pos {a : V3 ℝ} (h : a ≠ zeroR) : 0 < dotR a a := by
  have := lenR_pos h
  have h2 := lenR_sq a
  nlinarith

/-- C74, Valve layout with positive scales: a vertex further along the tangent has a larger first texture
coordinate. -/
theorem C74_valve_tangent_partial (textures : TextureInfo) (entity : Entity ℝ) (planes : List (BrushPlane ℝ))
    (plane : BrushPlane ℝ) (geo : PlaneGeo ℝ) (h : buildPlane textures entity planes plane = .ok geo)
    (tx : Texture) (htx : textures plane.texture = some tx) (hw : 0 < tx.width) (uAxis vAxis : V3 ℝ) (uOff vOff : ℝ)
    (huv : plane.uv = .valve uAxis uOff vAxis vOff) (hu : uAxis ≠ zeroR) (hs : 0 < plane.scale.x)
    (v w : Vertex ℝ) (hv : v ∈ geo.vertices) (hw' : w ∈ geo.vertices) (k : ℝ) (hk : 0 < k)
    (hpos : w.pos = addR v.pos (smulR k v.tangent.1)) :
    ∃ a b : V2 ℝ, v.uv = some a ∧ w.uv = some b ∧ a.x < b.x := by
  refine ⟨_, _, C30_valve _ _ _ _ _ h tx htx _ _ _ _ huv v hv, C30_valve _ _ _ _ _ h tx htx _ _ _ _ huv w hw', ?_⟩
  have ht := C73_valve _ _ _ _ _ h _ _ _ _ huv v hv
  rw [hpos, ht, dotR_move]
  have h1 := dotR_self_pos hu
  have h2 : (0 : ℝ) < tx.width := by exact_mod_cast hw
  have : dotR uAxis v.pos / (tx.width * plane.scale.x) <
      (dotR uAxis v.pos + k * dotR uAxis uAxis) / (tx.width * plane.scale.x) :=
    div_lt_div_of_pos_right (by have := mul_pos hk h1; linarith) (mul_pos h2 hs)
  simpa using this

/-- C74, Valve layout with positive scales and axes not in one plane with the normal: a vertex further along the
third direction of the frame has a smaller second texture coordinate. -/
theorem C74_valve_bitangent_partial (textures : TextureInfo) (entity : Entity ℝ) (planes : List (BrushPlane ℝ))
    (plane : BrushPlane ℝ) (geo : PlaneGeo ℝ) (h : buildPlane textures entity planes plane = .ok geo)
    (tx : Texture) (htx : textures plane.texture = some tx) (hh : 0 < tx.height) (uAxis vAxis : V3 ℝ)
    (uOff vOff : ℝ) (huv : plane.uv = .valve uAxis uOff vAxis vOff)
    (hu : detR (rawNormal plane) uAxis vAxis ≠ 0) (hs : 0 < plane.scale.y)
    (v w : Vertex ℝ) (hv : v ∈ geo.vertices) (hw' : w ∈ geo.vertices) (k : ℝ) (hk : 0 < k)
    (hpos : w.pos = addR v.pos (smulR k (bitangent plane v.tangent))) :
    ∃ a b : V2 ℝ, v.uv = some a ∧ w.uv = some b ∧ b.y < a.y := by
  refine ⟨_, _, C30_valve _ _ _ _ _ h tx htx _ _ _ _ huv v hv, C30_valve _ _ _ _ _ h tx htx _ _ _ _ huv w hw', ?_⟩
  have ht := C73_valve _ _ _ _ _ h _ _ _ _ huv v hv
  have hl := lenR_pos (vertex_tangent_real h hv).1
  simp only [hpos, ht, dotR_move]
  have h2 : (0 : ℝ) < tx.height := by exact_mod_cast hh
  have h1 : dotR vAxis (bitangent plane (uAxis, -sgn (detR (rawNormal plane) uAxis vAxis))) =
      -(|detR (rawNormal plane) uAxis vAxis| / lenR (rawNormal plane)) := by
    rw [← sgn_mul_self]
    simp only [bitangent, unitR, smulR, crossR, dotR, detR]
    field_simp
    ring
  have h3 : 0 < |detR (rawNormal plane) uAxis vAxis| / lenR (rawNormal plane) := div_pos (abs_pos.2 hu) hl
  rw [h1]
  have : (dotR vAxis v.pos + k * -(|detR (rawNormal plane) uAxis vAxis| / lenR (rawNormal plane))) /
      (tx.height * plane.scale.y) < dotR vAxis v.pos / (tx.height * plane.scale.y) :=
    div_lt_div_of_pos_right (by have := mul_pos hk h3; linarith) (mul_pos h2 hs)
  simpa using this

/-- Projection axis of the tangent and projected texture position agree. -/
theorem projected_tangent {n x y a : V3 ℝ} {s p q p' q' : ℝ} (ht : TangentAxis n a s) (h : Projected n x p q)
    (h' : Projected n y p' q') (k : ℝ) (e : y = addR x (smulR k a)) : p' = p + k ∧ q' = q := by
  subst e
  unfold TangentAxis Projected at *
  rcases ht with ⟨h1, h2, rfl, rfl⟩ | ⟨h1, h2, rfl, rfl⟩ | ⟨h1, h2, rfl, rfl⟩ <;>
    rcases h with ⟨h3, h4, rfl, rfl⟩ | ⟨h3, h4, rfl, rfl⟩ | ⟨h3, h4, rfl, rfl⟩ <;>
    rcases h' with ⟨h5, h6, rfl, rfl⟩ | ⟨h5, h6, rfl, rfl⟩ | ⟨h5, h6, rfl, rfl⟩ <;>
    first
      | (exfalso; linarith)
      | (simp [addR, smulR])

theorem projected_bitangent {n x y a : V3 ℝ} {s p q p' q' : ℝ} (hn : n ≠ zeroR) (ht : TangentAxis n a s)
    (h : Projected n x p q) (h' : Projected n y p' q') (k : ℝ)
    (e : y = addR x (smulR (k * s) (crossR (unitR n) a))) :
    ∃ c > 0, q' = q - k * c := by
  subst e
  have hl := lenR_pos hn
  have pos : ∀ c : ℝ, |c| = 0 → |n.x| ≤ |c| → |n.y| ≤ |c| → |n.z| ≤ |c| → False := by
    intro c hc h1 h2 h3
    rw [hc] at h1 h2 h3
    apply hn
    apply V3.ext' <;> simp only [zeroR]
    · exact abs_nonpos_iff.1 h1
    · exact abs_nonpos_iff.1 h2
    · exact abs_nonpos_iff.1 h3
  unfold TangentAxis at ht
  unfold Projected at h h'
  rcases ht with ⟨h1, h2, rfl, rfl⟩ | ⟨h1, h2, rfl, rfl⟩ | ⟨h1, h2, rfl, rfl⟩
  · have hp : 0 < |n.z| := lt_of_le_of_ne (abs_nonneg _) fun e => pos n.z e.symm h2 h1 le_rfl
    refine ⟨|n.z| / lenR n, div_pos hp hl, ?_⟩
    rcases h with ⟨h3, h4, rfl, rfl⟩ | ⟨h3, h4, rfl, rfl⟩ | ⟨h3, h4, rfl, rfl⟩ <;>
    rcases h' with ⟨h5, h6, rfl, rfl⟩ | ⟨h5, h6, rfl, rfl⟩ | ⟨h5, h6, rfl, rfl⟩ <;>
    first
      | (exfalso; linarith)
      | (rw [← sgn_mul_self]; simp only [addR, smulR, crossR, unitR]; field_simp; ring)
  · have hp : 0 < |n.y| := lt_of_le_of_lt (abs_nonneg _) h1
    refine ⟨|n.y| / lenR n, div_pos hp hl, ?_⟩
    rcases h with ⟨h3, h4, rfl, rfl⟩ | ⟨h3, h4, rfl, rfl⟩ | ⟨h3, h4, rfl, rfl⟩ <;>
    rcases h' with ⟨h5, h6, rfl, rfl⟩ | ⟨h5, h6, rfl, rfl⟩ | ⟨h5, h6, rfl, rfl⟩ <;>
    first
      | (exfalso; linarith)
      | (rw [← sgn_mul_self]; simp only [addR, smulR, crossR, unitR]; field_simp; ring)
  · have hp : 0 < |n.x| := lt_of_le_of_lt (abs_nonneg _) h1
    refine ⟨|n.x| / lenR n, div_pos hp hl, ?_⟩
    rcases h with ⟨h3, h4, rfl, rfl⟩ | ⟨h3, h4, rfl, rfl⟩ | ⟨h3, h4, rfl, rfl⟩ <;>
    rcases h' with ⟨h5, h6, rfl, rfl⟩ | ⟨h5, h6, rfl, rfl⟩ | ⟨h5, h6, rfl, rfl⟩ <;>
    first
      | (exfalso; linarith)
      | (rw [← sgn_mul_self]; simp only [addR, smulR, crossR, unitR]; field_simp; ring)

/-- C74, standard layout, not rotated, positive first scale: a vertex further along the tangent has a larger
first texture coordinate and the same second one. -/
theorem C74_unrotated_tangent_partial (textures : TextureInfo) (entity : Entity ℝ) (planes : List (BrushPlane ℝ))
    (plane : BrushPlane ℝ) (geo : PlaneGeo ℝ) (h : buildPlane textures entity planes plane = .ok geo)
    (tx : Texture) (htx : textures plane.texture = some tx) (hw : 0 < tx.width) (uOff vOff : ℝ)
    (huv : plane.uv = .quake uOff vOff) (hr : plane.rotation = 0) (hs : 0 < plane.scale.x)
    (v w : Vertex ℝ) (hv : v ∈ geo.vertices) (hw' : w ∈ geo.vertices) (k : ℝ) (hk : 0 < k)
    (hpos : w.pos = addR v.pos (smulR k v.tangent.1)) :
    ∃ a b : V2 ℝ, v.uv = some a ∧ w.uv = some b ∧ a.x < b.x ∧ a.y = b.y := by
  obtain ⟨p, q, h1, e1⟩ := C30_standard _ _ _ _ _ h tx htx _ _ huv v hv
  obtain ⟨p', q', h2, e2⟩ := C30_standard _ _ _ _ _ h tx htx _ _ huv w hw'
  obtain ⟨a, s, h3, h4, _⟩ := C73_standard _ _ _ _ _ h _ _ huv v hv
  refine ⟨_, _, e1, e2, ?_⟩
  rw [h4, hr] at hpos
  simp only [zero_mul, zero_div, neg_zero, turned_zero] at hpos
  obtain ⟨rfl, rfl⟩ := projected_tangent h3 h1 h2 k hpos
  simp only [hr, zero_mul, zero_div, Real.cos_zero, Real.sin_zero, one_mul, sub_zero, zero_add, and_true]
  have h2 : (0 : ℝ) < tx.width := by exact_mod_cast hw
  have : p / (tx.width * plane.scale.x) < (p + k) / (tx.width * plane.scale.x) :=
    div_lt_div_of_pos_right (by linarith) (mul_pos h2 hs)
  linarith

/-- C74, standard layout, not rotated, second scale of either sign: a vertex further along the third direction
of the frame has a smaller second texture coordinate. -/
theorem C74_unrotated_bitangent_partial (textures : TextureInfo) (entity : Entity ℝ)
    (planes : List (BrushPlane ℝ))
    (plane : BrushPlane ℝ) (geo : PlaneGeo ℝ) (h : buildPlane textures entity planes plane = .ok geo)
    (tx : Texture) (htx : textures plane.texture = some tx) (hh : 0 < tx.height) (uOff vOff : ℝ)
    (huv : plane.uv = .quake uOff vOff) (hr : plane.rotation = 0) (hs : plane.scale.y ≠ 0)
    (v w : Vertex ℝ) (hv : v ∈ geo.vertices) (hw' : w ∈ geo.vertices) (k : ℝ) (hk : 0 < k)
    (hpos : w.pos = addR v.pos (smulR k (bitangent plane v.tangent))) :
    ∃ a b : V2 ℝ, v.uv = some a ∧ w.uv = some b ∧ b.y < a.y := by
  obtain ⟨p, q, h1, e1⟩ := C30_standard _ _ _ _ _ h tx htx _ _ huv v hv
  obtain ⟨p', q', h2, e2⟩ := C30_standard _ _ _ _ _ h tx htx _ _ huv w hw'
  obtain ⟨a, s, h3, h4, _⟩ := C73_standard _ _ _ _ _ h _ _ huv v hv
  have hnd := (vertex_tangent_real h hv).1
  refine ⟨_, _, e1, e2, ?_⟩
  rw [h4, hr] at hpos
  simp only [bitangent, zero_mul, zero_div, neg_zero, turned_zero] at hpos
  have e3 : w.pos = addR v.pos (smulR (k * sgn plane.scale.y * s) (crossR (unitR (rawNormal plane)) a)) := by
    rw [hpos]; apply V3.ext' <;> simp only [addR, smulR] <;> ring
  obtain ⟨c, hc, rfl⟩ := projected_bitangent hnd h3 h1 h2 (k * sgn plane.scale.y) e3
  simp only [hr, zero_mul, zero_div, Real.cos_zero, Real.sin_zero, one_mul, zero_add]
  have h2 : (0 : ℝ) < tx.height := by exact_mod_cast hh
  have h5 : 0 < sgn plane.scale.y / (tx.height * plane.scale.y) := by
    unfold sgn
    split
    · rename_i hn
      have := mul_neg_of_pos_of_neg h2 hn
      exact div_pos_of_neg_of_neg (by norm_num) this
    · rename_i hn
      exact div_pos one_pos (mul_pos h2 (lt_of_le_of_ne (not_lt.1 hn) (Ne.symm hs)))
  have h6 : (q - k * sgn plane.scale.y * c) / (tx.height * plane.scale.y) =
      q / (tx.height * plane.scale.y) - k * c * (sgn plane.scale.y / (tx.height * plane.scale.y)) := by ring
  rw [h6]
  have := mul_pos (mul_pos hk hc) h5
  linarith

/-- The outward direction is along a coordinate axis. -/
def AxisAligned (n : V3 ℝ) : Prop :=
  (n.x = 0 ∧ n.y = 0) ∨ (n.x = 0 ∧ n.z = 0) ∨ (n.y = 0 ∧ n.z = 0)

theorem sgn_cases (a : ℝ) : sgn a = 1 ∨ sgn a = -1 := by
  unfold sgn; split <;> simp

theorem sgn_mul_div_len {n : ℝ} (h : n ≠ 0) {l : ℝ} (e : l = |n|) : sgn n * (n / l) = 1 := by
  rw [e, ← mul_div_assoc, sgn_mul_self, div_self (abs_ne_zero.2 h)]

/-- On a face along a coordinate axis the turned tangent has projected coordinates `(cos r, -sin r)`. -/
theorem projected_turned {n x y a : V3 ℝ} {s p q p' q' : ℝ} (hn : n ≠ zeroR) (hx : AxisAligned n)
    (ht : TangentAxis n a s) (h : Projected n x p q) (h' : Projected n y p' q') (k r : ℝ)
    (e : y = addR x (smulR k (turned (unitR n) (-r * s) a))) :
    p' = p + k * Real.cos r ∧ q' = q + k * Real.sin r := by
  subst e
  have hs : s = 1 ∨ s = -1 := by
    unfold TangentAxis at ht
    rcases ht with ⟨_, _, _, rfl⟩ | ⟨_, _, _, rfl⟩ | ⟨_, _, _, rfl⟩
    · exact sgn_cases _
    · rcases sgn_cases n.y with h | h <;> rw [h] <;> norm_num
    · exact sgn_cases _
  have hc : Real.cos (-r * s) = Real.cos r := by rcases hs with rfl | rfl <;> simp
  have hsin : Real.sin (-r * s) = -(s * Real.sin r) := by rcases hs with rfl | rfl <;> simp
  unfold turned at h'
  rw [hc, hsin] at h'
  unfold TangentAxis at ht
  unfold Projected at h h'
  have hl := lenR_pos hn
  obtain ⟨nx, ny, nz⟩ := n
  rcases hx with ⟨e1, e2⟩ | ⟨e1, e2⟩ | ⟨e1, e2⟩ <;> simp only at e1 e2 <;> subst e1 <;> subst e2
  · have hz : nz ≠ 0 := fun e => hn (by rw [e]; rfl)
    have hln : lenR ⟨0, 0, nz⟩ = |nz| := by simp [lenR, dotR, Real.sqrt_mul_self_eq_abs]
    have hp := abs_pos.2 hz
    have hk := sgn_mul_div_len hz hln
    rcases ht with ⟨h1, h2, rfl, rfl⟩ | ⟨h1, h2, rfl, rfl⟩ | ⟨h1, h2, rfl, rfl⟩ <;>
    rcases h with ⟨h3, h4, rfl, rfl⟩ | ⟨h3, h4, rfl, rfl⟩ | ⟨h3, h4, rfl, rfl⟩ <;>
    rcases h' with ⟨h5, h6, rfl, rfl⟩ | ⟨h5, h6, rfl, rfl⟩ | ⟨h5, h6, rfl, rfl⟩ <;>
    simp only [abs_zero] at * <;>
    first
      | (exfalso; linarith)
      | (simp only [addR, smulR, crossR, unitR, dotR]
         constructor
         · ring
         · linear_combination (k * Real.sin r) * hk)
  · have hz : ny ≠ 0 := fun e => hn (by rw [e]; rfl)
    have hln : lenR ⟨0, ny, 0⟩ = |ny| := by simp [lenR, dotR, Real.sqrt_mul_self_eq_abs]
    have hp := abs_pos.2 hz
    have hk := sgn_mul_div_len hz hln
    rcases ht with ⟨h1, h2, rfl, rfl⟩ | ⟨h1, h2, rfl, rfl⟩ | ⟨h1, h2, rfl, rfl⟩ <;>
    rcases h with ⟨h3, h4, rfl, rfl⟩ | ⟨h3, h4, rfl, rfl⟩ | ⟨h3, h4, rfl, rfl⟩ <;>
    rcases h' with ⟨h5, h6, rfl, rfl⟩ | ⟨h5, h6, rfl, rfl⟩ | ⟨h5, h6, rfl, rfl⟩ <;>
    simp only [abs_zero] at * <;>
    first
      | (exfalso; linarith)
      | (simp only [addR, smulR, crossR, unitR, dotR]
         constructor
         · ring
         · linear_combination (k * Real.sin r) * hk)
  · have hz : nx ≠ 0 := fun e => hn (by rw [e]; rfl)
    have hln : lenR ⟨nx, 0, 0⟩ = |nx| := by simp [lenR, dotR, Real.sqrt_mul_self_eq_abs]
    have hp := abs_pos.2 hz
    have hk := sgn_mul_div_len hz hln
    rcases ht with ⟨h1, h2, rfl, rfl⟩ | ⟨h1, h2, rfl, rfl⟩ | ⟨h1, h2, rfl, rfl⟩ <;>
    rcases h with ⟨h3, h4, rfl, rfl⟩ | ⟨h3, h4, rfl, rfl⟩ | ⟨h3, h4, rfl, rfl⟩ <;>
    rcases h' with ⟨h5, h6, rfl, rfl⟩ | ⟨h5, h6, rfl, rfl⟩ | ⟨h5, h6, rfl, rfl⟩ <;>
    simp only [abs_zero] at * <;>
    first
      | (exfalso; linarith)
      | (simp only [addR, smulR, crossR, unitR, dotR]
         constructor
         · ring
         · linear_combination (k * Real.sin r) * hk)

/-- C74, standard layout on a face along a coordinate axis: along the tangent the first texture coordinate
changes with the cosine of twice the rotation. It grows as it should only for rotations below 45 degrees either
way, and falls beyond. -/
theorem C74_axis_aligned_rotated (textures : TextureInfo) (entity : Entity ℝ) (planes : List (BrushPlane ℝ))
    (plane : BrushPlane ℝ) (geo : PlaneGeo ℝ) (h : buildPlane textures entity planes plane = .ok geo)
    (tx : Texture) (htx : textures plane.texture = some tx) (uOff vOff : ℝ)
    (huv : plane.uv = .quake uOff vOff) (hax : AxisAligned (rawNormal plane))
    (v w : Vertex ℝ) (hv : v ∈ geo.vertices) (hw' : w ∈ geo.vertices) (k : ℝ)
    (hpos : w.pos = addR v.pos (smulR k v.tangent.1)) :
    ∃ a b : V2 ℝ, v.uv = some a ∧ w.uv = some b ∧
      b.x = a.x + k * Real.cos (2 * (plane.rotation * Real.pi / 180)) / (tx.width * plane.scale.x) := by
  obtain ⟨p, q, h1, e1⟩ := C30_standard _ _ _ _ _ h tx htx _ _ huv v hv
  obtain ⟨p', q', h2, e2⟩ := C30_standard _ _ _ _ _ h tx htx _ _ huv w hw'
  obtain ⟨a, s, h3, h4, _⟩ := C73_standard _ _ _ _ _ h _ _ huv v hv
  have hnd := (vertex_tangent_real h hv).1
  refine ⟨_, _, e1, e2, ?_⟩
  rw [h4] at hpos
  obtain ⟨rfl, rfl⟩ := projected_turned hnd hax h3 h1 h2 k _ hpos
  simp only []
  rw [Real.cos_two_mul']
  ring

end
end Quarch
