import Verif.Props.RealTangent
import Verif.Props.RealExamples
/-
Concrete cases for the theorems about tangents, and the face that refutes C74 in general.
-/
set_option linter.unusedSectionVars false
namespace Quarch.Cube
open Spec Geo

section
variable [RealText] [Platform]

/-- The face `x = 1` with standard layout and any rotation. -/
noncomputable def std (r : ℝ) : BrushPlane ℝ := { xp with uv := .quake 0 0, rotation := r }

/-- The cube with that face. -/
noncomputable def stdPlanes (r : ℝ) : List (BrushPlane ℝ) := [std r, xn, yp, yn, zp, zn]

theorem raw_std (r : ℝ) : rawNormal (std r) = ⟨1, 0, 0⟩ := raw_xp
theorem on_std (r : ℝ) (x : V3 ℝ) : OnPlane (std r) x ↔ x.x = 1 := on_xp x
theorem in_std (r' r : ℝ) (x : V3 ℝ) : WithinR r (std r') x ↔ x.x - 1 ≤ r := in_xp r x

theorem insideStd (r' r : ℝ) (x : V3 ℝ) : (∀ p ∈ stdPlanes r', WithinR r p x) ↔
    (x.x - 1 ≤ r ∧ -x.x ≤ r ∧ x.y - 1 ≤ r ∧ -x.y ≤ r ∧ x.z - 1 ≤ r ∧ -x.z ≤ r) := by
  unfold stdPlanes
  simp only [List.mem_cons, List.not_mem_nil, or_false, forall_eq_or_imp, forall_eq, in_std, in_xn, in_yp, in_yn,
    in_zp, in_zn]

/-- The corners of the face, as far as needed here. -/
theorem stdCorner (textures : TextureInfo) (entity : Entity ℝ) (r : ℝ) (geo : PlaneGeo ℝ)
    (h : buildPlane textures entity (stdPlanes r) (std r) = .ok geo) (x : V3 ℝ) (hx : x.x = 1)
    (hy : x.y = 0 ∨ x.y = 1) (hz : x.z = 0 ∨ x.z = 1) : ∃ v ∈ geo.vertices, v.pos = x := by
  have : x ∈ geo.vertices.map (·.pos) := by
    rw [(C20_exact_corners _ _ _ _ _ h).2 x, insideStd]
    refine ⟨?_, by rcases hy with hy | hy <;> rcases hz with hz | hz <;> rw [hx, hy, hz] <;> norm_num⟩
    rcases hy with hy | hy <;> rcases hz with hz | hz
    · refine ⟨yn, by simp [stdPlanes], zn, by simp [stdPlanes], ?_, (on_std r x).2 hx, (on_yn x).2 hy, (on_zn x).2 hz⟩
      unfold unitDet; rw [raw_std, raw_yn, raw_zn]; simp [detR, dotR, crossR, lenR]; norm_num
    · refine ⟨zp, by simp [stdPlanes], yn, by simp [stdPlanes], ?_, (on_std r x).2 hx, (on_zp x).2 hz, (on_yn x).2 hy⟩
      unfold unitDet; rw [raw_std, raw_yn, raw_zp]; simp [detR, dotR, crossR, lenR]; norm_num
    · refine ⟨zn, by simp [stdPlanes], yp, by simp [stdPlanes], ?_, (on_std r x).2 hx, (on_zn x).2 hz, (on_yp x).2 hy⟩
      unfold unitDet; rw [raw_std, raw_yp, raw_zn]; simp [detR, dotR, crossR, lenR]; norm_num
    · refine ⟨yp, by simp [stdPlanes], zp, by simp [stdPlanes], ?_, (on_std r x).2 hx, (on_yp x).2 hy, (on_zp x).2 hz⟩
      unfold unitDet; rw [raw_std, raw_yp, raw_zp]; simp [detR, dotR, crossR, lenR]; norm_num
  obtain ⟨v, hv, e⟩ := List.mem_map.1 this
  exact ⟨v, hv, e⟩

/-- The tangent of the face, by C73. -/
theorem stdTangent (textures : TextureInfo) (entity : Entity ℝ) (r : ℝ) (geo : PlaneGeo ℝ)
    (h : buildPlane textures entity (stdPlanes r) (std r) = .ok geo) (v : Vertex ℝ) (hv : v ∈ geo.vertices) :
    v.tangent = (⟨0, Real.cos (r * Real.pi / 180), -Real.sin (r * Real.pi / 180)⟩, 1) := by
  obtain ⟨a, s, h1, h2, _⟩ := C73_standard _ _ _ _ _ h 0 0 rfl v hv
  rw [h2]
  have hu : unitR (⟨1, 0, 0⟩ : V3 ℝ) = ⟨1, 0, 0⟩ := by simp [unitR, smulR, lenR, dotR]
  have hsc : sgn (std r).scale.y = 1 := by
    unfold sgn std xp face; norm_num
  rw [hsc]
  unfold TangentAxis at h1
  rw [raw_std] at *
  rw [hu]
  clear h2
  rcases h1 with ⟨h1, h2, rfl, rfl⟩ | ⟨h1, h2, rfl, rfl⟩ | ⟨h1, h2, rfl, rfl⟩
  · exfalso; norm_num at h2
  · exfalso; simp at h1
  · have e1 : sgn 1 = 1 := by unfold sgn; norm_num
    simp [e1, turned, addR, smulR, crossR, dotR, std]

/-- C73, Valve layout: every corner of the face `x = 1` has tangent `y` and sign -1. -/
example (textures : TextureInfo) (entity : Entity ℝ) (geo : PlaneGeo ℝ)
    (h : buildPlane textures entity planes xp = .ok geo) (v : Vertex ℝ) (hv : v ∈ geo.vertices) :
    v.tangent = (⟨0, 1, 0⟩, -1) := by
  rw [C73_valve _ _ _ _ _ h ⟨0, 1, 0⟩ ⟨0, 0, 1⟩ 0 0 rfl v hv, raw_xp]
  have e1 : sgn 1 = 1 := by unfold sgn; norm_num
  simp [detR, dotR, crossR, e1]

/-- C73, standard layout: turned by 90 degrees, the tangent of the face points down. -/
example (textures : TextureInfo) (entity : Entity ℝ) :
    ∃ geo, buildPlane textures entity (stdPlanes 90) (std 90) = .ok geo ∧ ∃ v ∈ geo.vertices,
      v.tangent = (⟨0, 0, -1⟩, 1) := by
  obtain ⟨geo, h⟩ := buildPlane_real textures entity (stdPlanes 90) (std 90)
  obtain ⟨v, hv, _⟩ := stdCorner _ _ _ _ h ⟨1, 0, 0⟩ rfl (.inl rfl) (.inl rfl)
  refine ⟨geo, h, v, hv, ?_⟩
  rw [stdTangent _ _ _ _ h v hv]
  have : (90 : ℝ) * Real.pi / 180 = Real.pi / 2 := by ring
  rw [this]
  simp

/-- C74, Valve layout: from (1, 0, 0) along the tangent to (1, 1, 0). -/
example (textures : TextureInfo) (htx : textures (str! "brick") = some ⟨64, 64⟩) (entity : Entity ℝ) :
    ∃ geo, buildPlane textures entity planes xp = .ok geo ∧ ∃ v ∈ geo.vertices, ∃ w ∈ geo.vertices,
      v.pos = ⟨1, 0, 0⟩ ∧ w.pos = ⟨1, 1, 0⟩ ∧ ∃ a b, v.uv = some a ∧ w.uv = some b ∧ a.x < b.x := by
  obtain ⟨geo, h⟩ := buildPlane_real textures entity planes xp
  obtain ⟨v, hv, e⟩ := List.mem_map.1 ((corners _ _ _ h ⟨1, 0, 0⟩).2 (by norm_num))
  obtain ⟨w, hw, e'⟩ := List.mem_map.1 ((corners _ _ _ h ⟨1, 1, 0⟩).2 (by norm_num))
  refine ⟨geo, h, v, hv, w, hw, e, e', ?_⟩
  refine C74_valve_tangent_partial _ _ _ _ _ h ⟨64, 64⟩ htx (by norm_num) ⟨0, 1, 0⟩ ⟨0, 0, 1⟩ 0 0 rfl
    (by simp [zeroR]) (by unfold xp face; norm_num) v w hv hw 1 one_pos ?_
  rw [C73_valve _ _ _ _ _ h ⟨0, 1, 0⟩ ⟨0, 0, 1⟩ 0 0 rfl v hv, e, e']
  simp [addR, smulR]

/-- C74, Valve layout: from (1, 0, 1) along the third direction, which is `-z`, to (1, 0, 0). -/
example (textures : TextureInfo) (htx : textures (str! "brick") = some ⟨64, 64⟩) (entity : Entity ℝ) :
    ∃ geo, buildPlane textures entity planes xp = .ok geo ∧ ∃ v ∈ geo.vertices, ∃ w ∈ geo.vertices,
      v.pos = ⟨1, 0, 1⟩ ∧ w.pos = ⟨1, 0, 0⟩ ∧ ∃ a b, v.uv = some a ∧ w.uv = some b ∧ b.y < a.y := by
  obtain ⟨geo, h⟩ := buildPlane_real textures entity planes xp
  obtain ⟨v, hv, e⟩ := List.mem_map.1 ((corners _ _ _ h ⟨1, 0, 1⟩).2 (by norm_num))
  obtain ⟨w, hw, e'⟩ := List.mem_map.1 ((corners _ _ _ h ⟨1, 0, 0⟩).2 (by norm_num))
  refine ⟨geo, h, v, hv, w, hw, e, e', ?_⟩
  refine C74_valve_bitangent_partial _ _ _ _ _ h ⟨64, 64⟩ htx (by norm_num) ⟨0, 1, 0⟩ ⟨0, 0, 1⟩ 0 0 rfl
    (by rw [raw_xp]; simp [detR, dotR, crossR]) (by unfold xp face; norm_num) v w hv hw 1 one_pos ?_
  rw [C73_valve _ _ _ _ _ h ⟨0, 1, 0⟩ ⟨0, 0, 1⟩ 0 0 rfl v hv, e, e', raw_xp]
  have hu : unitR (⟨1, 0, 0⟩ : V3 ℝ) = ⟨1, 0, 0⟩ := by simp [unitR, smulR, lenR, dotR]
  have e1 : sgn 1 = 1 := by unfold sgn; norm_num
  simp [addR, smulR, bitangent, raw_xp, hu, crossR, detR, dotR, e1]

/-- C74, standard layout, not rotated: from (1, 0, 0) along the tangent to (1, 1, 0), and along the third
direction to (1, 0, 1). -/
example (textures : TextureInfo) (htx : textures (str! "brick") = some ⟨64, 64⟩) (entity : Entity ℝ) :
    ∃ geo, buildPlane textures entity (stdPlanes 0) (std 0) = .ok geo ∧ ∃ v ∈ geo.vertices, ∃ w ∈ geo.vertices,
      ∃ z ∈ geo.vertices, v.pos = ⟨1, 0, 0⟩ ∧ w.pos = ⟨1, 1, 0⟩ ∧ z.pos = ⟨1, 0, 1⟩ ∧
      (∃ a b, v.uv = some a ∧ w.uv = some b ∧ a.x < b.x ∧ a.y = b.y) ∧
      (∃ a c, v.uv = some a ∧ z.uv = some c ∧ c.y < a.y) := by
  obtain ⟨geo, h⟩ := buildPlane_real textures entity (stdPlanes 0) (std 0)
  obtain ⟨v, hv, e⟩ := stdCorner _ _ _ _ h ⟨1, 0, 0⟩ rfl (.inl rfl) (.inl rfl)
  obtain ⟨w, hw, e'⟩ := stdCorner _ _ _ _ h ⟨1, 1, 0⟩ rfl (.inr rfl) (.inl rfl)
  obtain ⟨z, hz, e''⟩ := stdCorner _ _ _ _ h ⟨1, 0, 1⟩ rfl (.inl rfl) (.inr rfl)
  have hu : unitR (⟨1, 0, 0⟩ : V3 ℝ) = ⟨1, 0, 0⟩ := by simp [unitR, smulR, lenR, dotR]
  refine ⟨geo, h, v, hv, w, hw, z, hz, e, e', e'', ?_, ?_⟩
  · refine C74_unrotated_tangent_partial _ _ _ _ _ h ⟨64, 64⟩ htx (by norm_num) 0 0 rfl rfl
      (by unfold std xp face; norm_num) v w hv hw 1 one_pos ?_
    rw [stdTangent _ _ _ _ h v hv, e, e']
    simp [addR, smulR]
  · refine C74_unrotated_bitangent_partial _ _ _ _ _ h ⟨64, 64⟩ htx (by norm_num) 0 0 rfl rfl
      (by unfold std xp face; norm_num) v z hv hz 1 one_pos ?_
    rw [stdTangent _ _ _ _ h v hv, e, e'']
    simp [addR, smulR, bitangent, raw_std, hu, crossR]

end
end Quarch.Cube

namespace Quarch
open Spec Geo Cube

/-- C74 is not true in general: there is a face in standard layout with positive scales, rotated by 90 degrees,
with two corners the second of which lies further along the tangent and has a smaller first texture
coordinate. -/
theorem C74_rotated_fails [RealText] [Platform] (textures : TextureInfo)
    (htx : textures (str! "brick") = some ⟨64, 64⟩) (entity : Entity ℝ) :
    ∃ planes, ∃ plane ∈ planes, plane.texture = str! "brick" ∧ 0 < plane.scale.x ∧ 0 < plane.scale.y ∧
      (∃ u v, plane.uv = .quake u v) ∧ ∃ geo, buildPlane textures entity planes plane = .ok geo ∧
      ∃ v ∈ geo.vertices, ∃ w ∈ geo.vertices, w.pos = addR v.pos v.tangent.1 ∧
      ∃ a b : V2 ℝ, v.uv = some a ∧ w.uv = some b ∧ b.x < a.x := by
  refine ⟨stdPlanes 90, std 90, by simp [stdPlanes], rfl, by unfold std xp face; norm_num,
    by unfold std xp face; norm_num, ⟨0, 0, rfl⟩, ?_⟩
  obtain ⟨geo, h⟩ := buildPlane_real textures entity (stdPlanes 90) (std 90)
  obtain ⟨v, hv, e⟩ := stdCorner _ _ _ _ h ⟨1, 0, 1⟩ rfl (.inl rfl) (.inr rfl)
  obtain ⟨w, hw, e'⟩ := stdCorner _ _ _ _ h ⟨1, 0, 0⟩ rfl (.inl rfl) (.inl rfl)
  have hpi : (90 : ℝ) * Real.pi / 180 = Real.pi / 2 := by ring
  have ht := stdTangent _ _ _ _ h v hv
  rw [hpi] at ht
  have hp : w.pos = addR v.pos v.tangent.1 := by rw [ht, e, e']; simp [addR]
  refine ⟨geo, h, v, hv, w, hw, hp, ?_⟩
  obtain ⟨a, b, h1, h2, h3⟩ := C74_axis_aligned_rotated _ _ _ _ _ h ⟨64, 64⟩ htx 0 0 rfl
    (by rw [raw_std]; exact .inr (.inr ⟨rfl, rfl⟩)) v w hv hw 1 (by rw [hp]; simp [addR, smulR])
  refine ⟨a, b, h1, h2, ?_⟩
  have e2 : 2 * ((std 90).rotation * Real.pi / 180) = Real.pi := by unfold std; ring
  rw [h3, e2, Real.cos_pi]
  unfold std xp face
  norm_num

end Quarch
