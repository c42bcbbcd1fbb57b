import Verif.Props.RealMove
import Verif.Props.RealWind
import Verif.Spec.Tree
import Mathlib.Tactic.FinCases
/-
The unit cube: concrete cases for the theorems about exact arithmetic.
-/
set_option linter.unusedSectionVars false
namespace Quarch.Cube
open Spec Geo

section
variable [RealText] [Platform]

/-- The real numbers add without rounding, so C48 applies to them. -/
instance : ExactAdd ℝ := ⟨fun a => zero_add a, fun a b => add_neg_cancel_left a b⟩

/-- A face through three points, Valve texture axes along `y` and `z`. -/
noncomputable def face (v0 v1 v2 : V3 ℝ) : BrushPlane ℝ :=
  ⟨v0, v1, v2, str! "brick", .valve ⟨0, 1, 0⟩ 0 ⟨0, 0, 1⟩ 0, 0, ⟨1 / 64, 1 / 64⟩, .none⟩

noncomputable def xp : BrushPlane ℝ := face ⟨1, 0, 0⟩ ⟨1, 0, 1⟩ ⟨1, 1, 0⟩
noncomputable def xn : BrushPlane ℝ := face ⟨0, 0, 0⟩ ⟨0, 1, 0⟩ ⟨0, 0, 1⟩
noncomputable def yp : BrushPlane ℝ := face ⟨0, 1, 0⟩ ⟨1, 1, 0⟩ ⟨0, 1, 1⟩
noncomputable def yn : BrushPlane ℝ := face ⟨0, 0, 0⟩ ⟨0, 0, 1⟩ ⟨1, 0, 0⟩
noncomputable def zp : BrushPlane ℝ := face ⟨0, 0, 1⟩ ⟨0, 1, 1⟩ ⟨1, 0, 1⟩
noncomputable def zn : BrushPlane ℝ := face ⟨0, 0, 0⟩ ⟨1, 0, 0⟩ ⟨0, 1, 0⟩

/-- The six faces of the unit cube. -/
noncomputable def planes : List (BrushPlane ℝ) := [xp, xn, yp, yn, zp, zn]

theorem raw_xp : rawNormal xp = ⟨1, 0, 0⟩ := by simp [rawNormal, xp, face, crossR, subR]
theorem raw_xn : rawNormal xn = ⟨-1, 0, 0⟩ := by simp [rawNormal, xn, face, crossR, subR]
theorem raw_yp : rawNormal yp = ⟨0, 1, 0⟩ := by simp [rawNormal, yp, face, crossR, subR]
theorem raw_yn : rawNormal yn = ⟨0, -1, 0⟩ := by simp [rawNormal, yn, face, crossR, subR]
theorem raw_zp : rawNormal zp = ⟨0, 0, 1⟩ := by simp [rawNormal, zp, face, crossR, subR]
theorem raw_zn : rawNormal zn = ⟨0, 0, -1⟩ := by simp [rawNormal, zn, face, crossR, subR]

theorem on_xp (x : V3 ℝ) : OnPlane xp x ↔ x.x = 1 := by
  unfold OnPlane; rw [raw_xp]; simp [xp, face, dotR, subR, sub_eq_zero]
theorem on_xn (x : V3 ℝ) : OnPlane xn x ↔ x.x = 0 := by
  unfold OnPlane; rw [raw_xn]; simp [xn, face, dotR, subR]
theorem on_yp (x : V3 ℝ) : OnPlane yp x ↔ x.y = 1 := by
  unfold OnPlane; rw [raw_yp]; simp [yp, face, dotR, subR, sub_eq_zero]
theorem on_yn (x : V3 ℝ) : OnPlane yn x ↔ x.y = 0 := by
  unfold OnPlane; rw [raw_yn]; simp [yn, face, dotR, subR]
theorem on_zp (x : V3 ℝ) : OnPlane zp x ↔ x.z = 1 := by
  unfold OnPlane; rw [raw_zp]; simp [zp, face, dotR, subR, sub_eq_zero]
theorem on_zn (x : V3 ℝ) : OnPlane zn x ↔ x.z = 0 := by
  unfold OnPlane; rw [raw_zn]; simp [zn, face, dotR, subR]

theorem in_xp (r : ℝ) (x : V3 ℝ) : WithinR r xp x ↔ x.x - 1 ≤ r := by
  unfold WithinR; rw [raw_xp]; simp [xp, face, dotR, subR, lenR]
theorem in_xn (r : ℝ) (x : V3 ℝ) : WithinR r xn x ↔ -x.x ≤ r := by
  unfold WithinR; rw [raw_xn]; simp [xn, face, dotR, subR, lenR]
theorem in_yp (r : ℝ) (x : V3 ℝ) : WithinR r yp x ↔ x.y - 1 ≤ r := by
  unfold WithinR; rw [raw_yp]; simp [yp, face, dotR, subR, lenR]
theorem in_yn (r : ℝ) (x : V3 ℝ) : WithinR r yn x ↔ -x.y ≤ r := by
  unfold WithinR; rw [raw_yn]; simp [yn, face, dotR, subR, lenR]
theorem in_zp (r : ℝ) (x : V3 ℝ) : WithinR r zp x ↔ x.z - 1 ≤ r := by
  unfold WithinR; rw [raw_zp]; simp [zp, face, dotR, subR, lenR]
theorem in_zn (r : ℝ) (x : V3 ℝ) : WithinR r zn x ↔ -x.z ≤ r := by
  unfold WithinR; rw [raw_zn]; simp [zn, face, dotR, subR, lenR]

/-- Inside the cube up to `r`. -/
theorem inside (r : ℝ) (x : V3 ℝ) : (∀ p ∈ planes, WithinR r p x) ↔
    (x.x - 1 ≤ r ∧ -x.x ≤ r ∧ x.y - 1 ≤ r ∧ -x.y ≤ r ∧ x.z - 1 ≤ r ∧ -x.z ≤ r) := by
  unfold planes
  simp only [List.mem_cons, List.not_mem_nil, or_false, forall_eq_or_imp, forall_eq, in_xp, in_xn, in_yp, in_yn,
    in_zp, in_zn]

theorem det_xyz : unitDet xp yp zp = 1 := by
  unfold unitDet; rw [raw_xp, raw_yp, raw_zp]; simp [detR, dotR, crossR, lenR]

/-- C22: the corner (1, 1, 1) is a corner of three faces, in whatever order the six planes are written. -/
example (textures : TextureInfo) (entity : Entity ℝ) (planes' : List (BrushPlane ℝ)) (hp : planes.Perm planes') :
    ∀ q ∈ [xp, zp, yp], ∃ geo, buildPlane textures entity planes' q = .ok geo ∧
      (⟨1, 1, 1⟩ : V3 ℝ) ∈ geo.vertices.map (·.pos) := by
  refine C22_corner_of_all_three textures entity planes planes' hp xp zp yp (by simp [planes]) (by simp [planes])
    (by simp [planes]) ⟨1, 1, 1⟩ ?_ ((on_xp _).2 rfl) ((on_zp _).2 rfl) ((on_yp _).2 rfl) ?_
  · rw [unitDet_swap, det_xyz]; norm_num
  · rw [inside]; norm_num

/-- The corners of the face `x = 1`. -/
theorem corners (textures : TextureInfo) (entity : Entity ℝ) (geo : PlaneGeo ℝ)
    (h : buildPlane textures entity planes xp = .ok geo) (x : V3 ℝ) :
    x ∈ geo.vertices.map (·.pos) ↔ x.x = 1 ∧ (x.y = 0 ∨ x.y = 1) ∧ (x.z = 0 ∨ x.z = 1) := by
  rw [(C20_exact_corners _ _ _ _ _ h).2 x, inside]
  constructor
  · rintro ⟨⟨p1, h1, p2, h2, hd, hx, o1, o2⟩, _⟩
    rw [on_xp] at hx
    refine ⟨hx, ?_⟩
    simp only [planes, List.mem_cons, List.not_mem_nil, or_false] at h1 h2
    unfold unitDet at hd
    rcases h1 with rfl | rfl | rfl | rfl | rfl | rfl <;> rcases h2 with rfl | rfl | rfl | rfl | rfl | rfl <;>
      simp only [on_xp, on_xn, on_yp, on_yn, on_zp, on_zn] at o1 o2 <;>
      simp only [raw_xp, raw_xn, raw_yp, raw_yn, raw_zp, raw_zn, detR, dotR, crossR, lenR] at hd <;>
      first
        | (exfalso; norm_num at hd; done)
        | simp [o1, o2]
  · rintro ⟨hx, hy, hz⟩
    refine ⟨?_, by rcases hy with hy | hy <;> rcases hz with hz | hz <;> rw [hx, hy, hz] <;> norm_num⟩
    rcases hy with hy | hy <;> rcases hz with hz | hz
    · refine ⟨yn, by simp [planes], zn, by simp [planes], ?_, (on_xp x).2 hx, (on_yn x).2 hy, (on_zn x).2 hz⟩
      unfold unitDet; rw [raw_xp, raw_yn, raw_zn]; simp [detR, dotR, crossR, lenR]; norm_num
    · refine ⟨zp, by simp [planes], yn, by simp [planes], ?_, (on_xp x).2 hx, (on_zp x).2 hz, (on_yn x).2 hy⟩
      unfold unitDet; rw [raw_xp, raw_yn, raw_zp]; simp [detR, dotR, crossR, lenR]; norm_num
    · refine ⟨zn, by simp [planes], yp, by simp [planes], ?_, (on_xp x).2 hx, (on_zn x).2 hz, (on_yp x).2 hy⟩
      unfold unitDet; rw [raw_xp, raw_yp, raw_zn]; simp [detR, dotR, crossR, lenR]; norm_num
    · refine ⟨yp, by simp [planes], zp, by simp [planes], ?_, (on_xp x).2 hx, (on_yp x).2 hy, (on_zp x).2 hz⟩
      rw [det_xyz]; norm_num

/-- The face has four corners. -/
theorem four (textures : TextureInfo) (entity : Entity ℝ) (geo : PlaneGeo ℝ)
    (h : buildPlane textures entity planes xp = .ok geo) : geo.vertices.length = 4 := by
  have hn := (C20_exact_corners _ _ _ _ _ h).1
  have hp : (geo.vertices.map (·.pos)).Perm [⟨1, 0, 0⟩, ⟨1, 0, 1⟩, ⟨1, 1, 0⟩, ⟨1, 1, 1⟩] := by
    refine (List.perm_ext_iff_of_nodup hn (by simp)).2 fun x => ?_
    rw [corners _ _ _ h]
    obtain ⟨a, b, c⟩ := x
    simp only [List.mem_cons, V3.mk.injEq, List.not_mem_nil, or_false]
    tauto
  simpa using hp.length_eq

/-- C21: the face has corners, and what C21 says about one of them. -/
example (textures : TextureInfo) (entity : Entity ℝ) :
    ∃ geo, buildPlane textures entity planes xp = .ok geo ∧ ∃ v ∈ geo.vertices, v.pos = ⟨1, 1, 0⟩ ∧
      OnPlane xp v.pos ∧ ∀ p ∈ planes, WithinR (1 / 1000) p v.pos := by
  obtain ⟨geo, h⟩ := buildPlane_real textures entity planes xp
  obtain ⟨v, hv, e⟩ := List.mem_map.1 ((corners _ _ _ h ⟨1, 1, 0⟩).2 (by norm_num))
  have := C21_corners_on_face_inside_brush _ _ _ _ _ h v hv
  exact ⟨geo, h, v, hv, e, this.1, this.2.2⟩

/-- C25: the corners are in convex position. -/
theorem convex (textures : TextureInfo) (entity : Entity ℝ) (geo : PlaneGeo ℝ)
    (h : buildPlane textures entity planes xp = .ok geo) : ConvexPosition (geo.vertices.map (·.pos)) := by
  refine C25_exact_corners_convex _ _ _ _ _ h fun v hv => ?_
  rw [inside]
  obtain ⟨h1, h2, h3⟩ := (corners _ _ _ h v.pos).1 (List.mem_map_of_mem hv)
  rcases h2 with h2 | h2 <;> rcases h3 with h3 | h3 <;> rw [h1, h2, h3] <;> norm_num

/-- C25: both triangles of the face turn the same way. -/
example (textures : TextureInfo) (entity : Entity ℝ) :
    ∃ geo, ∃ _ : buildPlane textures entity planes xp = .ok geo, ∃ hl : geo.vertices.length = 4,
      turn (rawNormal xp) geo.vertices[0].pos geo.vertices[1].pos geo.vertices[2].pos < 0 ∧
      turn (rawNormal xp) geo.vertices[0].pos geo.vertices[2].pos geo.vertices[3].pos < 0 := by
  obtain ⟨geo, h⟩ := buildPlane_real textures entity planes xp
  have hl := four _ _ _ h
  have hc := convex _ _ _ h
  exact ⟨geo, h, hl, C25_all_triples_clockwise _ _ _ _ _ h hc 0 1 2 (by omega) (by omega) (by omega),
    C25_all_triples_clockwise _ _ _ _ _ h hc 0 2 3 (by omega) (by omega) (by omega)⟩

/-- C26: the centre of the face is its middle. -/
example (textures : TextureInfo) (entity : Entity ℝ) (geo : PlaneGeo ℝ)
    (h : buildPlane textures entity planes xp = .ok geo) : geo.center = ⟨1, 1 / 2, 1 / 2⟩ := by
  have hn := (C20_exact_corners _ _ _ _ _ h).1
  have hp : (geo.vertices.map (·.pos)).Perm [⟨1, 0, 0⟩, ⟨1, 0, 1⟩, ⟨1, 1, 0⟩, ⟨1, 1, 1⟩] := by
    refine (List.perm_ext_iff_of_nodup hn (by simp)).2 fun x => ?_
    rw [corners _ _ _ h]
    obtain ⟨a, b, c⟩ := x
    simp only [List.mem_cons, V3.mk.injEq, List.not_mem_nil, or_false]
    tauto
  refine isMean_unique (isMean_perm hp (C26_face_center _ _ _ _ _ h)) ⟨?_, ?_, by simp⟩
  · simp [smulR, sumR]; norm_num
  · simp [sumR, subR, zeroR]; norm_num

/-- C28: the moved face has a corner at (11, 1, 1). -/
example (textures : TextureInfo) (entity : Entity ℝ) :
    ∃ geo', buildPlane textures entity (planes.map (movePlane ⟨10, 0, 0⟩)) (movePlane ⟨10, 0, 0⟩ xp) = .ok geo' ∧
      ∃ v ∈ geo'.vertices, v.pos = ⟨11, 1, 1⟩ := by
  obtain ⟨geo, h⟩ := buildPlane_real textures entity planes xp
  obtain ⟨geo', h'⟩ := buildPlane_real textures entity (planes.map (movePlane ⟨10, 0, 0⟩)) (movePlane ⟨10, 0, 0⟩ xp)
  obtain ⟨v, hv, e⟩ := List.mem_map.1 ((corners _ _ _ h ⟨1, 1, 1⟩).2 (by norm_num))
  have hm := (C28_translation _ _ _ _ _ _ _ h h').mem_iff.2 (List.mem_map_of_mem hv)
  obtain ⟨v', hv', e'⟩ := List.mem_map.1 hm
  refine ⟨geo', h', v', hv', ?_⟩
  injection e' with e1 _
  rw [e1, e]
  simp [addR]
  norm_num

/-- C29: all corners of the flat face have the normal (1, 0, 0). -/
example (textures : TextureInfo) (geo : PlaneGeo ℝ)
    (h : buildPlane textures Entity.new planes xp = .ok geo) (v : Vertex ℝ) (hv : v ∈ geo.vertices) :
    v.normal = ⟨1, 0, 0⟩ := by
  rw [(C29_flat _ _ _ _ _ h (by simp [Entity.new, Entity.getProperty, Map.empty, Map.get?]) v hv).1, raw_xp]
  simp [unitR, smulR, lenR, dotR]

/-- C29: an entity with smoothing and unparsable angle. -/
example (textures : TextureInfo) (entity : Entity ℝ) (hp : entity.properties (str! "_phong") = some (str! "1"))
    (ha : entity.properties (str! "_phong_angle") = none) :
    ∃ geo, buildPlane textures entity planes xp = .ok geo ∧ ∃ v ∈ geo.vertices, v.pos = ⟨1, 1, 1⟩ ∧
      v.normal = unitR ⟨1, 1, 1⟩ := by
  obtain ⟨geo, h⟩ := buildPlane_real textures entity planes xp
  obtain ⟨v, hv, e⟩ := List.mem_map.1 ((corners _ _ _ h ⟨1, 1, 1⟩).2 (by norm_num))
  refine ⟨geo, h, v, hv, e, ?_⟩
  obtain ⟨p1, h1, p2, h2, hd, o1, o2, hn, _⟩ := C29_phong _ _ _ _ _ h hp v hv
  have hpa : phongAngle entity = none := by unfold phongAngle; rw [ha]; rfl
  rw [hpa] at hn
  rw [hn, e] at *
  simp only [planes, List.mem_cons, List.not_mem_nil, or_false] at h1 h2
  congr 1
  rcases h1 with rfl | rfl | rfl | rfl | rfl | rfl <;> rcases h2 with rfl | rfl | rfl | rfl | rfl | rfl <;>
    simp only [on_xp, on_xn, on_yp, on_yn, on_zp, on_zn] at o1 o2 <;>
    simp only [raw_xp, raw_xn, raw_yp, raw_yn, raw_zp, raw_zn, detR, dotR, crossR] at hd <;>
    first
      | (exfalso; norm_num at hd; done)
      | (exfalso; norm_num at o1; done)
      | (exfalso; norm_num at o2; done)
      | (simp [raw_xp, raw_yp, raw_zp, smoothed, unitR, smulR, lenR, dotR, sumR])

/-- C30: along the edge from (1, 0, 0) to (1, 1, 0) a 64 pixel texture at scale 1/64 advances by one tile. -/
example (textures : TextureInfo) (htx : textures (str! "brick") = some ⟨64, 64⟩) (entity : Entity ℝ) :
    ∃ geo, buildPlane textures entity planes xp = .ok geo ∧ ∃ v ∈ geo.vertices, ∃ w ∈ geo.vertices,
      v.pos = ⟨1, 0, 0⟩ ∧ w.pos = ⟨1, 1, 0⟩ ∧ ∃ a b, v.uv = some ⟨a, b⟩ ∧ w.uv = some ⟨a + 1, b⟩ := by
  obtain ⟨geo, h⟩ := buildPlane_real textures entity planes xp
  obtain ⟨v, hv, e⟩ := List.mem_map.1 ((corners _ _ _ h ⟨1, 0, 0⟩).2 (by norm_num))
  obtain ⟨w, hw, e'⟩ := List.mem_map.1 ((corners _ _ _ h ⟨1, 1, 0⟩).2 (by norm_num))
  refine ⟨geo, h, v, hv, w, hw, e, e', ?_⟩
  refine C30_valve_tile _ _ _ _ _ _ _ _ _ h h rfl rfl rfl ⟨64, 64⟩ htx ⟨0, 1, 0⟩ ⟨0, 0, 1⟩ 0 0 rfl ?_ ?_ ?_ ?_ v w hv
    hw 1 ?_
  · simp [lenR, dotR]
  · simp [dotR]
  · decide
  · simp [xp, face]
  · rw [e, e']
    simp [addR, smulR, xp, face]

/-- C30, standard layout: the same face with offset (3, 4) and turned by 90 degrees. -/
example (textures : TextureInfo) (htx : textures (str! "brick") = some ⟨64, 64⟩) (entity : Entity ℝ) :
    ∃ geo, buildPlane textures entity planes { xp with uv := .quake 3 4, rotation := 90 } = .ok geo ∧
      ∃ v ∈ geo.vertices, v.pos = ⟨1, 1, 0⟩ ∧ v.uv = some ⟨3 / 64, 1 + 4 / 64⟩ := by
  obtain ⟨geo0, h0⟩ := buildPlane_real textures entity planes xp
  have h1 := (C20_exact_corners _ _ _ _ _ h0).2 ⟨1, 1, 0⟩ |>.1 ((corners _ _ _ h0 _).2 (by norm_num))
  obtain ⟨geo, h⟩ := buildPlane_real textures entity planes { xp with uv := .quake 3 4, rotation := 90 }
  obtain ⟨v, hv, e⟩ := List.mem_map.1 (((C20_exact_corners _ _ _ _ _ h).2 ⟨1, 1, 0⟩).2 h1)
  refine ⟨geo, h, v, hv, e, ?_⟩
  obtain ⟨a, b, hp, hu⟩ := C30_standard _ _ _ _ _ h ⟨64, 64⟩ htx 3 4 rfl v hv
  have hpr : Projected (rawNormal xp) ⟨1, 1, 0⟩ 1 0 := by
    rw [raw_xp]
    exact .inr (.inr (by norm_num))
  rw [e] at hp
  obtain ⟨rfl, rfl⟩ := spec_C30_projected_unique _ _ _ _ _ _ hp hpr
  rw [hu]
  have hr : (90 : ℝ) * Real.pi / 180 = Real.pi / 2 := by ring
  simp only [hr, Real.cos_pi_div_two, Real.sin_pi_div_two]
  norm_num [xp, face]

/-- C29: perpendicular normals are smoothed at 91 degrees and not at 89. -/
example : (⟨0, 1, 0⟩ : V3 ℝ) ∈ smoothed (some 91) ⟨1, 0, 0⟩ [⟨0, 1, 0⟩] ∧
    (⟨0, 1, 0⟩ : V3 ℝ) ∉ smoothed (some 89) ⟨1, 0, 0⟩ [⟨0, 1, 0⟩] := by
  have h1 := Real.pi_lt_d2
  have h2 := Real.pi_gt_d2
  rw [spec_C29_angle 91 (by norm_num) (by norm_num) _ _ (by simp [lenR, dotR]) (by simp [lenR, dotR]),
    spec_C29_angle 89 (by norm_num) (by norm_num) _ _ (by simp [lenR, dotR]) (by simp [lenR, dotR])]
  simp only [dotR]
  norm_num
  constructor <;> linarith

end
end Quarch.Cube
