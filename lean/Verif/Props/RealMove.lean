import Verif.Props.Real
/-
C28: translating a brush, in exact arithmetic.
-/
set_option linter.unusedSectionVars false
namespace Quarch
open Spec Geo

section
variable [RealText]

/-! ### C28 -/

theorem rawNormal_move (t : V3 ℝ) (p : BrushPlane ℝ) : rawNormal (movePlane t p) = rawNormal p := by
  simp only [rawNormal, movePlane, crossR, subR, addR]
  congr 1 <;> ring

theorem normal_move (t : V3 ℝ) (p : BrushPlane ℝ) : (movePlane t p).normal = p.normal := by
  show Arith.normalize (rawNormal (movePlane t p)) = Arith.normalize (rawNormal p)
  rw [rawNormal_move]

theorem onPlane_move (t : V3 ℝ) (p : BrushPlane ℝ) (x : V3 ℝ) :
    OnPlane (movePlane t p) (addR x t) ↔ OnPlane p x := by
  unfold OnPlane
  rw [rawNormal_move]
  simp [movePlane, subR, addR]

theorem withinR_move (r : ℝ) (t : V3 ℝ) (p : BrushPlane ℝ) (x : V3 ℝ) :
    WithinR r (movePlane t p) (addR x t) ↔ WithinR r p x := by
  unfold WithinR
  rw [rawNormal_move]
  simp [movePlane, subR, addR]

theorem unitDet_move (t : V3 ℝ) (p q r : BrushPlane ℝ) :
    unitDet (movePlane t p) (movePlane t q) (movePlane t r) = unitDet p q r := by
  unfold unitDet
  simp only [rawNormal_move]

theorem addR_subR (x t : V3 ℝ) : addR (subR x t) t = x := by simp [addR, subR]

theorem intersect_move (t : V3 ℝ) (p0 p1 p2 : BrushPlane ℝ) :
    intersect (movePlane t p0) (movePlane t p1) (movePlane t p2) = (intersect p0 p1 p2).map (addR · t) := by
  apply Option.ext
  intro x
  rw [intersect_eq_some, Option.map_eq_some_iff]
  simp only [intersect_eq_some, meet_real, unitDet_move]
  constructor
  · rintro ⟨h, h0, h1, h2⟩
    rw [← addR_subR x t, onPlane_move] at h0 h1 h2
    exact ⟨subR x t, ⟨h, h0, h1, h2⟩, addR_subR x t⟩
  · rintro ⟨a, ⟨h, h0, h1, h2⟩, rfl⟩
    exact ⟨h, (onPlane_move _ _ _).2 h0, (onPlane_move _ _ _).2 h1, (onPlane_move _ _ _).2 h2⟩

theorem inHull_move (t : V3 ℝ) (x : V3 ℝ) (planes : List (BrushPlane ℝ)) :
    inHull (addR x t) (planes.map (movePlane t)) = inHull x planes := by
  rw [Bool.eq_iff_iff, inHull_iff, inHull_iff]
  simp only [List.mem_map, forall_exists_index, and_imp, forall_apply_eq_imp_iff₂, behind_real, withinR_move]

/-- The texture coordinates of the moved vertex. -/
noncomputable def movedUV (texture : Option Texture) (plane : BrushPlane ℝ) (t x : V3 ℝ) : Option (V2 ℝ) :=
  texture.bind fun tx => match vertexUV (addR x t) (movePlane t plane) tx with
    | .ok uv => some uv
    | _ => none

/-- Moving a vertex of a face. -/
noncomputable def moveVertex (texture : Option Texture) (plane : BrushPlane ℝ) (t : V3 ℝ) (v : Vertex ℝ) :
    Vertex ℝ :=
  { v with pos := addR v.pos t, uv := movedUV texture plane t v.pos }

theorem vertexTangent_move (t : V3 ℝ) (p : BrushPlane ℝ) : vertexTangent (movePlane t p) = vertexTangent p := by
  have h : (movePlane t p).uv = p.uv := rfl
  unfold vertexTangent
  rw [h]
  split
  · unfold standardTangent
    rw [normal_move]
    rfl
  · rw [normal_move]

theorem vertexNormal_move (entity : Entity ℝ) (t : V3 ℝ) (p0 p1 p2 : BrushPlane ℝ) :
    vertexNormal entity (movePlane t p0) (movePlane t p1) (movePlane t p2) = vertexNormal entity p0 p1 p2 := by
  unfold vertexNormal phongNormal
  simp only [normal_move]

theorem buildPlaneVertex_move (texture : Option Texture) (entity : Entity ℝ) (planes : List (BrushPlane ℝ))
    (plane p1 p2 : BrushPlane ℝ) (t : V3 ℝ) (ov : Option (Vertex ℝ))
    (h : buildPlaneVertex texture entity planes plane p1 p2 = .ok ov) :
    buildPlaneVertex texture entity (planes.map (movePlane t)) (movePlane t plane) (movePlane t p1)
      (movePlane t p2) = .ok (ov.map (moveVertex texture plane t)) := by
  unfold buildPlaneVertex at h ⊢
  rw [intersect_move]
  cases hi : intersect plane p1 p2 with
  | none => rw [hi] at h; cases h; rfl
  | some x =>
    rw [hi] at h
    simp only [Option.map_some, inHull_move] at h ⊢
    split at h
    · rw [if_pos ‹_›]
      obtain ⟨tan, ht, h⟩ := Outcome.bind_eq_ok.1 h
      rw [vertexTangent_move, ht, Outcome.ok_bind]
      cases texture with
      | none =>
        simp only [Outcome.ok_bind] at h ⊢
        cases h
        rw [vertexNormal_move]
        rfl
      | some tx =>
        simp only at h ⊢
        obtain ⟨ouv, hu, h⟩ := Outcome.bind_eq_ok.1 h
        cases h
        obtain ⟨uv, hu⟩ := vertexUV_real (addR x t) (movePlane t plane) tx
        rw [hu]
        simp only [Outcome.ok_bind, vertexNormal_move]
        simp only [Option.map_some, moveVertex, movedUV, Option.bind_some, hu]
        rfl
    · rw [if_neg ‹_›]
      cases h; rfl

theorem planeVertices_move (texture : Option Texture) (entity : Entity ℝ) (planes : List (BrushPlane ℝ))
    (plane : BrushPlane ℝ) (t : V3 ℝ) (pvs : List (Vertex ℝ))
    (h : planeVertices texture entity planes plane = .ok pvs) :
    planeVertices texture entity (planes.map (movePlane t)) (movePlane t plane) =
      .ok (pvs.map (moveVertex texture plane t)) := by
  unfold planeVertices at h ⊢
  obtain ⟨vss, h1, h2⟩ := Outcome.bind_eq_ok.1 h
  cases h2
  rw [mapOut_map]
  have : mapOut (fun p1 => (mapOut (fun p2 => buildPlaneVertex texture entity (planes.map (movePlane t))
      (movePlane t plane) (movePlane t p1) p2) (planes.map (movePlane t))).bind fun vs =>
        .ok (vs.filterMap id)) planes = .ok (vss.map (·.map (moveVertex texture plane t))) := by
    refine mapOut_eq_ok.2 ?_
    rw [List.forall₂_map_right_iff]
    refine (mapOut_eq_ok.1 h1).imp ?_
    intro p1 vs hvs
    obtain ⟨ovs, e2, e3⟩ := Outcome.bind_eq_ok.1 hvs
    cases e3
    rw [mapOut_map]
    have : mapOut (fun p2 => buildPlaneVertex texture entity (planes.map (movePlane t))
      (movePlane t plane) (movePlane t p1) (movePlane t p2)) planes =
        .ok (ovs.map (·.map (moveVertex texture plane t))) := by
      refine mapOut_eq_ok.2 ?_
      rw [List.forall₂_map_right_iff]
      refine (mapOut_eq_ok.1 e2).imp ?_
      intro p2 ov hov
      exact buildPlaneVertex_move _ _ _ _ _ _ _ _ hov
    rw [this, Outcome.ok_bind]
    congr 1
    rw [List.filterMap_map, List.map_filterMap]
    rfl
  rw [this, Outcome.ok_bind, List.map_flatten]

theorem addR_inj {a b t : V3 ℝ} : addR a t = addR b t ↔ a = b := by
  constructor
  · intro h
    simp only [addR] at h
    injection h with h1 h2 h3
    exact V3.ext' (by linarith) (by linarith) (by linarith)
  · rintro rfl; rfl

theorem uniqueVertices_move (phong : Bool) (texture : Option Texture) (plane : BrushPlane ℝ) (t : V3 ℝ)
    (l : List (Vertex ℝ)) : uniqueVertices phong (l.map (moveVertex texture plane t)) =
      (uniqueVertices phong l).map (moveVertex texture plane t) := by
  induction l with
  | nil => rfl
  | cons v l ih =>
    rw [List.map_cons, uniqueVertices, uniqueVertices, ih, uniqueVertex_eq, uniqueVertex_eq, List.map_append]
    congr 1
    have hb : ∀ a b : Vertex ℝ, V3.beq (moveVertex texture plane t a).pos (moveVertex texture plane t b).pos =
        V3.beq a.pos b.pos := by
      intro a b
      rw [Bool.eq_iff_iff, v3_beq, v3_beq]
      exact addR_inj
    have : (l.map (moveVertex texture plane t)).any
        (fun c => V3.beq c.pos (moveVertex texture plane t v).pos) = l.any fun c => V3.beq c.pos v.pos := by
      rw [List.any_map]
      congr 1
      funext c
      exact hb c v
    rw [this]
    split
    · rfl
    · simp only [Option.toList_some, List.map_cons, List.map_nil, List.cons.injEq, and_true]
      unfold finishNormal
      split <;> rfl

variable [Platform]

/-- C28: moving all planes of a brush by `t` moves every corner of every face by `t` and keeps normals,
tangents and colours: corner for corner (in some order). -/
theorem C28_translation (textures : TextureInfo) (entity : Entity ℝ) (planes : List (BrushPlane ℝ))
    (plane : BrushPlane ℝ) (t : V3 ℝ) (geo geo' : PlaneGeo ℝ)
    (h : buildPlane textures entity planes plane = .ok geo)
    (h' : buildPlane textures entity (planes.map (movePlane t)) (movePlane t plane) = .ok geo') :
    (geo'.vertices.map fun v => (v.pos, v.normal, v.tangent, v.color)).Perm
      (geo.vertices.map fun v => (addR v.pos t, v.normal, v.tangent, v.color)) := by
  obtain ⟨pvs, h1, _, h3⟩ := buildPlane_perm h
  obtain ⟨pvs', h1', _, h3'⟩ := buildPlane_perm h'
  have hm := planeVertices_move _ _ _ _ t _ h1
  have ht : (movePlane t plane).texture = plane.texture := rfl
  rw [ht, hm] at h1'
  obtain rfl := Outcome.ok.inj h1'
  rw [uniqueVertices_move, List.map_map] at h3'
  have e1 := h3'.map (fun v : Vertex ℝ => (v.pos, v.normal, v.tangent, v.color))
  have e2 := h3.map (fun v : Vertex ℝ => (addR v.pos t, v.normal, v.tangent, v.color))
  rw [List.map_map] at e1 e2
  refine e1.trans (List.Perm.trans (List.Perm.of_eq ?_) e2.symm)
  refine List.map_congr_left fun v _ => ?_
  simp only [Function.comp, recentre_real, moveVertex]

theorem sumR_add (l : List (V3 ℝ)) (t : V3 ℝ) : sumR (l.map (addR · t)) = addR (sumR l) (smulR l.length t) := by
  induction l with
  | nil => simp [sumR, addR, smulR]
  | cons x xs ih =>
    simp only [sumR, addR, smulR, List.map_cons, List.sum_cons, List.length_cons, List.map_map] at ih ⊢
    injection ih with i1 i2 i3
    push_cast
    apply V3.ext'
    · simp only []; rw [i1]; ring
    · simp only []; rw [i2]; ring
    · simp only []; rw [i3]; ring

/-- C28: the centre of a face with corners moves along. -/
theorem C28_center (textures : TextureInfo) (entity : Entity ℝ) (planes : List (BrushPlane ℝ))
    (plane : BrushPlane ℝ) (t : V3 ℝ) (geo geo' : PlaneGeo ℝ)
    (h : buildPlane textures entity planes plane = .ok geo)
    (h' : buildPlane textures entity (planes.map (movePlane t)) (movePlane t plane) = .ok geo')
    (hne : geo.vertices ≠ []) : geo'.center = addR geo.center t := by
  have hp := (C28_translation _ _ _ _ _ _ _ h h').map Prod.fst
  rw [List.map_map, List.map_map] at hp
  have m := C26_face_center _ _ _ _ _ h
  have m' := isMean_perm hp (C26_face_center _ _ _ _ _ h')
  refine isMean_unique m' ?_
  have hl : geo.vertices.map (Prod.fst ∘ fun v : Vertex ℝ => (addR v.pos t, v.normal, v.tangent, v.color)) =
      (geo.vertices.map (·.pos)).map (addR · t) := by rw [List.map_map]; rfl
  rw [hl]
  obtain ⟨m1, m2, _⟩ := m
  refine ⟨?_, ?_, fun e => absurd e (by simpa using hne)⟩
  · rw [sumR_add, ← m1]
    simp only [smulR, addR, List.length_map]
    apply V3.ext' <;> simp only [] <;> ring
  · rw [List.map_map]
    have : (fun x => subR x (addR geo.center t)) ∘ (addR · t) = fun x => subR x geo.center := by
      funext x
      simp [subR, addR]
    rw [this]
    exact m2

/-- C28: the fan of triangles has the same size. -/
theorem C28_indices (textures : TextureInfo) (entity : Entity ℝ) (planes : List (BrushPlane ℝ))
    (plane : BrushPlane ℝ) (t : V3 ℝ) (geo geo' : PlaneGeo ℝ)
    (h : buildPlane textures entity planes plane = .ok geo)
    (h' : buildPlane textures entity (planes.map (movePlane t)) (movePlane t plane) = .ok geo') :
    geo'.indices = geo.indices ∧ geo'.texture = geo.texture := by
  have hl := (C28_translation _ _ _ _ _ _ _ h h').length_eq
  simp only [List.length_map] at hl
  obtain ⟨_, _, _, _, _, _, e1, e2⟩ := buildPlane_ok h
  obtain ⟨_, _, _, _, _, _, e3, e4⟩ := buildPlane_ok h'
  exact ⟨by rw [e1, e3, hl], by rw [e2, e4]; rfl⟩

end
end Quarch
