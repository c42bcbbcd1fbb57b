import Verif.Proofs.Geo
import Verif.Spec.Instances
/-
C19, C20, C23, C24, C27, C31: geometry of faces for every arithmetic.
-/
set_option linter.unusedSectionVars false
namespace Quarch
open Spec Geo

section
variable {F : Type} [Arith F] [Platform]

/-- C19: the triangles of a face are the fan over its corners. -/
theorem C19_fan (textures : TextureInfo) (entity : Entity F) (planes : List (BrushPlane F))
    (plane : BrushPlane F) (geo : PlaneGeo F) (h : buildPlane textures entity planes plane = .ok geo) :
    IsFan geo.vertices.length geo.indices := by
  obtain ⟨_, _, _, _, _, _, h5, _⟩ := buildPlane_ok h
  rw [h5]
  exact fanIndices_isFan _

omit [Arith F] [Platform] in
theorem isFan_mem {n : Nat} {idx : List Nat} (h : IsFan n idx) {i : Nat} (hi : i ∈ idx) :
    ∃ t, t < n - 2 ∧ (i = 0 ∨ i = t + 1 ∨ i = t + 2) := by
  obtain ⟨k, hk, e⟩ := List.getElem_of_mem hi
  have hk' : k < 3 * (n - 2) := h.1 ▸ hk
  obtain ⟨e1, e2, e3⟩ := h.2 (k / 3) (by omega)
  refine ⟨k / 3, by omega, ?_⟩
  have hg : idx[k]? = some i := by rw [List.getElem?_eq_getElem hk, e]
  rcases (show k = 3 * (k / 3) ∨ k = 3 * (k / 3) + 1 ∨ k = 3 * (k / 3) + 2 by omega) with hc | hc | hc
  · rw [← hc, hg] at e1; injection e1 with e1; exact .inl e1
  · rw [← hc, hg] at e2; injection e2 with e2; exact .inr (.inl e2)
  · rw [← hc, hg] at e3; injection e3 with e3; exact .inr (.inr e3)

/-- C19: all indices are valid and, from three corners on, every corner is used. -/
theorem C19_indices_valid_all_used (textures : TextureInfo) (entity : Entity F)
    (planes : List (BrushPlane F)) (plane : BrushPlane F) (geo : PlaneGeo F)
    (h : buildPlane textures entity planes plane = .ok geo) :
    (∀ i ∈ geo.indices, i < geo.vertices.length) ∧
    (3 ≤ geo.vertices.length → ∀ i < geo.vertices.length, i ∈ geo.indices) ∧
    (geo.vertices.length < 3 → geo.indices = []) := by
  have hf := C19_fan textures entity planes plane geo h
  refine ⟨?_, ?_, ?_⟩
  · intro i hi
    obtain ⟨t, ht, hc⟩ := isFan_mem hf hi
    omega
  · intro h3 i hi
    by_cases h0 : i = 0
    · have := (hf.2 0 (by omega)).1
      rw [h0]; exact List.mem_of_getElem? this
    · by_cases h1 : i = 1
      · have := (hf.2 0 (by omega)).2.1
        rw [h1]; exact List.mem_of_getElem? this
      · have := (hf.2 (i - 2) (by omega)).2.2
        rw [show i - 2 + 2 = i by omega] at this
        exact List.mem_of_getElem? this
  · intro hlt
    have := hf.1
    exact List.length_eq_zero_iff.1 (by omega)

/-- C19 for a whole map: every face of every brush of every entity is triangulated as a fan. -/
theorem C19_whole_map (textures : TextureInfo) (entities : List (Entity F)) (gs : List (EntityGeo F))
    (h : Geo.run textures entities = .ok gs) :
    ∀ g ∈ gs, ∀ b ∈ g.brushes, ∀ p ∈ b.planes, IsFan p.vertices.length p.indices := by
  have hr := run_faces h
  intro g hg b hb p hp
  obtain ⟨i, hi, rfl⟩ := List.getElem_of_mem hg
  have h1 := (List.forall₂_iff_get.1 hr).2 i (by rw [hr.length_eq]; exact hi) hi
  obtain ⟨j, hj, rfl⟩ := List.getElem_of_mem hb
  have h2 := (List.forall₂_iff_get.1 h1).2 j (by rw [h1.length_eq]; exact hj) hj
  obtain ⟨k, hk, rfl⟩ := List.getElem_of_mem hp
  have h3 := (List.forall₂_iff_get.1 h2).2 k (by rw [h2.length_eq]; exact hk) hk
  exact C19_fan _ _ _ _ _ h3

/-- C20: the corners are, up to recentring (moving to the face centre and back) and order, a list of
points that are found, pairwise different, and represent every found point. -/
theorem C20_corners_distinct_complete [LawfulEq F] (textures : TextureInfo) (entity : Entity F)
    (planes : List (BrushPlane F)) (plane : BrushPlane F) (geo : PlaneGeo F)
    (h : buildPlane textures entity planes plane = .ok geo) :
    ∃ pts : List (V3 F),
      (geo.vertices.map (·.pos)).Perm (pts.map (recentre geo.center)) ∧
      (∀ x ∈ pts, Found planes plane x) ∧
      AllDifferent pts ∧
      (∀ x, Found planes plane x → ∃ y ∈ pts, SamePlace y x) := by
  obtain ⟨pvs, h1, _, h3⟩ := buildPlane_perm h
  obtain ⟨ha, hb⟩ := planeVertices_ok h1
  refine ⟨(uniqueVertices (isPhong entity) pvs).map (·.pos), ?_, ?_, ?_, ?_⟩
  · have := h3.map (fun v : Vertex F => v.pos)
    rw [List.map_map] at this
    rw [List.map_map]
    exact this
  · intro x hx
    obtain ⟨w, hw, rfl⟩ := List.mem_map.1 hx
    obtain ⟨v, hv, rfl⟩ := uniqueVertices_mem hw
    obtain ⟨⟨p1, hp1, p2, hp2, hm, _⟩, hh, _⟩ := ha v hv
    rw [finishNormal_pos]
    exact ⟨⟨p1, hp1, p2, hp2, hm⟩, hh⟩
  · rw [allDifferent_iff, List.pairwise_map]
    refine (uniqueVertices_pairwise (isPhong entity) pvs).imp ?_
    intro a b hab
    refine ⟨?_, hab⟩
    cases hc : V3.beq a.pos b.pos with
    | false => rfl
    | true => rw [V3.beq_symm hc] at hab; exact hab
  · rintro x ⟨⟨p1, hp1, p2, hp2, hm⟩, hh⟩
    obtain ⟨v, hv, rfl, _⟩ := hb p1 hp1 p2 hp2 x hm hh
    obtain ⟨w, hw, e⟩ := uniqueVertices_covers (isPhong entity) pvs v hv
    exact ⟨w.pos, List.mem_map_of_mem hw, samePlace_iff.2 e⟩

/-- C23: the order of the faces does not matter for which points are found. -/
theorem spec_C23_found_points (planes planes' : List (BrushPlane F)) (hp : planes.Perm planes')
    (plane : BrushPlane F) (x : V3 F) : Found planes plane x ↔ Found planes' plane x := by
  unfold Found
  simp only [hp.mem_iff]

/-- C23: reordering the faces of a brush does not change the set of corner positions of a face (up to
`==` and before recentring; recentring rounds differently if the centre is summed in another order). -/
theorem C23_order_independent [LawfulEq F] (textures : TextureInfo) (entity : Entity F)
    (planes planes' : List (BrushPlane F)) (hp : planes.Perm planes') (plane : BrushPlane F)
    (geo geo' : PlaneGeo F)
    (h : buildPlane textures entity planes plane = .ok geo)
    (h' : buildPlane textures entity planes' plane = .ok geo') :
    ∃ pts pts' : List (V3 F),
      (geo.vertices.map (·.pos)).Perm (pts.map (recentre geo.center)) ∧
      (geo'.vertices.map (·.pos)).Perm (pts'.map (recentre geo'.center)) ∧
      (∀ x ∈ pts, ∃ y ∈ pts', SamePlace y x) ∧ (∀ y ∈ pts', ∃ x ∈ pts, SamePlace x y) ∧
      AllDifferent pts ∧ AllDifferent pts' := by
  obtain ⟨pts, a1, a2, a3, a4⟩ := C20_corners_distinct_complete _ _ _ _ _ h
  obtain ⟨pts', b1, b2, b3, b4⟩ := C20_corners_distinct_complete _ _ _ _ _ h'
  exact ⟨pts, pts', a1, b1, fun x hx => b4 x ((spec_C23_found_points _ _ hp _ _).1 (a2 x hx)),
    fun y hy => a4 y ((spec_C23_found_points _ _ hp _ _).2 (b2 y hy)), a3, b3⟩

/-- C23: reordering the faces does not change whether building the face succeeds. -/
theorem C23_success (textures : TextureInfo) (entity : Entity F)
    (planes planes' : List (BrushPlane F)) (hp : planes.Perm planes') (plane : BrushPlane F) :
    (∃ geo, buildPlane textures entity planes plane = .ok geo) ↔
    (∃ geo, buildPlane textures entity planes' plane = .ok geo) := by
  have key : ∀ ps : List (BrushPlane F), (∃ geo, buildPlane textures entity ps plane = .ok geo) ↔
      ∀ p1 ∈ ps, ∀ p2 ∈ ps, ∃ v, buildPlaneVertex (textures plane.texture) entity ps plane p1 p2 = .ok v := by
    intro ps
    have e : (∃ geo, buildPlane textures entity ps plane = .ok geo) ↔
        ∃ pvs, planeVertices (textures plane.texture) entity ps plane = .ok pvs := by
      constructor
      · rintro ⟨geo, hg⟩
        obtain ⟨pvs, _, h1, _⟩ := buildPlane_ok hg
        exact ⟨pvs, h1⟩
      · rintro ⟨pvs, h1⟩
        unfold buildPlane
        simp only [Map.get?]
        rw [h1]
        exact ⟨_, rfl⟩
    rw [e]
    unfold planeVertices
    constructor
    · rintro ⟨pvs, h⟩ p1 hp1 p2 hp2
      obtain ⟨vss, h1, _⟩ := Outcome.bind_eq_ok.1 h
      obtain ⟨vs, _, e1⟩ := mapOut_mem' h1 hp1
      obtain ⟨ovs, e2, _⟩ := Outcome.bind_eq_ok.1 e1
      obtain ⟨ov, _, e4⟩ := mapOut_mem' e2 hp2
      exact ⟨ov, e4⟩
    · intro h
      have : ∃ vss, mapOut (fun p1 =>
          (mapOut (fun p2 => buildPlaneVertex (textures plane.texture) entity ps plane p1 p2) ps).bind
            fun vs => .ok (vs.filterMap id)) ps = .ok vss := by
        refine mapOut_isOk.2 fun p1 hp1 => ?_
        obtain ⟨r, hr⟩ := mapOut_isOk.2 fun p2 hp2 => h p1 hp1 p2 hp2
        exact ⟨_, by rw [hr]; rfl⟩
      obtain ⟨vss, hv⟩ := this
      exact ⟨_, by rw [hv]; rfl⟩
  have hull : ∀ v, inHull v planes = inHull v planes' := by
    intro v
    rw [Bool.eq_iff_iff, inHull_iff, inHull_iff]
    simp only [hp.mem_iff]
  have hb : ∀ t p1 p2, buildPlaneVertex t entity planes plane p1 p2 =
      buildPlaneVertex t entity planes' plane p1 p2 := by
    intro t p1 p2
    unfold buildPlaneVertex
    simp only [hull]
  rw [key, key]
  simp only [hp.mem_iff, hb]

/-- How the corners are sorted. -/
theorem winding_rel (textures : TextureInfo) (entity : Entity F)
    (planes : List (BrushPlane F)) (plane : BrushPlane F) (geo : PlaneGeo F)
    (h : buildPlane textures entity planes plane = .ok geo) :
    ∃ (pvs : List (Vertex F)) (rel : List (V3 F)),
      planeVertices (textures plane.texture) entity planes plane = .ok pvs ∧
      geo.center = mean ((uniqueVertices (isPhong entity) pvs).map (·.pos)) ∧
      rel.Perm ((uniqueVertices (isPhong entity) pvs).map fun v => V3.sub v.pos geo.center) ∧
      geo.vertices.map (·.pos) = rel.map (fun p => V3.add p geo.center) ∧
      ((∀ a ∈ rel, ∀ b ∈ rel, Arith.lt (faceAngle plane a) (faceAngle plane b) = true →
          Arith.lt (faceAngle plane b) (faceAngle plane a) = false) →
       (∀ a ∈ rel, ∀ b ∈ rel, ∀ c ∈ rel, Arith.lt (faceAngle plane a) (faceAngle plane b) = false →
          Arith.lt (faceAngle plane b) (faceAngle plane c) = false →
          Arith.lt (faceAngle plane a) (faceAngle plane c) = false) →
       rel.Pairwise (fun a b => Arith.lt (faceAngle plane a) (faceAngle plane b) = false)) := by
  obtain ⟨pvs, localV, h1, h2, h3, h4, _⟩ := buildPlane_ok h
  refine ⟨pvs, localV.map (·.pos), h1, h2, ?_, ?_, ?_⟩
  · rw [h3]
    have := (Platform.sortBy_perm (windCmp plane) ((uniqueVertices (isPhong entity) pvs).map
      fun v => { v with pos := V3.sub v.pos geo.center })).map (·.pos)
    rwa [List.map_map] at this
  · rw [h4, List.map_map, List.map_map]; rfl
  · intro hasym htrans
    have hmem : ∀ v ∈ (uniqueVertices (isPhong entity) pvs).map
        (fun v => { v with pos := V3.sub v.pos geo.center }), v.pos ∈ localV.map (·.pos) := by
      intro v hv
      rw [h3]
      exact List.mem_map_of_mem ((Platform.sortBy_perm _ _).mem_iff.2 hv)
    have hcmp : ∀ a b : Vertex F, windCmp plane a b =
        if Arith.lt (faceAngle plane b.pos) (faceAngle plane a.pos) then .lt
        else if Arith.lt (faceAngle plane a.pos) (faceAngle plane b.pos) then .gt else .eq := by
      intro a b
      unfold windCmp partialCmp
      change (if Arith.lt (faceAngle plane b.pos) (faceAngle plane a.pos) then some Ordering.lt
        else if Arith.lt (faceAngle plane a.pos) (faceAngle plane b.pos) then some Ordering.gt
        else if Arith.eq (faceAngle plane b.pos) (faceAngle plane a.pos) then some Ordering.eq
        else none).getD .eq = _
      split
      · rfl
      · split
        · rfl
        · split <;> rfl
    have hng : ∀ a b : Vertex F, a.pos ∈ localV.map (·.pos) → b.pos ∈ localV.map (·.pos) →
        (windCmp plane a b ≠ .gt ↔ Arith.lt (faceAngle plane a.pos) (faceAngle plane b.pos) = false) := by
      intro a b ha hb
      rw [hcmp]
      split
      · rename_i hlt
        simp [hasym _ hb _ ha hlt]
      · split
        · rename_i hlt; simp [hlt]
        · rename_i hlt; simpa using hlt
    have hs := Platform.sortBy_sorted (windCmp plane)
      ((uniqueVertices (isPhong entity) pvs).map fun v => { v with pos := V3.sub v.pos geo.center })
      (by
        intro a ha b hb
        rw [hcmp, hcmp]
        split
        · rename_i hlt
          rw [if_neg (by simp [hasym _ (hmem a ha) _ (hmem b hb) hlt])]; rfl
        · split
          · rfl
          · rfl)
      (by
        intro a ha b hb c hc hab hbc
        rw [hng _ _ (hmem a ha) (hmem b hb)] at hab
        rw [hng _ _ (hmem b hb) (hmem c hc)] at hbc
        rw [hng _ _ (hmem a ha) (hmem c hc)]
        exact htrans _ (hmem a ha) _ (hmem b hb) _ (hmem c hc) hab hbc)
    rw [← h3] at hs
    rw [List.pairwise_map]
    exact hs.imp_of_mem fun {a b} ha hb hab =>
      (hng a b (List.mem_map_of_mem ha) (List.mem_map_of_mem hb)).1 hab

/-- C24: the corners relative to the centre are in the order of decreasing angle in the axes of the face, if
the comparison of these angles is consistent. -/
theorem C24_winding (textures : TextureInfo) (entity : Entity F)
    (planes : List (BrushPlane F)) (plane : BrushPlane F) (geo : PlaneGeo F)
    (h : buildPlane textures entity planes plane = .ok geo) :
    ∃ corners rel : List (V3 F), (∀ x ∈ corners, Found planes plane x) ∧
      rel.Perm (corners.map fun x => V3.sub x geo.center) ∧
      geo.vertices.map (·.pos) = rel.map (fun p => V3.add p geo.center) ∧
      ((∀ a ∈ rel, ∀ b ∈ rel, Arith.lt (faceAngle plane a) (faceAngle plane b) = true →
          Arith.lt (faceAngle plane b) (faceAngle plane a) = false) →
       (∀ a ∈ rel, ∀ b ∈ rel, ∀ c ∈ rel, Arith.lt (faceAngle plane a) (faceAngle plane b) = false →
          Arith.lt (faceAngle plane b) (faceAngle plane c) = false →
          Arith.lt (faceAngle plane a) (faceAngle plane c) = false) →
       rel.Pairwise (fun a b => Arith.lt (faceAngle plane a) (faceAngle plane b) = false)) := by
  obtain ⟨pvs, rel, h1, -, h3, h4, h5⟩ := winding_rel textures entity planes plane geo h
  refine ⟨(uniqueVertices (isPhong entity) pvs).map (·.pos), rel, ?_, by rwa [List.map_map], h4, h5⟩
  intro x hx
  obtain ⟨w, hw, rfl⟩ := List.mem_map.1 hx
  obtain ⟨v, hv, rfl⟩ := uniqueVertices_mem hw
  obtain ⟨⟨p1, hp1, p2, hp2, hm, _⟩, hh, _⟩ := (planeVertices_ok h1).1 v hv
  rw [finishNormal_pos]
  exact ⟨⟨p1, hp1, p2, hp2, hm⟩, hh⟩

/-- C27: with an `origin` property the centre is read from its first three space-separated words. -/
theorem C27_origin (textures : TextureInfo) (entity : Entity F) (geo : EntityGeo F)
    (h : Geo.buildEntity textures entity = .ok geo) (words : List Str) (hne : words ≠ [])
    (hw : ∀ w ∈ words, ' ' ∉ w)
    (ho : entity.properties (str! "origin") = some (joinSpace words))
    (hzero : ∀ x, Arith.parse (F := F) (str! "0.0") = some x → x = Arith.zero) :
    geo.center = ⟨numOr0 words[0]?, numOr0 words[1]?, numOr0 words[2]?⟩ := by
  unfold Geo.buildEntity at h
  obtain ⟨bgs, _, h2⟩ := Outcome.bind_eq_ok.1 h
  cases h2
  have hc : ∀ w : Option Str, originComp (F := F) w = numOr0 w := by
    intro w
    cases w with
    | some w => rfl
    | none =>
      simp only [originComp, numOr0, Option.getD_none, Option.bind_none]
      cases hp : Arith.parse (F := F) (str! "0.0") with
      | none => rfl
      | some x => rw [hzero x hp]; rfl
  simp only [Map.get?, ho, parseOrigin, splitOn_joinSpace hne hw, hc]

omit [Arith F] [Platform] in
/-- C27: every string is such a list of words. -/
theorem spec_C27_every_string (s : Str) :
    ∃ words : List Str, words ≠ [] ∧ (∀ w ∈ words, ' ' ∉ w) ∧ joinSpace words = s := by
  induction s with
  | nil => exact ⟨[[]], by simp, by simp, rfl⟩
  | cons c s ih =>
    obtain ⟨ws, h1, h2, h3⟩ := ih
    by_cases hc : c = ' '
    · subst hc
      cases ws with
      | nil => exact absurd rfl h1
      | cons w ws =>
        exact ⟨[] :: w :: ws, by simp, by simpa using h2, by rw [joinSpace, h3]; rfl; simp⟩
    · cases ws with
      | nil => exact absurd rfl h1
      | cons w ws =>
        refine ⟨(c :: w) :: ws, by simp, ?_, ?_⟩
        · intro x hx
          rcases List.mem_cons.1 hx with rfl | hx
          · simp only [List.mem_cons, not_or]
            exact ⟨fun h => hc h.symm, h2 w (by simp)⟩
          · exact h2 x (by simp [hx])
        · cases ws with
          | nil => rw [← h3]; rfl
          | cons w' ws => rw [← h3]; rfl

/-- C27: without `origin` the centre is computed from the brushes only; with it the brushes' positions do
not matter. -/
theorem C27_brushes_do_not_matter (textures : TextureInfo) (e e' : Entity F) (g g' : EntityGeo F)
    (h : Geo.buildEntity textures e = .ok g) (h' : Geo.buildEntity textures e' = .ok g')
    (o : Str) (ho : e.properties (str! "origin") = some o) (ho' : e'.properties (str! "origin") = some o) :
    g.center = g'.center := by
  unfold Geo.buildEntity at h h'
  obtain ⟨bgs, _, h2⟩ := Outcome.bind_eq_ok.1 h
  obtain ⟨bgs', _, h2'⟩ := Outcome.bind_eq_ok.1 h'
  cases h2; cases h2'
  simp only [Map.get?, ho, ho']

/-- C31: a face has its texture name, and its vertices have texture coordinates, exactly if the texture
is known; vertices have a colour exactly for Daikatana faces, namely that colour. -/
theorem C31_uv_and_color (textures : TextureInfo) (entity : Entity F)
    (planes : List (BrushPlane F)) (plane : BrushPlane F) (geo : PlaneGeo F)
    (h : buildPlane textures entity planes plane = .ok geo) :
    (geo.texture = if (textures plane.texture).isSome then some plane.texture else none) ∧
    (∀ v ∈ geo.vertices, v.uv.isSome = (textures plane.texture).isSome) ∧
    (∀ v ∈ geo.vertices, ∀ c, v.color = some c ↔ ∃ s, plane.extra = .daikatana s c) := by
  refine ⟨?_, ?_, ?_⟩
  · obtain ⟨_, _, _, _, _, _, _, h6⟩ := buildPlane_ok h
    rw [h6]
    cases textures plane.texture <;> rfl
  · intro v hv
    obtain ⟨w, hw, rfl⟩ := buildPlane_vertex h hv
    have := hw.uv
    simp only [finishNormal_uv]
    cases ht : textures plane.texture with
    | none => simp [this.1 ht]
    | some t =>
      obtain ⟨uv, _, e⟩ := this.2 t ht
      simp [e]
  · intro v hv c
    obtain ⟨w, hw, rfl⟩ := buildPlane_vertex h hv
    simp only [finishNormal_color, hw.color, planeColor]
    cases plane.extra <;> simp

end

section Examples
attribute [local instance] refPlatform intArith

instance : LawfulEq Int where
  symm _ _ h := decide_eq_true (of_decide_eq_true h).symm
  trans _ _ _ h h' := decide_eq_true ((of_decide_eq_true h).trans (of_decide_eq_true h'))

/-- One face of an axis-parallel box: three points on it, and a texture. -/
def boxFace (a b c : V3 Int) (extra : ExtraData Int) : BrushPlane Int :=
  ⟨a, b, c, str! "stone", .quake 0 0, 0, ⟨1, 1⟩, extra⟩

/-- The box from (0,0,0) to (2,2,2), faces in file order top, bottom, +x, -x, +y, -y. -/
def exampleBox : List (BrushPlane Int) :=
  [boxFace ⟨0, 0, 2⟩ ⟨0, 1, 2⟩ ⟨1, 0, 2⟩ .none,
   boxFace ⟨0, 0, 0⟩ ⟨1, 0, 0⟩ ⟨0, 1, 0⟩ .none,
   boxFace ⟨2, 0, 0⟩ ⟨2, 0, 1⟩ ⟨2, 1, 0⟩ .none,
   boxFace ⟨0, 0, 0⟩ ⟨0, 1, 0⟩ ⟨0, 0, 1⟩ (.daikatana ⟨0, 0, 0⟩ ⟨7, 8, 9⟩),
   boxFace ⟨0, 2, 0⟩ ⟨1, 2, 0⟩ ⟨0, 2, 1⟩ .none,
   boxFace ⟨0, 0, 0⟩ ⟨0, 0, 1⟩ ⟨1, 0, 0⟩ .none]

def exampleEntity : Entity Int :=
  ⟨fun k => if k = str! "classname" then some (str! "worldspawn")
            else if k = str! "origin" then some (str! "5 x 7") else none, [⟨exampleBox⟩]⟩

def exampleTextures : TextureInfo := fun t => if t = str! "stone" then some ⟨1, 1⟩ else none

set_option maxRecDepth 10000 in
example : (match Geo.buildEntity exampleTextures exampleEntity with
    | .ok g => some (g.center, g.brushes.map fun b => b.planes.map fun p => (p.vertices.length, p.indices))
    | _ => none) = some (⟨5, 0, 7⟩, [List.replicate 6 (4, [0, 1, 2, 0, 2, 3])]) := by decide

set_option maxRecDepth 10000 in
example : (match buildPlane exampleTextures exampleEntity exampleBox (exampleBox[3]) with
    | .ok g => decide <| (g.vertices.map (·.pos) : List (V3 Int)) = [⟨0, 0, 0⟩, ⟨0, 2, 0⟩, ⟨0, 2, 2⟩, ⟨0, 0, 2⟩] ∧
        g.center = ⟨0, 1, 1⟩ ∧ g.vertices.map (·.color) = List.replicate 4 (some ⟨7, 8, 9⟩) ∧
        g.texture = some (str! "stone")
    | _ => false) = true := by decide

example : joinSpace [str! "5", str! "x", str! "7"] = str! "5 x 7" := rfl

-- the comparison laws of C24 hold for whole numbers
example (plane : BrushPlane Int) :
    (∀ a b : V3 Int, Arith.lt (faceAngle plane a) (faceAngle plane b) = true →
      Arith.lt (faceAngle plane b) (faceAngle plane a) = false) ∧
    (∀ a b c : V3 Int, Arith.lt (faceAngle plane a) (faceAngle plane b) = false →
      Arith.lt (faceAngle plane b) (faceAngle plane c) = false →
      Arith.lt (faceAngle plane a) (faceAngle plane c) = false) :=
  ⟨fun _ _ h => decide_eq_false (Int.not_lt.2 (Int.le_of_lt (of_decide_eq_true h))),
   fun _ _ _ h h' => decide_eq_false (Int.not_lt.2 (Int.le_trans (Int.not_lt.1 (of_decide_eq_false h'))
     (Int.not_lt.1 (of_decide_eq_false h))))⟩
end Examples
end Quarch
