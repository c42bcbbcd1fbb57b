import Verif.Spec.Geo
import Verif.Proofs.Basic
import Verif.Proofs.Text
/-
Lemmas about the geometry builder that hold for every arithmetic.
-/
namespace Quarch
open Spec Geo

section
variable {F : Type} [Arith F]

theorem eqV3_iff {F : Type} [Arith F] {a b : V3 F} : EqV3 a b ↔ V3.beq a b = true := by
  unfold EqV3 V3.beq
  simp only [Bool.and_eq_true, and_assoc]

theorem samePlace_iff {F : Type} [Arith F] {a b : V3 F} : SamePlace a b ↔ a = b ∨ V3.beq a b = true := by
  unfold SamePlace
  rw [eqV3_iff]

theorem allDifferent_iff {F : Type} [Arith F] {l : List (V3 F)} :
    AllDifferent l ↔ l.Pairwise fun a b => V3.beq a b = false ∧ V3.beq b a = false := by
  unfold AllDifferent
  simp only [eqV3_iff, Bool.not_eq_true]

theorem faceNormal_eq (p : BrushPlane F) : p.normal = faceNormal p := rfl
theorem faceDist_eq (p : BrushPlane F) : p.dist = faceDist p := rfl

theorem intersect_eq_some {p0 p1 p2 : BrushPlane F} {v : V3 F} :
    intersect p0 p1 p2 = some v ↔ Meet p0 p1 p2 v := by
  unfold intersect
  constructor
  · intro h
    simp only at h
    split at h
    · cases h
    · rename_i hd
      exact ⟨_, rfl, Bool.eq_false_iff.2 hd, (Option.some.inj h).symm⟩
  · rintro ⟨det, rfl, hd, rfl⟩
    exact if_neg (Bool.eq_false_iff.1 hd)

theorem inHull_iff {v : V3 F} {planes : List (BrushPlane F)} :
    inHull v planes = true ↔ ∀ p ∈ planes, Behind p v := by
  unfold inHull Behind
  simp only [List.all_eq_true, faceNormal_eq, faceDist_eq]
  refine forall₂_congr fun p _ => ?_
  generalize Arith.lt (faceDist p) (Arith.dot (faceNormal p) v) = a
  generalize Arith.lt Arith.cmpEpsilon (Arith.sub (Arith.dot (faceNormal p) v) (faceDist p)) = b
  cases a <;> cases b <;> simp

/-- What a vertex of a face looks like: position found, attributes by the respective rules. -/
structure VertexOf (texture : Option Texture) (entity : Entity F) (planes : List (BrushPlane F))
    (plane : BrushPlane F) (v : Vertex F) : Prop where
  src : ∃ p1 ∈ planes, ∃ p2 ∈ planes, Meet plane p1 p2 v.pos ∧ v.normal = vertexNormal entity plane p1 p2
  hull : ∀ p ∈ planes, Behind p v.pos
  tangent : vertexTangent plane = .ok v.tangent
  uv : (texture = none → v.uv = none) ∧
    ∀ t, texture = some t → ∃ uv, vertexUV v.pos plane t = .ok uv ∧ v.uv = some uv
  color : v.color = planeColor plane

theorem buildPlaneVertex_some {texture : Option Texture} {entity : Entity F} {planes : List (BrushPlane F)}
    {plane p1 p2 : BrushPlane F} {v : Vertex F}
    (h : buildPlaneVertex texture entity planes plane p1 p2 = .ok (some v)) :
    Meet plane p1 p2 v.pos ∧ v.normal = vertexNormal entity plane p1 p2 ∧ (∀ p ∈ planes, Behind p v.pos) ∧
    vertexTangent plane = .ok v.tangent ∧
    ((texture = none → v.uv = none) ∧
      ∀ t, texture = some t → ∃ uv, vertexUV v.pos plane t = .ok uv ∧ v.uv = some uv) ∧ v.color = planeColor plane := by
  unfold buildPlaneVertex at h
  split at h
  · rename_i vertex hi
    split at h
    · rename_i hh
      obtain ⟨tan, ht, h⟩ := Outcome.bind_eq_ok.1 h
      cases texture with
      | none =>
        simp only [Outcome.ok_bind] at h
        cases h
        exact ⟨intersect_eq_some.1 hi, rfl, inHull_iff.1 hh, ht, ⟨fun _ => rfl, fun t h => by cases h⟩, rfl⟩
      | some t =>
        simp only at h
        obtain ⟨ouv, hu, h⟩ := Outcome.bind_eq_ok.1 h
        obtain ⟨uv, hu', hs⟩ := Outcome.bind_eq_ok.1 hu
        cases hs
        cases h
        exact ⟨intersect_eq_some.1 hi, rfl, inHull_iff.1 hh, ht,
          ⟨(nomatch ·), fun t' h => by cases h; exact ⟨uv, hu', rfl⟩⟩, rfl⟩
    · simp at h
  · simp at h

theorem buildPlaneVertex_none {texture : Option Texture} {entity : Entity F} {planes : List (BrushPlane F)}
    {plane p1 p2 : BrushPlane F} 
    (h : buildPlaneVertex texture entity planes plane p1 p2 = .ok none) (v : V3 F)
    (hm : Meet plane p1 p2 v) : ¬ ∀ p ∈ planes, Behind p v := by
  intro hb
  unfold buildPlaneVertex at h
  rw [intersect_eq_some.2 hm] at h
  simp only [inHull_iff.2 hb, if_true] at h
  obtain ⟨tan, ht, h⟩ := Outcome.bind_eq_ok.1 h
  obtain ⟨ouv, hu, h⟩ := Outcome.bind_eq_ok.1 h
  cases h

theorem meet_unique {p0 p1 p2 : BrushPlane F} {v w : V3 F} (h1 : Meet p0 p1 p2 v) (h2 : Meet p0 p1 p2 w) :
    v = w := by
  obtain ⟨d, rfl, _, rfl⟩ := h1
  obtain ⟨d, rfl, _, rfl⟩ := h2
  rfl

/-- The vertices collected for a face: exactly the intersection points found, each with its attributes. -/
theorem planeVertices_ok {texture : Option Texture} {entity : Entity F} {planes : List (BrushPlane F)}
    {plane : BrushPlane F} {pvs : List (Vertex F)}
    (h : planeVertices texture entity planes plane = .ok pvs) :
    (∀ v ∈ pvs, VertexOf texture entity planes plane v) ∧
    (∀ p1 ∈ planes, ∀ p2 ∈ planes, ∀ x, Meet plane p1 p2 x → (∀ p ∈ planes, Behind p x) →
      ∃ v ∈ pvs, v.pos = x ∧ v.normal = vertexNormal entity plane p1 p2) := by
  unfold planeVertices at h
  obtain ⟨vss, h1, h2⟩ := Outcome.bind_eq_ok.1 h
  cases h2
  constructor
  · intro v hv
    obtain ⟨vs, hvs, hv⟩ := List.mem_flatten.1 hv
    obtain ⟨p1, hp1, e1⟩ := mapOut_mem h1 hvs
    obtain ⟨ovs, e2, e3⟩ := Outcome.bind_eq_ok.1 e1
    cases e3
    obtain ⟨ov, hov, e4⟩ := List.mem_filterMap.1 hv
    simp only [id_eq] at e4
    subst e4
    obtain ⟨p2, hp2, e5⟩ := mapOut_mem e2 hov
    obtain ⟨a1, a2, a3, a4, a5, a6⟩ := buildPlaneVertex_some e5
    exact ⟨⟨p1, hp1, p2, hp2, a1, a2⟩, a3, a4, a5, a6⟩
  · intro p1 hp1 p2 hp2 x hm hb
    obtain ⟨vs, hvs, e1⟩ := mapOut_mem' h1 hp1
    obtain ⟨ovs, e2, e3⟩ := Outcome.bind_eq_ok.1 e1
    cases e3
    obtain ⟨ov, hov, e4⟩ := mapOut_mem' e2 hp2
    cases ov with
    | none => exact absurd hb (buildPlaneVertex_none e4 x hm)
    | some v =>
      obtain ⟨a1, a2, _⟩ := buildPlaneVertex_some e4
      refine ⟨v, List.mem_flatten.2 ⟨_, hvs, List.mem_filterMap.2 ⟨_, hov, rfl⟩⟩, meet_unique a1 hm, a2⟩

/-- What the "unique" pass does to the normal of a vertex it keeps. -/
def finishNormal (phong : Bool) (v : Vertex F) : Vertex F :=
  if phong then { v with normal := Arith.normalize v.normal } else v

theorem phongFold_eq (rest : List (Vertex F)) (v : Vertex F)
    (h : ∀ c ∈ rest, V3.beq c.pos v.pos = false) :
    rest.foldl (fun acc next =>
      if V3.beq next.pos acc.pos then { acc with normal := next.normal } else acc) v = v := by
  induction rest with
  | nil => rfl
  | cons c cs ih =>
    rw [List.foldl_cons, if_neg (by simp [h c (by simp)])]
    exact ih fun d hd => h d (by simp [hd])

theorem uniqueVertex_eq (phong : Bool) (v : Vertex F) (rest : List (Vertex F)) :
    uniqueVertex phong v rest =
      if rest.any (fun c => V3.beq c.pos v.pos) then none else some (finishNormal phong v) := by
  unfold uniqueVertex
  cases hf : rest.find? (fun c => V3.beq c.pos v.pos) with
  | some c =>
    have h1 := List.find?_some hf
    have h2 := List.mem_of_find?_eq_some hf
    rw [if_pos (List.any_eq_true.2 ⟨c, h2, h1⟩)]
  | none =>
    have hn := List.find?_eq_none.1 hf
    have hn' : ∀ c ∈ rest, V3.beq c.pos v.pos = false := fun c hc => by simpa using hn c hc
    have ha : ¬ rest.any (fun c => V3.beq c.pos v.pos) = true := by
      simpa using hn'
    rw [if_neg ha]
    simp only [finishNormal]
    cases phong with
    | false => rfl
    | true => simp only [if_true, phongFold_eq rest v hn']

@[simp] theorem finishNormal_pos (phong : Bool) (v : Vertex F) : (finishNormal phong v).pos = v.pos := by
  unfold finishNormal; split <;> rfl
@[simp] theorem finishNormal_uv (phong : Bool) (v : Vertex F) : (finishNormal phong v).uv = v.uv := by
  unfold finishNormal; split <;> rfl
@[simp] theorem finishNormal_color (phong : Bool) (v : Vertex F) : (finishNormal phong v).color = v.color := by
  unfold finishNormal; split <;> rfl
@[simp] theorem finishNormal_tangent (phong : Bool) (v : Vertex F) :
    (finishNormal phong v).tangent = v.tangent := by
  unfold finishNormal; split <;> rfl

theorem uniqueVertices_mem {phong : Bool} {l : List (Vertex F)} {w : Vertex F}
    (h : w ∈ uniqueVertices phong l) : ∃ v ∈ l, w = finishNormal phong v := by
  induction l with
  | nil => simp [uniqueVertices] at h
  | cons a l ih =>
    rw [uniqueVertices, List.mem_append, uniqueVertex_eq] at h
    rcases h with h | h
    · split at h
      · simp at h
      · simp only [Option.toList_some, List.mem_singleton] at h
        exact ⟨a, by simp, h⟩
    · obtain ⟨v, hv, e⟩ := ih h
      exact ⟨v, by simp [hv], e⟩

theorem uniqueVertices_pairwise (phong : Bool) (l : List (Vertex F)) :
    (uniqueVertices phong l).Pairwise fun a b => V3.beq b.pos a.pos = false := by
  induction l with
  | nil => exact .nil
  | cons a l ih =>
    rw [uniqueVertices, uniqueVertex_eq]
    split
    · exact ih
    · rename_i hn
      refine List.pairwise_cons.2 ⟨?_, ih⟩
      intro b hb
      obtain ⟨v, hv, rfl⟩ := uniqueVertices_mem hb
      simp only [List.any_eq_true, not_exists, not_and, Bool.not_eq_true] at hn
      simpa using hn v hv

theorem V3.beq_symm [LawfulEq F] {a b : V3 F} (h : V3.beq a b = true) : V3.beq b a = true := by
  unfold V3.beq at *
  simp only [Bool.and_eq_true] at *
  exact ⟨⟨LawfulEq.symm _ _ h.1.1, LawfulEq.symm _ _ h.1.2⟩, LawfulEq.symm _ _ h.2⟩

theorem V3.beq_trans [LawfulEq F] {a b c : V3 F} (h : V3.beq a b = true) (h' : V3.beq b c = true) :
    V3.beq a c = true := by
  unfold V3.beq at *
  simp only [Bool.and_eq_true] at *
  exact ⟨⟨LawfulEq.trans _ _ _ h.1.1 h'.1.1, LawfulEq.trans _ _ _ h.1.2 h'.1.2⟩,
    LawfulEq.trans _ _ _ h.2 h'.2⟩

/-- Every point is kept or an equal one is. -/
theorem uniqueVertices_covers [LawfulEq F] (phong : Bool) (l : List (Vertex F)) :
    ∀ v ∈ l, ∃ w ∈ uniqueVertices phong l, w.pos = v.pos ∨ V3.beq w.pos v.pos = true := by
  induction l with
  | nil => simp
  | cons a l ih =>
    intro v hv
    rw [uniqueVertices, uniqueVertex_eq]
    rcases List.mem_cons.1 hv with rfl | hv
    · split
      · rename_i h
        obtain ⟨c, hc, e⟩ := List.any_eq_true.1 h
        obtain ⟨w, hw, e'⟩ := ih c hc
        refine ⟨w, by simpa using hw, .inr ?_⟩
        rcases e' with e' | e'
        · rw [e']; exact e
        · exact V3.beq_trans e' e
      · exact ⟨finishNormal phong v, by simp, .inl (by simp)⟩
    · obtain ⟨w, hw, e⟩ := ih v hv
      exact ⟨w, by simp [hw], e⟩

theorem fanIndices_isFan (n : Nat) : IsFan n (fanIndices n) := by
  unfold fanIndices
  split
  · rename_i h
    have : n - 2 = 0 := by omega
    exact ⟨by simp [this], fun t ht => by omega⟩
  · rename_i h
    have key : ∀ k, ((List.range k).flatMap fun i => [0, i + 1, i + 2]).length = 3 * k ∧
        ∀ t, t < k → ((List.range k).flatMap fun i => [0, i + 1, i + 2])[3 * t]? = some 0 ∧
          ((List.range k).flatMap fun i => [0, i + 1, i + 2])[3 * t + 1]? = some (t + 1) ∧
          ((List.range k).flatMap fun i => [0, i + 1, i + 2])[3 * t + 2]? = some (t + 2) := by
      intro k
      induction k with
      | zero => exact ⟨rfl, fun t ht => by omega⟩
      | succ k ih =>
        obtain ⟨h1, h2⟩ := ih
        rw [List.range_succ, List.flatMap_append]
        refine ⟨by simp [h1]; omega, ?_⟩
        intro t ht
        by_cases htk : t < k
        · obtain ⟨e1, e2, e3⟩ := h2 t htk
          rw [List.getElem?_append_left (by omega), List.getElem?_append_left (by omega),
            List.getElem?_append_left (by omega)]
          exact ⟨e1, e2, e3⟩
        · have : t = k := by omega
          subst this
          rw [List.getElem?_append_right (by omega), List.getElem?_append_right (by omega),
            List.getElem?_append_right (by omega), h1]
          simp
    exact key (n - 2)

/-- Everything `buildPlane` does, in one statement. -/
theorem buildPlane_ok [Platform] {textures : TextureInfo} {entity : Entity F}
    {planes : List (BrushPlane F)} {plane : BrushPlane F} {geo : PlaneGeo F}
    (h : buildPlane textures entity planes plane = .ok geo) :
    ∃ pvs localV, planeVertices (textures plane.texture) entity planes plane = .ok pvs ∧
      geo.center = mean ((uniqueVertices (isPhong entity) pvs).map (·.pos)) ∧
      localV = Platform.sortBy (windCmp plane)
        ((uniqueVertices (isPhong entity) pvs).map fun v => { v with pos := V3.sub v.pos geo.center }) ∧
      geo.vertices = localV.map (fun v => { v with pos := V3.add v.pos geo.center }) ∧
      geo.indices = fanIndices geo.vertices.length ∧
      geo.texture = (match textures plane.texture with | some _ => some plane.texture | none => none) := by
  unfold buildPlane at h
  obtain ⟨pvs, h1, h2⟩ := Outcome.bind_eq_ok.1 h
  cases h2
  exact ⟨pvs, _, h1, rfl, rfl, rfl, rfl, rfl⟩

theorem buildPlane_perm [Platform] {textures : TextureInfo} {entity : Entity F}
    {planes : List (BrushPlane F)} {plane : BrushPlane F} {geo : PlaneGeo F}
    (h : buildPlane textures entity planes plane = .ok geo) :
    ∃ pvs, planeVertices (textures plane.texture) entity planes plane = .ok pvs ∧
      geo.center = mean ((uniqueVertices (isPhong entity) pvs).map (·.pos)) ∧
      geo.vertices.Perm ((uniqueVertices (isPhong entity) pvs).map
        fun v => { v with pos := recentre geo.center v.pos }) := by
  obtain ⟨pvs, localV, h1, h2, h3, h4, _⟩ := buildPlane_ok h
  refine ⟨pvs, h1, h2, ?_⟩
  have hp := (Platform.sortBy_perm (windCmp plane) ((uniqueVertices (isPhong entity) pvs).map
    fun v => { v with pos := V3.sub v.pos geo.center })).map
      (fun v : Vertex F => { v with pos := V3.add v.pos geo.center })
  rw [← h3, ← h4, List.map_map] at hp
  exact hp

/-- Every vertex of a face comes from a found vertex. -/
theorem buildPlane_vertex [Platform] {textures : TextureInfo} {entity : Entity F}
    {planes : List (BrushPlane F)} {plane : BrushPlane F} {geo : PlaneGeo F}
    (h : buildPlane textures entity planes plane = .ok geo) {v : Vertex F} (hv : v ∈ geo.vertices) :
    ∃ w, VertexOf (textures plane.texture) entity planes plane w ∧
      v = { finishNormal (isPhong entity) w with pos := recentre geo.center w.pos } := by
  obtain ⟨pvs, h1, _, h3⟩ := buildPlane_perm h
  obtain ⟨u, hu, rfl⟩ := List.mem_map.1 (h3.mem_iff.1 hv)
  obtain ⟨w, hw, rfl⟩ := uniqueVertices_mem hu
  exact ⟨w, (planeVertices_ok h1).1 w hw, by simp⟩

/-- The geometry of a whole map is made of the geometry of its faces. -/
theorem run_faces [Platform] {textures : TextureInfo} {entities : List (Entity F)}
    {gs : List (EntityGeo F)} (h : Geo.run textures entities = .ok gs) :
    List.Forall₂ (fun e g => List.Forall₂ (fun b bg => List.Forall₂
      (fun p pg => buildPlane textures e b.planes p = .ok pg) b.planes bg.planes) e.brushes g.brushes)
      entities gs := by
  refine (mapOut_eq_ok.1 h).imp ?_
  intro e g hg
  unfold buildEntity at hg
  obtain ⟨bgs, h1, h2⟩ := Outcome.bind_eq_ok.1 hg
  cases h2
  refine (mapOut_eq_ok.1 h1).imp ?_
  intro b bg hb
  unfold buildBrush at hb
  obtain ⟨pgs, h3, h4⟩ := Outcome.bind_eq_ok.1 hb
  cases h4
  exact mapOut_eq_ok.1 h3

theorem splitOn_joinSpace {ws : List Str} (hne : ws ≠ []) (h : ∀ w ∈ ws, ' ' ∉ w) :
    splitOn ' ' (joinSpace ws) = ws := by
  induction ws with
  | nil => exact absurd rfl hne
  | cons w ws ih =>
    cases ws with
    | nil => exact splitOn_of_notMem (h w (by simp))
    | cons w' ws =>
      rw [joinSpace, splitOn_append (h w (by simp))]
      · rw [ih (by simp) fun x hx => h x (by simp [hx])]
      · simp

end
end Quarch
