import Verif.Spec.NaN
import Verif.Spec.Real
import Verif.Proofs.Real
import Verif.Spec.Instances
/-
C32: degenerate faces. C72: what a degenerate face does to its brush.
-/
set_option linter.unusedSectionVars false
namespace Quarch
open Spec Geo

/-! ### when building geometry aborts, in any arithmetic -/

/-- Either a result or an abort, no error value. -/
def OkOrPanic {α : Type*} (x : Outcome α) : Prop := (∃ a, x = .ok a) ∨ ∃ m, x = .panic m

theorem OkOrPanic.bind {α β : Type*} {x : Outcome α} {f : α → Outcome β} (h : OkOrPanic x)
    (hf : ∀ a, OkOrPanic (f a)) : OkOrPanic (x.bind f) := by
  rcases h with ⟨a, rfl⟩ | ⟨m, rfl⟩
  · exact hf a
  · exact .inr ⟨m, rfl⟩

theorem OkOrPanic.mapOut {α β : Type*} {f : α → Outcome β} (hf : ∀ a, OkOrPanic (f a)) (l : List α) :
    OkOrPanic (mapOut f l) := by
  induction l with
  | nil => exact .inl ⟨_, rfl⟩
  | cons x xs ih =>
    rw [mapOut_cons]
    exact (hf x).bind fun y => ih.bind fun ys => .inl ⟨_, rfl⟩

section
variable {F : Type} [Arith F]

theorem vertexTangent_iff (p : BrushPlane F) : (∃ t, vertexTangent p = .ok t) ↔
    ((∃ u v, p.uv = .quake u v) → HasLargest (faceNormal p)) := by
  have hn : p.normal = faceNormal p := rfl
  unfold vertexTangent
  cases huv : p.uv with
  | valve a b c d => simp
  | quake u v =>
    simp only [UV.quake.injEq, exists_and_left, exists_eq', and_true, forall_const]
    unfold standardTangent HasLargest Largest upVector rightVector forwardVector
    simp only [hn, Bool.and_eq_true]
    split
    · rename_i hh
      refine ⟨fun _ => ?_, fun _ => ⟨_, rfl⟩⟩
      split at hh
      · exact .inl ‹_›
      · split at hh
        · exact .inr (.inl ‹_›)
        · split at hh
          · exact .inr (.inr ‹_›)
          · cases hh
    · rename_i hh
      split at hh
      · cases hh
      · split at hh
        · cases hh
        · split at hh
          · cases hh
          · simp_all

theorem vertexTangent_cases (p : BrushPlane F) : OkOrPanic (vertexTangent p) := by
  unfold vertexTangent
  split
  · unfold standardTangent
    simp only []
    split
    · exact .inl ⟨_, rfl⟩
    · exact .inr ⟨_, rfl⟩
  · exact .inl ⟨_, rfl⟩

theorem vertexUV_iff (x : V3 F) (p : BrushPlane F) (t : Texture) : (∃ uv, vertexUV x p t = .ok uv) ↔
    ((∃ u v, p.uv = .quake u v) → HasLargest (faceNormal p)) := by
  have hn : p.normal = faceNormal p := rfl
  unfold vertexUV
  cases huv : p.uv with
  | valve a b c d => simp
  | quake u v =>
    simp only [UV.quake.injEq, exists_and_left, exists_eq', and_true, forall_const]
    unfold standardUV HasLargest Largest upVector rightVector forwardVector
    simp only [hn, Bool.and_eq_true]
    split
    · rename_i hh
      refine ⟨fun _ => ?_, fun _ => ⟨_, rfl⟩⟩
      split at hh
      · exact .inl ‹_›
      · split at hh
        · exact .inr (.inl ‹_›)
        · split at hh
          · exact .inr (.inr ‹_›)
          · cases hh
    · rename_i hh
      split at hh
      · cases hh
      · split at hh
        · cases hh
        · split at hh
          · cases hh
          · simp_all

theorem vertexUV_cases (x : V3 F) (p : BrushPlane F) (t : Texture) : OkOrPanic (vertexUV x p t) := by
  unfold vertexUV
  split
  · unfold standardUV
    simp only []
    split
    · exact .inl ⟨_, rfl⟩
    · exact .inr ⟨_, rfl⟩
  · exact .inl ⟨_, rfl⟩

theorem buildPlaneVertex_cases (texture : Option Texture) (entity : Entity F) (planes : List (BrushPlane F))
    (plane p1 p2 : BrushPlane F) : OkOrPanic (buildPlaneVertex texture entity planes plane p1 p2) := by
  unfold buildPlaneVertex
  split
  · split
    · refine (vertexTangent_cases plane).bind fun t => ?_
      refine OkOrPanic.bind ?_ fun _ => .inl ⟨_, rfl⟩
      split
      · exact (vertexUV_cases _ _ _).bind fun _ => .inl ⟨_, rfl⟩
      · exact .inl ⟨_, rfl⟩
    · exact .inl ⟨_, rfl⟩
  · exact .inl ⟨_, rfl⟩

theorem buildPlaneVertex_isOk (texture : Option Texture) (entity : Entity F) (planes : List (BrushPlane F))
    (plane p1 p2 : BrushPlane F) : (∃ v, buildPlaneVertex texture entity planes plane p1 p2 = .ok v) ↔
      ((∃ x, Meet plane p1 p2 x ∧ ∀ p ∈ planes, Behind p x) → (∃ u v, plane.uv = .quake u v) →
        HasLargest (faceNormal plane)) := by
  unfold buildPlaneVertex
  constructor
  · rintro ⟨v, h⟩ ⟨x, hm, hb⟩ hq
    rw [intersect_eq_some.2 hm] at h
    simp only [inHull_iff.2 hb, if_true] at h
    obtain ⟨t, ht, _⟩ := Outcome.bind_eq_ok.1 h
    exact (vertexTangent_iff plane).1 ⟨t, ht⟩ hq
  · intro h
    split
    · rename_i x hx
      split
      · rename_i hh
        have hq := h ⟨x, intersect_eq_some.1 hx, inHull_iff.1 hh⟩
        obtain ⟨t, ht⟩ := (vertexTangent_iff plane).2 hq
        rw [ht]
        simp only [Outcome.ok_bind]
        cases texture with
        | none => exact ⟨_, rfl⟩
        | some tx =>
          obtain ⟨uv, hu⟩ := (vertexUV_iff x plane tx).2 hq
          simp only [hu, Outcome.ok_bind]
          exact ⟨_, rfl⟩
      · exact ⟨_, rfl⟩
    · exact ⟨_, rfl⟩

theorem planeVertices_isOk (texture : Option Texture) (entity : Entity F) (planes : List (BrushPlane F))
    (plane : BrushPlane F) : (∃ vs, planeVertices texture entity planes plane = .ok vs) ↔
      ((∃ x, Found planes plane x) → (∃ u v, plane.uv = .quake u v) → HasLargest (faceNormal plane)) := by
  have e : (∃ vs, planeVertices texture entity planes plane = .ok vs) ↔
      ∀ p1 ∈ planes, ∀ p2 ∈ planes, ∃ v, buildPlaneVertex texture entity planes plane p1 p2 = .ok v := by
    unfold planeVertices
    constructor
    · rintro ⟨vs, h⟩ p1 h1 p2 h2
      obtain ⟨vss, a1, _⟩ := Outcome.bind_eq_ok.1 h
      obtain ⟨_, _, a2⟩ := mapOut_mem' a1 h1
      obtain ⟨ovs, a3, _⟩ := Outcome.bind_eq_ok.1 a2
      obtain ⟨v, _, a4⟩ := mapOut_mem' a3 h2
      exact ⟨v, a4⟩
    · intro h
      obtain ⟨vss, a⟩ := (mapOut_isOk (f := fun p1 =>
        (mapOut (fun p2 => buildPlaneVertex texture entity planes plane p1 p2) planes).bind fun vs =>
          .ok (vs.filterMap id)) (l := planes)).2 fun p1 h1 => by
            obtain ⟨vs, b⟩ := (mapOut_isOk (f := fun p2 => buildPlaneVertex texture entity planes plane p1 p2)
              (l := planes)).2 fun p2 h2 => h p1 h1 p2 h2
            exact ⟨_, by rw [b, Outcome.ok_bind]⟩
      exact ⟨_, by rw [a, Outcome.ok_bind]⟩
  rw [e]
  simp only [buildPlaneVertex_isOk]
  unfold Found
  constructor
  · rintro h ⟨x, ⟨p1, h1, p2, h2, hm⟩, hb⟩ hq
    exact h p1 h1 p2 h2 ⟨x, hm, hb⟩ hq
  · rintro h p1 h1 p2 h2 ⟨x, hm, hb⟩ hq
    exact h ⟨x, ⟨p1, h1, p2, h2, hm⟩, hb⟩ hq

variable [Platform]

theorem buildPlane_isOk (textures : TextureInfo) (entity : Entity F) (planes : List (BrushPlane F))
    (plane : BrushPlane F) : (∃ g, buildPlane textures entity planes plane = .ok g) ↔
      ((∃ x, Found planes plane x) → (∃ u v, plane.uv = .quake u v) → HasLargest (faceNormal plane)) := by
  rw [← planeVertices_isOk (textures plane.texture) entity]
  constructor
  · rintro ⟨g, h⟩
    obtain ⟨pvs, _, h1, _⟩ := buildPlane_ok h
    exact ⟨pvs, h1⟩
  · rintro ⟨pvs, h1⟩
    unfold buildPlane
    simp only [Map.get?]
    rw [h1]
    exact ⟨_, rfl⟩

theorem run_cases (textures : TextureInfo) (entities : List (Entity F)) :
    OkOrPanic (Geo.run textures entities) := by
  refine OkOrPanic.mapOut (fun e => ?_) _
  unfold Geo.buildEntity
  refine OkOrPanic.bind (OkOrPanic.mapOut (fun b => ?_) _) fun _ => .inl ⟨_, rfl⟩
  unfold buildBrush
  refine OkOrPanic.bind (OkOrPanic.mapOut (fun p => ?_) _) fun _ => .inl ⟨_, rfl⟩
  unfold buildPlane
  refine OkOrPanic.bind ?_ fun _ => .inl ⟨_, rfl⟩
  unfold planeVertices
  refine OkOrPanic.bind (OkOrPanic.mapOut (fun p1 => ?_) _) fun _ => .inl ⟨_, rfl⟩
  exact OkOrPanic.bind (OkOrPanic.mapOut (fun p2 => buildPlaneVertex_cases _ _ _ _ _ _) _) fun _ => .inl ⟨_, rfl⟩

/-- C32: exactly when building the geometry of a map aborts, in any arithmetic: some face with standard texture
layout has a corner although none of the components of its normal is the largest (which for numbers is
impossible). It never returns an error. -/
theorem C32_aborts_iff (textures : TextureInfo) (entities : List (Entity F)) :
    ((∃ m, Geo.run textures entities = .panic m) ↔
      ∃ e ∈ entities, ∃ b ∈ e.brushes, ∃ p ∈ b.planes, (∃ u v, p.uv = .quake u v) ∧
        (∃ x, Found b.planes p x) ∧ ¬ HasLargest (faceNormal p)) ∧
    ((¬ ∃ m, Geo.run textures entities = .panic m) → ∃ gs, Geo.run textures entities = .ok gs) := by
  have hok : (∃ gs, Geo.run textures entities = .ok gs) ↔
      ∀ e ∈ entities, ∀ b ∈ e.brushes, ∀ p ∈ b.planes,
        ((∃ x, Found b.planes p x) → (∃ u v, p.uv = .quake u v) → HasLargest (faceNormal p)) := by
    unfold Geo.run
    rw [mapOut_isOk]
    refine forall₂_congr fun e _ => ?_
    have h1 : (∃ g, Geo.buildEntity textures e = .ok g) ↔
        ∃ bgs, mapOut (fun b => buildBrush textures e b) e.brushes = .ok bgs := by
      unfold Geo.buildEntity
      constructor
      · rintro ⟨g, h⟩
        obtain ⟨bgs, h, _⟩ := Outcome.bind_eq_ok.1 h
        exact ⟨bgs, h⟩
      · rintro ⟨bgs, h⟩
        rw [h]; exact ⟨_, rfl⟩
    rw [h1, mapOut_isOk]
    refine forall₂_congr fun b _ => ?_
    have h2 : (∃ g, buildBrush textures e b = .ok g) ↔
        ∃ pgs, mapOut (fun p => buildPlane textures e b.planes p) b.planes = .ok pgs := by
      unfold buildBrush
      constructor
      · rintro ⟨g, h⟩
        obtain ⟨bgs, h, _⟩ := Outcome.bind_eq_ok.1 h
        exact ⟨bgs, h⟩
      · rintro ⟨bgs, h⟩
        rw [h]; exact ⟨_, rfl⟩
    rw [h2, mapOut_isOk]
    exact forall₂_congr fun p _ => buildPlane_isOk _ _ _ _
  have hex : (¬ ∃ m, Geo.run textures entities = .panic m) ↔ ∃ gs, Geo.run textures entities = .ok gs := by
    rcases run_cases textures entities with ⟨a, h⟩ | ⟨m, h⟩ <;> rw [h] <;> simp
  refine ⟨?_, hex.1⟩
  rw [← not_iff_not, hex, hok]
  simp only [not_exists, not_and, not_not, forall_exists_index]
  constructor
  · intro h e he b hb p hp u v hq x hx
    exact h e he b hb p hp x hx u v hq
  · intro h e he b hb p hp x hx u v hq
    exact h e he b hb p hp u v hq x hx

/-- C32, the part that holds: maps in Valve layout never abort, degenerate faces or not, in any arithmetic. -/
theorem C32_valve_partial (textures : TextureInfo) (entities : List (Entity F))
    (h : ∀ e ∈ entities, ∀ b ∈ e.brushes, ∀ p ∈ b.planes, ∃ ua uo va vo, p.uv = .valve ua uo va vo) :
    ∃ gs, Geo.run textures entities = .ok gs := by
  refine (C32_aborts_iff textures entities).2 ?_
  rw [(C32_aborts_iff textures entities).1]
  rintro ⟨e, he, b, hb, p, hp, ⟨u, v, hq⟩, _⟩
  obtain ⟨_, _, _, _, hv⟩ := h e he b hb p hp
  rw [hv] at hq
  cases hq

/-! ### NaN -/

variable [NaNRules F]
open NaNRules

/-- The face has no direction: its normal is not a number. -/
def NoDirection (p : BrushPlane F) : Prop := AllNaN (isNaN (F := F)) (faceNormal p)

/-- Any three planes one of which has no direction "meet" in a point that is not a number. -/
theorem meet_nan {p0 p1 p2 : BrushPlane F} (h : NoDirection p0 ∨ NoDirection p1) :
    ∃ x, Meet p0 p1 p2 x ∧ AllNaN (isNaN (F := F)) x := by
  have hdet : isNaN (Arith.dot (Arith.cross (faceNormal p0) (faceNormal p1)) (faceNormal p2)) := by
    apply dot_left
    rcases h with h | h
    · exact cross_left _ _ h
    · exact cross_right _ _ h
  refine ⟨_, ⟨_, rfl, lt_left _ _ hdet, rfl⟩, ?_⟩
  have hsum : AllNaN (isNaN (F := F)) (V3.add (V3.add
        (V3.smul (Arith.cross (faceNormal p1) (faceNormal p2)) (faceDist p0))
        (V3.smul (Arith.cross (faceNormal p2) (faceNormal p0)) (faceDist p1)))
        (V3.smul (Arith.cross (faceNormal p0) (faceNormal p1)) (faceDist p2))) := by
    have hc : AllNaN (isNaN (F := F)) (Arith.cross (faceNormal p0) (faceNormal p1)) := by
      rcases h with h | h
      · exact cross_left _ _ h
      · exact cross_right _ _ h
    exact ⟨add_right _ _ (mul_left _ _ hc.1), add_right _ _ (mul_left _ _ hc.2.1),
      add_right _ _ (mul_left _ _ hc.2.2)⟩
  exact ⟨div_left _ _ hsum.1, div_left _ _ hsum.2.1, div_left _ _ hsum.2.2⟩

theorem behind_nan (p : BrushPlane F) {x : V3 F} (h : AllNaN (isNaN (F := F)) x) : Behind p x := by
  rintro ⟨h1, _⟩
  rw [lt_right _ _ (dot_right _ _ h)] at h1
  cases h1

/-- C32 is false: a face with standard layout and no direction (for example with three equal points) aborts every
map it occurs in. -/
theorem C32_no_direction_aborts (textures : TextureInfo) (entities : List (Entity F)) (e : Entity F)
    (he : e ∈ entities) (b : Brush F) (hb : b ∈ e.brushes) (p : BrushPlane F) (hp : p ∈ b.planes) (u v : F)
    (hq : p.uv = .quake u v) (hn : NoDirection p) : ∃ m, Geo.run textures entities = .panic m := by
  refine (C32_aborts_iff textures entities).1.2 ⟨e, he, b, hb, p, hp, ⟨u, v, hq⟩, ?_, ?_⟩
  · obtain ⟨x, hm, hx⟩ := meet_nan (p0 := p) (p1 := p) (p2 := p) (.inl hn)
    exact ⟨x, ⟨p, hp, p, hp, hm⟩, fun q _ => behind_nan q hx⟩
  · have hd : ∀ w : V3 F, isNaN (Arith.abs (Arith.dot (faceNormal p) w)) := fun w => abs_nan _ (dot_left _ _ hn)
    unfold HasLargest Largest
    simp only [le_left _ _ (hd _)]
    simp

theorem foldl_add_nan (l : List (V3 F)) (a : V3 F)
    (h : AllNaN (isNaN (F := F)) a ∨ ∃ x ∈ l, AllNaN (isNaN (F := F)) x) :
    AllNaN (isNaN (F := F)) (l.foldl V3.add a) := by
  induction l generalizing a with
  | nil =>
    rcases h with h | ⟨x, hx, _⟩
    · exact h
    · simp at hx
  | cons y ys ih =>
    rw [List.foldl_cons]
    apply ih
    rcases h with h | ⟨x, hx, hn⟩
    · exact .inl ⟨add_left _ _ h.1, add_left _ _ h.2.1, add_left _ _ h.2.2⟩
    · rcases List.mem_cons.1 hx with rfl | hx
      · exact .inl ⟨add_right _ _ hn.1, add_right _ _ hn.2.1, add_right _ _ hn.2.2⟩
      · exact .inr ⟨x, hx, hn⟩

theorem mean_nan {l : List (V3 F)} {x : V3 F} (hx : x ∈ l) (hn : AllNaN (isNaN (F := F)) x) :
    AllNaN (isNaN (F := F)) (mean l) := by
  have := foldl_add_nan l V3.zero (.inr ⟨x, hx, hn⟩)
  exact ⟨div_left _ _ this.1, div_left _ _ this.2.1, div_left _ _ this.2.2⟩

/-- C72: a face without direction spoils every face of its brush: the centre and all corners are not numbers. -/
theorem C72_face_spoiled (textures : TextureInfo) (entity : Entity F) (planes : List (BrushPlane F))
    (p q : BrushPlane F) (hp : p ∈ planes) (hn : NoDirection p) (geo : PlaneGeo F)
    (h : buildPlane textures entity planes q = .ok geo) :
    geo.vertices ≠ [] ∧ AllNaN (isNaN (F := F)) geo.center ∧
    ∀ v ∈ geo.vertices, AllNaN (isNaN (F := F)) v.pos := by
  obtain ⟨pvs, h1, h2, h3⟩ := buildPlane_perm h
  obtain ⟨ha, hb⟩ := planeVertices_ok h1
  obtain ⟨x, hm, hx⟩ := meet_nan (p0 := q) (p1 := p) (p2 := p) (.inr hn)
  obtain ⟨v, hv, hvx, _⟩ := hb p hp p hp x hm fun r _ => behind_nan r hx
  -- it is kept because NaN equals nothing
  have hkeep : ∃ w ∈ uniqueVertices (isPhong entity) pvs, w.pos = x := by
    have aux : ∀ l : List (Vertex F), v ∈ l → ∃ w ∈ uniqueVertices (isPhong entity) l, w.pos = x := by
      intro l
      induction l with
      | nil => simp
      | cons a l ih =>
        intro hmem
        rw [uniqueVertices, uniqueVertex_eq]
        rcases List.mem_cons.1 hmem with rfl | hmem
        · split
          · rename_i hany
            obtain ⟨c, _, hc⟩ := List.any_eq_true.1 hany
            rw [hvx] at hc
            unfold V3.beq at hc
            simp [eq_right _ _ hx.1] at hc
          · exact ⟨finishNormal (isPhong entity) v, by simp, by simp [hvx]⟩
        · obtain ⟨w, hw, e⟩ := ih hmem
          exact ⟨w, by simp [hw], e⟩
    exact aux pvs hv
  obtain ⟨w, hw, hwx⟩ := hkeep
  have hc : AllNaN (isNaN (F := F)) geo.center := by
    rw [h2]
    exact mean_nan (List.mem_map_of_mem hw) (hwx ▸ hx)
  refine ⟨?_, hc, ?_⟩
  · intro e
    rw [e] at h3
    have := h3.symm.eq_nil
    rw [List.map_eq_nil_iff] at this
    rw [this] at hw
    simp at hw
  · intro v hv
    obtain ⟨u, hu, rfl⟩ := List.mem_map.1 (h3.mem_iff.1 hv)
    exact ⟨add_right _ _ hc.1, add_right _ _ hc.2.1, add_right _ _ hc.2.2⟩

/-- C72: … and with it the centre of the brush and, without `origin`, of the entity. -/
theorem C72_entity_spoiled (textures : TextureInfo) (entity : Entity F) (b : Brush F) (hb : b ∈ entity.brushes)
    (p : BrushPlane F) (hp : p ∈ b.planes) (hn : NoDirection p)
    (horigin : entity.properties (str! "origin") = none) (geo : EntityGeo F)
    (h : Geo.buildEntity textures entity = .ok geo) : AllNaN (isNaN (F := F)) geo.center := by
  unfold Geo.buildEntity at h
  obtain ⟨bgs, h1, h2⟩ := Outcome.bind_eq_ok.1 h
  have ho : entity.properties.get? (str! "origin") = none := horigin
  rw [ho] at h2
  cases h2
  obtain ⟨bg, hbg, e⟩ := mapOut_mem' h1 hb
  refine mean_nan (List.mem_map_of_mem hbg) ?_
  unfold buildBrush at e
  obtain ⟨pgs, e1, e2⟩ := Outcome.bind_eq_ok.1 e
  cases e2
  obtain ⟨pg, hpg, e3⟩ := mapOut_mem' e1 hp
  exact mean_nan (List.mem_map_of_mem hpg) (C72_face_spoiled _ _ _ _ _ hp hn _ e3).2.1

/-- A face whose three points are the same has no direction as soon as subtracting a number from itself and
multiplying zeros gives zero. -/
theorem noDirection_of_cross_zero (p : BrushPlane F)
    (h : Arith.cross (V3.sub p.v2 p.v0) (V3.sub p.v1 p.v0) = ⟨Arith.zero, Arith.zero, Arith.zero⟩) :
    NoDirection p := by
  unfold NoDirection faceNormal
  rw [h]
  exact normalize_zero

end

/-! ### in exact arithmetic with NaN: collinear points -/

section
variable [RealText] [Platform]

/-- Real numbers with NaN. -/
noncomputable local instance : Arith (Option ℝ) := withNaN realArith
noncomputable local instance : NaNRules (Option ℝ) := withNaN_rules realArith (by simp)

/-- A vector of numbers. -/
def num (a : V3 ℝ) : V3 (Option ℝ) := ⟨some a.x, some a.y, some a.z⟩

/-- Three collinear points give no direction. -/
theorem collinear_noDirection (p : BrushPlane (Option ℝ)) (a b c : V3 ℝ) (h0 : p.v0 = num a) (h1 : p.v1 = num b)
    (h2 : p.v2 = num c) (hcol : crossR (subR c a) (subR b a) = zeroR) : NoDirection p := by
  apply noDirection_of_cross_zero
  rw [h0, h1, h2]
  simp only [crossR, subR, zeroR, V3.mk.injEq] at hcol
  obtain ⟨e1, e2, e3⟩ := hcol
  show (⟨some _, some _, some _⟩ : V3 (Option ℝ)) = ⟨some _, some _, some _⟩
  congr 2

/-- C32 is false of collinear points: any map containing a face with standard texture layout whose three points
are collinear aborts. -/
theorem C32_collinear_aborts (textures : TextureInfo) (entities : List (Entity (Option ℝ)))
    (e : Entity (Option ℝ)) (he : e ∈ entities) (b : Brush (Option ℝ)) (hb : b ∈ e.brushes)
    (p : BrushPlane (Option ℝ)) (hp : p ∈ b.planes) (u v : Option ℝ) (hq : p.uv = .quake u v) (x y z : V3 ℝ)
    (h0 : p.v0 = num x) (h1 : p.v1 = num y) (h2 : p.v2 = num z)
    (hcol : crossR (subR z x) (subR y x) = zeroR) : ∃ m, Geo.run textures entities = .panic m :=
  C32_no_direction_aborts textures entities e he b hb p hp u v hq (collinear_noDirection p x y z h0 h1 h2 hcol)

/-- The face `( 0 0 0 ) ( 1 0 0 ) ( 2 0 0 ) brick 0 0 0 1 1`. -/
noncomputable def flatFace : BrushPlane (Option ℝ) :=
  ⟨num ⟨0, 0, 0⟩, num ⟨1, 0, 0⟩, num ⟨2, 0, 0⟩, str! "brick", .quake (some 0) (some 0), some 0,
    ⟨some 1, some 1⟩, .none⟩

/-- The same face in Valve layout. -/
noncomputable def flatValve : BrushPlane (Option ℝ) :=
  { flatFace with uv := .valve (num ⟨1, 0, 0⟩) (some 0) (num ⟨0, 1, 0⟩) (some 0) }

/-- A map of one brush with one face. -/
noncomputable def oneFace (p : BrushPlane (Option ℝ)) : Entity (Option ℝ) := ⟨Map.empty, [⟨[p]⟩]⟩

/-- C32 fails: witness. -/
example (textures : TextureInfo) : ∃ m, Geo.run textures [oneFace flatFace] = .panic m :=
  C32_collinear_aborts textures _ _ (List.mem_singleton.2 rfl) ⟨[flatFace]⟩ (List.mem_singleton.2 rfl) flatFace
    (List.mem_singleton.2 rfl) _ _ rfl ⟨0, 0, 0⟩ ⟨1, 0, 0⟩ ⟨2, 0, 0⟩ rfl rfl rfl (by simp [crossR, subR, zeroR])

/-- C32 and C72: the same face in Valve layout does not abort but spoils the entity. -/
example (textures : TextureInfo) : ∃ g, Geo.run textures [oneFace flatValve] = .ok [g] ∧
    g.center = ⟨none, none, none⟩ := by
  obtain ⟨gs, h⟩ := C32_valve_partial textures [oneFace flatValve] (by
    simp [oneFace, flatValve])
  obtain ⟨g, h1, h2⟩ : ∃ g, gs = [g] ∧ Geo.buildEntity textures (oneFace flatValve) = .ok g := by
    have := mapOut_eq_ok.1 h
    cases this with
    | cons a b => cases b; exact ⟨_, rfl, a⟩
  subst h1
  refine ⟨g, h, ?_⟩
  have hn : NoDirection flatValve :=
    collinear_noDirection flatValve ⟨0, 0, 0⟩ ⟨1, 0, 0⟩ ⟨2, 0, 0⟩ rfl rfl rfl (by simp [crossR, subR, zeroR])
  have := C72_entity_spoiled textures (oneFace flatValve) ⟨[flatValve]⟩ (List.mem_singleton.2 rfl) flatValve
    (List.mem_singleton.2 rfl) hn rfl g h2
  obtain ⟨c, s⟩ := g
  obtain ⟨x, y, z⟩ := c
  obtain ⟨h1, h2, h3⟩ := this
  cases h1; cases h2; cases h3
  rfl

end
end Quarch
