import Verif.Spec.Texturing
import Verif.Props.Local
/-
Geometry with the same or moved positions: what is built from it corresponds, vertex by vertex.
-/
set_option linter.unusedSectionVars false
namespace Quarch
open Spec Scene Geo

section
variable {F : Type} [Arith F]

theorem sort_rel [Platform] [NaturalSort] {α β : Type} {R : α → β → Prop} {cmp : α → α → Ordering}
    {cmp' : β → β → Ordering} (hc : ∀ a a' b b', R a a' → R b b' → cmp a b = cmp' a' b') {l : List α} {l' : List β}
    (h : List.Forall₂ R l l') : List.Forall₂ R (Platform.sortBy cmp l) (Platform.sortBy cmp' l') := by
  obtain ⟨ps, rfl, rfl⟩ : ∃ ps : List {p : α × β // R p.1 p.2}, ps.map (·.1.1) = l ∧ ps.map (·.1.2) = l' := by
    induction h with
    | nil => exact ⟨[], rfl, rfl⟩
    | @cons a b _ _ hab _ ih =>
      obtain ⟨ps, h1, h2⟩ := ih
      exact ⟨⟨(a, b), hab⟩ :: ps, by simp [h1], by simp [h2]⟩
  rw [NaturalSort.map, NaturalSort.map]
  have : (fun a b : {p : α × β // R p.1 p.2} => cmp a.1.1 b.1.1) = fun a b => cmp' a.1.2 b.1.2 := by
    funext a b
    exact hc _ _ _ _ a.2 b.2
  rw [this, List.forall₂_map_left_iff, List.forall₂_map_right_iff, List.forall₂_same]
  exact fun a _ => a.2

theorem findIdx_rel {α β : Type} {R : α → β → Prop} {p : α → Bool} {p' : β → Bool} (hp : ∀ a a', R a a' → p a = p' a')
    {l : List α} {l' : List β} (h : List.Forall₂ R l l') : l.findIdx? p = l'.findIdx? p' := by
  induction h with
  | nil => rfl
  | cons hab _ ih => rw [List.findIdx?_cons, List.findIdx?_cons, hp _ _ hab, ih]

theorem any_rel {α β : Type} {R : α → β → Prop} {p : α → Bool} {p' : β → Bool} (hp : ∀ a a', R a a' → p a = p' a')
    {l : List α} {l' : List β} (h : List.Forall₂ R l l') : l.any p = l'.any p' := by
  induction h with
  | nil => rfl
  | cons hab _ ih => rw [List.any_cons, List.any_cons, hp _ _ hab, ih]

theorem all_rel {α β : Type} {R : α → β → Prop} {p : α → Bool} {p' : β → Bool} (hp : ∀ a a', R a a' → p a = p' a')
    {l : List α} {l' : List β} (h : List.Forall₂ R l l') : l.all p = l'.all p' := by
  induction h with
  | nil => rfl
  | cons hab _ ih => rw [List.all_cons, List.all_cons, hp _ _ hab, ih]

theorem filter_rel {α β : Type} {R : α → β → Prop} {p : α → Bool} {p' : β → Bool} (hp : ∀ a a', R a a' → p a = p' a')
    {l : List α} {l' : List β} (h : List.Forall₂ R l l') : List.Forall₂ R (l.filter p) (l'.filter p') := by
  induction h with
  | nil => exact .nil
  | @cons a b _ _ hab _ ih =>
    have hab' := hp _ _ hab
    cases hb : p' b with
    | true => rw [List.filter_cons_of_pos (by rw [hab', hb]), List.filter_cons_of_pos hb]; exact .cons hab ih
    | false =>
      rw [List.filter_cons_of_neg (by rw [hab', hb]; decide), List.filter_cons_of_neg (by rw [hb]; decide)]
      exact ih

theorem append_rel {α β : Type} {R : α → β → Prop} {a b : List α} {a' b' : List β} (h : List.Forall₂ R a a')
    (h' : List.Forall₂ R b b') : List.Forall₂ R (a ++ b) (a' ++ b') := by
  induction h with
  | nil => exact h'
  | cons hab _ ih => exact .cons hab ih

theorem flatMap_rel {α β γ δ : Type} {R : α → β → Prop} {Q : γ → δ → Prop} {f : α → List γ} {f' : β → List δ}
    (hf : ∀ a a', R a a' → List.Forall₂ Q (f a) (f' a')) {l : List α} {l' : List β} (h : List.Forall₂ R l l') :
    List.Forall₂ Q (l.flatMap f) (l'.flatMap f') := by
  induction h with
  | nil => exact .nil
  | cons hab _ ih => rw [List.flatMap_cons, List.flatMap_cons]; exact append_rel (hf _ _ hab) ih

theorem map_rel {α β γ δ : Type} {R : α → β → Prop} {Q : γ → δ → Prop} {f : α → γ} {f' : β → δ}
    (hf : ∀ a a', R a a' → Q (f a) (f' a')) {l : List α} {l' : List β} (h : List.Forall₂ R l l') :
    List.Forall₂ Q (l.map f) (l'.map f') := by
  induction h with
  | nil => exact .nil
  | cons hab _ ih => exact .cons (hf _ _ hab) ih

theorem mapOut_rel {α β γ δ : Type} {R : α → β → Prop} {Q : γ → δ → Prop} {f : α → Outcome γ} {f' : β → Outcome δ}
    (hf : ∀ a a', R a a' → ∀ c c', f a = .ok c → f' a' = .ok c' → Q c c') {l : List α} {l' : List β}
    (h : List.Forall₂ R l l') {r : List γ} {r' : List δ} (hr : mapOut f l = .ok r) (hr' : mapOut f' l' = .ok r') :
    List.Forall₂ Q r r' := by
  have k := mapOut_eq_ok.1 hr
  have k' := mapOut_eq_ok.1 hr'
  clear hr hr'
  induction h generalizing r r' with
  | nil => cases k; cases k'; exact .nil
  | cons hab _ ih =>
    cases k with
    | cons h1 k =>
      cases k' with
      | cons h1' k' => exact .cons (hf _ _ hab _ _ h1 h1') (ih k k')

/-- Corresponding positions: comparisons agree, and positions relative to a centre correspond by `D`. -/
structure PosRel (P D : V3 F → V3 F → Prop) : Prop where
  beq : ∀ {a a' b b'}, P a a' → P b b' → V3.beq a b = V3.beq a' b'
  sub : ∀ {a a' c c'}, P a a' → P c c' → D (V3.sub a c) (V3.sub a' c')
  add : ∀ {x x' c c'}, D x x' → P c c' → P (V3.add x c) (V3.add x' c')

theorem PosRel.eq : PosRel (F := F) Eq Eq :=
  ⟨by rintro _ _ _ _ rfl rfl; rfl, by rintro _ _ _ _ rfl rfl; rfl, by rintro _ _ _ _ rfl rfl; rfl⟩

/-- The vertices are at corresponding positions. -/
def At (P : V3 F → V3 F → Prop) (v v' : Vertex F) : Prop := P v.pos v'.pos

/-- The faces have corresponding vertices and the same triangles. -/
structure LikeFace (P : V3 F → V3 F → Prop) (g g' : PlaneGeo F) : Prop where
  center : P g.center g'.center
  vertices : List.Forall₂ (At P) g.vertices g'.vertices
  indices : g.indices = g'.indices

/-- The brushes have corresponding faces. -/
structure LikeBrush (P : V3 F → V3 F → Prop) (T : PlaneGeo F → PlaneGeo F → Prop) (g g' : BrushGeo F) : Prop where
  center : P g.center g'.center
  planes : List.Forall₂ (fun p p' => LikeFace P p p' ∧ T p p') g.planes g'.planes

/-- The entities have corresponding brushes. -/
structure LikeEntity (P : V3 F → V3 F → Prop) (T : PlaneGeo F → PlaneGeo F → Prop) (g g' : EntityGeo F) : Prop where
  center : P g.center g'.center
  brushes : List.Forall₂ (LikeBrush P T) g.brushes g'.brushes

variable {P D : V3 F → V3 F → Prop}

theorem uniqueVertex_pos {phong : Bool} {v w : Vertex F} {rest : List (Vertex F)} (h : uniqueVertex phong v rest = some w) :
    w.pos = v.pos := by
  unfold uniqueVertex at h
  cases hf : rest.find? (fun comp => V3.beq comp.pos v.pos) with
  | some _ => rw [hf] at h; cases h
  | none =>
    rw [hf] at h
    have hk : ∀ (l : List (Vertex F)) (a : Vertex F), (l.foldl (fun acc next =>
        if V3.beq next.pos acc.pos then { acc with normal := next.normal } else acc) a).pos = a.pos := by
      intro l
      induction l with
      | nil => intro a; rfl
      | cons x l ih =>
        intro a
        rw [List.foldl_cons, ih]
        split <;> rfl
    simp only at h
    split at h
    · cases h; exact hk _ _
    · cases h; rfl

theorem uniqueVertex_isSome {phong : Bool} {v : Vertex F} {rest : List (Vertex F)} :
    (uniqueVertex phong v rest).isSome = !rest.any fun comp => V3.beq comp.pos v.pos := by
  unfold uniqueVertex
  cases hf : rest.find? (fun comp => V3.beq comp.pos v.pos) with
  | some w =>
    have h1 := List.find?_some hf
    have h2 := List.mem_of_find?_eq_some hf
    have : rest.any (fun comp => V3.beq comp.pos v.pos) = true := List.any_eq_true.2 ⟨w, h2, h1⟩
    rw [this]; rfl
  | none =>
    have : rest.any (fun comp => V3.beq comp.pos v.pos) = false := by
      rw [List.find?_eq_none] at hf
      rw [List.any_eq_false]
      exact hf
    rw [this]
    simp only
    split <;> rfl

theorem uniqueVertices_rel (hP : PosRel P D) {phong phong' : Bool} {l l' : List (Vertex F)}
    (h : List.Forall₂ (At P) l l') : List.Forall₂ (At P) (uniqueVertices phong l) (uniqueVertices phong' l') := by
  induction h with
  | nil => exact .nil
  | @cons v v' l l' hv hl ih =>
    unfold uniqueVertices
    refine append_rel ?_ ih
    have hs : (uniqueVertex phong v l).isSome = (uniqueVertex phong' v' l').isSome := by
      rw [uniqueVertex_isSome, uniqueVertex_isSome]
      congr 1
      exact any_rel (fun a a' ha => hP.beq ha hv) hl
    cases h1 : uniqueVertex phong v l with
    | none =>
      rw [h1] at hs
      cases h2 : uniqueVertex phong' v' l' with
      | none => exact .nil
      | some _ => rw [h2] at hs; cases hs
    | some w =>
      rw [h1] at hs
      cases h2 : uniqueVertex phong' v' l' with
      | none => rw [h2] at hs; cases hs
      | some w' =>
        refine .cons ?_ .nil
        unfold At
        rw [uniqueVertex_pos h1, uniqueVertex_pos h2]
        exact hv

theorem wind_rel [Platform] [NaturalSort] (hP : PosRel P D) {p p' : BrushPlane F}
    (ha : ∀ x x', D x x' → angle p x = angle p' x') {c c' : V3 F} (hc : P c c') {l l' : List (Vertex F)}
    (h : List.Forall₂ (At P) l l') : List.Forall₂ (At P) (windVertices p c l) (windVertices p' c' l') := by
  unfold windVertices
  refine map_rel (R := fun v v' : Vertex F => D v.pos v'.pos) ?_ ?_
  · intro a a' ha
    exact hP.add ha hc
  · refine sort_rel ?_ (map_rel ?_ h)
    · intro a a' b b' ha' hb'
      unfold windCmp
      rw [ha _ _ ha', ha _ _ hb']
    · intro a a' ha
      exact hP.sub ha hc

/-- The angles agree if the axes do. -/
theorem angle_eq {p p' : BrushPlane F} (hu : uAxis p = uAxis p') (hn : p.normal = p'.normal) (x x' : V3 F) (h : x = x') :
    angle p x = angle p' x' := by
  unfold angle vAxis
  rw [h, hu, hn]

/-! ### gathering -/

theorem filterStep_rel (hP : PosRel P D) {vs vs' : List (Vertex F)} (h : List.Forall₂ (At P) vs vs')
    {l l' : List (Vertex F × Nat)} (hl : List.Forall₂ (fun a a' => At P a.1 a'.1 ∧ a.2 = a'.2) l l') :
    ∀ {s s' t t' : FilterState F}, s.indices = s'.indices → s.newIndices = s'.newIndices →
      List.Forall₂ (At P) s.newVertices s'.newVertices →
      foldOut (filterStep vs vertexUniquePosition) s l = .ok t →
      foldOut (filterStep vs' vertexUniquePosition) s' l' = .ok t' →
      t.indices = t'.indices ∧ t.newIndices = t'.newIndices ∧ List.Forall₂ (At P) t.newVertices t'.newVertices := by
  induction hl with
  | nil => intro s s' t t' h1 h2 h3 e e'; cases e; cases e'; exact ⟨h1, h2, h3⟩
  | @cons a a' l l' ha _ ih =>
    intro s s' t t' h1 h2 h3 e e'
    rw [foldOut_cons] at e e'
    obtain ⟨u, hu, e⟩ := Outcome.bind_eq_ok.1 e
    obtain ⟨u', hu', e'⟩ := Outcome.bind_eq_ok.1 e'
    have hfind : (vs.findIdx? fun comp => samePos comp a.1) = vs'.findIdx? fun comp => samePos comp a'.1 :=
      findIdx_rel (fun b b' hb => hP.beq hb ha.1) h
    have hpred : vertexUniquePosition a.2 a.1 vs = vertexUniquePosition a'.2 a'.1 vs' := by
      unfold vertexUniquePosition
      rw [hfind, ha.2]
    unfold filterStep at hu hu'
    simp only [hpred] at hu
    split at hu
    · rw [if_pos ‹_›] at hu'
      cases hu; cases hu'
      refine ih ?_ ?_ ?_ e e'
      · exact h1
      · simp only [h2, ha.2]
      · exact append_rel h3 (.cons ha.1 .nil)
    · rw [if_neg ‹_›] at hu'
      rw [hfind] at hu
      obtain ⟨k, hk, hu⟩ := Outcome.bind_eq_ok.1 hu
      obtain ⟨k', hk', hu'⟩ := Outcome.bind_eq_ok.1 hu'
      rw [hk] at hk'
      cases hk'
      cases hu; cases hu'
      refine ih ?_ ?_ ?_ e e'
      · simp only [h1, ha.2]
      · exact h2
      · exact h3

theorem zipIdx_rel {α β : Type} {R : α → β → Prop} {l : List α} {l' : List β} (h : List.Forall₂ R l l') :
    ∀ k, List.Forall₂ (fun a a' => R a.1 a'.1 ∧ a.2 = a'.2) (l.zipIdx k) (l'.zipIdx k) := by
  induction h with
  | nil => intro k; exact .nil
  | cons hab _ ih => intro k; rw [List.zipIdx_cons, List.zipIdx_cons]; exact .cons ⟨hab, rfl⟩ (ih _)

variable {T : PlaneGeo F → PlaneGeo F → Prop}

theorem gatherBrush_rel (hP : PosRel P D) {b b' : BrushGeo F} (h : LikeBrush P T b b') {r r' : List (Vertex F) × List Nat}
    (hr : gatherBrush b none (some vertexUniquePosition) = .ok r)
    (hr' : gatherBrush b' none (some vertexUniquePosition) = .ok r') :
    List.Forall₂ (At P) r.1 r'.1 ∧ r.2 = r'.2 := by
  unfold gatherBrush at hr hr'
  simp only [Option.getD_none, List.filter_true] at hr hr'
  unfold filterVertices at hr hr'
  obtain ⟨t, h1, hr⟩ := Outcome.bind_eq_ok.1 hr
  obtain ⟨t', h1', hr'⟩ := Outcome.bind_eq_ok.1 hr'
  cases hr; cases hr'
  have hv : List.Forall₂ (At P) (b.planes.flatMap (·.vertices)) (b'.planes.flatMap (·.vertices)) :=
    flatMap_rel (fun _ _ h => h.1.vertices) h.planes
  have hi : (b.planes.map fun p => (p.vertices.length, p.indices)) = b'.planes.map fun p => (p.vertices.length, p.indices) := by
    have := h.planes
    generalize b.planes = l at this
    generalize b'.planes = l' at this
    induction this with
    | nil => rfl
    | cons hab _ ih => rw [List.map_cons, List.map_cons, ih, hab.1.vertices.length_eq, hab.1.indices]
  rw [hi] at h1
  obtain ⟨k1, k2, k3⟩ := filterStep_rel hP hv (zipIdx_rel hv 0) rfl rfl .nil h1 h1'
  exact ⟨k3, by simp only [k1, k2]⟩

/-- The collision shapes have corresponding points and the same triangles. -/
inductive LikeCollision (P C : V3 F → V3 F → Prop) : CollisionGeometry F → CollisionGeometry F → Prop
  | none : LikeCollision P C .none .none
  | convex {ss ss' : List (ConvexCollision F)} :
      List.Forall₂ (fun s s' => P s.center s'.center ∧ List.Forall₂ P s.points s'.points) ss ss' →
      LikeCollision P C (.convex ss) (.convex ss')
  | concave {ss ss' : List (ConcaveCollision F)} :
      List.Forall₂ (fun s s' => C s.center s'.center ∧ List.Forall₂ P s.vertices s'.vertices ∧ s.indices = s'.indices) ss ss' →
      LikeCollision P C (.concave ss) (.concave ss')

theorem uniquePoints_rel (hP : PosRel P D) {l l' : List (V3 F)} (h : List.Forall₂ P l l') :
    List.Forall₂ P (uniquePoints l) (uniquePoints l') := by
  induction h with
  | nil => exact .nil
  | @cons a a' l l' ha hl ih =>
    unfold uniquePoints
    refine append_rel ?_ ih
    have hk : ∀ (l : List (V3 F)) (a : V3 F), (l.find? fun comp => V3.beq a comp).isNone = !l.any fun comp => V3.beq a comp := by
      intro l a
      induction l with
      | nil => rfl
      | cons x l ih =>
        rw [List.find?_cons, List.any_cons]
        cases V3.beq a x <;> simp [ih]
    have : (l.find? fun comp => V3.beq a comp).isNone = (l'.find? fun comp => V3.beq a' comp).isNone := by
      rw [hk, hk]
      congr 1
      exact any_rel (fun b b' hb => hP.beq ha hb) hl
    rw [this]
    split
    · exact .cons ha .nil
    · exact .nil

theorem offset_rel {parts parts' : List (List (Vertex F) × List Nat)}
    (h : List.Forall₂ (fun r r' => List.Forall₂ (At P) r.1 r'.1 ∧ r.2 = r'.2) parts parts') :
    parts.map (fun p => (p.1.length, p.2)) = parts'.map fun p => (p.1.length, p.2) := by
  induction h with
  | nil => rfl
  | cons hab _ ih => rw [List.map_cons, List.map_cons, ih, hab.1.length_eq, hab.2]

theorem collision_rel (hP : PosRel P D) {C : V3 F → V3 F → Prop} {g g' : EntityGeo F} (hC : C g.center g'.center)
    (h : List.Forall₂ (LikeBrush P T) g.brushes g'.brushes) {ct : CollisionType}
    {c c' : CollisionGeometry F} (hc : collisionOf ct g = .ok c) (hc' : collisionOf ct g' = .ok c') :
    LikeCollision P C c c' := by
  cases ct with
  | none => cases hc; cases hc'; exact .none
  | convex =>
    cases hc; cases hc'
    refine .convex (map_rel ?_ h)
    intro b b' hb
    refine ⟨hb.center, uniquePoints_rel hP (flatMap_rel ?_ hb.planes)⟩
    intro p p' hp
    exact map_rel (R := At P) (Q := P) (f := (·.pos)) (f' := (·.pos)) (fun _ _ hv => hv) hp.1.vertices
  | concave =>
    change concaveCollision g = .ok c at hc
    change concaveCollision g' = .ok c' at hc'
    unfold concaveCollision gatherEntity at hc hc'
    simp only [Option.getD_none, List.filter_true] at hc hc'
    obtain ⟨⟨vs, is⟩, h1, hc⟩ := Outcome.bind_eq_ok.1 hc
    obtain ⟨⟨vs', is'⟩, h1', hc'⟩ := Outcome.bind_eq_ok.1 hc'
    obtain ⟨parts, h2, h1⟩ := Outcome.bind_eq_ok.1 h1
    obtain ⟨parts', h2', h1'⟩ := Outcome.bind_eq_ok.1 h1'
    cases h1; cases h1'
    have hp := mapOut_rel (R := LikeBrush P T) (f := fun b => gatherBrush b none (some vertexUniquePosition))
      (f' := fun b => gatherBrush b none (some vertexUniquePosition)) (fun b b' hb c c' hc hc' => gatherBrush_rel hP hb hc hc')
      h h2 h2'
    have hv : List.Forall₂ P ((parts.flatMap (·.1)).map (·.pos)) ((parts'.flatMap (·.1)).map (·.pos)) :=
      map_rel (R := At P) (Q := P) (f := (·.pos)) (f' := (·.pos)) (fun _ _ hv => hv) (flatMap_rel (fun _ _ hr => hr.1) hp)
    simp only at hc hc'
    have he : ((parts.flatMap (·.1)).map (·.pos)).isEmpty = ((parts'.flatMap (·.1)).map (·.pos)).isEmpty := by
      generalize (parts.flatMap (·.1)).map (·.pos) = a at hv
      generalize (parts'.flatMap (·.1)).map (·.pos) = b at hv
      cases hv <;> rfl
    rw [he] at hc
    split at hc
    · rw [if_pos ‹_›] at hc'
      cases hc; cases hc'; exact .none
    · rw [if_neg ‹_›] at hc'
      cases hc; cases hc'
      refine .concave (.cons ⟨hC, hv, ?_⟩ .nil)
      simp only [offset_rel hp]

theorem LikeCollision.eq {c c' : CollisionGeometry F} (h : LikeCollision Eq Eq c c') : c = c' := by
  have hl : ∀ {a b : List (V3 F)}, List.Forall₂ Eq a b → a = b := fun h => List.forall₂_eq_eq_eq ▸ h
  cases h with
  | none => rfl
  | convex h =>
    congr 1
    induction h with
    | nil => rfl
    | @cons a b _ _ hab _ ih =>
      rw [ih]
      congr 1
      obtain ⟨h1, h2⟩ := hab
      cases a; cases b
      simp only at h1 h2
      rw [h1, hl h2]
  | concave h =>
    congr 1
    induction h with
    | nil => rfl
    | @cons a b _ _ hab _ ih =>
      rw [ih]
      congr 1
      obtain ⟨h1, h2, h3⟩ := hab
      cases a; cases b
      simp only at h1 h2 h3
      rw [h1, hl h2, h3]

theorem splitLayers_form (bs : List (BrushGeo F)) : LayerFilter.splitLayers LayerFilter.layerTextures bs =
    ((bs.filter (not ∘ LayerFilter.byLayer (str! "*water0"))).filter (not ∘ LayerFilter.byLayer (str! "*slime0")),
      [(str! "*water0", bs.filter (LayerFilter.byLayer (str! "*water0"))),
       (str! "*slime0", (bs.filter (not ∘ LayerFilter.byLayer (str! "*water0"))).filter
          (LayerFilter.byLayer (str! "*slime0")))]) := by
  simp only [LayerFilter.splitLayers, LayerFilter.layerTextures, List.foldl_cons, List.foldl_nil,
    List.partition_eq_filter_filter, List.nil_append, List.cons_append]

theorem splitLayers_mem (bs : List (BrushGeo F)) :
    (∀ b ∈ (LayerFilter.splitLayers LayerFilter.layerTextures bs).1, b ∈ bs) ∧
      ∀ l ∈ (LayerFilter.splitLayers LayerFilter.layerTextures bs).2, ∀ b ∈ l.2, b ∈ bs := by
  rw [splitLayers_form]
  refine ⟨fun b hb => (List.mem_filter.1 (List.mem_filter.1 hb).1).1, ?_⟩
  intro l hl b hb
  simp only [List.mem_cons, List.not_mem_nil, or_false] at hl
  rcases hl with rfl | rfl
  · exact (List.mem_filter.1 hb).1
  · exact (List.mem_filter.1 (List.mem_filter.1 hb).1).1

theorem splitLayers_rel (hT : ∀ {p p' : PlaneGeo F}, T p p' → ∀ t ∈ LayerFilter.layerTextures,
      (p.texture = some t ↔ p'.texture = some t)) {bs bs' : List (BrushGeo F)} (h : List.Forall₂ (LikeBrush P T) bs bs') :
    List.Forall₂ (LikeBrush P T) (LayerFilter.splitLayers LayerFilter.layerTextures bs).1
        (LayerFilter.splitLayers LayerFilter.layerTextures bs').1 ∧
      List.Forall₂ (fun l l' => l.1 = l'.1 ∧ l.1 ∈ LayerFilter.layerTextures ∧ List.Forall₂ (LikeBrush P T) l.2 l'.2)
        (LayerFilter.splitLayers LayerFilter.layerTextures bs).2 (LayerFilter.splitLayers LayerFilter.layerTextures bs').2 := by
  have hb : ∀ t ∈ LayerFilter.layerTextures, ∀ b b', LikeBrush P T b b' →
      LayerFilter.byLayer t b = LayerFilter.byLayer t b' := by
    intro t ht b b' h
    unfold LayerFilter.byLayer
    refine all_rel ?_ h.planes
    intro p p' hp
    have := hT hp.2 t ht
    cases h1 : p.texture with
    | none =>
      cases h2 : p'.texture with
      | none => rfl
      | some x =>
        rw [h1, h2] at this
        have hx : x ≠ t := fun e => by have := this.2 (by rw [e]); cases this
        simp [hx]
    | some y =>
      cases h2 : p'.texture with
      | none =>
        rw [h1, h2] at this
        have hx : y ≠ t := fun e => by have := this.1 (by rw [e]); cases this
        simp [hx]
      | some x =>
        rw [h1, h2] at this
        rw [Bool.eq_iff_iff]
        simpa using this
  rw [splitLayers_form, splitLayers_form]
  have hw : str! "*water0" ∈ LayerFilter.layerTextures := by unfold LayerFilter.layerTextures; simp
  have hs : str! "*slime0" ∈ LayerFilter.layerTextures := by unfold LayerFilter.layerTextures; simp
  have hn : ∀ t ∈ LayerFilter.layerTextures, ∀ b b', LikeBrush P T b b' →
      (not ∘ LayerFilter.byLayer t) b = (not ∘ LayerFilter.byLayer t) b' := by
    intro t ht b b' h
    simp only [Function.comp, hb t ht b b' h]
  have k1 := filter_rel (hn _ hw) h
  exact ⟨filter_rel (hn _ hs) k1, .cons ⟨rfl, hw, filter_rel (hb _ hw) h⟩ (.cons ⟨rfl, hs, filter_rel (hb _ hs) k1⟩ .nil)⟩

/-- Faces with the same texture. -/
def SameTexture (p p' : PlaneGeo F) : Prop := p.texture = p'.texture

theorem faceCorners_rel {p p' : PlaneGeo F} (h : LikeFace P p p') :
    List.Forall₂ (At P) (faceCorners p) (faceCorners p') := by
  unfold faceCorners
  rw [h.indices]
  generalize p'.indices = is
  induction is with
  | nil => exact .nil
  | cons i is ih =>
    have hl := h.vertices.length_eq
    rw [List.filterMap_cons, List.filterMap_cons]
    by_cases hi : i < p.vertices.length
    · rw [List.getElem?_eq_getElem hi, List.getElem?_eq_getElem (hl ▸ hi)]
      exact .cons ((List.forall₂_iff_get.1 h.vertices).2 i hi (hl ▸ hi)) ih
    · rw [List.getElem?_eq_none (by omega), List.getElem?_eq_none (by omega)]
      exact ih

theorem hidden_rel {b b' : BrushGeo F} (h : LikeBrush P SameTexture b b') (bl : TextureBlacklist) :
    Hidden bl b ↔ Hidden bl b' := by
  unfold Hidden
  constructor
  · intro hb p' hp'
    obtain ⟨p, hp, _, hx⟩ := forall₂_right h.planes hp'
    rw [← hx]
    exact hb p hp
  · intro hb p hp
    obtain ⟨p', hp', _, hx⟩ := forall₂_left h.planes hp
    rw [hx]
    exact hb p' hp'

theorem shown_rel {bs bs' : List (BrushGeo F)} (h : List.Forall₂ (LikeBrush P SameTexture) bs bs')
    (bl : TextureBlacklist) (texture : Option Str) :
    List.Forall₂ (At P) ((shownFaces bl texture bs).flatten.flatMap faceCorners)
      ((shownFaces bl texture bs').flatten.flatMap faceCorners) := by
  have h1 : List.Forall₂ (fun p p' => LikeFace P p p' ∧ SameTexture p p') (shownFaces bl texture bs).flatten
      (shownFaces bl texture bs').flatten := by
    unfold shownFaces
    rw [← List.flatMap_def, ← List.flatMap_def]
    refine flatMap_rel (R := LikeBrush P SameTexture) ?_ (filter_rel ?_ h)
    · intro b b' hb
      refine filter_rel ?_ hb.planes
      intro p p' hp
      rw [hp.2]
    · intro b b' hb
      rw [decide_eq_decide, hidden_rel hb]
  exact flatMap_rel (fun p p' hp => faceCorners_rel hp.1) h1

theorem surface_exists_rel [LawfulEq F] {g g' : EntityGeo F} (hg : Fanned g.brushes) (hg' : Fanned g'.brushes)
    (h : List.Forall₂ (LikeBrush P SameTexture) g.brushes g'.brushes) (bl : TextureBlacklist) (texture : Option Str) :
    (∃ s, textureSurface g bl texture = .ok (some s)) ↔ ∃ s, textureSurface g' bl texture = .ok (some s) := by
  rw [surface_iff g bl hg, surface_iff g' bl hg']
  constructor
  · rintro ⟨b, hb, hh, p, hp, ht, hv⟩
    obtain ⟨b', hb', hbb⟩ := forall₂_left h hb
    obtain ⟨p', hp', hpp⟩ := forall₂_left hbb.planes hp
    refine ⟨b', hb', fun h0 => hh ((hidden_rel hbb bl).2 h0), p', hp', hpp.2 ▸ ht, fun h0 => hv ?_⟩
    have := hpp.1.vertices.length_eq
    rw [h0] at this
    exact List.eq_nil_of_length_eq_zero this
  · rintro ⟨b', hb', hh, p', hp', ht, hv⟩
    obtain ⟨b, hb, hbb⟩ := forall₂_right h hb'
    obtain ⟨p, hp, hpp⟩ := forall₂_right hbb.planes hp'
    refine ⟨b, hb, fun h0 => hh ((hidden_rel hbb bl).1 h0), p, hp, hpp.2.trans ht, fun h0 => hv ?_⟩
    have := hpp.1.vertices.length_eq
    rw [h0] at this
    exact List.eq_nil_of_length_eq_zero this.symm

end
end Quarch
