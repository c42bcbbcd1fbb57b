import Verif.Props.Alike
import Verif.Props.Used
/-
C100: textures, texture coordinates, shading and other properties change only what is seen.
-/
set_option linter.unusedSectionVars false
namespace Quarch
open Spec Scene Geo

section
variable {F : Type} [Arith F]

theorem vertex_pos {tex : Option Texture} {e : Entity F} {planes : List (BrushPlane F)} {p p1 p2 : BrushPlane F}
    {ov : Option (Vertex F)} (h : buildPlaneVertex tex e planes p p1 p2 = .ok ov) :
    ov.map (·.pos) = (intersect p p1 p2).bind fun x => if inHull x planes then some x else none := by
  unfold buildPlaneVertex at h
  cases hi : intersect p p1 p2 with
  | none => rw [hi] at h; cases h; rfl
  | some x =>
    rw [hi] at h
    simp only at h
    split at h
    · obtain ⟨_, _, h⟩ := Outcome.bind_eq_ok.1 h
      obtain ⟨_, _, h⟩ := Outcome.bind_eq_ok.1 h
      cases h
      simp [‹inHull x planes = true›]
    · cases h
      simp [‹¬ inHull x planes = true›]

theorem vertices_pos {tex : Option Texture} {e : Entity F} {planes : List (BrushPlane F)} {p : BrushPlane F}
    {pvs : List (Vertex F)} (h : planeVertices tex e planes p = .ok pvs) :
    pvs.map (·.pos) = planes.flatMap fun p1 => planes.filterMap fun p2 =>
      (intersect p p1 p2).bind fun x => if inHull x planes then some x else none := by
  unfold planeVertices at h
  obtain ⟨vss, h1, h⟩ := Outcome.bind_eq_ok.1 h
  cases h
  have inner : ∀ {p1 : BrushPlane F} {l : List (BrushPlane F)} {ovs : List (Option (Vertex F))},
      List.Forall₂ (fun p2 ov => buildPlaneVertex tex e planes p p1 p2 = .ok ov) l ovs →
      (ovs.filterMap id).map (·.pos) = l.filterMap fun p2 =>
        (intersect p p1 p2).bind fun x => if inHull x planes then some x else none := by
    intro p1 l ovs hl
    induction hl with
    | nil => rfl
    | @cons p2 ov l ovs hx _ ih =>
      rw [List.filterMap_cons, List.filterMap_cons, ← vertex_pos hx, ← ih]
      cases ov <;> rfl
  have key : ∀ {l : List (BrushPlane F)} {vss : List (List (Vertex F))},
      List.Forall₂ (fun p1 vs => (mapOut (fun p2 => buildPlaneVertex tex e planes p p1 p2) planes).bind
        (fun vs => .ok (vs.filterMap id)) = .ok vs) l vss →
      vss.flatten.map (·.pos) = l.flatMap fun p1 => planes.filterMap fun p2 =>
        (intersect p p1 p2).bind fun x => if inHull x planes then some x else none := by
    intro l vss hl
    induction hl with
    | nil => rfl
    | cons hx _ ih =>
      rw [List.flatten_cons, List.map_append, ih, List.flatMap_cons]
      congr 1
      obtain ⟨ovs, h2, hx⟩ := Outcome.bind_eq_ok.1 hx
      cases hx
      exact inner (mapOut_eq_ok.1 h2)
  exact key (mapOut_eq_ok.1 h1)

theorem map_eq_of_rel {α β γ : Type} {R : α → β → Prop} {f : α → γ} {f' : β → γ} (hf : ∀ a a', R a a' → f a = f' a')
    {l : List α} {l' : List β} (h : List.Forall₂ R l l') : l.map f = l'.map f' := by
  induction h with
  | nil => rfl
  | cons hx _ ih => rw [List.map_cons, List.map_cons, ih, hf _ _ hx]

theorem at_eq {l l' : List (Vertex F)} (h : l.map (·.pos) = l'.map (·.pos)) : List.Forall₂ (At Eq) l l' := by
  induction l generalizing l' with
  | nil =>
    cases l' with
    | nil => exact .nil
    | cons _ _ => cases h
  | cons v l ih =>
    cases l' with
    | nil => cases h
    | cons v' l' =>
      simp only [List.map_cons, List.cons.injEq] at h
      exact .cons h.1 (ih h.2)

theorem map_at {l l' : List (Vertex F)} (h : List.Forall₂ (At Eq) l l') : l.map (·.pos) = l'.map (·.pos) := by
  induction h with
  | nil => rfl
  | cons hv _ ih => rw [List.map_cons, List.map_cons, ih, hv]

/-- Planes through the same points. -/
theorem Spec.SamePoints.normal {p p' : BrushPlane F} (h : SamePoints p p') : p.normal = p'.normal := by
  unfold BrushPlane.normal
  rw [h.v0, h.v1, h.v2]

theorem Spec.SamePoints.dist {p p' : BrushPlane F} (h : SamePoints p p') : p.dist = p'.dist := by
  unfold BrushPlane.dist
  rw [h.normal, h.v0]

theorem samePoints_vertices {planes planes' : List (BrushPlane F)} (hs : List.Forall₂ SamePoints planes planes')
    {p p' : BrushPlane F} (hp : SamePoints p p') :
    (planes.flatMap fun p1 => planes.filterMap fun p2 =>
      (intersect p p1 p2).bind fun x => if inHull x planes then some x else none) =
    planes'.flatMap fun p1 => planes'.filterMap fun p2 =>
      (intersect p' p1 p2).bind fun x => if inHull x planes' then some x else none := by
  have hh : ∀ x, inHull x planes = inHull x planes' := by
    intro x
    unfold inHull
    refine all_rel ?_ hs
    intro q q' hq
    rw [hq.normal, hq.dist]
  have hi : ∀ {p1 p1' p2 p2'}, SamePoints p1 p1' → SamePoints p2 p2' → intersect p p1 p2 = intersect p' p1' p2' := by
    intro p1 p1' p2 p2' h1 h2
    unfold intersect
    rw [hp.normal, hp.dist, h1.normal, h1.dist, h2.normal, h2.dist]
  simp only [hh]
  have key : ∀ {l l' : List (BrushPlane F)}, List.Forall₂ SamePoints l l' → ∀ {p1 p1'}, SamePoints p1 p1' →
      (l.filterMap fun p2 => (intersect p p1 p2).bind fun x => if inHull x planes' then some x else none) =
        l'.filterMap fun p2 => (intersect p' p1' p2).bind fun x => if inHull x planes' then some x else none := by
    intro l l' hl p1 p1' h1
    induction hl with
    | nil => rfl
    | cons h2 _ ih => rw [List.filterMap_cons, List.filterMap_cons, ih, hi h1 h2]
  have key2 : ∀ {l l' : List (BrushPlane F)}, List.Forall₂ SamePoints l l' →
      (l.flatMap fun p1 => planes.filterMap fun p2 => (intersect p p1 p2).bind fun x => if inHull x planes' then some x else none) =
        l'.flatMap fun p1 => planes'.filterMap fun p2 => (intersect p' p1 p2).bind fun x => if inHull x planes' then some x else none := by
    intro l l' hl
    induction hl with
    | nil => rfl
    | cons h1 _ ih => rw [List.flatMap_cons, List.flatMap_cons, ih, key hs h1]
  exact key2 hs

/-- Both faces are drawn with the texture of water, or neither, and the same for slime. -/
def LikeLiquid (p p' : PlaneGeo F) : Prop :=
  ∀ t ∈ LayerFilter.layerTextures, (p.texture = some t ↔ p'.texture = some t)

variable [Platform] [NaturalSort]

theorem buildPlane_like {textures textures' : TextureInfo} {e e' : Entity F} {planes planes' : List (BrushPlane F)}
    (hl : ∀ t ∈ LayerFilter.layerTextures, ((textures t).isSome ↔ (textures' t).isSome))
    (hs : List.Forall₂ SamePoints planes planes') {p p' : BrushPlane F} (hp : SamePoints p p') {g g' : PlaneGeo F}
    (h : buildPlane textures e planes p = .ok g) (h' : buildPlane textures' e' planes' p' = .ok g') :
    LikeFace Eq g g' ∧ LikeLiquid g g' := by
  unfold buildPlane at h h'
  obtain ⟨pvs, h1, h⟩ := Outcome.bind_eq_ok.1 h
  obtain ⟨pvs', h1', h'⟩ := Outcome.bind_eq_ok.1 h'
  cases h; cases h'
  have hv : List.Forall₂ (At Eq) pvs pvs' := at_eq (by rw [vertices_pos h1, vertices_pos h1', samePoints_vertices hs hp])
  have hu := uniqueVertices_rel .eq (phong := isPhong e) (phong' := isPhong e') hv
  have hc : mean ((uniqueVertices (isPhong e) pvs).map (·.pos)) = mean ((uniqueVertices (isPhong e') pvs').map (·.pos)) := by
    rw [map_at hu]
  have hw := wind_rel .eq (p := p) (p' := p') (angle_eq (by unfold uAxis; rw [hp.v0, hp.v1]) hp.normal) hc hu
  refine ⟨⟨hc, hw, ?_⟩, ?_⟩
  · simp only [hw.length_eq]
  · intro t ht
    have h1 := hl t ht
    have h2 := hp.liquid t ht
    simp only [Map.get?]
    constructor
    · intro e1
      cases hx : textures p.texture with
      | none => rw [hx] at e1; cases e1
      | some x =>
        rw [hx] at e1
        have hpt := Option.some.inj e1
        have hpt' := h2.1 hpt
        rw [hpt] at hx
        rw [hx] at h1
        rw [hpt']
        cases hy : textures' t with
        | none => rw [hy] at h1; simp at h1
        | some _ => rfl
    · intro e1
      cases hx : textures' p'.texture with
      | none => rw [hx] at e1; cases e1
      | some x =>
        rw [hx] at e1
        have hpt := Option.some.inj e1
        have hpt' := h2.2 hpt
        rw [hpt] at hx
        rw [hx] at h1
        rw [hpt']
        cases hy : textures t with
        | none => rw [hy] at h1; simp at h1
        | some _ => rfl

theorem geo_like {textures textures' : TextureInfo} {fgd : Forge.GameData F} {e e' : Entity F}
    (hl : ∀ t ∈ LayerFilter.layerTextures, ((textures t).isSome ↔ (textures' t).isSome)) (hs : SameSolid fgd e e')
    {g g' : EntityGeo F} (h : Geo.buildEntity textures e = .ok g) (h' : Geo.buildEntity textures' e' = .ok g') :
    LikeEntity Eq LikeLiquid g g' := by
  unfold Geo.buildEntity at h h'
  obtain ⟨bgs, h1, h⟩ := Outcome.bind_eq_ok.1 h
  obtain ⟨bgs', h1', h'⟩ := Outcome.bind_eq_ok.1 h'
  cases h; cases h'
  have hb : List.Forall₂ (LikeBrush Eq LikeLiquid) bgs bgs' := by
    refine mapOut_rel (f := fun b => buildBrush textures e b) (f' := fun b => buildBrush textures' e' b) ?_ hs.brushes h1 h1'
    intro b b' hb c c' hc hc'
    unfold buildBrush at hc hc'
    obtain ⟨pgs, h2, hc⟩ := Outcome.bind_eq_ok.1 hc
    obtain ⟨pgs', h2', hc'⟩ := Outcome.bind_eq_ok.1 hc'
    cases hc; cases hc'
    have hp := mapOut_rel (f := fun p => buildPlane textures e b.planes p)
      (f' := fun p => buildPlane textures' e' b'.planes p) (Q := fun p p' => LikeFace Eq p p' ∧ LikeLiquid p p')
      (fun p p' hp g g' hg hg' => buildPlane_like hl hb hp hg hg') hb h2 h2'
    refine ⟨?_, hp⟩
    have : pgs.map (·.center) = pgs'.map (·.center) := map_eq_of_rel (fun _ _ h => h.1.center) hp
    simp only [this]
  have ho : e.properties (str! "origin") = e'.properties (str! "origin") :=
    hs.properties _ (.inl (by unfold placeKeys; simp))
  have hc : bgs.map (·.center) = bgs'.map (·.center) := map_eq_of_rel (fun _ _ h => h.center) hb
  refine ⟨?_, hb⟩
  simp only [Map.get?, ho, hc]

end

section
variable {F : Type} [Arith F]

theorem unseenAll_append : ∀ a b : List (Node F), unseenAll (a ++ b) = unseenAll a ++ unseenAll b
  | [], _ => rfl
  | n :: a, b => by rw [List.cons_append, unseenAll, unseenAll, unseenAll_append a b, List.append_assoc]

theorem unseen_visual (o : V3 F) (v : VisualGeometry F) : unseenAll (visualChildren o v) = [] := by
  cases v <;> rfl

theorem unseen_collision (o : V3 F) (c : CollisionGeometry F) :
    unseenAll (collisionChildren o c) = collisionChildren o c := by
  cases c <;> rfl

theorem entityProperties_solid {fgd : Forge.GameData F} {e e' : Entity F}
    (h : ∀ key, Significant fgd key → e.properties key = e'.properties key) :
    entityProperties fgd e = entityProperties fgd e' := by
  have hk : ∀ key ∈ placeKeys, e.properties key = e'.properties key := fun key hk => h key (.inl hk)
  have k1 := hk (str! "classname") (by unfold placeKeys; simp)
  have k2 := hk (str! "_tb_id") (by unfold placeKeys; simp)
  have k3 := hk (str! "_tb_group") (by unfold placeKeys; simp)
  have k4 := hk (str! "_tb_type") (by unfold placeKeys; simp)
  have k5 := hk (str! "_tb_name") (by unfold placeKeys; simp)
  unfold entityProperties addInternalInteger addInternalString Map.get?
  simp only [k1, k2, k3, k4, k5]
  cases hd : fgd.definitions.find? fun d => some d.className == e'.properties (str! "classname") with
  | none => rfl
  | some d =>
    have hfold : ∀ (l : List (Forge.Property F)) (m : Properties F), (∀ p ∈ l, p ∈ d.properties) →
        l.foldl (fun props fp => props.insert fp.name (propertyValue fp.data (e.properties fp.name))) m =
          l.foldl (fun props fp => props.insert fp.name (propertyValue fp.data (e'.properties fp.name))) m := by
      intro l
      induction l with
      | nil => intro m _; rfl
      | cons x l ih =>
        intro m hl
        rw [List.foldl_cons, List.foldl_cons,
          h x.name (.inr ⟨d, List.mem_of_find?_eq_some hd, x, hl x (by simp), rfl⟩)]
        exact ih _ fun p hp => hl p (by simp [hp])
    have key := fun m => hfold d.properties m fun _ h => h
    simp only [key]

/-- The entity is the same apart from what is seen. -/
def LikeData (fgd : Forge.GameData F) (d d' : Entity F × EntityGeo F) : Prop :=
  SameSolid fgd d.1 d'.1 ∧ LikeEntity Eq LikeLiquid d.2 d'.2

theorem entityCollision_like {gd : GameData F} {fgd : Forge.GameData F} {d d' : Entity F × EntityGeo F}
    (h : LikeData fgd d d') {c c' : CollisionGeometry F} (hc : entityCollision gd d.1 d.2 = .ok c)
    (hc' : entityCollision gd d'.1 d'.2 = .ok c') : c = c' := by
  have k1 : d.1.properties (str! "classname") = d'.1.properties (str! "classname") :=
    h.1.properties _ (.inl (by unfold placeKeys; simp))
  unfold entityCollision Map.get? at hc hc'
  rw [k1] at hc
  cases hn : d'.1.properties (str! "classname") with
  | none => rw [hn] at hc; cases hc
  | some name =>
    rw [hn] at hc hc'
    simp only at hc hc'
    cases hf : findDef gd name with
    | none => rw [hf] at hc hc'; cases hc; cases hc'; rfl
    | some x =>
      rw [hf] at hc hc'
      simp only at hc hc'
      cases hx : x.data with
      | point => rw [hx] at hc hc'; cases hc; cases hc'; rfl
      | brush _ bd =>
        rw [hx] at hc hc'
        exact (collision_rel .eq h.2.center h.2.brushes hc hc').eq

theorem buildEntity_like {gd : GameData F} {fgd : Forge.GameData F} {bl bl' : TextureBlacklist}
    {data data' : List (Entity F × EntityGeo F)} (hd : List.Forall₂ (LikeData fgd) data data') :
    ∀ {depth depth' : Nat} {o : V3 F} {d d' : Entity F × EntityGeo F} {n n' : Node F}, LikeData fgd d d' →
    Scene.buildEntity gd fgd bl data depth o d = .ok n → Scene.buildEntity gd fgd bl' data' depth' o d' = .ok n' →
    unseen n = unseen n' := by
  intro depth
  induction depth with
  | zero => intro depth' o d d' n n' _ h; unfold Scene.buildEntity at h; cases h
  | succ depth ih =>
    rintro depth' o ⟨e, g⟩ ⟨e', g'⟩ n n' hdd h h'
    cases depth' with
    | zero => unfold Scene.buildEntity at h'; cases h'
    | succ depth' =>
    obtain ⟨_, v, c, ents, name, props, e0, h1, h2, h3, h4, h5, rfl⟩ := buildEntity_ok h
    cases e0
    obtain ⟨_, v', c', ents', name', props', e0', h1', h2', h3', h4', h5', rfl⟩ := buildEntity_ok h'
    cases e0'
    have hc := entityCollision_like hdd h2 h2'
    have hk : ∀ key ∈ placeKeys, e.properties key = e'.properties key := fun key hk => hdd.1.properties key (.inl hk)
    have k1 := hk (str! "classname") (by unfold placeKeys; simp)
    have k2 := hk (str! "_tb_id") (by unfold placeKeys; simp)
    have hn : name = name' := by
      rw [k1, h4'] at h4
      exact (Option.some.inj h4).symm
    have hp : props = props' := by
      rw [entityProperties_solid hdd.1.properties, h5'] at h5
      exact (Outcome.ok.inj h5).symm
    have hdrop : List.Forall₂ (LikeData fgd) (data.drop 1) (data'.drop 1) := by
      cases hd with
      | nil => exact .nil
      | cons _ hd => exact hd
    have hmem : List.Forall₂ (LikeData fgd) ((data.drop 1).filter fun child => inGroup e child.1)
        ((data'.drop 1).filter fun child => inGroup e' child.1) := by
      refine filter_rel ?_ hdrop
      intro a a' ha
      have : a.1.properties (str! "_tb_group") = a'.1.properties (str! "_tb_group") :=
        ha.1.properties _ (.inl (by unfold placeKeys; simp))
      unfold inGroup Map.get?
      rw [this, k2]
    have hcen : g.center = g'.center := hdd.2.center
    have hch : unseenAll ents = unseenAll ents' := by
      have hk : ∀ {l l' : List (Entity F × EntityGeo F)} {ents ents' : List (Node F)}, List.Forall₂ (LikeData fgd) l l' →
          List.Forall₂ (fun child n => Scene.buildEntity gd fgd bl data depth (V3.neg g.center) child = .ok n) l ents →
          List.Forall₂ (fun child n => Scene.buildEntity gd fgd bl' data' depth' (V3.neg g.center) child = .ok n) l' ents' →
          unseenAll ents = unseenAll ents' := by
        intro l l' ents ents' hl
        induction hl generalizing ents ents' with
        | nil => intro a b; cases a; cases b; rfl
        | cons hx _ ihl =>
          intro a b
          cases a with
          | cons a1 a =>
            cases b with
            | cons b1 b => rw [unseenAll, unseenAll, ihl a b, ih hx a1 b1]
      exact hk hmem h3 (hcen ▸ h3')
    have ht : entityType gd e = entityType gd e' ∧ entityComponentClass gd e = entityComponentClass gd e' ∧
        entityPropertyApplicationType gd e = entityPropertyApplicationType gd e' := by
      unfold entityType entityComponentClass entityPropertyApplicationType Map.get?
      rw [k1]
      exact ⟨rfl, rfl, rfl⟩
    simp only [unseen, unseenAll_append, unseen_visual, unseen_collision, hch, hn, hp, hc, hcen, ht]

/-- The layers hold corresponding brushes. -/
def LikeLayer (l l' : Str × List (BrushGeo F)) : Prop :=
  l.1 = l'.1 ∧ l.1 ∈ LayerFilter.layerTextures ∧ List.Forall₂ (LikeBrush Eq LikeLiquid) l.2 l'.2

/-! ### layers -/

theorem filterStep_grows {vs : List (Vertex F)} {pred : VertexPred F} {l : List (Vertex F × Nat)} :
    ∀ {s t : FilterState F}, foldOut (filterStep vs pred) s l = .ok t → s.newVertices ≠ [] → t.newVertices ≠ [] := by
  induction l with
  | nil => intro s t h hs; cases h; exact hs
  | cons x l ih =>
    intro s t h hs
    rw [foldOut_cons] at h
    obtain ⟨u, h1, h⟩ := Outcome.bind_eq_ok.1 h
    refine ih h ?_
    unfold filterStep at h1
    simp only at h1
    split at h1
    · cases h1; simp
    · obtain ⟨_, _, h1⟩ := Outcome.bind_eq_ok.1 h1
      cases h1
      exact hs

theorem filterVertices_empty {vs : List (Vertex F)} {is : List Nat} {r : List (Vertex F) × List Nat}
    (h : filterVertices vs is vertexUnique = .ok r) : r.1 = [] ↔ vs = [] := by
  unfold filterVertices at h
  obtain ⟨t, h1, h⟩ := Outcome.bind_eq_ok.1 h
  cases h
  constructor
  · intro ht
    cases vs with
    | nil => rfl
    | cons v vs =>
      rw [List.zipIdx_cons, foldOut_cons] at h1
      obtain ⟨u, h2, h1⟩ := Outcome.bind_eq_ok.1 h1
      refine absurd ht (filterStep_grows h1 ?_)
      have : vertexUnique 0 v (v :: vs) = true := by
        unfold vertexUnique noneOrGe
        split <;> simp
      unfold filterStep at h2
      simp only [this, if_true] at h2
      cases h2
      simp
  · rintro rfl
    cases h1
    rfl

theorem gatherEntity_empty {g : EntityGeo F} {bp : BrushGeo F → Bool} {pp : PlaneGeo F → Bool}
    {r : List (Vertex F) × List Nat} (h : gatherEntity g (some bp) (some pp) (some vertexUnique) = .ok r) :
    r.1.isEmpty = (g.brushes.filter bp).all fun b => (b.planes.filter pp).all fun p => p.vertices.isEmpty := by
  unfold gatherEntity at h
  obtain ⟨parts, h1, h⟩ := Outcome.bind_eq_ok.1 h
  cases h
  simp only [Option.getD_some] at h1 ⊢
  have k := mapOut_eq_ok.1 h1
  clear h1
  rw [Bool.eq_iff_iff, List.isEmpty_iff, List.flatMap_eq_nil_iff, List.all_eq_true]
  have hb : ∀ b r, gatherBrush b (some pp) (some vertexUnique) = .ok r →
      (r.1 = [] ↔ ((b.planes.filter pp).all fun p => p.vertices.isEmpty) = true) := by
    intro b r hr
    unfold gatherBrush at hr
    simp only [Option.getD_some] at hr
    rw [filterVertices_empty hr, List.flatMap_eq_nil_iff, List.all_eq_true]
    simp only [List.isEmpty_iff]
  constructor
  · intro h b hb'
    obtain ⟨r, hr, hbr⟩ := forall₂_left k hb'
    exact (hb b r hbr).1 (h r hr)
  · intro h r hr
    obtain ⟨b, hb', hbr⟩ := forall₂_right k hr
    exact (hb b r hbr).2 (h b hb')

theorem layerVisual_like {layer : WorldspawnLayer} {l l' : Str × List (BrushGeo F)} (h : LikeLayer l l')
    {v v' : VisualGeometry F} (hv : layerVisual layer l.1 l.2 = .ok v) (hv' : layerVisual layer l'.1 l'.2 = .ok v') :
    (v = .none ↔ v' = .none) := by
  obtain ⟨ht, hm, hb⟩ := h
  unfold layerVisual at hv hv'
  cases hl : layer.visualType with
  | none => rw [hl] at hv hv'; cases hv; cases hv'; rfl
  | mesh =>
    rw [hl] at hv hv'
    simp only at hv hv'
    obtain ⟨o, h1, hv⟩ := Outcome.bind_eq_ok.1 hv
    obtain ⟨o', h1', hv'⟩ := Outcome.bind_eq_ok.1 hv'
    unfold textureSurface at h1 h1'
    obtain ⟨r, h2, h1⟩ := Outcome.bind_eq_ok.1 h1
    obtain ⟨r', h2', h1'⟩ := Outcome.bind_eq_ok.1 h1'
    have e1 := gatherEntity_empty h2
    have e2 := gatherEntity_empty h2'
    have hk : r.1.isEmpty = r'.1.isEmpty := by
      rw [e1, e2]
      refine all_rel (R := LikeBrush Eq LikeLiquid) ?_ (filter_rel ?_ hb)
      · intro b b' hbb
        refine all_rel (R := fun p p' => LikeFace Eq p p' ∧ LikeLiquid p p') ?_ (filter_rel ?_ hbb.planes)
        · intro p p' hp
          have := hp.1.vertices
          generalize p.vertices = x at this
          generalize p'.vertices = y at this
          cases this <;> rfl
        · intro p p' hp
          have := hp.2 l.1 hm
          unfold hasTexture
          rw [Bool.eq_iff_iff, ← ht]
          simpa using this
      · intro b b' hbb
        unfold brushNotBlacklisted
        refine any_rel ?_ hbb.planes
        intro p p' _
        cases p.texture <;> cases p'.texture <;> rfl
    simp only at h1 h1'
    rw [hk] at h1
    split at h1
    · rw [if_pos ‹_›] at h1'
      cases h1; cases h1'; cases hv; cases hv'
      rfl
    · rw [if_neg ‹_›] at h1'
      cases h1; cases h1'; cases hv; cases hv'
      simp

theorem buildLayer_like {gd : GameData F} {l l' : Str × List (BrushGeo F)} (h : LikeLayer l l') {o o' : Option (Node F)}
    (ho : buildLayer gd l = .ok o) (ho' : buildLayer gd l' = .ok o') : unseenAll o.toList = unseenAll o'.toList := by
  unfold buildLayer at ho ho'
  rw [← h.1] at ho'
  cases hf : gd.worldspawnLayers.filter fun x => x.texture == l.1 with
  | nil => rw [hf] at ho ho'; cases ho; cases ho'; rfl
  | cons layer rest =>
    cases rest with
    | cons _ _ => rw [hf] at ho ho'; cases ho; cases ho'; rfl
    | nil =>
      rw [hf] at ho ho'
      simp only at ho ho'
      obtain ⟨v, h1, ho⟩ := Outcome.bind_eq_ok.1 ho
      obtain ⟨c, h2, ho⟩ := Outcome.bind_eq_ok.1 ho
      obtain ⟨v', h1', ho'⟩ := Outcome.bind_eq_ok.1 ho'
      obtain ⟨c', h2', ho'⟩ := Outcome.bind_eq_ok.1 ho'
      have hv := layerVisual_like h h1 (h.1 ▸ h1')
      have hc : c = c' := (collision_rel .eq (P := Eq) (T := LikeLiquid) (g := ⟨V3.zero, l.2⟩) (g' := ⟨V3.zero, l'.2⟩)
        rfl h.2.2 h2 h2').eq
      subst hc
      have he : (visualChildren (V3.zero (F := F)) v ++ collisionChildren V3.zero c).isEmpty =
          (visualChildren (V3.zero (F := F)) v' ++ collisionChildren V3.zero c).isEmpty := by
        cases v with
        | none => rw [hv.1 rfl]
        | mesh ss =>
          cases v' with
          | none => exact absurd (hv.2 rfl) (by simp)
          | mesh ss' => rfl
      rw [he] at ho
      split at ho
      · rw [if_pos ‹_›] at ho'
        cases ho; cases ho'; rfl
      · rw [if_neg ‹_›] at ho'
        cases ho; cases ho'
        simp only [Option.toList_some, unseenAll, unseen, unseenAll_append, unseen_visual, unseen_collision]

theorem unseenAll_filterMap (ls : List (Option (Node F))) :
    unseenAll (ls.filterMap id) = ls.flatMap fun o => unseenAll o.toList := by
  induction ls with
  | nil => rfl
  | cons o ls ih =>
    cases o with
    | none =>
      have : (none :: ls).filterMap id = ls.filterMap id := rfl
      rw [this, ih]; rfl
    | some n =>
      have : (some n :: ls).filterMap id = n :: ls.filterMap id := rfl
      rw [this, unseenAll, ih]
      simp [unseenAll]

/-- What is left of a layer. -/
def layerRest (gd : GameData F) (l : Str × List (BrushGeo F)) : List (Node F) :=
  match buildLayer gd l with
  | .ok o => unseenAll o.toList
  | _ => []

theorem layers_perm {gd : GameData F} {order order' : List (Str × List (BrushGeo F)) → List (Str × List (BrushGeo F))}
    (horder : ∀ l, (order l).Perm l) (horder' : ∀ l, (order' l).Perm l) {L L' : List (Str × List (BrushGeo F))}
    (hL : List.Forall₂ LikeLayer L L') {ls ls' : List (Option (Node F))}
    (h : List.Forall₂ (fun l o => buildLayer gd l = .ok o) (order L) ls)
    (h' : List.Forall₂ (fun l o => buildLayer gd l = .ok o) (order' L') ls') :
    (ls.flatMap fun o => unseenAll o.toList).Perm (ls'.flatMap fun o => unseenAll o.toList) := by
  have key : ∀ {L : List (Str × List (BrushGeo F))} {ls : List (Option (Node F))},
      List.Forall₂ (fun l o => buildLayer gd l = .ok o) L ls →
      (ls.flatMap fun o => unseenAll o.toList) = L.flatMap (layerRest gd) := by
    intro L ls h
    induction h with
    | nil => rfl
    | cons hx _ ih =>
      rw [List.flatMap_cons, List.flatMap_cons, ih]
      congr 1
      unfold layerRest
      rw [hx]
  have hok : ∀ l ∈ L, ∃ o, buildLayer gd l = .ok o := fun l hl => by
    obtain ⟨o, _, ho⟩ := forall₂_left h ((horder L).mem_iff.2 hl)
    exact ⟨o, ho⟩
  have hok' : ∀ l ∈ L', ∃ o, buildLayer gd l = .ok o := fun l hl => by
    obtain ⟨o, _, ho⟩ := forall₂_left h' ((horder' L').mem_iff.2 hl)
    exact ⟨o, ho⟩
  have hmid : L.flatMap (layerRest gd) = L'.flatMap (layerRest gd) := by
    clear h h'
    induction hL with
    | nil => rfl
    | @cons l l' L L' hx _ ih =>
      rw [List.flatMap_cons, List.flatMap_cons, ih (fun x hx => hok x (by simp [hx])) fun x hx => hok' x (by simp [hx])]
      congr 1
      obtain ⟨o, ho⟩ := hok l (by simp)
      obtain ⟨o', ho'⟩ := hok' l' (by simp)
      unfold layerRest
      rw [ho, ho']
      exact buildLayer_like hx ho ho'
  rw [key h, key h']
  exact ((horder L).flatMap_right _).trans (hmid ▸ ((horder' L').flatMap_right _).symm)

variable [Platform] [NaturalSort]

/-- C100: textures of faces, their sizes and coordinates, surface flags, blacklists, shading and properties that no
class declares change only what is seen: if two maps have the same points of faces and the same significant properties,
their scenes have the same nodes, properties, positions and collision shapes. -/
theorem C100_texturing (depth depth' : Nat)
    (order order' : List (Str × List (BrushGeo F)) → List (Str × List (BrushGeo F)))
    (horder : ∀ l, (order l).Perm l) (horder' : ∀ l, (order' l).Perm l)
    (config config' : Config F) (hg : config.quarchitectGameData = config'.quarchitectGameData)
    (hf : config.forgeGameData = config'.forgeGameData)
    (hliquid : ∀ t ∈ [str! "*water0", str! "*slime0"], ((config.textureInfo t).isSome ↔ (config'.textureInfo t).isSome))
    (text text' : Str) (hm : config.mapFile = some text) (hm' : config'.mapFile = some text')
    (entities entities' : List (Entity F)) (hl : LoadsAs text entities) (hl' : LoadsAs text' entities')
    (hs : List.Forall₂ (SameSolid config.forgeGameData) entities entities') (nodes nodes' : List (Node F))
    (h : Quarch.run depth order config = .ok nodes) (h' : Quarch.run depth' order' config' = .ok nodes') :
    ∃ w ls es w' ls' es', nodes = w :: (ls ++ es) ∧ nodes' = w' :: (ls' ++ es') ∧
      es.length = entities.countP (fun e => TopLevel e) ∧ es'.length = es.length ∧
      unseen w = unseen w' ∧ (unseenAll ls).Perm (unseenAll ls') ∧ unseenAll es = unseenAll es' := by
  obtain ⟨hall, w, wn, ls, es, hw, e1, hwn, hls, hes⟩ := (run_list hm hl).1 h
  obtain ⟨hall', w', wn', ls', es', hw', e1', hwn', hls', hes'⟩ := (run_list hm' hl').1 h'
  rw [← hg] at hwn' hls' hes'
  rw [← hf] at hwn' hes'
  have hclass : ∀ e e', SameSolid config.forgeGameData e e' →
      e.properties (str! "classname") = e'.properties (str! "classname") ∧
      e.properties (str! "_tb_group") = e'.properties (str! "_tb_group") := fun e e' h =>
    ⟨h.properties _ (.inl (by unfold placeKeys; simp)), h.properties _ (.inl (by unfold placeKeys; simp))⟩
  have hworld : ∀ e e', SameSolid config.forgeGameData e e' → decide (IsWorld e) = decide (IsWorld e') := by
    intro e e' h
    rw [decide_eq_decide]
    unfold IsWorld
    rw [(hclass e e' h).1]
  have htop : ∀ e e', SameSolid config.forgeGameData e e' → decide (TopLevel e) = decide (TopLevel e') := by
    intro e e' h
    rw [decide_eq_decide]
    unfold TopLevel groupOf
    rw [(hclass e e' h).1, (hclass e e' h).2]
  -- entities with their geometry
  have hdata : List.Forall₂ (fun e e' => SameSolid config.forgeGameData e e' ∧
      LikeEntity Eq LikeLiquid (geoOf config.textureInfo e) (geoOf config'.textureInfo e')) entities entities' := by
    have : ∀ {l l' : List (Entity F)}, List.Forall₂ (SameSolid config.forgeGameData) l l' →
        (∀ e ∈ l, e ∈ entities) → (∀ e ∈ l', e ∈ entities') →
        List.Forall₂ (fun e e' => SameSolid config.forgeGameData e e' ∧
          LikeEntity Eq LikeLiquid (geoOf config.textureInfo e) (geoOf config'.textureInfo e')) l l' := by
      intro l l' hll
      induction hll with
      | nil => intro _ _; exact .nil
      | @cons e e' l l' he _ ih =>
        intro k k'
        exact .cons ⟨he, geo_like hliquid he (hall e (k e (by simp))) (hall' e' (k' e' (by simp)))⟩
          (ih (fun x hx => k x (by simp [hx])) fun x hx => k' x (by simp [hx]))
    exact this hs (fun _ h => h) fun _ h => h
  have hww : SameSolid config.forgeGameData w w' ∧
      LikeEntity Eq LikeLiquid (geoOf config.textureInfo w) (geoOf config'.textureInfo w') := by
    have := filter_rel (p := fun e => decide (IsWorld e)) (p' := fun e => decide (IsWorld e)) (fun e e' h => hworld e e' h.1) hdata
    rw [hw, hw'] at this
    cases this with
    | cons h _ => exact h
  obtain ⟨k1, k2⟩ := splitLayers_rel (fun h => h) hww.2.brushes
  have hwd : LikeData config.forgeGameData (worldOf config.textureInfo w) (worldOf config'.textureInfo w') :=
    ⟨hww.1, ⟨hww.2.center, k1⟩⟩
  have hoth : List.Forall₂ (LikeData config.forgeGameData)
      ((others entities).map fun e => (e, geoOf config.textureInfo e))
      ((others entities').map fun e => (e, geoOf config'.textureInfo e)) := by
    refine map_rel (Q := LikeData config.forgeGameData) (f := fun e => (e, geoOf config.textureInfo e))
      (f' := fun e => (e, geoOf config'.textureInfo e)) (fun _ _ h => h) (filter_rel ?_ hdata)
    intro e e' h
    have := hworld e e' h.1
    simp only [decide_not, this]
  have hd := List.Forall₂.cons hwd hoth
  have htops := filter_rel (p := fun e => decide (TopLevel e)) (p' := fun e => decide (TopLevel e)) (fun e e' h => htop e e' h.1) hdata
  refine ⟨wn, ls.filterMap id, es, wn', ls'.filterMap id, es', e1, e1', ?_, ?_, ?_, ?_, ?_⟩
  · rw [← hes.length_eq, List.countP_eq_length_filter]
  · rw [← hes.length_eq, ← hes'.length_eq]
    exact htops.length_eq.symm
  · exact buildEntity_like hd hwd hwn hwn'
  · rw [unseenAll_filterMap, unseenAll_filterMap]
    exact layers_perm horder horder' k2 hls hls'
  · have hk : ∀ {l l' : List (Entity F)} {es es' : List (Node F)},
        List.Forall₂ (fun e e' => SameSolid config.forgeGameData e e' ∧
          LikeEntity Eq LikeLiquid (geoOf config.textureInfo e) (geoOf config'.textureInfo e')) l l' →
        List.Forall₂ (fun e n => Scene.buildEntity config.quarchitectGameData config.forgeGameData config.textureBlacklist
          (worldOf config.textureInfo w :: (others entities).map fun e => (e, geoOf config.textureInfo e)) depth V3.zero
          (e, geoOf config.textureInfo e) = .ok n) l es →
        List.Forall₂ (fun e n => Scene.buildEntity config.quarchitectGameData config.forgeGameData config'.textureBlacklist
          (worldOf config'.textureInfo w' :: (others entities').map fun e => (e, geoOf config'.textureInfo e)) depth' V3.zero
          (e, geoOf config'.textureInfo e) = .ok n) l' es' → unseenAll es = unseenAll es' := by
      intro l l' es es' hll
      induction hll generalizing es es' with
      | nil => intro a b; cases a; cases b; rfl
      | @cons e e' _ _ hx _ ihl =>
        intro a b
        cases a with
        | cons a1 a =>
          cases b with
          | cons b1 b =>
            have hx' : LikeData config.forgeGameData (e, geoOf config.textureInfo e) (e', geoOf config'.textureInfo e') := hx
            rw [unseenAll, unseenAll, ihl a b, buildEntity_like hd hx' a1 b1]
    exact hk htops hes hes'

end
end Quarch
