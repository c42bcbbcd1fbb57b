import Verif.Props.Size
import Verif.Props.FaceSize
import Verif.Spec.Rendered
/-
C131: how much geometry the scene has.
-/
set_option linter.unusedSectionVars false
namespace Quarch
open Spec Scene

section
variable {F : Type} [Arith F]

/-- A number for every face of the geometry, added up. -/
def faceSum (μ : PlaneGeo F → Nat) (bs : List (BrushGeo F)) : Nat := (bs.map fun b => (b.planes.map μ).sum).sum

theorem filterVertices_size {vs : List (Vertex F)} {is : List Nat} {p : VertexPred F} {r : List (Vertex F) × List Nat}
    (h : filterVertices vs is p = .ok r) : r.1.length ≤ vs.length ∧ r.2.length ≤ is.length := by
  unfold filterVertices at h
  obtain ⟨s, h1, h⟩ := Outcome.bind_eq_ok.1 h
  cases h
  have h2 := foldOut_inv (fun done (s : FilterState F) => s.newVertices.length ≤ done.length ∧ s.indices.length = is.length)
    (by simp) (by
      intro done x s s' _ ⟨hi, hj⟩ hs
      unfold filterStep at hs
      simp only at hs
      split at hs
      · cases hs
        simp only [List.length_append, List.length_cons, List.length_nil]
        omega
      · obtain ⟨pos, _, hs⟩ := Outcome.bind_eq_ok.1 hs
        cases hs
        simp only [List.length_append, List.length_cons, List.length_nil, List.length_map]
        omega) h1
  refine ⟨by simpa using h2.1, Nat.le_trans (List.length_filterMap_le _ _) (Nat.le_of_eq h2.2)⟩

theorem offset_length (off : Nat) (l : List (Nat × List Nat)) :
    (offsetIndices off l).length = (l.map fun p => p.2.length).sum := by
  induction l generalizing off with
  | nil => rfl
  | cons p l ih =>
    obtain ⟨n, is⟩ := p
    simp [offsetIndices, ih]

theorem gatherBrush_size {b : BrushGeo F} {pp : PlaneGeo F → Bool} {vp : VertexPred F} {r : List (Vertex F) × List Nat}
    (h : gatherBrush b (some pp) (some vp) = .ok r) :
    r.1.length ≤ ((b.planes.filter pp).map fun p => p.vertices.length).sum ∧
      r.2.length ≤ ((b.planes.filter pp).map fun p => p.indices.length).sum := by
  unfold gatherBrush at h
  have := filterVertices_size h
  rw [offset_length, List.length_flatMap, List.map_map] at this
  exact this

theorem gatherBrush_all {b : BrushGeo F} {vp : VertexPred F} {r : List (Vertex F) × List Nat}
    (h : gatherBrush b none (some vp) = .ok r) :
    r.1.length ≤ (b.planes.map fun p => p.vertices.length).sum ∧
      r.2.length ≤ (b.planes.map fun p => p.indices.length).sum := by
  have e : gatherBrush b none (some vp) = gatherBrush b (some fun _ => true) (some vp) := rfl
  rw [e] at h
  have := gatherBrush_size h
  rwa [List.filter_true] at this

theorem sum_map_le {α : Type} {f g : α → Nat} {l : List α} (h : ∀ x ∈ l, f x ≤ g x) : (l.map f).sum ≤ (l.map g).sum := by
  induction l with
  | nil => exact Nat.le_refl _
  | cons x l ih =>
    have h1 := h x (by simp)
    have h2 := ih fun y hy => h y (by simp [hy])
    simp only [List.map_cons, List.sum_cons]
    omega

theorem sum_sublist {α : Type} (f : α → Nat) {l m : List α} (h : l.Sublist m) : (l.map f).sum ≤ (m.map f).sum := by
  induction h with
  | slnil => exact Nat.le_refl _
  | cons _ _ ih => simp only [List.map_cons, List.sum_cons]; omega
  | cons_cons _ _ ih => simp only [List.map_cons, List.sum_cons]; omega

theorem sum_forall₂ {α β : Type} {R : α → β → Prop} {f : α → Nat} {g : β → Nat} {l : List α} {m : List β}
    (h : List.Forall₂ R l m) (hr : ∀ a ∈ l, ∀ b, R a b → g b ≤ f a) : (m.map g).sum ≤ (l.map f).sum := by
  induction h with
  | nil => exact Nat.le_refl _
  | cons hab _ ih =>
    have h1 := hr _ (by simp) _ hab
    have h2 := ih fun a ha => hr a (by simp [ha])
    simp only [List.map_cons, List.sum_cons]
    omega

theorem gatherEntity_size {g : EntityGeo F} {bp : BrushGeo F → Bool} {pp : PlaneGeo F → Bool} {vp : VertexPred F}
    {r : List (Vertex F) × List Nat} (h : gatherEntity g (some bp) (some pp) (some vp) = .ok r) :
    r.1.length ≤ (g.brushes.map fun b => ((b.planes.filter pp).map fun p => p.vertices.length).sum).sum ∧
      r.2.length ≤ (g.brushes.map fun b => ((b.planes.filter pp).map fun p => p.indices.length).sum).sum := by
  unfold gatherEntity at h
  obtain ⟨parts, h1, h⟩ := Outcome.bind_eq_ok.1 h
  cases h
  have h2 := mapOut_eq_ok.1 h1
  simp only [offset_length, List.length_flatMap, List.map_map]
  constructor
  · exact Nat.le_trans (sum_forall₂ h2 fun b _ r hr => (gatherBrush_size hr).1) (sum_sublist _ List.filter_sublist)
  · exact Nat.le_trans (sum_forall₂ h2 fun b _ r hr => (gatherBrush_size hr).2) (sum_sublist _ List.filter_sublist)

theorem gatherEntity_all {g : EntityGeo F} {vp : VertexPred F}
    {r : List (Vertex F) × List Nat} (h : gatherEntity g none none (some vp) = .ok r) :
    r.1.length ≤ faceSum (fun p => p.vertices.length) g.brushes ∧ r.2.length ≤ faceSum (fun p => p.indices.length) g.brushes := by
  unfold gatherEntity at h
  obtain ⟨parts, h1, h⟩ := Outcome.bind_eq_ok.1 h
  cases h
  have h2 := mapOut_eq_ok.1 h1
  simp only [offset_length, List.length_flatMap, List.map_map]
  constructor
  · exact Nat.le_trans (sum_forall₂ h2 fun b _ r hr => (gatherBrush_all hr).1) (sum_sublist _ List.filter_sublist)
  · exact Nat.le_trans (sum_forall₂ h2 fun b _ r hr => (gatherBrush_all hr).2) (sum_sublist _ List.filter_sublist)

theorem textureSurface_size {g : EntityGeo F} {bl : TextureBlacklist} {t : Option Str} {o : Option (MeshSurface F)}
    (h : textureSurface g bl t = .ok o) (s : MeshSurface F) (hs : o = some s) :
    s.vertices.length ≤ (g.brushes.map fun b => ((b.planes.filter (hasTexture t)).map fun p => p.vertices.length).sum).sum ∧
      s.indices.length ≤ (g.brushes.map fun b => ((b.planes.filter (hasTexture t)).map fun p => p.indices.length).sum).sum := by
  subst hs
  unfold textureSurface at h
  obtain ⟨⟨vs, is⟩, h1, h⟩ := Outcome.bind_eq_ok.1 h
  have h2 := gatherEntity_size h1
  simp only at h
  split at h
  · cases h
  · cases h
    simpa using h2

/-- Every face has one texture. -/
theorem by_texture (μ : PlaneGeo F → Nat) {ts : List (Option Str)} (hts : ts.Nodup) (bs : List (BrushGeo F)) :
    (ts.map fun t => (bs.map fun b => ((b.planes.filter (hasTexture t)).map μ).sum).sum).sum ≤ faceSum μ bs := by
  have face : ∀ (ts : List (Option Str)), ts.Nodup → ∀ p : PlaneGeo F,
      (ts.map fun t => if hasTexture t p then μ p else 0).sum ≤ μ p ∧
        (p.texture ∉ ts → (ts.map fun t => if hasTexture t p then μ p else 0).sum = 0) := by
    intro ts hts p
    induction ts with
    | nil => simp
    | cons t ts ih =>
      obtain ⟨h1, h2⟩ := List.nodup_cons.1 hts
      obtain ⟨i1, i2⟩ := ih h2
      simp only [List.map_cons, List.sum_cons]
      by_cases ht : p.texture = t
      · have := i2 (ht ▸ h1)
        constructor
        · rw [this]; split <;> omega
        · intro hn; simp [ht] at hn
      · have : hasTexture t p = false := by simp [hasTexture, ht]
        rw [this]
        simp only [Bool.false_eq_true, if_false, Nat.zero_add]
        exact ⟨i1, fun hn => i2 fun hm => hn (by simp [hm])⟩
  have planes : ∀ ps : List (PlaneGeo F), (ts.map fun t => ((ps.filter (hasTexture t)).map μ).sum).sum ≤ (ps.map μ).sum := by
    intro ps
    induction ps with
    | nil => simp
    | cons p ps ih =>
      have e : (ts.map fun t => (((p :: ps).filter (hasTexture t)).map μ).sum) =
          ts.map fun t => (if hasTexture t p then μ p else 0) + ((ps.filter (hasTexture t)).map μ).sum := by
        apply List.map_congr_left
        intro t _
        rw [List.filter_cons]
        split <;> simp
      rw [e, sum_add, List.map_cons, List.sum_cons]
      have := (face ts hts p).1
      omega
  unfold faceSum
  induction bs with
  | nil => simp
  | cons b bs ih =>
    have e : (ts.map fun t => ((b :: bs).map fun b => ((b.planes.filter (hasTexture t)).map μ).sum).sum) =
        ts.map fun t => ((b.planes.filter (hasTexture t)).map μ).sum +
          (bs.map fun b => ((b.planes.filter (hasTexture t)).map μ).sum).sum := by
      apply List.map_congr_left
      intro t _
      rfl
    rw [e, sum_add, List.map_cons, List.sum_cons]
    have := planes b.planes
    omega

theorem surfaces_size {g : EntityGeo F} {bl : TextureBlacklist} {ts : List (Option Str)} (hts : ts.Nodup)
    {os : List (Option (MeshSurface F))} (h : List.Forall₂ (fun t o => textureSurface g bl t = .ok o) ts os) :
    ((os.filterMap id).map fun s => s.vertices.length).sum ≤ faceSum (fun p => p.vertices.length) g.brushes ∧
      ((os.filterMap id).map fun s => s.indices.length).sum ≤ faceSum (fun p => p.indices.length) g.brushes := by
  have hopt : ∀ (f : MeshSurface F → Nat) (os : List (Option (MeshSurface F))),
      ((os.filterMap id).map f).sum = (os.map fun o => match o with | some s => f s | none => 0).sum := by
    intro f os
    induction os with
    | nil => rfl
    | cons o os ih =>
      cases o with
      | none => rw [List.filterMap_cons_none rfl, ih, List.map_cons, List.sum_cons, Nat.zero_add]
      | some s =>
        have e : (some s :: os).filterMap id = s :: os.filterMap id := rfl
        rw [e, List.map_cons, List.sum_cons, ih, List.map_cons, List.sum_cons]
  rw [hopt, hopt]
  constructor
  · refine Nat.le_trans (sum_forall₂ h (f := fun t =>
      (g.brushes.map fun b => ((b.planes.filter (hasTexture t)).map fun p => p.vertices.length).sum).sum) ?_) (by_texture _ hts _)
    intro t _ o ho
    cases o with
    | none => exact Nat.zero_le _
    | some s => exact (textureSurface_size ho s rfl).1
  · refine Nat.le_trans (sum_forall₂ h (f := fun t =>
      (g.brushes.map fun b => ((b.planes.filter (hasTexture t)).map fun p => p.indices.length).sum).sum) ?_) (by_texture _ hts _)
    intro t _ o ho
    cases o with
    | none => exact Nat.zero_le _
    | some s => exact (textureSurface_size ho s rfl).2

theorem entityVisual_size {gd : GameData F} {bl : TextureBlacklist} {e : Entity F} {g : EntityGeo F} {v : VisualGeometry F}
    (h : entityVisual gd bl e g = .ok v) : visualVertices v ≤ faceSum (fun p => p.vertices.length) g.brushes ∧
      visualIndices v ≤ faceSum (fun p => p.indices.length) g.brushes := by
  by_cases hv : v = .none
  · subst hv
    exact ⟨Nat.zero_le _, Nat.zero_le _⟩
  obtain ⟨d, pd, bd, _, _, hm, hb, ss, rfl, _⟩ := entityVisual_mesh h hv
  unfold brushVisual at hb
  rw [hm] at hb
  simp only at hb
  obtain ⟨os, h1, hb⟩ := Outcome.bind_eq_ok.1 hb
  split at hb
  · cases hb
  · cases hb
    refine surfaces_size ?_ (mapOut_eq_ok.1 h1)
    rw [List.nodup_append]
    refine ⟨(uniqueTextures_nodup _ _).map (Option.some_injective _), by simp, ?_⟩
    intro a ha b hb
    obtain ⟨t, _, rfl⟩ := List.mem_map.1 ha
    rw [List.mem_singleton] at hb
    subst hb
    simp

theorem points_le : ∀ l : List (V3 F), (uniquePoints l).length ≤ l.length
  | [] => Nat.le_refl _
  | v :: l => by
    have := points_le l
    rw [uniquePoints, List.length_append, List.length_cons]
    split <;> simp <;> omega

theorem collisionOf_size {ct : CollisionType} {g : EntityGeo F} {c : CollisionGeometry F} (h : collisionOf ct g = .ok c) :
    collisionVertices c ≤ faceSum (fun p => p.vertices.length) g.brushes ∧
      collisionIndices c ≤ faceSum (fun p => p.indices.length) g.brushes := by
  unfold collisionOf at h
  split at h
  · cases h
    refine ⟨?_, Nat.zero_le _⟩
    simp only [convexCollision, collisionVertices, faceSum, List.map_map]
    refine sum_map_le fun b _ => ?_
    refine Nat.le_trans (points_le _) ?_
    rw [List.length_flatMap]
    simp
  · unfold concaveCollision at h
    obtain ⟨⟨vs, is⟩, h1, h⟩ := Outcome.bind_eq_ok.1 h
    have h2 := gatherEntity_all h1
    simp only at h
    split at h
    · cases h
      exact ⟨Nat.zero_le _, Nat.zero_le _⟩
    · cases h
      simpa [collisionVertices, collisionIndices] using h2
  · cases h
    exact ⟨Nat.zero_le _, Nat.zero_le _⟩

theorem entityCollision_size {gd : GameData F} {e : Entity F} {g : EntityGeo F} {c : CollisionGeometry F}
    (h : entityCollision gd e g = .ok c) : collisionVertices c ≤ faceSum (fun p => p.vertices.length) g.brushes ∧
      collisionIndices c ≤ faceSum (fun p => p.indices.length) g.brushes := by
  by_cases hc : c = .none
  · subst hc
    exact ⟨Nat.zero_le _, Nat.zero_le _⟩
  obtain ⟨_, _, _, _, _, h⟩ := entityCollision_kind h hc
  exact collisionOf_size h

theorem tallies_append (fv : VisualGeometry F → Nat) (fc : CollisionGeometry F → Nat) (a b : List (Node F)) :
    tallies fv fc (a ++ b) = tallies fv fc a + tallies fv fc b := by
  induction a with
  | nil => simp [tallies]
  | cons x xs ih => simp [tallies, ih]; omega

theorem tallies_sum (fv : VisualGeometry F → Nat) (fc : CollisionGeometry F → Nat) (l : List (Node F)) :
    tallies fv fc l = (l.map (tally fv fc)).sum := by
  induction l with
  | nil => rfl
  | cons x xs ih => simp [tallies, ih]

theorem leaves_tally {fv : VisualGeometry F → Nat} {fc : CollisionGeometry F → Nat} (o o' : V3 F)
    (v : VisualGeometry F) (c : CollisionGeometry F) :
    tallies fv fc (visualChildren o v ++ collisionChildren o' c) ≤ fv v + fc c := by
  cases v <;> cases c <;> simp [visualChildren, collisionChildren, tallies, tally]

theorem sum_flat {α : Type} (f : α → List Nat) (l : List α) : (l.flatMap f).sum = (l.map fun x => (f x).sum).sum := by
  induction l with
  | nil => rfl
  | cons x l ih => simp [ih]

/-- What a node of an entity adds up to. -/
theorem build_tally {fv : VisualGeometry F → Nat} {fc : CollisionGeometry F → Nat} {w : List (BrushGeo F) → Nat}
    {gd : GameData F} {fgd : Forge.GameData F} {bl : TextureBlacklist}
    (hv : ∀ e g v, entityVisual gd bl e g = .ok v → fv v ≤ w g.brushes)
    (hc : ∀ e g c, entityCollision gd e g = .ok c → fc c ≤ w g.brushes)
    {data : List (Entity F × EntityGeo F)} : ∀ {depth : Nat} {origin : V3 F} {x : Item F}
    {node : Node F}, buildEntity gd fgd bl data depth origin x.1 = .ok node →
    tally fv fc node ≤ ((visit data.zipIdx depth x).map fun y => 2 * w y.1.2.brushes).sum := by
  intro depth
  induction depth with
  | zero => intro o x n h; unfold buildEntity at h; cases h
  | succ depth ih =>
    rintro o ⟨⟨e, g⟩, i⟩ n h
    obtain ⟨d', v, c, ents, name, props, e0, h1, h2, h3, hn, hp, rfl⟩ := buildEntity_ok h
    cases e0
    have hm := members_kids data ((e, g), i)
    simp only at hm
    rw [hm, List.forall₂_map_left_iff] at h3
    have hl := leaves_tally (fv := fv) (fc := fc) g.center g.center v c
    have h4 := hv _ _ _ h1
    have h5 := hc _ _ _ h2
    unfold tally visit
    rw [tallies_append, List.map_cons, List.sum_cons, List.map_flatMap, sum_flat]
    have e7 := tallies_sum fv fc ents
    have h6 := sum_forall₂ h3 (f := fun x => ((visit data.zipIdx depth x).map fun y => 2 * w y.1.2.brushes).sum)
      (g := tally fv fc) fun a _ b hab => ih hab
    simp only
    omega

theorem layerVisual_size {layer : WorldspawnLayer} {t : Str} {bs : List (BrushGeo F)} {v : VisualGeometry F}
    (h : layerVisual layer t bs = .ok v) : visualVertices v ≤ faceSum (fun p => p.vertices.length) bs ∧
      visualIndices v ≤ faceSum (fun p => p.indices.length) bs := by
  unfold layerVisual at h
  split at h
  · cases h
    exact ⟨Nat.zero_le _, Nat.zero_le _⟩
  · obtain ⟨o, h1, h⟩ := Outcome.bind_eq_ok.1 h
    cases o with
    | none =>
      cases h
      exact ⟨Nat.zero_le _, Nat.zero_le _⟩
    | some s =>
      cases h
      have h2 := surfaces_size (ts := [some t]) (by simp) (.cons h1 .nil)
      exact h2

theorem sum_subperm {α : Type} (f : α → Nat) {l m : List α} (h : l.Subperm m) : (l.map f).sum ≤ (m.map f).sum := by
  obtain ⟨k, hk, hs⟩ := h
  rw [← (hk.map f).sum_eq]
  exact sum_sublist f hs

theorem sum_mul {α : Type} (k : Nat) (f : α → Nat) (l : List α) : (l.map fun x => k * f x).sum = k * (l.map f).sum := by
  induction l with
  | nil => rfl
  | cons x l ih => simp only [List.map_cons, List.sum_cons, ih]; rw [Nat.mul_add]

/-- Three sets of brushes without a common one. -/
theorem faceSum_split (μ : PlaneGeo F → Nat) (A B : BrushGeo F → Prop) [DecidablePred A] [DecidablePred B]
    (bs : List (BrushGeo F)) :
    faceSum μ (bs.filter fun b => A b) + faceSum μ (bs.filter fun b => B b ∧ ¬ A b) +
      faceSum μ (bs.filter fun b => ¬ A b ∧ ¬ B b) = faceSum μ bs := by
  induction bs with
  | nil => rfl
  | cons b bs ih =>
    unfold faceSum at ih ⊢
    by_cases ha : A b <;> by_cases hb : B b <;> simp [ha, hb] at ih ⊢ <;> omega

variable [Platform]

theorem scene_tally {fv : VisualGeometry F → Nat} {fc : CollisionGeometry F → Nat} {μ : PlaneGeo F → Nat} {depth : Nat}
    {order : List (Str × List (BrushGeo F)) → List (Str × List (BrushGeo F))} (horder : ∀ l, (order l).Perm l)
    {config : Config F}
    (hv : ∀ e g v, entityVisual config.quarchitectGameData config.textureBlacklist e g = .ok v →
      fv v ≤ faceSum μ g.brushes)
    (hc : ∀ e g c, entityCollision config.quarchitectGameData e g = .ok c → fc c ≤ faceSum μ g.brushes)
    (hlv : ∀ layer t bs v, layerVisual layer t bs = .ok v → fv v ≤ faceSum μ bs)
    (hlc : ∀ layer bs c, layerCollision layer bs = .ok c → fc c ≤ faceSum μ bs)
    {text : Str} (hm : config.mapFile = some text) {entities : List (Entity F)}
    (hl : LoadsAs text entities) (hu : UniqueIds entities)
    {nodes : List (Node F)} (h : Quarch.run depth order config = .ok nodes) :
    ∃ data : List (Entity F × EntityGeo F), data.map (·.1) = entities ∧
      (∀ d ∈ data, Geo.buildEntity config.textureInfo d.1 = .ok d.2) ∧
      tallies fv fc nodes ≤ 2 * (data.map fun d => faceSum μ d.2.brushes).sum := by
  obtain ⟨text', P, w, g, Q, rest, layers, wn, ls, es, h1, h2, hw, ho, hb, hlr, e1, hwn, hls, hes⟩ := run_parts h
  rw [hm] at h1; cases h1
  obtain ⟨hlay, hrest⟩ := C18_split_by_texture _ w g (by simp) hw _ _ hlr
  have hee := hl.unique h2
  subst hee
  refine ⟨_, rfl, hb, ?_⟩
  obtain ⟨W, hW⟩ : ∃ W : Entity F × EntityGeo F, W = (w, ⟨g.center, rest⟩) := ⟨_, rfl⟩
  have hperm : ((P ++ (w, g) :: Q).map (·.1)).Perm ((W :: (P ++ Q)).map (·.1)) := by
    rw [hW, List.map_cons, List.map_append, List.map_cons, List.map_append]
    exact List.perm_middle
  have hu' : UniqueIds ((W :: (P ++ Q)).map (·.1)) := by
    refine (hperm.pairwise_iff ?_).1 hu
    intro a b hab id h1 h2
    exact hab id h2 h1
  rw [← hW] at hwn hes
  have hroots : (rootItems (W :: (P ++ Q)).zipIdx).map (·.1) =
      W :: ((P ++ Q).filter fun d => (groupOf d.1).isNone) := by
    unfold rootItems
    rw [List.map_append, List.map_take, List.zipIdx_map_fst, List.take_succ_cons, List.take_zero,
      List.singleton_append]
    congr 1
    have : P ++ Q = ((W :: (P ++ Q)).zipIdx.drop 1).map (·.1) := by
      rw [← drop_zipIdx, List.drop_succ_cons, List.drop_zero]
    conv_rhs => rw [this]
    rw [List.filter_map]
    rfl
  have hall : List.Forall₂ (fun (x : Item F) n => buildEntity config.quarchitectGameData config.forgeGameData
      config.textureBlacklist (W :: (P ++ Q)) depth V3.zero x.1 = .ok n)
      (rootItems (W :: (P ++ Q)).zipIdx) (wn :: es) := by
    have : List.Forall₂ (fun d n => buildEntity config.quarchitectGameData config.forgeGameData
      config.textureBlacklist (W :: (P ++ Q)) depth V3.zero d = .ok n)
      ((rootItems (W :: (P ++ Q)).zipIdx).map (·.1)) (wn :: es) := by
      rw [hroots]
      exact .cons hwn hes
    rwa [List.forall₂_map_left_iff] at this
  have hcomp : ∀ x ∈ rootItems (W :: (P ++ Q)).zipIdx, Complete (W :: (P ++ Q)).zipIdx depth x := by
    intro x hx
    obtain ⟨n, _, hb⟩ := forall₂_left hall hx
    exact (build_actors hb).2
  -- the entities
  have t1 := sum_subperm (fun y : Item F => 2 * faceSum μ y.1.2.brushes)
    (visited_subperm hu' (by rw [hW]; exact hw) ho hcomp)
  rw [List.map_flatMap, sum_flat] at t1
  have t2 := sum_forall₂ hall (g := tally fv fc)
    (f := fun x => ((visit (W :: (P ++ Q)).zipIdx depth x).map fun y => 2 * faceSum μ y.1.2.brushes).sum)
    fun x _ n hn => build_tally (w := faceSum μ) hv hc hn
  have t3 : ((W :: (P ++ Q)).zipIdx.map fun y => 2 * faceSum μ y.1.2.brushes) =
      (W :: (P ++ Q)).map fun d => 2 * faceSum μ d.2.brushes := by
    conv_rhs => rw [← List.zipIdx_map_fst 0 (W :: (P ++ Q))]
    rw [List.map_map]
    rfl
  rw [t3, sum_mul] at t1
  replace t1 := Nat.le_trans t2 t1
  -- the layers
  have t4 : ((ls.filterMap id).map (tally fv fc)).sum ≤ 2 * (layers.map fun l => faceSum μ l.2).sum := by
    have hopt : ∀ os : List (Option (Node F)), ((os.filterMap id).map (tally fv fc)).sum =
        (os.map fun o => match o with | some n => tally fv fc n | none => 0).sum := by
      intro os
      induction os with
      | nil => rfl
      | cons o os ih =>
        cases o with
        | none => rw [List.filterMap_cons_none rfl, ih, List.map_cons, List.sum_cons, Nat.zero_add]
        | some s =>
          have e : (some s :: os).filterMap id = s :: os.filterMap id := rfl
          rw [e, List.map_cons, List.sum_cons, ih, List.map_cons, List.sum_cons]
    rw [hopt, ← ((horder layers).map fun l => faceSum μ l.2).sum_eq, ← sum_mul]
    refine sum_forall₂ hls ?_
    intro l _ o hlo
    cases o with
    | none => exact Nat.zero_le _
    | some n =>
      obtain ⟨layer, v, c, _, h3, h4, _, rfl⟩ := (buildLayer_ok hlo).2 n rfl
      have h5 := leaves_tally (fv := fv) (fc := fc) V3.zero V3.zero v c
      have h6 := hlv _ _ _ _ h3
      have h7 := hlc _ _ _ h4
      simp only [tally]
      omega
  have t5 := faceSum_split μ (AllFaces (str! "*water0")) (AllFaces (str! "*slime0")) g.brushes
  rw [List.head?_cons, Option.some.injEq, Prod.mk.injEq, EntityGeo.mk.injEq] at hrest
  rw [hlay] at t4
  subst e1
  rw [hW] at t1
  simp only [tallies, tallies_append, tallies_sum, List.map_cons, List.map_append, List.sum_cons, List.sum_append,
    List.map_nil, List.sum_nil, hrest.2.2] at t1 t4 ⊢
  omega

/-- What the faces of an entity add up to. -/
theorem built_sum {textures : TextureInfo} {e : Entity F} {g : EntityGeo F} (h : Geo.buildEntity textures e = .ok g)
    {μ : PlaneGeo F → Nat} {c : Nat → Nat} (hk : ∀ b ∈ e.brushes, ∀ p ∈ b.planes, ∀ pg,
      Geo.buildPlane textures e b.planes p = .ok pg → μ pg ≤ c b.planes.length) :
    faceSum μ g.brushes ≤ (e.brushes.map fun b => b.planes.length * c b.planes.length).sum := by
  refine sum_forall₂ (built_faces h) fun b hbm bg hb => ?_
  have h1 := sum_forall₂ hb (g := μ) (f := fun _ => c b.planes.length) fun p hp pg hpg => hk b hbm p hp pg hpg
  rwa [List.map_const', List.sum_replicate, smul_eq_mul] at h1

/-- The geometry of a scene, given bounds for the faces. -/
theorem scene_sum (depth : Nat)
    {order : List (Str × List (BrushGeo F)) → List (Str × List (BrushGeo F))} (horder : ∀ l, (order l).Perm l)
    {config : Config F} {text : Str} (hm : config.mapFile = some text) {entities : List (Entity F)}
    (hl : LoadsAs text entities) (hu : UniqueIds entities)
    {nodes : List (Node F)} (h : Quarch.run depth order config = .ok nodes) {c : Nat → Nat}
    (hk : ∀ e ∈ entities, ∀ b ∈ e.brushes, ∀ p ∈ b.planes, ∀ pg,
      Geo.buildPlane config.textureInfo e b.planes p = .ok pg → pg.vertices.length ≤ c b.planes.length) :
    tallies visualVertices collisionVertices nodes ≤
        2 * (entities.map fun e => (e.brushes.map fun b => b.planes.length * c b.planes.length).sum).sum ∧
      tallies visualIndices collisionIndices nodes ≤
        6 * (entities.map fun e => (e.brushes.map fun b => b.planes.length * c b.planes.length).sum).sum := by
  constructor
  · obtain ⟨data, rfl, hb, ht⟩ := scene_tally (fv := visualVertices) (fc := collisionVertices) horder
      (fun _ _ _ hh => (entityVisual_size hh).1) (fun _ _ _ hh => (entityCollision_size hh).1)
      (fun _ _ _ _ hh => (layerVisual_size hh).1) (fun _ _ _ hh => (collisionOf_size hh).1) hm hl hu h
    rw [List.map_map]
    exact Nat.le_trans ht (Nat.mul_le_mul_left 2 (sum_map_le fun d hd =>
      built_sum (hb d hd) (hk d.1 (List.mem_map_of_mem hd))))
  · obtain ⟨data, rfl, hb, ht⟩ := scene_tally (fv := visualIndices) (fc := collisionIndices) horder
      (fun _ _ _ hh => (entityVisual_size hh).2) (fun _ _ _ hh => (entityCollision_size hh).2)
      (fun _ _ _ _ hh => (layerVisual_size hh).2) (fun _ _ _ hh => (collisionOf_size hh).2) hm hl hu h
    have h2 : (data.map fun d => faceSum (fun p => p.indices.length) d.2.brushes).sum ≤
        ((data.map (·.1)).map fun e => (e.brushes.map fun b => b.planes.length * (3 * c b.planes.length)).sum).sum := by
      rw [List.map_map]
      refine sum_map_le fun d hd => built_sum (c := fun n => 3 * c n) (hb d hd) fun b hbm p hp pg hpg => ?_
      have h3 := hk d.1 (List.mem_map_of_mem hd) b hbm p hp pg hpg
      have h4 := (C132_any _ _ _ _ _ hpg).2
      show pg.indices.length ≤ 3 * c b.planes.length
      omega
    simp only [Nat.mul_left_comm _ 3, sum_mul] at h2
    omega

/-- C131: if no two entities have the same id, then the vertices of all meshes and the points of all collision
shapes are at most twice the cubes of the numbers of planes of the brushes, and the indices at most six times. -/
theorem C131_geometry (depth : Nat)
    (order : List (Str × List (BrushGeo F)) → List (Str × List (BrushGeo F))) (horder : ∀ l, (order l).Perm l)
    (config : Config F) (text : Str) (hm : config.mapFile = some text) (entities : List (Entity F))
    (hl : LoadsAs text entities) (hu : UniqueIds entities)
    (nodes : List (Node F)) (h : Quarch.run depth order config = .ok nodes) :
    tallies visualVertices collisionVertices nodes ≤ 2 * planeCubes entities ∧
      tallies visualIndices collisionIndices nodes ≤ 6 * planeCubes entities := by
  have e : ∀ n : Nat, n * (n * n) = n ^ 3 := fun n => by ring
  have := scene_sum depth horder hm hl hu h (c := fun n => n * n) fun e _ b _ p _ pg hp => (C132_any _ _ _ _ _ hp).1
  simp only [e] at this
  exact this

end

section
variable [RealText] [Platform]

/-- C131: in exact arithmetic and for proper brushes squares will do. -/
theorem C131_exact (depth : Nat)
    (order : List (Str × List (BrushGeo ℝ)) → List (Str × List (BrushGeo ℝ))) (horder : ∀ l, (order l).Perm l)
    (config : Config ℝ) (text : Str) (hm : config.mapFile = some text) (entities : List (Entity ℝ))
    (hl : LoadsAs text entities) (hu : UniqueIds entities)
    (hp : ∀ e ∈ entities, ∀ br ∈ e.brushes, ProperBrush br.planes)
    (nodes : List (Node ℝ)) (h : Quarch.run depth order config = .ok nodes) :
    tallies visualVertices collisionVertices nodes ≤ 2 * planeSquares entities ∧
      tallies visualIndices collisionIndices nodes ≤ 6 * planeSquares entities := by
  have e : ∀ n : Nat, n * n = n ^ 2 := fun n => by ring
  have := scene_sum depth horder hm hl hu h (c := fun n => n) fun e he b hb p hpm pg hpg =>
    Nat.le_of_lt (C132_exact _ _ _ (hp e he b hb) _ hpm _ hpg)
  simp only [e] at this
  exact this

end

section
variable [F32Lib] [Platform] [AccurateAtan2]

/-- C131: the same in single precision for firm brushes. -/
theorem C131_single (depth : Nat)
    (order : List (Str × List (BrushGeo F32)) → List (Str × List (BrushGeo F32))) (horder : ∀ l, (order l).Perm l)
    (config : Config F32) (text : Str) (hm : config.mapFile = some text) (entities : List (Entity F32))
    (hl : LoadsAs text entities) (hu : UniqueIds entities)
    (hf : ∀ e ∈ entities, ∀ br ∈ e.brushes, IsFirm br.planes)
    (nodes : List (Node F32)) (h : Quarch.run depth order config = .ok nodes) :
    tallies visualVertices collisionVertices nodes ≤ 2 * planeSquares entities ∧
      tallies visualIndices collisionIndices nodes ≤ 6 * planeSquares entities := by
  have e : ∀ n : Nat, n * n = n ^ 2 := fun n => by ring
  have := scene_sum depth horder hm hl hu h (c := fun n => n) fun e he b hb p hpm pg hpg => by
    obtain ⟨g, R, hfb⟩ := hf e he b hb
    exact Nat.le_of_lt (C132_single _ _ _ hfb _ hpm _ hpg)
  simp only [e] at this
  exact this

end
end Quarch
