import Verif.Proofs.Gather
import Verif.Model.Lib
import Verif.Props.Layers
import Verif.Props.Geo
/-
Surfaces of one texture, all surfaces of an entity, and the geometry the scene builder is given.
-/
set_option linter.unusedSectionVars false
namespace Quarch
open Spec Scene

section
variable {F : Type} [Arith F]

theorem bothOr_iff {α : Type} {R : α → α → Prop} {eq : α → α → Bool} (h : ∀ x y, R x y ↔ eq x y = true) {a b : Option α} :
    BothOr R a b ↔ optBeq eq a b = true := by
  unfold BothOr
  cases a <;> cases b <;> simp [optBeq, h]

theorem eqAttrs_iff {a b : Vertex F} : EqAttrs a b ↔ sameVertex a b = true := by
  have hu := bothOr_iff (R := fun s t : V2 F => Arith.eq s.x t.x = true ∧ Arith.eq s.y t.y = true) (eq := V2.beq)
    (fun x y => by unfold V2.beq; simp only [Bool.and_eq_true]) (a := a.uv) (b := b.uv)
  have hc := bothOr_iff
    (R := fun s t : Color F => Arith.eq s.r t.r = true ∧ Arith.eq s.g t.g = true ∧ Arith.eq s.b t.b = true) (eq := Color.beq)
    (fun x y => by unfold Color.beq; simp only [Bool.and_eq_true, and_assoc]) (a := a.color) (b := b.color)
  unfold sameVertex tanBeq
  simp only [Bool.and_eq_true]
  exact ⟨fun ⟨a, b, c, d, e⟩ => ⟨⟨⟨⟨eqV3_iff.1 a, eqV3_iff.1 b⟩, eqV3_iff.1 c.1, c.2⟩, hu.1 d⟩, hc.1 e⟩,
    fun ⟨⟨⟨⟨a, b⟩, c⟩, d⟩, e⟩ => ⟨eqV3_iff.2 a, eqV3_iff.2 b, ⟨eqV3_iff.2 c.1, c.2⟩, hu.2 d, hc.2 e⟩⟩

theorem collectOption_eq_some {α : Type} {l : List (Option α)} {r : List α} :
    collectOption l = some r ↔ l = r.map some := by
  induction l generalizing r with
  | nil => cases r <;> simp [collectOption]
  | cons o l ih =>
    cases o with
    | none => cases r <;> simp [collectOption]
    | some a =>
      cases r with
      | nil => simp [collectOption]
      | cons b r =>
        simp only [collectOption, Option.map_eq_some_iff, List.cons.injEq, List.map_cons,
          Option.some.injEq]
        constructor
        · rintro ⟨x, hx, rfl, rfl⟩
          exact ⟨rfl, ih.1 hx⟩
        · rintro ⟨rfl, h⟩
          exact ⟨r, ih.2 h, rfl, rfl⟩

theorem isBlacklistedBrush_eq (bl : TextureBlacklist) (t : Str) :
    bl.isBlacklistedBrush t = decide (t ∈ bl.brush) := by
  unfold TextureBlacklist.isBlacklistedBrush
  rw [Bool.eq_iff_iff, List.any_eq_true, decide_eq_true_eq]
  constructor
  · rintro ⟨x, hx, e⟩; rw [eq_of_beq e]; exact hx
  · intro h; exact ⟨t, h, by simp⟩

theorem isBlacklistedPlane_eq (bl : TextureBlacklist) (t : Str) :
    bl.isBlacklistedPlane t = decide (t ∈ bl.plane) := by
  unfold TextureBlacklist.isBlacklistedPlane
  rw [Bool.eq_iff_iff, List.any_eq_true, decide_eq_true_eq]
  constructor
  · rintro ⟨x, hx, e⟩; rw [eq_of_beq e]; exact hx
  · intro h; exact ⟨t, h, by simp⟩

theorem brushNotBlacklisted_eq (bl : TextureBlacklist) :
    brushNotBlacklisted (F := F) bl = fun b => decide (¬ Hidden bl b) := by
  funext b
  rw [Bool.eq_iff_iff, decide_eq_true_eq]
  unfold brushNotBlacklisted Hidden
  rw [List.any_eq_true]
  constructor
  · rintro ⟨p, hp, h⟩ hall
    have := hall p hp
    unfold knownIn at this
    cases ht : p.texture with
    | none => rw [ht] at this; cases this
    | some t =>
      rw [ht] at this h
      simp only [isBlacklistedBrush_eq] at h
      simp_all
  · intro h
    by_contra hc
    apply h
    intro p hp
    by_contra hk
    apply hc
    refine ⟨p, hp, ?_⟩
    cases ht : p.texture with
    | none => rfl
    | some t =>
      rw [ht] at hk
      simpa [knownIn, isBlacklistedBrush_eq] using hk

theorem hasTexture_eq (texture : Option Str) :
    hasTexture (F := F) texture = fun p => decide (p.texture = texture) := by
  funext p
  unfold hasTexture
  rw [Bool.eq_iff_iff, decide_eq_true_eq, beq_iff_eq]

theorem Spec.Fanned.valid {bs : List (BrushGeo F)} (h : Fanned bs) :
    ∀ b ∈ bs, ∀ p ∈ b.planes, ∀ i ∈ p.indices, i < p.vertices.length := by
  intro b hb p hp i hi
  obtain ⟨t, ht, hi⟩ := isFan_mem (h b hb p hp) hi
  omega

theorem textureSurface_ok [LawfulEq F] {g : EntityGeo F} (bl : TextureBlacklist) (texture : Option Str)
    (hg : Fanned g.brushes) :
    ∃ parts : List (List (Vertex F) × List (Vertex F)),
      List.Forall₂ (fun ps part => BrushPart sameVertex ps part.1 part.2)
        (shownFaces bl texture g.brushes) parts ∧
      ((parts.flatMap (·.1) = [] ∧ textureSurface g bl texture = .ok none) ∨
       (parts.flatMap (·.1) ≠ [] ∧ ∃ s, textureSurface g bl texture = .ok (some s) ∧ s.texture = texture ∧
        Arrays s (parts.flatMap (·.1)) ∧ Corners (parts.flatMap (·.1)) s.indices (parts.flatMap (·.2)))) := by
  obtain ⟨parts, is, h1, h2, h3⟩ := gatherEntity_ok same_vertex g (some (brushNotBlacklisted bl))
    (some (hasTexture texture)) hg.valid
  rw [keepFirst_unique] at h1
  refine ⟨parts, ?_, ?_⟩
  · unfold shownFaces
    rw [List.forall₂_map_left_iff]
    simp only [Option.getD_some, brushNotBlacklisted_eq, hasTexture_eq] at h3
    exact h3
  · unfold textureSurface
    rw [h1, Outcome.ok_bind]
    simp only
    cases hp : parts.flatMap (·.1) with
    | nil => left; exact ⟨rfl, rfl⟩
    | cons v vs =>
      right
      refine ⟨by simp, _, rfl, rfl, ⟨rfl, rfl, rfl, ?_, ?_⟩, ?_⟩
      · intro l; exact collectOption_eq_some
      · intro l; exact collectOption_eq_some
      · rw [hp] at h2; exact h2

theorem parts_nil_iff [LawfulEq F] {fs : List (List (PlaneGeo F))}
    {parts : List (List (Vertex F) × List (Vertex F))}
    (h : List.Forall₂ (fun ps part => BrushPart sameVertex ps part.1 part.2) fs parts) :
    parts.flatMap (·.1) = [] ↔ ∀ ps ∈ fs, ∀ p ∈ ps, p.vertices = [] := by
  induction h with
  | nil => simp
  | @cons ps part fs parts h1 _ ih =>
    rw [List.flatMap_cons, List.append_eq_nil_iff, ih]
    simp only [List.mem_cons, forall_eq_or_imp, and_congr_left_iff]
    intro _
    constructor
    · intro hn p hp
      cases hv : p.vertices with
      | nil => rfl
      | cons v vs =>
        obtain ⟨w, hw, _⟩ := h1.complete v (List.mem_flatMap.2 ⟨p, hp, by simp [hv]⟩)
        rw [hn] at hw; cases hw
    · intro hn
      cases hv : part.1 with
      | nil => rfl
      | cons v vs =>
        obtain ⟨p, hp, hpv⟩ := List.mem_flatMap.1 (h1.mem v (by simp [hv]))
        rw [hn p hp] at hpv; cases hpv

theorem parts_corners {same : Vertex F → Vertex F → Bool} {fs : List (List (PlaneGeo F))}
    {parts : List (List (Vertex F) × List (Vertex F))}
    (h : List.Forall₂ (fun ps part => BrushPart same ps part.1 part.2) fs parts)
    {R : Vertex F → Vertex F → Prop}
    (hR : ∀ ps ∈ fs, ∀ v w, v ∈ ps.flatMap (·.vertices) → MergedTo same (ps.flatMap (·.vertices)) v w → R v w) :
    List.Forall₂ R (fs.flatten.flatMap faceCorners) (parts.flatMap (·.2)) := by
  induction h with
  | nil => exact .nil
  | @cons ps part fs parts h1 _ ih =>
    rw [List.flatten_cons, List.flatMap_append, List.flatMap_cons]
    refine List.rel_append ?_ (ih fun qs hqs => hR qs (by simp [hqs]))
    have : ∀ v ∈ ps.flatMap faceCorners, v ∈ ps.flatMap (·.vertices) := by
      intro v hv
      obtain ⟨p, hp, hpv⟩ := List.mem_flatMap.1 hv
      obtain ⟨i, _, hi⟩ := List.mem_filterMap.1 hpv
      exact List.mem_flatMap.2 ⟨p, hp, List.mem_of_getElem? hi⟩
    have key : ∀ C D, (∀ v ∈ C, v ∈ ps.flatMap (·.vertices)) →
        List.Forall₂ (MergedTo same (ps.flatMap (·.vertices))) C D → List.Forall₂ R C D := by
      intro C D hm hf
      induction hf with
      | nil => exact .nil
      | cons h1 _ ih =>
        exact .cons (hR ps (by simp) _ _ (hm _ (by simp)) h1) (ih fun v hv => hm v (by simp [hv]))
    exact key _ _ this h1.corners

theorem mergedTo_place [LawfulEq F] {same : Vertex F → Vertex F → Bool} {V : List (Vertex F)}
    {v w : Vertex F} (h : MergedTo same V v w) : SamePlace w.pos v.pos := by
  rcases h with rfl | ⟨_, h⟩
  · exact .inl rfl
  · exact .inr (eqV3_iff.2 (List.find?_some (p := fun comp => samePos comp v) h))

theorem uniqueTextures_mem {bl : TextureBlacklist} {l : List Str} {t : Str} :
    t ∈ uniqueTextures bl l ↔ t ∈ l ∧ t ∉ bl.plane := by
  induction l with
  | nil => simp [uniqueTextures]
  | cons a l ih =>
    rw [uniqueTextures, List.mem_append, ih]
    simp only [isBlacklistedPlane_eq, Bool.and_eq_true, Option.isNone_iff_eq_none, List.find?_eq_none,
      beq_iff_eq, Bool.not_eq_true', decide_eq_false_iff_not, List.mem_cons]
    constructor
    · rintro (h | ⟨h1, h2⟩)
      · split at h
        · rename_i hc
          rw [List.mem_singleton.1 h]
          exact ⟨.inl rfl, hc.2⟩
        · cases h
      · exact ⟨.inr h1, h2⟩
    · rintro ⟨rfl | h, h2⟩
      · by_cases hm : t ∈ l
        · exact .inr ⟨hm, h2⟩
        · left
          rw [if_pos ⟨fun x hx e => hm (e ▸ hx), h2⟩]; simp
      · exact .inr ⟨h, h2⟩

theorem uniqueTextures_nodup (bl : TextureBlacklist) (l : List Str) : (uniqueTextures bl l).Nodup := by
  induction l with
  | nil => exact .nil
  | cons a l ih =>
    rw [uniqueTextures]
    split
    · rename_i hc
      simp only [Bool.and_eq_true, Option.isNone_iff_eq_none, List.find?_eq_none, beq_iff_eq] at hc
      refine List.nodup_cons.2 ⟨?_, ih⟩
      intro hm
      exact hc.1 a (uniqueTextures_mem.1 hm).1 rfl
    · exact ih

theorem mapOut_total {α β : Type} {f : α → Outcome β} {l : List α} (h : ∀ a ∈ l, ∃ b, f a = .ok b) :
    ∃ bs, mapOut f l = .ok bs := by
  induction l with
  | nil => exact ⟨[], rfl⟩
  | cons a l ih =>
    obtain ⟨b, hb⟩ := h a (by simp)
    obtain ⟨bs, hbs⟩ := ih fun x hx => h x (by simp [hx])
    exact ⟨b :: bs, by rw [mapOut_cons, hb, Outcome.ok_bind, hbs]; rfl⟩

/-- Textures of an entity for which a surface is tried, in order. -/
def tried (bl : TextureBlacklist) (e : Entity F) : List (Option Str) :=
  (uniqueTextures bl (e.brushes.flatMap fun b => b.planes.map (·.texture))).map some ++ [none]

theorem tried_nodup (bl : TextureBlacklist) (e : Entity F) : (tried bl e).Nodup := by
  unfold tried
  rw [List.nodup_append]
  refine ⟨List.Pairwise.map _ (fun _ _ h e => h (Option.some.inj e)) (uniqueTextures_nodup _ _), by simp, ?_⟩
  intro a ha b hb
  obtain ⟨t, _, rfl⟩ := List.mem_map.1 ha
  rw [List.mem_singleton] at hb
  subst hb
  simp

theorem brushVisual_ok [LawfulEq F] {g : EntityGeo F} (e : Entity F) (bd : BrushData) (bl : TextureBlacklist)
    (hbd : bd.visualType = .mesh) (hg : Fanned g.brushes) :
    ∃ v os, brushVisual e g bd bl = .ok v ∧
      List.Forall₂ (fun t o => textureSurface g bl t = .ok o) (tried bl e) os ∧
      surfaces v = os.filterMap id ∧ (v = .none ∨ ∃ ss, v = .mesh ss ∧ ss ≠ []) := by
  obtain ⟨os, hos⟩ := mapOut_total (f := textureSurface g bl) (l := tried bl e) (by
    intro t _
    obtain ⟨parts, _, ⟨_, h⟩ | ⟨_, s, h, _⟩⟩ := textureSurface_ok bl t hg
    · exact ⟨_, h⟩
    · exact ⟨_, h⟩)
  unfold brushVisual
  rw [hbd]
  simp only
  unfold tried at hos
  rw [hos, Outcome.ok_bind]
  split
  · rename_i he
    refine ⟨_, os, rfl, mapOut_eq_ok.1 hos, ?_, .inl rfl⟩
    rw [List.isEmpty_iff.1 he]; rfl
  · rename_i he
    refine ⟨_, os, rfl, mapOut_eq_ok.1 hos, rfl, .inr ⟨_, rfl, ?_⟩⟩
    intro h
    rw [h] at he
    exact he rfl

/-- Where a surface of an entity comes from. -/
theorem brushVisual_surface [LawfulEq F] {g : EntityGeo F} {e : Entity F} {bd : BrushData}
    {bl : TextureBlacklist} {v : VisualGeometry F} (hg : Fanned g.brushes)
    (h : brushVisual e g bd bl = .ok v) {s : MeshSurface F} (hs : s ∈ surfaces v) :
    bd.visualType = .mesh ∧ s.texture ∈ tried bl e ∧ textureSurface g bl s.texture = .ok (some s) := by
  cases hbd : bd.visualType with
  | none =>
    unfold brushVisual at h
    rw [hbd] at h
    cases h
    cases hs
  | mesh =>
    obtain ⟨v', os, h1, h2, h3, _⟩ := brushVisual_ok e bd bl hbd hg
    rw [h] at h1; cases h1
    rw [h3, List.mem_filterMap] at hs
    obtain ⟨o, ho, rfl⟩ := hs
    obtain ⟨t, ht, hts⟩ := forall₂_right h2 ho
    obtain ⟨parts, _, ⟨_, h'⟩ | ⟨_, s', h', e', _⟩⟩ := textureSurface_ok bl t hg
    · rw [hts] at h'; cases h'
    · rw [hts] at h'
      cases h'
      rw [e']
      exact ⟨rfl, ht, hts⟩

end

section
variable {F : Type} [Arith F] [Platform]

/-- All geometry handed to the scene builder when a map is loaded: fans, and textures from the entity. -/
theorem loaded_geometry {textures : TextureInfo} {entities : List (Entity F)} {gs : List (EntityGeo F)}
    (hg : Geo.run textures entities = .ok gs) {data : List (Entity F × EntityGeo F)}
    {layers : List (Str × List (BrushGeo F))}
    (hl : LayerFilter.run (entities.zip gs) = .ok (data, layers)) :
    (∀ d ∈ data, Fanned d.2.brushes ∧ FromEntity d.1 d.2.brushes) ∧ ∀ l ∈ layers, Fanned l.2 := by
  have hf := run_faces hg
  have hall : ∀ d ∈ entities.zip gs, Fanned d.2.brushes ∧ FromEntity d.1 d.2.brushes := by
    have key : ∀ (es : List (Entity F)) (gs : List (EntityGeo F)),
        List.Forall₂ (fun e g => List.Forall₂ (fun b bg => List.Forall₂
          (fun p pg => Geo.buildPlane textures e b.planes p = .ok pg) b.planes bg.planes) e.brushes g.brushes)
          es gs →
        ∀ d ∈ es.zip gs, Fanned d.2.brushes ∧ FromEntity d.1 d.2.brushes := by
      intro es gs h
      induction h with
      | nil => intro d hd; cases hd
      | @cons e g es gs h1 _ ih =>
        intro d hd
        rw [List.zip_cons_cons] at hd
        rcases List.mem_cons.1 hd with rfl | hd
        · constructor
          · intro b hb p hp
            obtain ⟨eb, _, hb'⟩ := forall₂_right h1 hb
            obtain ⟨ep, _, hp'⟩ := forall₂_right hb' hp
            exact C19_fan _ _ _ _ _ hp'
          · intro b hb p hp t ht
            obtain ⟨eb, heb, hb'⟩ := forall₂_right h1 hb
            obtain ⟨ep, hep, hp'⟩ := forall₂_right hb' hp
            refine ⟨eb, heb, ep, hep, ?_⟩
            obtain ⟨_, _, _, _, _, _, _, e⟩ := buildPlane_ok hp'
            rw [e] at ht
            split at ht
            · exact Option.some.inj ht
            · cases ht
        · exact ih d hd
    exact key _ _ hf
  have hws := (C17_aborts_unless_one_worldspawn (entities.zip gs)).2.1 ⟨_, hl⟩
  have hex : ∃ d ∈ entities.zip gs, IsWorld d.1 := by
    have : 0 < (entities.zip gs).countP fun d => decide (IsWorld d.1) := by omega
    obtain ⟨d, hd, h⟩ := List.countP_pos_iff.1 this
    exact ⟨d, hd, of_decide_eq_true h⟩
  obtain ⟨⟨w, g⟩, hmem, hw⟩ := hex
  obtain ⟨h1, h2⟩ := C18_split_by_texture _ w g hmem hw _ _ hl
  obtain ⟨hfan, hfrom⟩ := hall _ hmem
  constructor
  · intro d hd
    cases data with
    | nil => cases hd
    | cons d0 ds =>
      rw [List.head?_cons, Option.some.injEq] at h2
      rcases List.mem_cons.1 hd with rfl | hd'
      · rw [h2]
        exact ⟨fun b hb => hfan b (List.mem_filter.1 hb).1, fun b hb => hfrom b (List.mem_filter.1 hb).1⟩
      · apply hall
        unfold LayerFilter.run at hl
        simp only [List.partition_eq_filter_filter] at hl
        split at hl
        · cases hl
          exact (List.mem_filter.1 hd').1
        · cases hl
  · intro l hlm
    rw [h1] at hlm
    simp only [List.mem_cons, List.not_mem_nil, or_false] at hlm
    rcases hlm with rfl | rfl
    · exact fun b hb => hfan b (List.mem_filter.1 hb).1
    · exact fun b hb => hfan b (List.mem_filter.1 hb).1

end
end Quarch
