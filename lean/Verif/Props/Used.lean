import Verif.Spec.Used
import Verif.Props.Local
/-
C98: a load depends only on those parts of the configuration that the map mentions.
-/
set_option linter.unusedSectionVars false
namespace Quarch
open Spec Scene

section
variable {F : Type} [Arith F]

theorem same_def {gd gd' : GameData F} {name : Str}
    (h : (∀ d, FirstDef gd name d → ∃ d', FirstDef gd' name d' ∧ SameKind d.data d'.data) ∧
      (∀ d', FirstDef gd' name d' → ∃ d, FirstDef gd name d)) :
    (findDef gd name = none ∧ findDef gd' name = none) ∨
      ∃ d d', findDef gd name = some d ∧ findDef gd' name = some d' ∧ SameKind d.data d'.data := by
  cases hd : findDef gd name with
  | some d =>
    obtain ⟨d', h1, h2⟩ := h.1 d (findDef_iff.1 hd)
    exact .inr ⟨d, d', rfl, findDef_iff.2 h1, h2⟩
  | none =>
    left
    refine ⟨rfl, ?_⟩
    cases hd' : findDef gd' name with
    | none => rfl
    | some d' =>
      obtain ⟨d, h1⟩ := h.2 d' (findDef_iff.1 hd')
      rw [findDef_iff.2 h1] at hd
      cases hd

theorem same_type {gd gd' : GameData F} {e : Entity F}
    (h : ∀ name, e.properties (str! "classname") = some name →
      (findDef gd name = none ∧ findDef gd' name = none) ∨
      ∃ d d', findDef gd name = some d ∧ findDef gd' name = some d' ∧ SameKind d.data d'.data) :
    entityType gd e = entityType gd' e ∧ entityComponentClass gd e = entityComponentClass gd' e ∧
      entityPropertyApplicationType gd e = entityPropertyApplicationType gd' e := by
  unfold entityType entityComponentClass entityPropertyApplicationType Map.get?
  cases hn : e.properties (str! "classname") with
  | none => exact ⟨rfl, rfl, rfl⟩
  | some name =>
    rcases h name hn with ⟨h1, h2⟩ | ⟨d, d', h1, h2, hk⟩
    · simp [h1, h2]
    · simp only [h1, h2]
      generalize d.data = a at hk
      generalize d'.data = b at hk
      cases hk with
      | point e1 e2 e3 => simp [EntityData.pointData, e1, e2, e3]
      | brush e1 e2 e3 => simp [EntityData.pointData, e1, e2, e3]

theorem uniqueTextures_congr {bl bl' : TextureBlacklist} : ∀ {l : List Str},
    (∀ t ∈ l, (t ∈ bl.plane ↔ t ∈ bl'.plane)) → uniqueTextures bl l = uniqueTextures bl' l
  | [], _ => rfl
  | t :: rest, h => by
    have h1 : bl.isBlacklistedPlane t = bl'.isBlacklistedPlane t := by
      rw [Bool.eq_iff_iff]
      unfold TextureBlacklist.isBlacklistedPlane
      simpa using h t (by simp)
    unfold uniqueTextures
    rw [h1, uniqueTextures_congr fun t ht => h t (by simp [ht])]

theorem filter_congr_gather {g : EntityGeo F} {p p' : BrushGeo F → Bool} (h : ∀ b ∈ g.brushes, p b = p' b)
    (pp : Option (PlaneGeo F → Bool)) (vp : Option (VertexPred F)) :
    gatherEntity g (some p) pp vp = gatherEntity g (some p') pp vp := by
  unfold gatherEntity
  simp only [Option.getD_some]
  rw [List.filter_congr h]

/-- The textures of the geometry are textures of faces. -/
def FromFaces (e : Entity F) (g : EntityGeo F) : Prop :=
  ∀ bg ∈ g.brushes, ∀ pg ∈ bg.planes, ∀ t, pg.texture = some t → ∃ b ∈ e.brushes, ∃ p ∈ b.planes, p.texture = t

/-- The blacklists agree on the textures of the entity. -/
def Agree (bl bl' : TextureBlacklist) (e : Entity F) : Prop :=
  ∀ b ∈ e.brushes, ∀ p ∈ b.planes, (p.texture ∈ bl.brush ↔ p.texture ∈ bl'.brush) ∧
    (p.texture ∈ bl.plane ↔ p.texture ∈ bl'.plane)

theorem brushVisual_congr {bl bl' : TextureBlacklist} {e : Entity F} {g : EntityGeo F} (hf : FromFaces e g)
    (ha : Agree bl bl' e) (bd : BrushData) : brushVisual e g bd bl = brushVisual e g bd bl' := by
  unfold brushVisual
  have h1 : uniqueTextures bl (e.brushes.flatMap fun b => b.planes.map (·.texture)) =
      uniqueTextures bl' (e.brushes.flatMap fun b => b.planes.map (·.texture)) := by
    apply uniqueTextures_congr
    intro t ht
    obtain ⟨b, hb, ht⟩ := List.mem_flatMap.1 ht
    obtain ⟨p, hp, rfl⟩ := List.mem_map.1 ht
    exact (ha b hb p hp).2
  have h2 : textureSurface g bl = textureSurface g bl' := by
    funext t
    unfold textureSurface
    rw [filter_congr_gather]
    intro b hb
    unfold brushNotBlacklisted
    rw [Bool.eq_iff_iff, List.any_eq_true, List.any_eq_true]
    refine exists_congr fun pg => and_congr_right fun hpg => ?_
    cases ht : pg.texture with
    | none => simp
    | some t =>
      obtain ⟨b', hb', p, hp, rfl⟩ := hf b hb pg hpg t ht
      have := (ha b' hb' p hp).1
      simp only [TextureBlacklist.isBlacklistedBrush]
      rw [Bool.not_eq_true', Bool.not_eq_true', ← Bool.not_eq_true, ← Bool.not_eq_true]
      simpa using not_congr this
  simp only [h1, h2]

theorem entityVisual_congr {gd gd' : GameData F} {bl bl' : TextureBlacklist} {e : Entity F} {g : EntityGeo F}
    (hf : FromFaces e g) (ha : Agree bl bl' e)
    (h : ∀ name, e.properties (str! "classname") = some name →
      (findDef gd name = none ∧ findDef gd' name = none) ∨
      ∃ d d', findDef gd name = some d ∧ findDef gd' name = some d' ∧ SameKind d.data d'.data) :
    entityVisual gd bl e g = entityVisual gd' bl' e g ∧ entityCollision gd e g = entityCollision gd' e g := by
  unfold entityVisual entityCollision Map.get?
  cases hn : e.properties (str! "classname") with
  | none => exact ⟨rfl, rfl⟩
  | some name =>
    rcases h name hn with ⟨h1, h2⟩ | ⟨d, d', h1, h2, hk⟩
    · simp [h1, h2]
    · simp only [h1, h2]
      generalize d.data = a at hk
      generalize d'.data = b at hk
      cases hk with
      | point => simp
      | brush => simp [brushVisual_congr hf ha]

theorem entityProperties_congr {fgd fgd' : Forge.GameData F} {e : Entity F}
    (h : (∀ d, FirstForge fgd e d → ∃ d', FirstForge fgd' e d' ∧ SameDeclared d d') ∧
      (∀ d', FirstForge fgd' e d' → ∃ d, FirstForge fgd e d)) :
    entityProperties fgd e = entityProperties fgd' e := by
  unfold entityProperties
  cases hd : fgd.definitions.find? fun d => some d.className == e.properties.get? (str! "classname") with
  | some d =>
    obtain ⟨d', h1, h2⟩ := h.1 d (find_forge_some.1 hd)
    simp only [hd, find_forge_some.2 h1]
    have hfold : ∀ (l l' : List (Forge.Property F)) (m : Properties F),
        l.map (fun p => (p.name, p.data)) = l'.map (fun p => (p.name, p.data)) →
        l.foldl (fun props fp => props.insert fp.name (propertyValue fp.data (e.properties.get? fp.name))) m =
          l'.foldl (fun props fp => props.insert fp.name (propertyValue fp.data (e.properties.get? fp.name))) m := by
      intro l
      induction l with
      | nil =>
        intro l' m hl
        cases l' with
        | nil => rfl
        | cons _ _ => simp at hl
      | cons x l ih =>
        intro l' m hl
        cases l' with
        | nil => simp at hl
        | cons y l' =>
          simp only [List.map_cons, List.cons.injEq, Prod.mk.injEq] at hl
          rw [List.foldl_cons, List.foldl_cons, hl.1.1, hl.1.2]
          exact ih l' _ hl.2
    have key := fun m => hfold _ _ m h2
    simp only [key]
  | none =>
    cases hd' : fgd'.definitions.find? fun d => some d.className == e.properties.get? (str! "classname") with
    | none => simp only [hd, hd']
    | some d' =>
      obtain ⟨d, h1⟩ := h.2 d' (find_forge_some.1 hd')
      rw [find_forge_some.2 h1] at hd
      cases hd

/-- The parts of the tree of entities that come from definitions. -/
theorem buildEntity_congr {gd gd' : GameData F} {fgd fgd' : Forge.GameData F} {bl bl' : TextureBlacklist}
    {data : List (Entity F × EntityGeo F)}
    (h : ∀ d ∈ data, entityVisual gd bl d.1 d.2 = entityVisual gd' bl' d.1 d.2 ∧
      entityCollision gd d.1 d.2 = entityCollision gd' d.1 d.2 ∧ entityType gd d.1 = entityType gd' d.1 ∧
      entityComponentClass gd d.1 = entityComponentClass gd' d.1 ∧
      entityPropertyApplicationType gd d.1 = entityPropertyApplicationType gd' d.1 ∧
      entityProperties fgd d.1 = entityProperties fgd' d.1) :
    ∀ (depth : Nat) (o : V3 F), ∀ d ∈ data, buildEntity gd fgd bl data depth o d = buildEntity gd' fgd' bl' data depth o d := by
  intro depth
  induction depth with
  | zero => intro o d _; rfl
  | succ depth ih =>
    rintro o ⟨e, g⟩ hd
    obtain ⟨h1, h2, h3, h4, h5, h6⟩ := h _ hd
    unfold buildEntity
    simp only [h1, h2, h3, h4, h5, h6]
    rw [mapOut_congr (g := fun child => buildEntity gd' fgd' bl' data depth (V3.neg g.center) child)]
    intro c hc
    exact ih _ c (List.mem_of_mem_drop (List.mem_filter.1 hc).1)

variable [Platform]

theorem geo_congr {textures textures' : TextureInfo} {e : Entity F}
    (h : ∀ b ∈ e.brushes, ∀ p ∈ b.planes, textures p.texture = textures' p.texture) :
    Geo.buildEntity textures e = Geo.buildEntity textures' e := by
  unfold Geo.buildEntity
  rw [mapOut_congr (g := fun brush => Geo.buildBrush textures' e brush)]
  intro b hb
  unfold Geo.buildBrush
  rw [mapOut_congr (g := fun plane => Geo.buildPlane textures' e b.planes plane)]
  intro p hp
  unfold Geo.buildPlane Map.get?
  rw [h b hb p hp]

theorem built_fromFaces {textures : TextureInfo} {e : Entity F} {g : EntityGeo F}
    (h : Geo.buildEntity textures e = .ok g) : FromFaces e g := by
  unfold Geo.buildEntity at h
  obtain ⟨bgs, h1, h⟩ := Outcome.bind_eq_ok.1 h
  cases h
  intro bg hbg pg hpg t ht
  obtain ⟨b, hb, hbb⟩ := forall₂_right (mapOut_eq_ok.1 h1) hbg
  unfold Geo.buildBrush at hbb
  obtain ⟨pgs, h2, hbb⟩ := Outcome.bind_eq_ok.1 hbb
  cases hbb
  obtain ⟨p, hp, hpp⟩ := forall₂_right (mapOut_eq_ok.1 h2) hpg
  unfold Geo.buildPlane at hpp
  obtain ⟨_, _, hpp⟩ := Outcome.bind_eq_ok.1 hpp
  cases hpp
  refine ⟨b, hb, p, hp, ?_⟩
  simp only at ht
  split at ht
  · exact Option.some.inj ht
  · cases ht

theorem layer_congr {gd gd' : GameData F} {l : Str × List (BrushGeo F)}
    (h : gd.worldspawnLayers.filter (fun x => x.texture = l.1) = gd'.worldspawnLayers.filter fun x => x.texture = l.1) :
    buildLayer gd l = buildLayer gd' l := by
  unfold buildLayer
  have e : ∀ gd : GameData F, gd.worldspawnLayers.filter (fun x => x.texture == l.1) =
      gd.worldspawnLayers.filter fun x => x.texture = l.1 := by
    intro gd
    apply List.filter_congr
    intro x _
    rw [Bool.eq_iff_iff]
    simp
  rw [e gd, e gd', h]

/-- C98: two configurations for the same map that agree on everything the map mentions give the same outcome: the same
nodes, the same error, or an abort with the same message. -/
theorem C98_only_what_is_used (depth : Nat)
    (order : List (Str × List (BrushGeo F)) → List (Str × List (BrushGeo F))) (horder : ∀ l, (order l).Perm l)
    (config config' : Config F) (text : Str) (hm : config.mapFile = some text) (hm' : config'.mapFile = some text)
    (entities : List (Entity F)) (hl : LoadsAs text entities) (hs : SameUsed config config' entities) :
    Quarch.run depth order config = Quarch.run depth order config' := by
  obtain ⟨tokens, paths, h1, h2⟩ := hl
  unfold Quarch.run
  rw [hm, hm']
  simp only [h1, h2, Outcome.ok_bind]
  have hg : Geo.run config.textureInfo entities = Geo.run config'.textureInfo entities :=
    mapOut_congr fun e he => geo_congr fun b hb p hp => hs.sizes e he b hb p hp
  rw [← hg]
  cases h4 : Geo.run config.textureInfo entities with
  | err => rfl
  | panic => rfl
  | overflow => rfl
  | ok gs =>
  rw [Outcome.ok_bind, Outcome.ok_bind]
  cases h5 : LayerFilter.run (entities.zip gs) with
  | err => rfl
  | panic => rfl
  | overflow => rfl
  | ok r =>
  obtain ⟨data, layers⟩ := r
  rw [Outcome.ok_bind, Outcome.ok_bind]
  simp only
  have hmap := zip_map_fst (geo_length h4)
  have hgeo : ∀ d ∈ entities.zip gs, FromFaces d.1 d.2 := fun d hd =>
    built_fromFaces ((List.forall₂_iff_zip.1 (mapOut_eq_ok.1 h4)).2 hd)
  have hfst : ∀ d ∈ entities.zip gs, d.1 ∈ entities := by
    intro d hd
    rw [← hmap]
    exact List.mem_map_of_mem hd
  obtain ⟨P, w, g, Q, rest, e1, hw, ho, rfl⟩ := layerFilter_ok h5
  have hlay := C18_split_by_texture _ w g (by rw [e1]; simp) hw _ _ h5
  rw [e1] at hgeo hfst
  have hdata : ∀ d ∈ (w, ⟨g.center, rest⟩) :: (P ++ Q), d.1 ∈ entities ∧ FromFaces d.1 d.2 := by
    intro d hd
    rcases List.mem_cons.1 hd with rfl | hd
    · refine ⟨hfst (w, g) (by simp), fun bg hbg => hgeo (w, g) (by simp) bg ?_⟩
      have := Option.some.inj (hlay.2)
      simp only [Prod.mk.injEq, EntityGeo.mk.injEq, true_and] at this
      rw [this] at hbg
      exact (List.mem_filter.1 hbg).1
    · have : d ∈ P ++ (w, g) :: Q := by
        rcases List.mem_append.1 hd with h | h <;> simp [h]
      exact ⟨hfst d this, hgeo d this⟩
  have hall := buildEntity_congr (gd := config.quarchitectGameData) (gd' := config'.quarchitectGameData)
    (fgd := config.forgeGameData) (fgd' := config'.forgeGameData) (bl := config.textureBlacklist)
    (bl' := config'.textureBlacklist) (data := (w, ⟨g.center, rest⟩) :: (P ++ Q)) (by
      intro d hd
      obtain ⟨he, hf⟩ := hdata d hd
      have hdef := fun name hn => same_def (hs.classes d.1 he name hn)
      obtain ⟨a1, a2⟩ := entityVisual_congr hf (fun b hb p hp => ⟨hs.brushes d.1 he b hb p hp, hs.faces d.1 he b hb p hp⟩) hdef
      obtain ⟨b1, b2, b3⟩ := same_type hdef
      exact ⟨a1, a2, b1, b2, b3, entityProperties_congr (hs.declared d.1 he)⟩)
  unfold Scene.run
  rw [mapOut_congr (f := buildEntity config.quarchitectGameData _ _ _ _ _)
      (l := List.take 1 _) fun d hd => hall depth _ d (List.mem_of_mem_take hd),
    mapOut_congr (f := buildEntity config.quarchitectGameData _ _ _ _ _)
      (l := List.filter _ _) fun d hd => hall depth _ d (List.mem_of_mem_drop (List.mem_filter.1 hd).1),
    mapOut_congr (f := buildLayer config.quarchitectGameData) (g := buildLayer config'.quarchitectGameData)]
  intro l hl
  have := (horder layers).mem_iff.1 hl
  rw [hlay.1] at this
  apply layer_congr
  apply hs.layers
  simp only [List.mem_cons, List.not_mem_nil, or_false] at this
  rcases this with rfl | rfl <;> simp

/-- The configuration with more definitions, layers, declarations and hidden textures at the ends of its lists. -/
def Spec.extended (config : Config F) (defs : List (EntityDef F)) (layers : List WorldspawnLayer)
    (declared : List (Forge.Entity F)) (brushes faces : List Str) : Config F :=
  { config with
    quarchitectGameData :=
      ⟨config.quarchitectGameData.entities ++ defs, config.quarchitectGameData.worldspawnLayers ++ layers⟩
    forgeGameData := { config.forgeGameData with definitions := config.forgeGameData.definitions ++ declared }
    textureBlacklist := ⟨config.textureBlacklist.brush ++ brushes, config.textureBlacklist.plane ++ faces⟩ }

theorem sameKind_refl (d : EntityData F) : SameKind d d := by
  cases d with
  | point => exact .point rfl rfl rfl
  | brush => exact .brush rfl rfl rfl

/-- C98: definitions of classes that are not in the map, layers for other textures than those of water and slime, and
blacklisted textures that no face has can be added without any effect. -/
theorem C98_unused (depth : Nat)
    (order : List (Str × List (BrushGeo F)) → List (Str × List (BrushGeo F))) (horder : ∀ l, (order l).Perm l)
    (config : Config F) (text : Str) (hm : config.mapFile = some text)
    (entities : List (Entity F)) (hl : LoadsAs text entities) (defs : List (EntityDef F)) (layers : List WorldspawnLayer)
    (declared : List (Forge.Entity F)) (brushes faces : List Str)
    (hdefs : ∀ d ∈ defs, ∀ e ∈ entities, e.properties (str! "classname") ≠ some d.classname)
    (hlayers : ∀ l ∈ layers, l.texture ≠ str! "*water0" ∧ l.texture ≠ str! "*slime0")
    (hdeclared : ∀ d ∈ declared, ∀ e ∈ entities, e.properties (str! "classname") ≠ some d.className)
    (htextures : ∀ t ∈ brushes ++ faces, ∀ e ∈ entities, ∀ b ∈ e.brushes, ∀ p ∈ b.planes, p.texture ≠ t) :
    Quarch.run depth order (extended config defs layers declared brushes faces) = Quarch.run depth order config := by
  symm
  refine C98_only_what_is_used depth order horder config _ text hm hm entities hl ⟨fun _ _ _ _ _ _ => rfl, ?_, ?_, ?_, ?_, ?_⟩
  · intro e he b hb p hp
    have : p.texture ∉ brushes := fun h => htextures _ (by simp [h]) e he b hb p hp rfl
    simp [extended, this]
  · intro e he b hb p hp
    have : p.texture ∉ faces := fun h => htextures _ (by simp [h]) e he b hb p hp rfl
    simp [extended, this]
  · intro e he name hn
    have key : ∀ d, FirstDef (extended config defs layers declared brushes faces).quarchitectGameData name d ↔
        FirstDef config.quarchitectGameData name d := by
      intro d
      rw [← findDef_iff, ← findDef_iff]
      unfold findDef
      have : (defs.find? fun d => d.classname == name) = none := by
        rw [List.find?_eq_none]
        intro x hx hxn
        exact hdefs x hx e he (by rw [hn, eq_of_beq hxn])
      simp [extended, List.find?_append, this]
    exact ⟨fun d hd => ⟨d, (key d).2 hd, sameKind_refl _⟩, fun d hd => ⟨d, (key d).1 hd⟩⟩
  · intro e he
    have key : ∀ d, FirstForge (extended config defs layers declared brushes faces).forgeGameData e d ↔
        FirstForge config.forgeGameData e d := by
      intro d
      rw [← find_forge_some, ← find_forge_some]
      have : (declared.find? fun d => some d.className == e.properties.get? (str! "classname")) = none := by
        rw [List.find?_eq_none]
        intro x hx hxn
        exact hdeclared x hx e he (eq_of_beq hxn).symm
      simp [extended, List.find?_append, this]
    exact ⟨fun d hd => ⟨d, (key d).2 hd, rfl⟩, fun d hd => ⟨d, (key d).1 hd⟩⟩
  · intro t ht
    have : layers.filter (fun l => l.texture = t) = [] := by
      rw [List.filter_eq_nil_iff]
      intro l hl' he
      have he' : l.texture = t := by simpa using he
      simp only [List.mem_cons, List.not_mem_nil, or_false] at ht
      rcases ht with rfl | rfl
      · exact (hlayers l hl').1 he'
      · exact (hlayers l hl').2 he'
    simp [extended, this]

end
end Quarch
