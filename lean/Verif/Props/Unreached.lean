import Verif.Props.Size
/-
C133: entities that are not reached from the top level leave no trace; C53 for entities in groups.
-/
set_option linter.unusedSectionVars false
namespace Quarch
open Spec Scene LayerFilter

section
variable {F : Type} [Arith F]

/-- Building an entity that is reached looks only at entities that are reached. -/
theorem build_keep {gd : GameData F} {fgd : Forge.GameData F} {bl : TextureBlacklist} {W : Entity F × EntityGeo F}
    {ds : List (Entity F × EntityGeo F)} {entities : List (Entity F)} (hs : ∀ d ∈ ds, d.1 ∈ entities)
    {keep : Entity F → Bool} (hk : ∀ e ∈ entities, Anchored entities e → keep e = true) : ∀ {depth : Nat} {origin : V3 F}
    {x : Entity F × EntityGeo F}, x.1 ∈ entities → Anchored entities x.1 →
    buildEntity gd fgd bl (W :: ds.filter fun d => keep d.1) depth origin x = buildEntity gd fgd bl (W :: ds) depth origin x := by
  intro depth
  induction depth with
  | zero => intros; rfl
  | succ depth ih =>
    rintro o ⟨e, g⟩ hx ha
    have hm : ∀ d ∈ ds.filter (fun child => inGroup e child.1), Anchored entities d.1 ∧ d.1 ∈ entities := by
      intro d hd
      obtain ⟨h1, h2⟩ := List.mem_filter.1 hd
      rw [inGroup_under] at h2
      exact ⟨.under hx (of_decide_eq_true h2) ha, hs d h1⟩
    have hf : (ds.filter fun d => keep d.1).filter (fun child => inGroup e child.1) =
        ds.filter fun child => inGroup e child.1 := by
      rw [List.filter_filter]
      apply List.filter_congr
      intro d hd
      cases hi : inGroup e d.1 with
      | false => rfl
      | true =>
        obtain ⟨h1, h2⟩ := hm d (List.mem_filter.2 ⟨hd, hi⟩)
        simp [hk _ h2 h1]
    unfold buildEntity
    simp only [List.drop_succ_cons, List.drop_zero, hf]
    rw [mapOut_congr fun d hd => ih (origin := V3.neg g.center) (hm d hd).2 (hm d hd).1]

/-- So does building the scene. -/
theorem scene_keep {depth : Nat} {gd : GameData F} {fgd : Forge.GameData F} {bl : TextureBlacklist} {W : Entity F × EntityGeo F}
    {ds : List (Entity F × EntityGeo F)} {entities : List (Entity F)} (hw : IsWorld W.1) (hwm : W.1 ∈ entities)
    (hs : ∀ d ∈ ds, d.1 ∈ entities)
    {keep : Entity F → Bool} (hk : ∀ e ∈ entities, Anchored entities e → keep e = true)
    {layers : List (Str × List (BrushGeo F))} :
    Scene.run depth gd fgd bl (W :: ds.filter fun d => keep d.1) layers = Scene.run depth gd fgd bl (W :: ds) layers := by
  have hf : (ds.filter fun d => keep d.1).filter (fun d => (d.1.properties.get? (str! "_tb_group")).isNone) =
      ds.filter fun d => (d.1.properties.get? (str! "_tb_group")).isNone := by
    rw [List.filter_filter]
    apply List.filter_congr
    intro d hd
    cases hi : (d.1.properties.get? (str! "_tb_group")).isNone with
    | false => rfl
    | true => simp [hk _ (hs d hd) (.top (Option.isNone_iff_eq_none.1 hi))]
  unfold Scene.run
  simp only [List.take_succ_cons, List.take_zero, List.drop_succ_cons, List.drop_zero, hf]
  rw [mapOut_congr (l := [W]) fun d hd => by
      cases List.mem_singleton.1 hd
      exact build_keep hs hk (origin := V3.zero) hwm (.world hw),
    mapOut_congr (l := ds.filter _) fun d hd => by
      obtain ⟨h1, h2⟩ := List.mem_filter.1 hd
      exact build_keep hs hk (origin := V3.zero) (hs d h1) (.top (Option.isNone_iff_eq_none.1 h2))]

theorem geo_keep {α β : Type} {f : α → Outcome β} (keep : α → Bool) : ∀ {l : List α} {gs : List β}, mapOut f l = .ok gs →
    ∃ gs', mapOut f (l.filter keep) = .ok gs' ∧ (l.filter keep).zip gs' = (l.zip gs).filter fun d => keep d.1 := by
  intro l gs h
  replace h := mapOut_eq_ok.1 h
  induction h with
  | nil => exact ⟨[], rfl, rfl⟩
  | cons hx _ ih =>
    rename_i x y l gs _
    obtain ⟨gs', h1, h2⟩ := ih
    cases hk : keep x with
    | false => exact ⟨gs', by simpa [hk] using h1, by simpa [hk] using h2⟩
    | true =>
      refine ⟨y :: gs', ?_, by simpa [hk] using h2⟩
      rw [List.filter_cons, if_pos hk]
      exact mapOut_eq_ok.2 (.cons hx (mapOut_eq_ok.1 h1))

variable [Platform]

/-- The load of a map whose geometry can be built. -/
theorem run_keep {depth : Nat}
    {order : List (Str × List (BrushGeo F)) → List (Str × List (BrushGeo F))} {config : Config F} {text text' : Str}
    {entities : List (Entity F)} {keep : Entity F → Bool} (hl : LoadsAs text entities)
    (hl' : LoadsAs text' (entities.filter keep)) (hk : ∀ e ∈ entities, Anchored entities e → keep e = true)
    {gs : List (EntityGeo F)} (hg : Geo.run config.textureInfo entities = .ok gs) :
    Quarch.run depth order { config with mapFile := some text' } = Quarch.run depth order { config with mapFile := some text } := by
  obtain ⟨tokens, paths, t1, p1⟩ := hl
  obtain ⟨tokens', paths', t2, p2⟩ := hl'
  obtain ⟨gs', hg', hz⟩ := geo_keep keep hg
  unfold Quarch.run
  simp only [t1, t2, p1, p2, Outcome.ok_bind, hg]
  rw [show Geo.run config.textureInfo (entities.filter keep) = .ok gs' from hg', Outcome.ok_bind, hz]
  have hmem : ∀ d ∈ entities.zip gs, d.1 ∈ entities := fun d hd => (List.of_mem_zip hd).1
  generalize entities.zip gs = data at hmem
  have hws : (data.filter fun d => keep d.1).filter (fun d => isWorldspawn d.1) = data.filter fun d => isWorldspawn d.1 := by
    rw [List.filter_filter]
    apply List.filter_congr
    intro d hd
    cases hi : isWorldspawn d.1 with
    | false => rfl
    | true =>
      rw [isWorldspawn_iff] at hi
      simp [hk _ (hmem d hd) (.world (of_decide_eq_true hi))]
  unfold LayerFilter.run
  simp only [List.partition_eq_filter_filter, hws]
  split
  · rename_i entity geo hm
    have hin : (entity, geo) ∈ data.filter fun d => isWorldspawn d.1 := by rw [hm]; simp
    obtain ⟨h1, h2⟩ := List.mem_filter.1 hin
    rw [isWorldspawn_iff] at h2
    simp only [Outcome.ok_bind]
    have key := scene_keep (depth := depth) (gd := config.quarchitectGameData) (fgd := config.forgeGameData)
      (bl := config.textureBlacklist) (W := (entity, ⟨geo.center, (splitLayers layerTextures geo.brushes).1⟩))
      (layers := order (splitLayers layerTextures geo.brushes).2) (of_decide_eq_true h2) (hmem (entity, geo) h1)
      (ds := data.filter (not ∘ fun d => isWorldspawn d.1)) (fun d hd => hmem d (List.mem_of_mem_filter hd)) hk
    rw [List.filter_filter] at key ⊢
    rw [← key]
    simp only [Bool.and_comm]
  · rfl

/-- C133: if a map can be loaded, then it can be loaded without some or all of the entities that are not reached from the
top level, and the scene is the same. -/
theorem C133_removed (depth : Nat)
    (order : List (Str × List (BrushGeo F)) → List (Str × List (BrushGeo F))) (config : Config F) (text text' : Str)
    (entities : List (Entity F)) (keep : Entity F → Bool) (hl : LoadsAs text entities)
    (hl' : LoadsAs text' (entities.filter keep)) (hk : ∀ e ∈ entities, Anchored entities e → keep e = true)
    (nodes : List (Node F)) (h : Quarch.run depth order { config with mapFile := some text } = .ok nodes) :
    Quarch.run depth order { config with mapFile := some text' } = .ok nodes := by
  obtain ⟨text0, tokens, paths, entities0, gs, _, _, e1, t1, p1, hg, _, _⟩ := run_steps h
  cases e1
  have := hl.unique ⟨tokens, paths, t1, p1⟩
  subst this
  rw [run_keep hl hl' hk hg, h]

/-- C133: the other way round, such entities can be added to a map without changing the outcome of the load, provided the
normals of their faces with plain UVs have a largest component. -/
theorem C133_added (depth : Nat)
    (order : List (Str × List (BrushGeo F)) → List (Str × List (BrushGeo F))) (config : Config F) (text text' : Str)
    (entities : List (Entity F)) (keep : Entity F → Bool) (hl : LoadsAs text entities)
    (hl' : LoadsAs text' (entities.filter keep)) (hk : ∀ e ∈ entities, Anchored entities e → keep e = true)
    (hfaces : ∀ e ∈ entities, keep e = false → ∀ b ∈ e.brushes, ∀ p ∈ b.planes, (∃ u v, p.uv = .quake u v) →
      (∃ x, Found b.planes p x) → HasLargest (faceNormal p))
    (nodes : List (Node F)) (h : Quarch.run depth order { config with mapFile := some text' } = .ok nodes) :
    Quarch.run depth order { config with mapFile := some text } = .ok nodes := by
  obtain ⟨text0, tokens, paths, entities0, gs, _, _, e1, t1, p1, hg, _, _⟩ := run_steps h
  cases e1
  have := hl'.unique ⟨tokens, paths, t1, p1⟩
  subst this
  have hold := (geo_succeeds _ _).1 ⟨gs, hg⟩
  obtain ⟨gs', hg'⟩ := (geo_succeeds config.textureInfo entities).2 fun e he b hb p hp hq hx => by
    cases hke : keep e with
    | false => exact hfaces e he hke b hb p hp hq hx
    | true => exact hold e (List.mem_filter.2 ⟨he, hke⟩) b hb p hp hq hx
  rw [← run_keep hl hl' hk hg', h]

/-- C133: in particular entities in a group whose number no entity has. -/
theorem C133_missing_group (depth : Nat)
    (order : List (Str × List (BrushGeo F)) → List (Str × List (BrushGeo F))) (config : Config F) (text text' : Str)
    (entities : List (Entity F)) (group : Str) (hl : LoadsAs text entities)
    (hg : ∀ e ∈ entities, e.properties (str! "_tb_id") ≠ some group)
    (hl' : LoadsAs text' (entities.filter fun e => e.properties (str! "_tb_group") ≠ some group ∨
      e.properties (str! "classname") = some (str! "worldspawn")))
    (nodes : List (Node F)) (h : Quarch.run depth order { config with mapFile := some text } = .ok nodes) :
    Quarch.run depth order { config with mapFile := some text' } = .ok nodes := by
  refine C133_removed depth order config text text' entities _ hl hl' ?_ nodes h
  intro e he ha
  rw [decide_eq_true_eq]
  cases ha with
  | world hw => exact .inr hw
  | top ht => exact .inl (by unfold groupOf at ht; rw [ht]; simp)
  | under hp hu _ =>
    refine .inl fun hc => hg _ hp ?_
    rw [← hc]
    exact hu.2.symm

/-- C53: an entity without classname that is reached from the top level, over any number of groups, stops the load. -/
theorem C53_reached (depth : Nat)
    (order : List (Str × List (BrushGeo F)) → List (Str × List (BrushGeo F))) (config : Config F)
    (text : Str) (hm : config.mapFile = some text) (entities : List (Entity F)) (hl : LoadsAs text entities)
    (e : Entity F) (he : e ∈ entities) (ha : Anchored entities e)
    (hc : e.properties (str! "classname") = none) :
    (Quarch.run depth order config).aborts = true := by
  cases h : Quarch.run depth order config with
  | ok nodes =>
    exfalso
    obtain ⟨entities', hL⟩ := C92_needs depth order config nodes h
    obtain ⟨text', h1, h2⟩ := hL.text
    rw [hm] at h1; cases h1
    have := hl.unique ((C92_text _ _).2 h2)
    subst this
    obtain ⟨name, hn⟩ := hL.named e he ha
    rw [hc] at hn
    cases hn
  | err err =>
    exfalso
    rcases (C53_error_iff depth order config err).1 h with ⟨h1, _⟩ | ⟨text', tokens, h1, h2, h3⟩
    · rw [hm] at h1; cases h1
    · rw [hm] at h1; cases h1
      obtain ⟨tokens', paths', t2, p2⟩ := hl
      rw [h2] at t2; cases t2
      rw [(parser_err_iff tokens err).2 h3] at p2
      cases p2
  | panic _ => rfl
  | overflow => rfl

end
end Quarch
