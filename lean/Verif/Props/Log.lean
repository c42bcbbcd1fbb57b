import Verif.Spec.Log
import Verif.Props.Output
import Verif.Props.Loads
/-
C94: what a load prints.
-/
set_option linter.unusedSectionVars false
namespace Quarch
open Spec Output Scene

/-! ### writing does not change results -/

theorem Logged.bind_snd {α β : Type} (x : Logged α) (f : α → Logged β) :
    (x.bind f).2 = x.2.bind fun a => (f a).2 := by
  obtain ⟨l, o⟩ := x
  cases o <;> rfl

theorem Logged.bind_ok {α β : Type} {x : Logged α} {f : α → Logged β} {a : α} (h : x.2 = .ok a) :
    (x.bind f).1 = x.1 ++ (f a).1 := by
  obtain ⟨l, o⟩ := x
  cases h; rfl

theorem Logged.bind_stop {α β : Type} {x : Logged α} {f : α → Logged β} (h : ∀ a, x.2 ≠ .ok a) :
    (x.bind f).1 = x.1 := by
  obtain ⟨l, o⟩ := x
  cases o with
  | ok a => exact absurd rfl (h a)
  | _ => rfl

theorem say_bind {α : Type} (s : Str) (f : Unit → Logged α) : (say s).bind f = (LogLine.out s :: (f ()).1, (f ()).2) := rfl

theorem quiet_bind {α β : Type} (x : Outcome α) (f : α → Logged β) :
    ((quiet x).bind f).2 = x.bind fun a => (f a).2 := Logged.bind_snd _ _

theorem mapLog_snd {α β : Type} (f : α → Logged β) (l : List α) : (mapLog f l).2 = mapOut (fun a => (f a).2) l := by
  induction l with
  | nil => rfl
  | cons x xs ih =>
    rw [mapLog, Logged.bind_snd, mapOut_cons]
    congr 1; funext y
    rw [Logged.bind_snd, ih]
    rfl

theorem mapLog_lines {α β : Type} {f : α → Logged β} {l : List α} {r : List β} (h : (mapLog f l).2 = .ok r) :
    (mapLog f l).1 = (l.map fun a => (f a).1).flatten := by
  induction l generalizing r with
  | nil => rfl
  | cons x xs ih =>
    rw [mapLog_snd, mapOut_cons] at h
    obtain ⟨y, h1, h⟩ := Outcome.bind_eq_ok.1 h
    obtain ⟨ys, h2, h⟩ := Outcome.bind_eq_ok.1 h
    rw [← mapLog_snd] at h2
    rw [mapLog, Logged.bind_ok h1, Logged.bind_ok h2, ih h2]
    simp [quiet]

section
variable {F : Type} [Arith F]

theorem entityVisualLog_snd (style : DebugStyle) (gd : GameData F) (bl : TextureBlacklist) (e : Entity F)
    (g : EntityGeo F) : (entityVisualLog style gd bl e g).2 = entityVisual gd bl e g := by
  unfold entityVisualLog entityVisual
  cases e.properties.get? (str! "classname") with
  | none => rfl
  | some name =>
    simp only
    cases findDef gd name with
    | none => rfl
    | some d => cases hd : d.data <;> simp only [hd] <;> rfl

theorem collisionLog_snd (ct : CollisionType) (g : EntityGeo F) : (collisionLog ct g).2 = collisionOf ct g := by
  cases ct <;> rfl

theorem entityCollisionLog_snd (style : DebugStyle) (gd : GameData F) (e : Entity F)
    (g : EntityGeo F) : (entityCollisionLog style gd e g).2 = entityCollision gd e g := by
  unfold entityCollisionLog entityCollision
  cases e.properties.get? (str! "classname") with
  | none => rfl
  | some name =>
    simp only
    cases findDef gd name with
    | none => rfl
    | some d =>
      cases hd : d.data with
      | point p => simp only [hd]; rfl
      | brush p b => simp only [hd]; exact collisionLog_snd _ _

theorem entityPropertiesLog_snd (style : DebugStyle) (fgd : Forge.GameData F) (e : Entity F) :
    (entityPropertiesLog style fgd e).2 = entityProperties fgd e := by
  unfold entityPropertiesLog
  simp only
  cases h : fgd.definitions.find? fun d => some d.className == e.properties.get? (str! "classname") with
  | none => unfold entityProperties; simp only [h]
  | some d => rfl

theorem buildEntityLog_snd (style : DebugStyle) (gd : GameData F) (fgd : Forge.GameData F) (bl : TextureBlacklist)
    (data : List (Entity F × EntityGeo F)) : ∀ (depth : Nat) (origin : V3 F) (d : Entity F × EntityGeo F),
    (buildEntityLog style gd fgd bl data depth origin d).2 = buildEntity gd fgd bl data depth origin d := by
  intro depth
  induction depth with
  | zero => intro o d; rfl
  | succ depth ih =>
    intro o ⟨e, g⟩
    unfold buildEntityLog buildEntity
    simp only [Logged.bind_snd, entityVisualLog_snd, entityCollisionLog_snd, mapLog_snd, entityPropertiesLog_snd, ih]
    rfl

theorem bind_same {α β : Type} (x : Outcome α) (f : α → α → Outcome β) :
    (x.bind fun a => x.bind fun b => f a b) = x.bind fun a => f a a := by
  cases x <;> rfl

theorem buildLayerLog_snd (style : DebugStyle) (gd : GameData F) (l : Str × List (BrushGeo F)) :
    (buildLayerLog style gd l).2 = buildLayer gd l := by
  unfold buildLayerLog buildLayer
  generalize (gd.worldspawnLayers.filter fun x => x.texture == l.1) = ls
  match ls with
  | [] => rfl
  | _ :: _ :: _ => rfl
  | [layer] =>
    simp only [Logged.bind_snd, layerCollision]
    show Outcome.bind (layerVisual _ _ _) _ = _
    congr 1; funext v
    rw [collisionLog_snd]
    cases hc : collisionOf layer.collisionType (⟨V3.zero, l.2⟩ : EntityGeo F) with
    | ok c =>
      simp only [Outcome.ok_bind]
      cases c with
      | none => simp only [quiet, Outcome.ok_bind]; split <;> rfl
      | convex s => simp only [collisionLog_snd, hc, Outcome.ok_bind]; split <;> rfl
      | concave s => simp only [collisionLog_snd, hc, Outcome.ok_bind]; split <;> rfl
    | _ => rfl

theorem sceneLog_snd (style : DebugStyle) (depth : Nat) (gd : GameData F) (fgd : Forge.GameData F)
    (bl : TextureBlacklist) (data : List (Entity F × EntityGeo F)) (layers : List (Str × List (BrushGeo F))) :
    (sceneLog style depth gd fgd bl data layers).2 = Scene.run depth gd fgd bl data layers := by
  unfold sceneLog Scene.run
  simp only [say_bind, Logged.bind_snd, mapLog_snd, buildEntityLog_snd, buildLayerLog_snd]
  rfl

theorem layerFilterLog_snd (data : List (Entity F × EntityGeo F)) :
    (layerFilterLog data).2 = LayerFilter.run data := by
  unfold layerFilterLog LayerFilter.run
  generalize data.partition (fun d => LayerFilter.isWorldspawn d.1) = p
  obtain ⟨ws, others⟩ := p
  match ws with
  | [] => rfl
  | [(e, g)] => rfl
  | _ :: _ :: _ => rfl

variable [Platform]

/-- C94: the call that writes ends like the call of the model that does not. -/
theorem C94_same_result (style : DebugStyle) (depth : Nat)
    (order : List (Str × List (BrushGeo F)) → List (Str × List (BrushGeo F))) (file : Option (List UInt8))
    (config : Config F) : (runLog style depth order file config).2 = runFile depth order file config := by
  unfold runLog runFile Quarch.run
  simp only [say_bind, Logged.bind_snd]
  cases readToString file with
  | none => rfl
  | some text =>
    simp only [quiet, Outcome.ok_bind, layerFilterLog_snd, sceneLog_snd]

/-! ### what is written about an entity -/

omit [Platform] in
theorem entering_of (style : DebugStyle) (gd : GameData F) (bl : TextureBlacklist) (e : Entity F) (g : EntityGeo F)
    {name : Str} (hn : e.properties (str! "classname") = some name) :
    Entering gd name ((entityVisualLog style gd bl e g).1 ++ (entityCollisionLog style gd e g).1) := by
  have hn' : e.properties.get? (str! "classname") = some name := hn
  unfold entityVisualLog entityCollisionLog
  simp only [hn']
  cases hd : findDef gd name with
  | none => exact .undefined _ (findDef_none.1 hd) (debugStr_quoted style name)
  | some d =>
    have hfd := findDef_iff.1 hd
    cases hdd : d.data with
    | point p => simp only [hdd]; exact .point d p hfd hdd
    | brush p b =>
      simp only [hdd]
      have hv : (b.visualType = .none ∧ debugVisualType b.visualType = str! "None") ∨
          (b.visualType = .mesh ∧ debugVisualType b.visualType = str! "Mesh") := by
        cases b.visualType
        · exact .inl ⟨rfl, rfl⟩
        · exact .inr ⟨rfl, rfl⟩
      have := Entering.brush d p b _ hfd hdd hv
      convert this using 1
      cases b.collisionType <;> rfl

omit [Platform] in
theorem leaving_of (style : DebugStyle) (fgd : Forge.GameData F) (e : Entity F) {name : Str}
    (hn : e.properties (str! "classname") = some name) : Leaving fgd name (entityPropertiesLog style fgd e).1 := by
  have hn' : e.properties.get? (str! "classname") = some name := hn
  unfold entityPropertiesLog
  simp only [hn']
  cases h : fgd.definitions.find? fun d => some d.className == some name with
  | none =>
    refine .unknown (debugStr style name) (fun d hd e => ?_) (debugStr_quoted style name)
    have := List.find?_eq_none.1 h d hd
    simp [e] at this
  | some d =>
    refine .known ⟨d, List.mem_of_find?_eq_some h, ?_⟩
    have := List.find?_some h
    simpa using this

omit [Platform] in
/-- The lines of a successful build of an entity. -/
theorem build_lines {style : DebugStyle} {gd : GameData F} {fgd : Forge.GameData F} {bl : TextureBlacklist}
    {data : List (Entity F × EntityGeo F)} {depth : Nat} {origin : V3 F} {e : Entity F} {g : EntityGeo F}
    {node : Node F} (h : buildEntity gd fgd bl data (depth + 1) origin (e, g) = .ok node) :
    (buildEntityLog style gd fgd bl data (depth + 1) origin (e, g)).1 =
      (entityVisualLog style gd bl e g).1 ++ (entityCollisionLog style gd e g).1 ++
      ((members data e).map fun c => (buildEntityLog style gd fgd bl data depth (V3.neg g.center) c).1).flatten ++
      (entityPropertiesLog style fgd e).1 := by
  obtain ⟨d', v, c, ents, name, props, e0, h1, h2, h3, hn, h5, rfl⟩ := buildEntity_ok h
  cases e0
  have h3' : (mapLog (fun child => buildEntityLog style gd fgd bl data depth (V3.neg g.center) child)
      ((data.drop 1).filter fun child => inGroup e child.1)).2 = .ok ents := by
    rw [mapLog_snd]
    simp only [buildEntityLog_snd]
    exact mapOut_eq_ok.2 h3
  conv_lhs => unfold buildEntityLog
  rw [Logged.bind_ok (by rw [entityVisualLog_snd]; exact h1), Logged.bind_ok (by rw [entityCollisionLog_snd]; exact h2),
    Logged.bind_ok h3', Logged.bind_ok (a := name) (by
      show Outcome.unwrap (e.properties (str! "classname")) = _; rw [hn]; rfl),
    Logged.bind_ok (by rw [entityPropertiesLog_snd]; exact h5), mapLog_lines h3']
  simp only [quiet, List.append_nil, List.nil_append, List.append_assoc]
  rfl

omit [Platform] in
theorem told_of_build {style : DebugStyle} {gd : GameData F} {fgd : Forge.GameData F} {bl : TextureBlacklist}
    {data : List (Entity F × EntityGeo F)} : ∀ {depth : Nat} {origin : V3 F} {d : Entity F × EntityGeo F}
    {node : Node F}, buildEntity gd fgd bl data depth origin d = .ok node →
    Told gd fgd ((data.drop 1).map (·.1)) d.1 (buildEntityLog style gd fgd bl data depth origin d).1 := by
  intro depth
  induction depth with
  | zero => intro o d n h; unfold buildEntity at h; cases h
  | succ depth ih =>
    intro o ⟨e, g⟩ n h
    rw [build_lines h]
    obtain ⟨d', v, c, ents, name, props, e0, h1, h2, h3, hn, h5, rfl⟩ := buildEntity_ok h
    cases e0
    refine .mk hn (entering_of style gd bl e g hn) ?_ (leaving_of style fgd e hn)
    rw [← members_map, List.forall₂_map_left_iff, List.forall₂_map_right_iff]
    refine List.forall₂_same.2 fun c hc => ?_
    obtain ⟨n, hb⟩ := forall₂_left h3 hc
    exact ih hb.2

omit [Arith F] [Platform] in
theorem second_collision (x : Logged (CollisionGeometry F)) : ∀ k : CollisionGeometry F, k ≠ .none →
    (match k with
      | .none => quiet (.ok CollisionGeometry.none)
      | _ => x) = x
  | .none, h => absurd rfl h
  | .convex _, _ => rfl
  | .concave _, _ => rfl

omit [Platform] in
theorem layerTold_of [LawfulEq F] (style : DebugStyle) (gd : GameData F) (t : Str) (brushes : List (BrushGeo F))
    (hf : Fanned brushes) : LayerTold gd.worldspawnLayers t brushes (buildLayerLog style gd (t, brushes)).1 := by
  have hcount : gd.worldspawnLayers.countP (fun l => decide (l.texture = t)) =
      (gd.worldspawnLayers.filter fun l => l.texture == t).length := by
    rw [List.countP_eq_length_filter]
    congr 1
    exact List.filter_congr fun l _ => by rw [Bool.eq_iff_iff]; simp
  have hmem : ∀ l ∈ gd.worldspawnLayers.filter (fun l => l.texture == t), l ∈ gd.worldspawnLayers ∧ l.texture = t := by
    intro l hl
    rw [List.mem_filter] at hl
    exact ⟨hl.1, by simpa using hl.2⟩
  unfold buildLayerLog
  simp only
  revert hcount hmem
  generalize (gd.worldspawnLayers.filter fun l => l.texture == t) = ls
  intro hcount hmem
  match ls with
  | [] => exact .notOne _ (by rw [hcount]; simp) (debugStr_quoted style t)
  | _ :: _ :: _ => exact .notOne _ (by rw [hcount]; simp) (debugStr_quoted style t)
  | [layer] =>
    obtain ⟨hm, ht⟩ := hmem layer (by simp)
    have hone : gd.worldspawnLayers.countP (fun l => decide (l.texture = t)) = 1 := hcount
    have hvis : ∃ v, (quiet (layerVisual layer t brushes)).2 = .ok v := by
      rcases layerVisual_ok layer t brushes hf with ⟨_, h⟩ | ⟨_, s, h, _⟩
      · exact ⟨_, h⟩
      · exact ⟨_, h⟩
    obtain ⟨v, hv⟩ := hvis
    simp only
    rw [Logged.bind_ok hv]
    have hcol := layerCollision_ok layer brushes hf
    unfold layerCollision at hcol
    rcases hcol with ⟨hs, hc⟩ | ⟨hs, k, hc, hk, _⟩
    · rw [Logged.bind_ok (by rw [collisionLog_snd]; exact hc), Logged.bind_ok (a := CollisionGeometry.none) rfl]
      have hend : ∀ x : List (Node F), (if x.isEmpty then (quiet (.ok none) : Logged (Option (Node F)))
          else quiet (.ok (some (.actor V3.zero
      { name := layer.name
        entityType := layer.entityType
        componentClass := Scene.componentClass layer.componentType
        propertyApplicationType := .properties
        properties := Map.empty } x)))).1 = [] := by
        intro x; split <;> rfl
      rw [hend]
      simp only [quiet, List.append_nil, List.nil_append]
      unfold LayerSolid at hs
      cases hct : layer.collisionType with
      | none => exact .silent layer hone hm ht (by simp [hct])
      | convex => exact absurd (Or.inl hct) hs
      | concave =>
        refine .empty layer hone hm ht hct fun b hb p hp => ?_
        by_contra hne
        exact hs (.inr ⟨hct, b, hb, p, hp, hne⟩)
    · rw [Logged.bind_ok (by rw [collisionLog_snd]; exact hc)]
      have hc2 : ∀ f : CollisionGeometry F → Logged (Option (Node F)),
          ((match k with
            | .none => quiet (.ok CollisionGeometry.none)
            | _ => collisionLog layer.collisionType (⟨V3.zero, brushes⟩ : EntityGeo F)).bind f).1 =
          (collisionLog layer.collisionType (⟨V3.zero, brushes⟩ : EntityGeo F)).1 ++ (f k).1 := by
        intro f
        rw [second_collision _ k hk, Logged.bind_ok (by rw [collisionLog_snd]; exact hc)]
      refine Eq.mp (congrArg (fun x => LayerTold gd.worldspawnLayers t brushes
        ((quiet (layerVisual layer t brushes)).1 ++
          ((collisionLog layer.collisionType { center := V3.zero, brushes := brushes }).1 ++ x))) (hc2 _).symm) ?_
      have hend : ∀ x : List (Node F), (if x.isEmpty then (quiet (.ok none) : Logged (Option (Node F)))
          else quiet (.ok (some (.actor V3.zero
      { name := layer.name
        entityType := layer.entityType
        componentClass := Scene.componentClass layer.componentType
        propertyApplicationType := .properties
        properties := Map.empty } x)))).1 = [] := by
        intro x; split <;> rfl
      rw [hend]
      simp only [quiet, List.append_nil, List.nil_append]
      cases hct : layer.collisionType with
      | none => rw [hct] at hc; cases hc; exact absurd rfl hk
      | convex => exact .silent layer hone hm ht (by simp [hct])
      | concave =>
        rcases hs with hs | ⟨_, hs⟩
        · rw [hct] at hs; cases hs
        · exact .mesh layer hone hm ht hct hs

/-! ### the whole load -/

omit [Platform] in
theorem decVal_showNat (n : Nat) : DecVal (showNat n) n := by
  refine decVal_iff.2 ⟨?_, digitsVal_showNat n⟩
  rw [showNat]
  split <;> simp

omit [Platform] in
theorem layerFilterLog_lines {all data : List (Entity F × EntityGeo F)} {layers : List (Str × List (BrushGeo F))}
    {w : Entity F} {g : EntityGeo F} (hmem : (w, g) ∈ all) (hw : IsWorld w)
    (h : LayerFilter.run all = .ok (data, layers)) :
    (layerFilterLog all).1 = [.out (str! "Worldspawn Brush Geo: " ++ showNat (g.brushes.countP fun b =>
      ¬ AllFaces (str! "*water0") b ∧ ¬ AllFaces (str! "*slime0") b) ++ str! ", Worldspawn Layer Geo: 2")] := by
  obtain ⟨h1, h2⟩ := C18_split_by_texture all w g hmem hw data layers h
  have h2' : showNat 2 = str! "2" := by rw [showNat]; rfl
  unfold LayerFilter.run at h
  unfold layerFilterLog
  revert h
  generalize all.partition (fun d => LayerFilter.isWorldspawn d.1) = p
  obtain ⟨ws, others⟩ := p
  intro h
  match ws with
  | [] => cases h
  | _ :: _ :: _ => cases h
  | [(e, g')] =>
    simp only at h
    cases h
    rw [List.head?_cons, Option.some.injEq, Prod.mk.injEq] at h2
    have h3 := congrArg EntityGeo.brushes h2.2
    simp only at h3 ⊢
    rw [say_bind, h1, h3, List.countP_eq_length_filter]
    simp only [List.length_cons, List.length_nil, Nat.zero_add, Nat.reduceAdd, h2', quiet, List.append_assoc]
    rfl

/-- The lines of a load, from the steps it goes through. -/
theorem run_lines {style : DebugStyle} {depth : Nat}
    {order : List (Str × List (BrushGeo F)) → List (Str × List (BrushGeo F))} {file : Option (List UInt8)}
    {config : Config F} {text : Str} {tokens : List Token} {paths : _} {entities : List (Entity F)}
    {gs : List (EntityGeo F)} {data : List (Entity F × EntityGeo F)} {layers : List (Str × List (BrushGeo F))}
    (h1 : readToString file = some text) (h2 : Tokenizer.run Platform.bareCR text = .ok tokens)
    (h3 : Parser.run tokens = .ok (paths, entities)) (h4 : Geo.run config.textureInfo entities = .ok gs)
    (h5 : LayerFilter.run (entities.zip gs) = .ok (data, layers)) :
    (runLog style depth order file config).1 = (opening []).take 5 ++ (layerFilterLog (entities.zip gs)).1 ++
      (sceneLog style depth config.quarchitectGameData config.forgeGameData config.textureBlacklist data
        (order layers)).1 := by
  unfold runLog
  simp only [say_bind]
  rw [Logged.bind_ok (a := text) (by rw [h1]; rfl), Logged.bind_ok (a := tokens) h2, Logged.bind_ok h3,
    Logged.bind_ok (a := gs) h4, Logged.bind_ok (by rw [layerFilterLog_snd]; exact h5)]
  simp only [quiet, List.nil_append]
  rfl

omit [Platform] in
theorem scene_lines {style : DebugStyle} {depth : Nat} {gd : GameData F} {fgd : Forge.GameData F}
    {bl : TextureBlacklist} {data : List (Entity F × EntityGeo F)} {layers : List (Str × List (BrushGeo F))}
    {nodes : List (Node F)} (h : Scene.run depth gd fgd bl data layers = .ok nodes) :
    (sceneLog style depth gd fgd bl data layers).1 = (opening []).drop 6 ++
      (((data.take 1).map fun d => (buildEntityLog style gd fgd bl data depth V3.zero d).1).flatten ++
       ((layers.map fun l => (buildLayerLog style gd l).1).flatten ++
        (((data.drop 1).filter fun d => (groupOf d.1).isNone).map fun d =>
          (buildEntityLog style gd fgd bl data depth V3.zero d).1).flatten)) := by
  obtain ⟨ws, ls, es, rfl, h1, h2, h3⟩ := run_ok h
  have h1' : (mapLog (buildEntityLog style gd fgd bl data depth V3.zero) (data.take 1)).2 = .ok ws := by
    rw [mapLog_snd]; simp only [buildEntityLog_snd]; exact mapOut_eq_ok.2 h1
  have h2' : (mapLog (buildLayerLog style gd) layers).2 = .ok ls := by
    rw [mapLog_snd]; simp only [buildLayerLog_snd]; exact mapOut_eq_ok.2 h2
  have h3' : (mapLog (buildEntityLog style gd fgd bl data depth V3.zero)
      ((data.drop 1).filter fun d => (d.1.properties.get? (str! "_tb_group")).isNone)).2 = .ok es := by
    rw [mapLog_snd]; simp only [buildEntityLog_snd]; exact mapOut_eq_ok.2 h3
  unfold sceneLog
  simp only [say_bind]
  rw [Logged.bind_ok h1', Logged.bind_ok h2', Logged.bind_ok h3', mapLog_lines h1', mapLog_lines h2', mapLog_lines h3']
  simp only [quiet, List.append_nil]
  rfl

/-- C94: what a load that succeeds has written. -/
theorem C94_printed [LawfulEq F] (style : DebugStyle) (depth : Nat)
    (order : List (Str × List (BrushGeo F)) → List (Str × List (BrushGeo F))) (horder : ∀ l, (order l).Perm l)
    (file : Option (List UInt8)) (config : Config F) (lines : List LogLine) (nodes : List (Node F))
    (h : runLog style depth order file config = (lines, .ok nodes)) :
    ∃ text pre w post g count world rest t u a b, file = some (utf8Bytes text) ∧ MapIs text (pre ++ w :: post) ∧
      IsWorld w ∧ (∀ e ∈ pre ++ post, ¬ IsWorld e) ∧ Geo.buildEntity config.textureInfo w = .ok g ∧
      DecVal count (g.brushes.countP fun b => ¬ AllFaces (str! "*water0") b ∧ ¬ AllFaces (str! "*slime0") b) ∧
      Told config.quarchitectGameData config.forgeGameData (pre ++ post) w world ∧
      [t, u].Perm [(str! "*water0", g.brushes.filter fun b => AllFaces (str! "*water0") b),
        (str! "*slime0", g.brushes.filter fun b => AllFaces (str! "*slime0") b ∧ ¬ AllFaces (str! "*water0") b)] ∧
      LayerTold config.quarchitectGameData.worldspawnLayers t.1 t.2 a ∧
      LayerTold config.quarchitectGameData.worldspawnLayers u.1 u.2 b ∧
      List.Forall₂ (Told config.quarchitectGameData config.forgeGameData (pre ++ post))
        ((pre ++ post).filter fun e => groupOf e = none) rest ∧
      lines = opening count ++ world ++ (a ++ b) ++ rest.flatten := by
  have hrun : runFile depth order file config = .ok nodes := by rw [← C94_same_result style, h]
  unfold runFile at hrun
  obtain ⟨text, tokens, paths, entities, gs, data, layers, h1, h2, h3, h4, h5, h6⟩ := run_steps hrun
  simp only at h1 h4 h6
  have hlines := run_lines (style := style) (depth := depth) (order := order) (config := config) h1 h2 h3 h4 h5
  rw [h] at hlines
  simp only at hlines
  have hmap := zip_map_fst (geo_length h4)
  have hgeo : ∀ d ∈ entities.zip gs, Geo.buildEntity config.textureInfo d.1 = .ok d.2 := by
    have := mapOut_eq_ok.1 h4
    intro d hd
    exact (List.forall₂_iff_zip.1 this).2 hd
  obtain ⟨P, w, g, Q, brs, e1, hw, ho, rfl⟩ := layerFilter_ok h5
  rw [e1] at hmap hgeo h5 hlines
  obtain ⟨ws, ls, es, hn, h7, h8, h9⟩ := run_ok h6
  rw [List.take_succ_cons, List.take_zero] at h7
  rw [List.drop_succ_cons, List.drop_zero] at h9
  obtain ⟨wn, _, hwn, h7', rfl⟩ := List.forall₂_cons_left_iff.1 h7
  have hlay := (C18_split_by_texture _ w g (by simp) hw _ _ h5).1
  have hfan : Fanned g.brushes := built_fanned (hgeo (w, g) (by simp))
  have hperm : (order layers).Perm layers := horder layers
  have hperm := hperm.trans (List.Perm.of_eq hlay)
  obtain ⟨t, u, htu⟩ : ∃ t u, order layers = [t, u] := by
    have := hperm.length_eq
    simp only [List.length_cons, List.length_nil, Nat.zero_add, Nat.reduceAdd] at this
    exact List.length_eq_two.1 this
  have hf : ∀ l ∈ order layers, Fanned l.2 := by
    intro l hl b hb
    have := hperm.mem_iff.1 hl
    simp only [List.mem_cons, List.not_mem_nil, or_false] at this
    rcases this with rfl | rfl
    · exact hfan b (List.mem_of_mem_filter hb)
    · exact hfan b (List.mem_of_mem_filter hb)
  have hothers : (((w, (⟨g.center, brs⟩ : EntityGeo F)) :: (P ++ Q)).drop 1).map (·.1) = P.map (·.1) ++ Q.map (·.1) := by
    simp
  have htold : ∀ {d : Entity F × EntityGeo F} {n : Node F}, buildEntity config.quarchitectGameData
      config.forgeGameData config.textureBlacklist ((w, ⟨g.center, brs⟩) :: (P ++ Q)) depth V3.zero d = .ok n →
      Told config.quarchitectGameData config.forgeGameData (P.map (·.1) ++ Q.map (·.1)) d.1
        (buildEntityLog style config.quarchitectGameData config.forgeGameData config.textureBlacklist
          ((w, ⟨g.center, brs⟩) :: (P ++ Q)) depth V3.zero d).1 := by
    intro d n hb
    have := told_of_build (style := style) hb
    rw [hothers] at this
    exact this
  rw [layerFilterLog_lines (w := w) (g := g) (by simp) hw h5, scene_lines h6, htu] at hlines
  refine ⟨text, P.map (·.1), w, Q.map (·.1), g, _, _,
    ((P ++ Q).filter fun d => (groupOf d.1).isNone).map fun d =>
      (buildEntityLog style config.quarchitectGameData config.forgeGameData config.textureBlacklist
          ((w, ⟨g.center, brs⟩) :: (P ++ Q)) depth V3.zero d).1, t, u, _, _, (C76_utf8_only file text).1 h1, ?_, hw, ?_,
    hgeo (w, g) (by simp), decVal_showNat _, htold hwn, by rw [← htu]; exact hperm,
    layerTold_of style config.quarchitectGameData t.1 t.2 (hf t (by rw [htu]; simp)),
    layerTold_of style config.quarchitectGameData u.1 u.2 (hf u (by rw [htu]; simp)), ?_, ?_⟩
  · rw [← C92_text]
    refine ⟨tokens, paths, h2, ?_⟩
    rw [h3, ← hmap]; simp
  · intro e he
    rw [← List.map_append] at he
    obtain ⟨d, hd, rfl⟩ := List.mem_map.1 he
    exact ho d hd
  · have e : (P.map (·.1) ++ Q.map (·.1)).filter (fun e => decide (groupOf e = none)) =
        ((P ++ Q).filter fun d => (groupOf d.1).isNone).map (·.1) := by
      rw [← List.map_append, List.filter_map]
      congr 1
      apply List.filter_congr
      intro d _
      simp only [Function.comp]
      cases groupOf d.1 <;> simp
    rw [e, List.forall₂_map_left_iff, List.forall₂_map_right_iff]
    refine List.forall₂_same.2 fun d hd => ?_
    obtain ⟨n, _, hb⟩ := forall₂_left h9 hd
    exact htold hb
  · rw [hlines]
    simp [opening]

/-! ### which entities are complained about -/

/-- Some step of the build of `e` builds `d`. -/
def Below (others : List (Entity F)) : Entity F → Entity F → Prop :=
  Relation.ReflTransGen fun p c => c ∈ others ∧ Under p c

section
omit [Arith F] [Platform]
variable {gd : GameData F} {fgd : Forge.GameData F} {others : List (Entity F)} {P : LogLine → Prop} {Q : Str → Prop}

theorem told_about (hb : ∀ n ls, Entering gd n ls → ∀ x ∈ ls, P x → Q n)
    (ha : ∀ n ls, Leaving fgd n ls → ∀ x ∈ ls, P x → Q n)
    {e : Entity F} {lines : List LogLine} (h : Told gd fgd others e lines) : ∀ x ∈ lines, P x →
      ∃ d n, Below others e d ∧ d.properties (str! "classname") = some n ∧ Q n := by
  refine Told.rec (motive_1 := fun e lines _ => ∀ x ∈ lines, P x →
      ∃ d n, Below others e d ∧ d.properties (str! "classname") = some n ∧ Q n)
    (motive_2 := fun l inner _ => ∀ ls ∈ inner, ∀ x ∈ ls, P x →
      ∃ c ∈ l, ∃ d n, Below others c d ∧ d.properties (str! "classname") = some n ∧ Q n) ?_ ?_ ?_ h
  · intro e name before after inner hn h1 h2 h3 ih x hx hp
    rcases List.mem_append.1 hx with hx | hx
    · rcases List.mem_append.1 hx with hx | hx
      · exact ⟨e, name, .refl, hn, hb _ _ h1 x hx hp⟩
      · obtain ⟨ls, hls, hx⟩ := List.mem_flatten.1 hx
        obtain ⟨c, hc, d, n, hd, hq⟩ := ih ls hls x hx hp
        rw [List.mem_filter, decide_eq_true_iff] at hc
        exact ⟨d, n, .head hc hd, hq⟩
    · exact ⟨e, name, .refl, hn, ha _ _ h3 x hx hp⟩
  · intro ls hls
    cases hls
  · intro c ls' l inner _ _ ih1 ih2 ls hls x hx hp
    rcases List.mem_cons.1 hls with rfl | hls
    · exact ⟨c, by simp, ih1 x hx hp⟩
    · obtain ⟨c, hc, h⟩ := ih2 ls hls x hx hp
      exact ⟨c, by simp [hc], h⟩

/-- Everything below an entity is told about. -/
theorem told_below {e d : Entity F} (hd : Below others e d) : ∀ {lines : List LogLine}, Told gd fgd others e lines →
    ∃ part, Told gd fgd others d part ∧ ∀ x ∈ part, x ∈ lines := by
  induction hd using Relation.ReflTransGen.head_induction_on with
  | refl => intro lines h; exact ⟨lines, h, fun _ h => h⟩
  | head hs _ ih =>
    rintro _ ⟨hn, h1, h2, h3⟩
    obtain ⟨ls, hls, hc⟩ := forall₂_left h2 (List.mem_filter.2 ⟨hs.1, decide_eq_true hs.2⟩)
    obtain ⟨part, hp, hsub⟩ := ih hc
    exact ⟨part, hp, fun x hx => List.mem_append_left _ (List.mem_append_right _
      (List.mem_flatten.2 ⟨ls, hls, hsub x hx⟩))⟩

theorem below_iff {pre post : List (Entity F)} {w : Entity F} (hw : IsWorld w)
    (ho : ∀ e ∈ pre ++ post, ¬ IsWorld e) (d : Entity F) :
    (∃ root ∈ w :: (pre ++ post).filter (fun e => groupOf e = none), Below (pre ++ post) root d) ↔
      d ∈ pre ++ w :: post ∧ Anchored (pre ++ w :: post) d := by
  have hmem : ∀ e, e ∈ pre ++ w :: post ↔ e = w ∨ e ∈ pre ++ post := by
    intro e; simp only [List.mem_append, List.mem_cons]; tauto
  constructor
  · rintro ⟨root, hr, hd⟩
    induction hd with
    | refl =>
      rcases List.mem_cons.1 hr with rfl | hr
      · exact ⟨by simp, .world hw⟩
      · rw [List.mem_filter, decide_eq_true_iff] at hr
        exact ⟨(hmem _).2 (.inr hr.1), .top hr.2⟩
    | tail _ hs ih => exact ⟨(hmem _).2 (.inr hs.1), .under ih.1 hs.2 ih.2⟩
  · rintro ⟨hd, ha⟩
    induction ha with
    | world h =>
      rcases (hmem _).1 hd with rfl | hd
      · exact ⟨_, by simp, .refl⟩
      · exact absurd h (ho _ hd)
    | top h =>
      rcases (hmem _).1 hd with rfl | hd
      · exact ⟨_, by simp, .refl⟩
      · exact ⟨_, List.mem_cons_of_mem _ (List.mem_filter.2 ⟨hd, decide_eq_true h⟩), .refl⟩
    | under hp hu _ ih =>
      rcases (hmem _).1 hd with rfl | hd
      · exact ⟨_, by simp, .refl⟩
      · obtain ⟨root, hr, hb⟩ := ih hp
        exact ⟨root, hr, hb.tail ⟨hd, hu⟩⟩
end

omit [Arith F] [Platform] in
theorem firstDef_defined {gd : GameData F} {name : Str} {d : EntityDef F} (h : FirstDef gd name d) :
    ¬ ∀ d ∈ gd.entities, d.classname ≠ name := by
  obtain ⟨pre, post, e, hn, _⟩ := h
  exact fun hu => hu d (by rw [e]; simp) hn

/-- The lines about the groups of a load that succeeds. -/
theorem lines_about [LawfulEq F] {style : DebugStyle} {depth : Nat}
    {order : List (Str × List (BrushGeo F)) → List (Str × List (BrushGeo F))} (horder : ∀ l, (order l).Perm l)
    {text : Str} {config : Config F} {lines : List LogLine} {nodes : List (Node F)}
    (h : runLog style depth order (some (utf8Bytes text)) config = (lines, .ok nodes)) {entities : List (Entity F)}
    (hm : MapIs text entities) {P : LogLine → Prop} {Q : Str → Prop}
    (hb : ∀ n ls, Entering config.quarchitectGameData n ls → ∀ x ∈ ls, P x → Q n)
    (ha : ∀ n ls, Leaving config.forgeGameData n ls → ∀ x ∈ ls, P x → Q n)
    (hQ : ∀ n before after, Entering config.quarchitectGameData n before → Leaving config.forgeGameData n after → Q n →
      ∃ x ∈ before ++ after, P x)
    (hopen : ∀ count, ∀ x ∈ opening count, ¬ P x)
    (hlayer : ∀ t bs ls, LayerTold (F := F) config.quarchitectGameData.worldspawnLayers t bs ls → ∀ x ∈ ls, ¬ P x) :
    (∃ x ∈ lines, P x) ↔ ∃ e ∈ entities, Anchored entities e ∧
      ∃ n, e.properties (str! "classname") = some n ∧ Q n := by
  obtain ⟨text', pre, w, post, g, count, world, rest, t, u, a, b, e1, hm', hw, ho, _, _, hworld, _, hla, hlb, hrest,
    rfl⟩ := C94_printed style depth order horder _ config lines nodes h
  have e2 : text = text' := by
    have := (C76_utf8_only (some (utf8Bytes text)) text).2 rfl
    rw [e1, (C76_utf8_only (some (utf8Bytes text')) text').2 rfl] at this
    exact (Option.some.inj this).symm
  subst e2
  obtain rfl := LoadsAs.unique ((C92_text _ _).2 hm) ((C92_text _ _).2 hm')
  constructor
  · rintro ⟨x, hx, hp⟩
    have : ∃ root ∈ w :: (pre ++ post).filter (fun e => groupOf e = none), ∃ d n, Below (pre ++ post) root d ∧
        d.properties (str! "classname") = some n ∧ Q n := by
      simp only [List.mem_append] at hx
      rcases hx with ((hx | hx) | hx | hx) | hx
      · exact absurd hp (hopen _ x hx)
      · exact ⟨w, by simp, told_about hb ha hworld x hx hp⟩
      · exact absurd hp (hlayer _ _ _ hla x hx)
      · exact absurd hp (hlayer _ _ _ hlb x hx)
      · obtain ⟨ls, hls, hx⟩ := List.mem_flatten.1 hx
        obtain ⟨c, hc, ht⟩ := forall₂_right hrest hls
        exact ⟨c, List.mem_cons_of_mem _ hc, told_about hb ha ht x hx hp⟩
    obtain ⟨root, hr, d, n, hd, hn, hq⟩ := this
    obtain ⟨hmem, hanch⟩ := (below_iff hw ho d).1 ⟨root, hr, hd⟩
    exact ⟨d, hmem, hanch, n, hn, hq⟩
  · rintro ⟨d, hmem, hanch, n, hn, hq⟩
    obtain ⟨root, hr, hd⟩ := (below_iff hw ho d).2 ⟨hmem, hanch⟩
    have : ∃ ls, Told config.quarchitectGameData config.forgeGameData (pre ++ post) root ls ∧
        ∀ x ∈ ls, x ∈ opening count ++ world ++ (a ++ b) ++ rest.flatten := by
      rcases List.mem_cons.1 hr with rfl | hr
      · exact ⟨world, hworld, fun x hx => by simp [hx]⟩
      · obtain ⟨ls, hls, ht⟩ := forall₂_left hrest hr
        exact ⟨ls, ht, fun x hx => List.mem_append_right _ (List.mem_flatten.2 ⟨ls, hls, hx⟩)⟩
    obtain ⟨ls, ht, hsub⟩ := this
    obtain ⟨part, hpart, hsub'⟩ := told_below hd ht
    cases hpart with
    | mk hn' h1 h2 h3 =>
      rw [hn] at hn'
      cases hn'
      obtain ⟨x, hx, hp⟩ := hQ n _ _ h1 h3 hq
      refine ⟨x, hsub x (hsub' x ?_), hp⟩
      rcases List.mem_append.1 hx with hx | hx
      · exact List.mem_append_left _ (List.mem_append_left _ hx)
      · exact List.mem_append_right _ hx

/-- C94: a load that succeeds warns about a missing definition exactly for the classnames without one, of the entities
that are reached. -/
theorem C94_warned_iff [LawfulEq F] (style : DebugStyle) (depth : Nat)
    (order : List (Str × List (BrushGeo F)) → List (Str × List (BrushGeo F))) (horder : ∀ l, (order l).Perm l)
    (text : Str) (config : Config F) (lines : List LogLine) (nodes : List (Node F))
    (h : runLog style depth order (some (utf8Bytes text)) config = (lines, .ok nodes)) (entities : List (Entity F))
    (hm : MapIs text entities) (name : Str) :
    (∃ q, Quoted name q ∧ LogLine.out (str! "No entity definition for classname " ++ q) ∈ lines) ↔
      (∀ d ∈ config.quarchitectGameData.entities, d.classname ≠ name) ∧
      ∃ e ∈ entities, Anchored entities e ∧ e.properties (str! "classname") = some name := by
  have key := lines_about horder h hm
    (P := fun x => ∃ q, Quoted name q ∧ x = .out (str! "No entity definition for classname " ++ q))
    (Q := fun n => n = name ∧ ∀ d ∈ config.quarchitectGameData.entities, d.classname ≠ name) ?_ ?_ ?_ ?_ ?_
  · constructor
    · rintro ⟨q, hq, hx⟩
      obtain ⟨e, he, hae, n, hn, rfl, hu⟩ := key.1 ⟨_, hx, q, hq, rfl⟩
      exact ⟨hu, e, he, hae, hn⟩
    · rintro ⟨hu, e, he, hae, hn⟩
      obtain ⟨x, hx, q, hq, rfl⟩ := key.2 ⟨e, he, hae, name, hn, rfl, hu⟩
      exact ⟨q, hq, hx⟩
  · rintro n ls hl x hx ⟨q, hq, rfl⟩
    cases hl with
    | undefined q' hu hq' =>
      simp only [List.mem_cons, List.not_mem_nil, or_false, or_self, LogLine.out.injEq, List.append_cancel_left_eq] at hx
      subst hx
      obtain rfl := quoted_unique hq hq'
      exact ⟨rfl, hu⟩
    | point d p hd _ => cases hx
    | brush d p b v hd _ _ =>
      rcases List.mem_cons.1 hx with hx | hx
      · simp at hx
      · split at hx
        · simp [gathering] at hx
        · cases hx
  · rintro n ls hl x hx ⟨q, hq, rfl⟩
    cases hl with
    | known _ => cases hx
    | unknown q' _ _ => simp at hx
  · rintro n before after h1 _ ⟨rfl, hu⟩
    cases h1 with
    | undefined q _ hq => exact ⟨_, List.mem_append_left _ (List.mem_cons_self ..), q, hq, rfl⟩
    | point d p hd _ => exact absurd hu (firstDef_defined hd)
    | brush d p b v hd _ _ => exact absurd hu (firstDef_defined hd)
  · rintro count x hx ⟨q, hq, rfl⟩
    simp [opening] at hx
  · rintro t bs ls hl x hx ⟨q, hq, rfl⟩
    cases hl <;> simp [gathering] at hx

/-- C94: a load that succeeds complains on the standard error exactly about the classnames that the forge definitions do
not have, of the entities that are reached, and writes nothing else there. -/
theorem C94_unknown_iff [LawfulEq F] (style : DebugStyle) (depth : Nat)
    (order : List (Str × List (BrushGeo F)) → List (Str × List (BrushGeo F))) (horder : ∀ l, (order l).Perm l)
    (text : Str) (config : Config F) (lines : List LogLine) (nodes : List (Node F))
    (h : runLog style depth order (some (utf8Bytes text)) config = (lines, .ok nodes)) (entities : List (Entity F))
    (hm : MapIs text entities) :
    (∀ name, (∃ q, Quoted name q ∧
        LogLine.err (str! "Failed to get forge entity for classname Some(" ++ q ++ str! ")") ∈ lines) ↔
      (∀ d ∈ config.forgeGameData.definitions, d.className ≠ name) ∧
      ∃ e ∈ entities, Anchored entities e ∧ e.properties (str! "classname") = some name) ∧
    ∀ line, LogLine.err line ∈ lines → ∃ name q, Quoted name q ∧
      line = str! "Failed to get forge entity for classname Some(" ++ q ++ str! ")" := by
  constructor
  · intro name
    have key := lines_about horder h hm
      (P := fun x => ∃ q, Quoted name q ∧
        x = .err (str! "Failed to get forge entity for classname Some(" ++ q ++ str! ")"))
      (Q := fun n => n = name ∧ ∀ d ∈ config.forgeGameData.definitions, d.className ≠ name) ?_ ?_ ?_ ?_ ?_
    · constructor
      · rintro ⟨q, hq, hx⟩
        obtain ⟨e, he, hae, n, hn, rfl, hu⟩ := key.1 ⟨_, hx, q, hq, rfl⟩
        exact ⟨hu, e, he, hae, hn⟩
      · rintro ⟨hu, e, he, hae, hn⟩
        obtain ⟨x, hx, q, hq, rfl⟩ := key.2 ⟨e, he, hae, name, hn, rfl, hu⟩
        exact ⟨q, hq, hx⟩
    · rintro n ls hl x hx ⟨q, hq, rfl⟩
      cases hl with
      | undefined q' hu hq' => simp at hx
      | point d p hd _ => cases hx
      | brush d p b v hd _ _ =>
        rcases List.mem_cons.1 hx with hx | hx
        · simp at hx
        · split at hx
          · simp [gathering] at hx
          · cases hx
    · rintro n ls hl x hx ⟨q, hq, rfl⟩
      cases hl with
      | known _ => cases hx
      | unknown q' hu hq' =>
        rw [List.mem_singleton, LogLine.err.injEq, List.append_cancel_right_eq, List.append_cancel_left_eq] at hx
        subst hx
        obtain rfl := quoted_unique hq hq'
        exact ⟨rfl, hu⟩
    · rintro n before after _ h1 ⟨rfl, hu⟩
      cases h1 with
      | known hk => obtain ⟨d, hd, e⟩ := hk; exact absurd e (hu d hd)
      | unknown q _ hq => exact ⟨_, List.mem_append_right _ (List.mem_cons_self ..), q, hq, rfl⟩
    · rintro count x hx ⟨q, hq, rfl⟩
      simp [opening] at hx
    · rintro t bs ls hl x hx ⟨q, hq, rfl⟩
      cases hl <;> simp [gathering] at hx
  · intro line hline
    by_contra hno
    have key := lines_about horder h hm (P := fun x => x = .err line) (Q := fun _ => False) ?_ ?_ ?_ ?_ ?_
    · obtain ⟨_, _, _, _, _, hf⟩ := key.1 ⟨_, hline, rfl⟩
      exact hf
    · rintro n ls hl x hx rfl
      cases hl with
      | undefined q' hu hq' => simp at hx
      | point d p hd _ => cases hx
      | brush d p b v hd _ _ =>
        rcases List.mem_cons.1 hx with hx | hx
        · simp at hx
        · split at hx
          · simp [gathering] at hx
          · cases hx
    · rintro n ls hl x hx rfl
      cases hl with
      | known _ => cases hx
      | unknown q' hu hq' =>
        rw [List.mem_singleton, LogLine.err.injEq] at hx
        exact hno ⟨n, q', hq', hx⟩
    · exact fun _ _ _ _ _ hf => hf.elim
    · rintro count x hx rfl
      simp [opening] at hx
    · rintro t bs ls hl x hx rfl
      cases hl <;> simp [gathering] at hx

/-- C94: how far a load came can be seen from its first lines. -/
theorem C94_stages (style : DebugStyle) (depth : Nat)
    (order : List (Str × List (BrushGeo F)) → List (Str × List (BrushGeo F))) (file : Option (List UInt8))
    (config : Config F) :
    ((∀ text, file ≠ some (utf8Bytes text)) → (runLog style depth order file config).1 = (opening []).take 2) ∧
    ∀ ls final, (∀ l ∈ ls, Line.WF l) → '\n' ∉ final → file = some (utf8Bytes (textOf ls final)) →
      ((∃ line ∈ contents Platform.bareCR ls final, line.head? = some '"' ∧ line.count '"' < 3) →
        (runLog style depth order file config).1 = (opening []).take 3) ∧
      ((∀ line ∈ contents Platform.bareCR ls final, line.head? = some '"' → 3 ≤ line.count '"') →
        (¬ ∃ entities : List (Entity F), MapIs (textOf ls final) entities) →
        (runLog style depth order file config).1 = (opening []).take 4) ∧
      ∀ entities : List (Entity F), MapIs (textOf ls final) entities →
        ((∃ e ∈ entities, ∃ b ∈ e.brushes, ∃ p ∈ b.planes, (∃ u v, p.uv = .quake u v) ∧
            (∃ x, Found b.planes p x) ∧ ¬ HasLargest (faceNormal p)) ∨ entities.countP (fun e => IsWorld e) ≠ 1 →
          (runLog style depth order file config).1 = (opening []).take 5) ∧
        ((∀ e ∈ entities, ∀ b ∈ e.brushes, ∀ p ∈ b.planes, (∃ u v, p.uv = .quake u v) →
            (∃ x, Found b.planes p x) → HasLargest (faceNormal p)) → entities.countP (fun e => IsWorld e) = 1 →
          ∃ count rest, (runLog style depth order file config).1 = opening count ++ rest) := by
  constructor
  · intro hno
    have h1 : readToString file = none := by
      rw [Option.eq_none_iff_forall_ne_some]
      exact fun s hs => hno s ((C76_utf8_only file s).1 hs)
    unfold runLog
    simp only [say_bind, h1]
    rfl
  rintro ls final hls hfin rfl
  have h1 := (C76_utf8_only (some (utf8Bytes (textOf ls final))) (textOf ls final)).2 rfl
  obtain ⟨hbad, htok⟩ := C02_abort_iff Platform.bareCR ls final hls hfin
  refine ⟨fun hb => ?_, fun hg hno => ?_, fun entities hm => ?_⟩
  · obtain ⟨m, hm⟩ := hbad.2 hb
    unfold runLog
    simp only [say_bind, h1]
    rw [Logged.bind_ok (a := textOf ls final) rfl, hm]
    rfl
  · have hnp : ¬ ∃ m, Tokenizer.run Platform.bareCR (textOf ls final) = .panic m := by
      intro hp
      obtain ⟨line, hl, h2, h3⟩ := hbad.1 hp
      exact absurd (hg line hl h2) (by omega)
    obtain ⟨tokens, h2⟩ := htok.resolve_left hnp
    have h3 : ∀ r, Parser.run (F := F) tokens ≠ .ok r := by
      rintro ⟨paths, entities⟩ h3
      exact hno ⟨entities, (C92_text _ _).1 ⟨tokens, paths, h2, h3⟩⟩
    unfold runLog
    simp only [say_bind, h1]
    rw [Logged.bind_ok (a := textOf ls final) rfl, Logged.bind_ok (a := tokens) h2]
    cases h4 : Parser.run (F := F) tokens with
    | ok r => exact absurd h4 (h3 r)
    | err e => rfl
    | panic m => rfl
    | overflow => rfl
  · obtain ⟨tokens, paths, h2, h3⟩ := (C92_text _ _).2 hm
    have hsplit : (runLog style depth order (some (utf8Bytes (textOf ls final))) config).1 = (opening []).take 5 ++
        ((quiet (Geo.run config.textureInfo entities)).bind fun geometry =>
          (layerFilterLog (entities.zip geometry)).bind fun (entityData, layers) =>
          sceneLog style depth config.quarchitectGameData config.forgeGameData config.textureBlacklist entityData
            (order layers)).1 := by
      unfold runLog
      simp only [say_bind, h1]
      rw [Logged.bind_ok (a := textOf ls final) rfl, Logged.bind_ok (a := tokens) h2, Logged.bind_ok h3]
      rfl
    have hgeo := geo_succeeds config.textureInfo entities
    have hworld : ∀ gs, Geo.run config.textureInfo entities = .ok gs →
        (entities.zip gs).countP (fun d => IsWorld d.1) = entities.countP (fun e => IsWorld e) := by
      intro gs h
      conv_rhs => rw [← zip_map_fst (geo_length h), List.countP_map]
      rfl
    refine ⟨fun hb => ?_, fun hf hw => ?_⟩
    · rw [hsplit]
      cases hg : Geo.run config.textureInfo entities with
      | err e => rfl
      | panic m => rfl
      | overflow => rfl
      | ok gs =>
        have hall := hgeo.1 ⟨gs, hg⟩
        have hw : entities.countP (fun e => IsWorld e) ≠ 1 := by
          rcases hb with ⟨e, he, b, hb, p, hp, hq, hx, hn⟩ | hw
          · exact absurd (hall e he b hb p hp hq hx) hn
          · exact hw
        rw [← hworld gs hg] at hw
        obtain ⟨m, hp⟩ := (C17_aborts_unless_one_worldspawn (entities.zip gs)).1.2 hw
        rw [Logged.bind_ok (a := gs) rfl]
        have hl : (layerFilterLog (entities.zip gs)).1 = [] := by
          unfold LayerFilter.run at hp
          unfold layerFilterLog
          revert hp
          generalize (entities.zip gs).partition (fun d => LayerFilter.isWorldspawn d.1) = p
          obtain ⟨ws, others⟩ := p
          intro hp
          match ws with
          | [] => rfl
          | _ :: _ :: _ => rfl
          | [(e, g')] => cases hp
        have hl2 : (layerFilterLog (entities.zip gs)).2 = .panic m := by rw [layerFilterLog_snd]; exact hp
        rw [show layerFilterLog (entities.zip gs) = ([], .panic m) from Prod.ext hl hl2]
        rfl
    · obtain ⟨gs, hg⟩ := hgeo.2 hf
      rw [← hworld gs hg] at hw
      obtain ⟨⟨data, layers⟩, hp⟩ := (C17_aborts_unless_one_worldspawn (entities.zip gs)).2.2 hw
      rw [hsplit, hg, Logged.bind_ok (a := gs) rfl, Logged.bind_ok (by rw [layerFilterLog_snd]; exact hp)]
      obtain ⟨P, w, g, Q, brs, e1, hw, ho, rfl⟩ := layerFilter_ok hp
      rw [layerFilterLog_lines (w := w) (g := g) (by rw [e1]; simp) hw hp]
      unfold sceneLog
      simp only [say_bind]
      exact ⟨_, _, rfl⟩

end
end Quarch
