import Verif.Spec.Local
import Verif.Props.Loads
/-
C97: the node of an entity depends on the entity and on its groups only.
-/
set_option linter.unusedSectionVars false
namespace Quarch
open Spec Scene

section
variable {F : Type} [Arith F]

theorem Spec.Beneath.trans {es : List (Entity F)} {x y z : Entity F} (h : Beneath es x y) (h' : Beneath es y z) :
    Beneath es x z := by
  induction h' with
  | self => exact h
  | member _ hm ih => exact .member ih hm

/-- A deeper stack gives the same node. -/
theorem buildEntity_deeper {gd : GameData F} {fgd : Forge.GameData F} {bl : TextureBlacklist}
    {data : List (Entity F × EntityGeo F)} : ∀ {depth more : Nat} {o : V3 F} {d : Entity F × EntityGeo F} {n : Node F},
    buildEntity gd fgd bl data depth o d = .ok n → depth ≤ more → buildEntity gd fgd bl data more o d = .ok n := by
  intro depth
  induction depth with
  | zero => intro more o d n h; unfold buildEntity at h; cases h
  | succ depth ih =>
    intro more o d n h hm
    obtain ⟨e, g⟩ := d
    obtain ⟨more, rfl⟩ : ∃ k, more = k + 1 := ⟨more - 1, by omega⟩
    unfold buildEntity at h ⊢
    obtain ⟨v, h1, h⟩ := Outcome.bind_eq_ok.1 h
    obtain ⟨c, h2, h⟩ := Outcome.bind_eq_ok.1 h
    obtain ⟨ents, h3, h⟩ := Outcome.bind_eq_ok.1 h
    have h3' := mapOut_eq_ok.2 ((mapOut_eq_ok.1 h3).imp fun c n hc => ih hc (Nat.le_of_succ_le_succ hm))
    rw [h1, Outcome.ok_bind, h2, Outcome.ok_bind, h3', Outcome.ok_bind]
    exact h

/-- The filter of the scene builder gives the members of the group. -/
theorem members_filter {G : Entity F → EntityGeo F} {es : List (Entity F)} (hno : ∀ e ∈ es, ¬ IsWorld e) (p : Entity F) :
    (es.map fun e => (e, G e)).filter (fun child => inGroup p child.1) = (membersOf es p).map fun e => (e, G e) := by
  unfold membersOf
  rw [List.filter_map]
  congr 1
  apply List.filter_congr
  intro c hc
  have h1 := hno c hc
  unfold IsWorld at h1
  have h2 : (inGroup p c = true) ↔ Under p c := by
    rw [inGroup_iff]
    unfold Under groupOf idOf
    cases c.properties (str! "_tb_group") with
    | none => simp
    | some a => simp [eq_comm]
  rw [Function.comp, Bool.eq_iff_iff, h2]
  simp [h1]

/-- The node of an entity is the same in two lists of entities that agree on its groups. -/
theorem buildEntity_local {gd : GameData F} {fgd : Forge.GameData F} {bl : TextureBlacklist} {G : Entity F → EntityGeo F}
    {es es' : List (Entity F)} {x x' : Entity F × EntityGeo F}
    (hno : ∀ e ∈ es, ¬ IsWorld e) (hno' : ∀ e ∈ es', ¬ IsWorld e) :
    ∀ (depth : Nat) (o : V3 F) (y : Entity F) (g : EntityGeo F), SameBeneath es es' y →
      buildEntity gd fgd bl (x :: es.map fun e => (e, G e)) depth o (y, g) =
        buildEntity gd fgd bl (x' :: es'.map fun e => (e, G e)) depth o (y, g) := by
  intro depth
  induction depth with
  | zero => intro o y g _; rfl
  | succ depth ih =>
    intro o y g hs
    unfold buildEntity
    rw [List.drop_succ_cons, List.drop_zero, List.drop_succ_cons, List.drop_zero, members_filter hno y, members_filter hno' y,
      ← hs y .self]
    have : mapOut (fun child => buildEntity gd fgd bl (x :: es.map fun e => (e, G e)) depth (V3.neg g.center) child)
        ((membersOf es y).map fun e => (e, G e)) =
      mapOut (fun child => buildEntity gd fgd bl (x' :: es'.map fun e => (e, G e)) depth (V3.neg g.center) child)
        ((membersOf es y).map fun e => (e, G e)) := by
      apply mapOut_congr
      intro d hd
      obtain ⟨c, hc, rfl⟩ := List.mem_map.1 hd
      exact ih _ c _ fun p hp => hs p ((Beneath.member .self hc).trans hp)
    rw [this]

/-- The geometry of an entity. -/
def geoOf [Platform] (textures : TextureInfo) (e : Entity F) : EntityGeo F :=
  match Geo.buildEntity textures e with
  | .ok g => g
  | _ => ⟨V3.zero, []⟩

/-- The worldspawn without the brushes of layers. -/
def worldOf [Platform] (textures : TextureInfo) (w : Entity F) : Entity F × EntityGeo F :=
  (w, ⟨(geoOf textures w).center,
    (LayerFilter.splitLayers LayerFilter.layerTextures (geoOf textures w).brushes).1⟩)

/-- A load in terms of the entities of the map. -/
theorem run_form [Platform] {depth : Nat} {order : List (Str × List (BrushGeo F)) → List (Str × List (BrushGeo F))}
    {config : Config F} {text : Str} (hm : config.mapFile = some text) {pre post : List (Entity F)} {w : Entity F}
    (hl : LoadsAs text (pre ++ w :: post)) (hw : IsWorld w) (hno : ∀ e ∈ pre ++ post, ¬ IsWorld e)
    {nodes : List (Node F)} :
    Quarch.run depth order config = .ok nodes ↔
      (∀ e ∈ pre ++ w :: post, Geo.buildEntity config.textureInfo e = .ok (geoOf config.textureInfo e)) ∧
      ∃ wn ls es, nodes = wn :: (ls.filterMap id ++ es) ∧
        buildEntity config.quarchitectGameData config.forgeGameData config.textureBlacklist
          (worldOf config.textureInfo w :: (pre ++ post).map fun e => (e, geoOf config.textureInfo e)) depth V3.zero
          (worldOf config.textureInfo w) = .ok wn ∧
        List.Forall₂ (fun l o => buildLayer config.quarchitectGameData l = .ok o)
          (order (LayerFilter.splitLayers LayerFilter.layerTextures (geoOf config.textureInfo w).brushes).2) ls ∧
        List.Forall₂ (fun e n => buildEntity config.quarchitectGameData config.forgeGameData config.textureBlacklist
          (worldOf config.textureInfo w :: (pre ++ post).map fun e => (e, geoOf config.textureInfo e)) depth V3.zero
          (e, geoOf config.textureInfo e) = .ok n) ((pre ++ post).filter fun e => TopLevel e) es := by
  obtain ⟨tokens, paths, h1, h2⟩ := hl
  unfold Quarch.run
  rw [hm]
  simp only [h1, h2, Outcome.ok_bind]
  have hgeo : (∃ gs, Geo.run config.textureInfo (pre ++ w :: post) = .ok gs) ↔
      ∀ e ∈ pre ++ w :: post, Geo.buildEntity config.textureInfo e = .ok (geoOf config.textureInfo e) := by
    unfold Geo.run
    rw [mapOut_isOk]
    refine forall₂_congr fun e _ => ?_
    unfold geoOf
    cases Geo.buildEntity config.textureInfo e <;> simp
  have hval : (∀ e ∈ pre ++ w :: post, Geo.buildEntity config.textureInfo e = .ok (geoOf config.textureInfo e)) →
      Geo.run config.textureInfo (pre ++ w :: post) = .ok ((pre ++ w :: post).map (geoOf config.textureInfo)) := by
    intro h
    exact mapOut_eq_ok.2 (List.forall₂_map_right_iff.2 (List.forall₂_same.2 h))
  have hzip : ∀ l : List (Entity F), l.zip (l.map (geoOf config.textureInfo)) =
      l.map fun e => (e, geoOf config.textureInfo e) := by
    intro l
    induction l with
    | nil => rfl
    | cons x l ih => simp [ih]
  have hfil : ((pre ++ w :: post).map fun e => (e, geoOf config.textureInfo e)).partition
      (fun d => LayerFilter.isWorldspawn d.1) = ([(w, geoOf config.textureInfo w)],
        (pre ++ post).map fun e => (e, geoOf config.textureInfo e)) := by
    have hk : ∀ l : List (Entity F), (∀ e ∈ l, ¬ IsWorld e) →
        (l.map fun e => (e, geoOf config.textureInfo e)).filter (fun d => LayerFilter.isWorldspawn d.1) = [] ∧
        (l.map fun e => (e, geoOf config.textureInfo e)).filter (not ∘ fun d => LayerFilter.isWorldspawn d.1) =
          l.map fun e => (e, geoOf config.textureInfo e) := by
      intro l hl
      refine ⟨List.filter_eq_nil_iff.2 ?_, List.filter_eq_self.2 ?_⟩
      · intro d hd
        obtain ⟨e, he, rfl⟩ := List.mem_map.1 hd
        simp [isWorldspawn_iff, hl e he]
      · intro d hd
        obtain ⟨e, he, rfl⟩ := List.mem_map.1 hd
        simp [isWorldspawn_iff, hl e he]
    obtain ⟨a1, a2⟩ := hk pre fun e he => hno e (by simp [he])
    obtain ⟨b1, b2⟩ := hk post fun e he => hno e (by simp [he])
    rw [List.partition_eq_filter_filter]
    have hww : LayerFilter.isWorldspawn w = true := by simp [isWorldspawn_iff, hw]
    simp [a1, a2, b1, b2, hww]
  have hlf : LayerFilter.run ((pre ++ w :: post).map fun e => (e, geoOf config.textureInfo e)) =
      .ok (worldOf config.textureInfo w :: (pre ++ post).map fun e => (e, geoOf config.textureInfo e),
        (LayerFilter.splitLayers LayerFilter.layerTextures (geoOf config.textureInfo w).brushes).2) := by
    unfold LayerFilter.run
    rw [hfil]
    rfl
  have htop : ((pre ++ post).map fun e => (e, geoOf config.textureInfo e)).filter
      (fun d => (d.1.properties.get? (str! "_tb_group")).isNone) =
      ((pre ++ post).filter fun e => TopLevel e).map fun e => (e, geoOf config.textureInfo e) := by
    rw [List.filter_map]
    congr 1
    apply List.filter_congr
    intro e he
    have hthis := hno e he
    unfold IsWorld at hthis
    rw [Bool.eq_iff_iff]
    simp [TopLevel, groupOf, Map.get?, hthis]
  constructor
  · intro h
    obtain ⟨gs, h3, h⟩ := Outcome.bind_eq_ok.1 h
    have hall := hgeo.1 ⟨gs, h3⟩
    rw [hval hall] at h3
    cases h3
    rw [hzip, hlf, Outcome.ok_bind] at h
    obtain ⟨ws, ls, es, rfl, h7, h8, h9⟩ := run_ok h
    rw [List.take_succ_cons, List.take_zero] at h7
    rw [List.drop_succ_cons, List.drop_zero] at h9
    cases h7 with
    | cons hwn ht =>
      cases ht
      refine ⟨hall, _, ls, es, by simp, hwn, h8, ?_⟩
      have h9' := htop ▸ h9
      exact List.forall₂_map_left_iff.1 h9'
  · rintro ⟨hall, wn, ls, es, rfl, hwn, hls, hes⟩
    rw [hval hall, Outcome.ok_bind, hzip, hlf, Outcome.ok_bind]
    unfold Scene.run
    rw [List.take_succ_cons, List.take_zero, List.drop_succ_cons, List.drop_zero, htop]
    have e1 := mapOut_eq_ok.2 (List.Forall₂.cons hwn .nil)
    have e2 := mapOut_eq_ok.2 hls
    have e3 := mapOut_eq_ok.2 (List.forall₂_map_left_iff.2 hes)
    rw [e1, Outcome.ok_bind, e2, Outcome.ok_bind, e3, Outcome.ok_bind]
    simp

/-- The entities other than the worldspawn. -/
def others (entities : List (Entity F)) : List (Entity F) := entities.filter fun e => ¬ IsWorld e

theorem others_members (entities : List (Entity F)) (p : Entity F) :
    membersOf (others entities) p = membersOf entities p := by
  unfold membersOf others
  rw [List.filter_filter]
  apply List.filter_congr
  intro c _
  by_cases h : c.properties (str! "classname") = some (str! "worldspawn") <;> simp [IsWorld, h]

theorem others_within {entities : List (Entity F)} {y p : Entity F} (h : Beneath (others entities) y p) :
    Beneath entities y p := by
  induction h with
  | self => exact .self
  | member _ hm ih => rw [others_members] at hm; exact .member ih hm

theorem others_same {es es' : List (Entity F)} {y : Entity F} (h : SameBeneath es es' y) :
    SameBeneath (others es) (others es') y := by
  intro p hp
  rw [others_members, others_members]
  exact h p (others_within hp)

theorem others_top (entities : List (Entity F)) :
    (others entities).filter (fun e => TopLevel e) = entities.filter fun e => TopLevel e := by
  unfold others
  rw [List.filter_filter]
  apply List.filter_congr
  intro c _
  by_cases h : c.properties (str! "classname") = some (str! "worldspawn") <;> simp [TopLevel, IsWorld, h]

theorem others_not_world {entities : List (Entity F)} : ∀ e ∈ others entities, ¬ IsWorld e := by
  intro e he
  simpa using (List.mem_filter.1 he).2

/-- A load in terms of the list of entities. -/
theorem run_list [Platform] {depth : Nat} {order : List (Str × List (BrushGeo F)) → List (Str × List (BrushGeo F))}
    {config : Config F} {text : Str} (hm : config.mapFile = some text) {entities : List (Entity F)}
    (hl : LoadsAs text entities) {nodes : List (Node F)} :
    Quarch.run depth order config = .ok nodes ↔
      (∀ e ∈ entities, Geo.buildEntity config.textureInfo e = .ok (geoOf config.textureInfo e)) ∧
      ∃ w wn ls es, entities.filter (fun e => IsWorld e) = [w] ∧ nodes = wn :: (ls.filterMap id ++ es) ∧
        buildEntity config.quarchitectGameData config.forgeGameData config.textureBlacklist
          (worldOf config.textureInfo w :: (others entities).map fun e => (e, geoOf config.textureInfo e)) depth V3.zero
          (worldOf config.textureInfo w) = .ok wn ∧
        List.Forall₂ (fun l o => buildLayer config.quarchitectGameData l = .ok o)
          (order (LayerFilter.splitLayers LayerFilter.layerTextures (geoOf config.textureInfo w).brushes).2) ls ∧
        List.Forall₂ (fun e n => buildEntity config.quarchitectGameData config.forgeGameData config.textureBlacklist
          (worldOf config.textureInfo w :: (others entities).map fun e => (e, geoOf config.textureInfo e)) depth V3.zero
          (e, geoOf config.textureInfo e) = .ok n) (entities.filter fun e => TopLevel e) es := by
  have key : ∀ pre w post, entities = pre ++ w :: post → IsWorld w → (∀ e ∈ pre ++ post, ¬ IsWorld e) →
      entities.filter (fun e => IsWorld e) = [w] ∧ others entities = pre ++ post := by
    rintro pre w post rfl hw hno
    have h1 : ∀ l : List (Entity F), (∀ e ∈ l, ¬ IsWorld e) → l.filter (fun e => IsWorld e) = [] ∧
        l.filter (fun e => ¬ IsWorld e) = l := by
      intro l hl
      refine ⟨List.filter_eq_nil_iff.2 fun e he => by simp [hl e he], List.filter_eq_self.2 fun e he => by simp [hl e he]⟩
    obtain ⟨a1, a2⟩ := h1 pre fun e he => hno e (by simp [he])
    obtain ⟨b1, b2⟩ := h1 post fun e he => hno e (by simp [he])
    unfold others
    rw [List.filter_append, List.filter_append, List.filter_cons_of_pos (by simp [hw]),
      List.filter_cons_of_neg (by simp [hw]), a1, a2, b1, b2]
    exact ⟨rfl, rfl⟩
  constructor
  · intro h
    obtain ⟨text', P, w, g, Q, _, _, _, _, _, h1, h2, hw, ho, _⟩ := run_parts h
    rw [hm] at h1
    cases h1
    have he := hl.unique h2
    rw [List.map_append, List.map_cons] at he
    have hno : ∀ e ∈ P.map (·.1) ++ Q.map (·.1), ¬ IsWorld e := by
      intro e he
      rw [← List.map_append] at he
      obtain ⟨d, hd, rfl⟩ := List.mem_map.1 he
      exact ho d hd
    obtain ⟨k1, k2⟩ := key _ _ _ he hw hno
    have hl' := he ▸ hl
    obtain ⟨hall, wn, ls, es, e1, hwn, hls, hes⟩ := (run_form hm hl' hw hno).1 h
    rw [← k2] at hwn hes
    rw [others_top] at hes
    rw [he.symm] at hall
    exact ⟨hall, w, wn, ls, es, k1, e1, hwn, hls, hes⟩
  · rintro ⟨hall, w, wn, ls, es, hf, e1, hwn, hls, hes⟩
    have hmem : w ∈ entities ∧ IsWorld w := by
      have : w ∈ entities.filter fun e => IsWorld e := by rw [hf]; simp
      simpa using List.mem_filter.1 this
    obtain ⟨pre, post, he⟩ := List.append_of_mem hmem.1
    have hno : ∀ e ∈ pre ++ post, ¬ IsWorld e := by
      rw [he, List.filter_append, List.filter_cons_of_pos (by simp [hmem.2])] at hf
      have hlen := congrArg List.length hf
      simp only [List.length_append, List.length_cons, List.length_nil] at hlen
      intro e hm' hwe
      rcases List.mem_append.1 hm' with h | h
      · have : e ∈ pre.filter fun e => IsWorld e := List.mem_filter.2 ⟨h, by simp [hwe]⟩
        have := List.length_pos_of_mem this
        omega
      · have : e ∈ post.filter fun e => IsWorld e := List.mem_filter.2 ⟨h, by simp [hwe]⟩
        have := List.length_pos_of_mem this
        omega
    obtain ⟨k1, k2⟩ := key _ _ _ he hmem.2 hno
    rw [k2] at hwn hes
    rw [← others_top, k2] at hes
    have hl' := he ▸ hl
    rw [he] at hall
    exact (run_form hm hl' hmem.2 hno).2 ⟨hall, wn, ls, es, e1, hwn, hls, hes⟩

variable [Platform]

/-- C97: the node of an entity on the top level is the same in every map with that entity and the same entities in
its group, in the groups in it and so on, whatever else is in the map and wherever it is. Its place from the end is
the number of entities on the top level that follow it. -/
theorem C97_entity (depth depth' : Nat) (order order' : List (Str × List (BrushGeo F)) → List (Str × List (BrushGeo F)))
    (config : Config F) (text text' : Str) (pre post pre' post' : List (Entity F)) (y : Entity F)
    (hl : LoadsAs text (pre ++ y :: post)) (hl' : LoadsAs text' (pre' ++ y :: post')) (hy : TopLevel y)
    (hs : SameBeneath (pre ++ y :: post) (pre' ++ y :: post') y) (nodes nodes' : List (Node F))
    (h : Quarch.run depth order { config with mapFile := some text } = .ok nodes)
    (h' : Quarch.run depth' order' { config with mapFile := some text' } = .ok nodes') :
    ∃ n b a b' a', nodes = b ++ n :: a ∧ nodes' = b' ++ n :: a' ∧
      a.length = post.countP (fun e => TopLevel e) ∧ a'.length = post'.countP (fun e => TopLevel e) := by
  obtain ⟨_, w, wn, ls, es, _, e1, _, _, hes⟩ := (run_list rfl hl).1 h
  obtain ⟨_, w', wn', ls', es', _, e1', _, _, hes'⟩ := (run_list rfl hl').1 h'
  rw [List.filter_append, List.filter_cons_of_pos (by simp [hy])] at hes hes'
  obtain ⟨b, t, _, ht, rfl⟩ := forall₂_append_inv hes
  obtain ⟨n, a, hn, ha, rfl⟩ := List.forall₂_cons_left_iff.1 ht
  obtain ⟨b', t', _, ht', rfl⟩ := forall₂_append_inv hes'
  obtain ⟨n', a', hn', ha', rfl⟩ := List.forall₂_cons_left_iff.1 ht'
  have hnn := buildEntity_deeper hn (Nat.le_max_left depth depth')
  have hnn' := buildEntity_deeper hn' (Nat.le_max_right depth depth')
  rw [buildEntity_local others_not_world others_not_world _ _ _ _ (others_same hs)] at hnn
  cases hnn.symm.trans hnn'
  refine ⟨n, wn :: (ls.filterMap id ++ b), a, wn' :: (ls'.filterMap id ++ b'), a', by rw [e1]; simp, by rw [e1']; simp, ?_, ?_⟩
  · rw [← ha.length_eq, List.countP_eq_length_filter]
  · rw [← ha'.length_eq, List.countP_eq_length_filter]

/-- C97: the node of the worldspawn and the nodes of layers are the same in every map with that worldspawn and the
same entities in its group, in the groups in it and so on. -/
theorem C97_world (depth depth' : Nat) (order : List (Str × List (BrushGeo F)) → List (Str × List (BrushGeo F)))
    (config : Config F) (text text' : Str) (entities entities' : List (Entity F)) (w : Entity F)
    (hl : LoadsAs text entities) (hl' : LoadsAs text' entities') (hw : w ∈ entities) (hw' : w ∈ entities')
    (hworld : IsWorld w) (hs : SameBeneath entities entities' w) (nodes nodes' : List (Node F))
    (h : Quarch.run depth order { config with mapFile := some text } = .ok nodes)
    (h' : Quarch.run depth' order { config with mapFile := some text' } = .ok nodes') :
    ∃ front a a', nodes = front ++ a ∧ nodes' = front ++ a' ∧ a.length = entities.countP (fun e => TopLevel e) ∧
      a'.length = entities'.countP (fun e => TopLevel e) := by
  obtain ⟨_, v, wn, ls, es, hv, e1, hwn, hls, hes⟩ := (run_list rfl hl).1 h
  obtain ⟨_, v', wn', ls', es', hv', e1', hwn', hls', hes'⟩ := (run_list rfl hl').1 h'
  have k : v = w := by
    have : w ∈ entities.filter fun e => IsWorld e := List.mem_filter.2 ⟨hw, by simp [hworld]⟩
    rw [hv, List.mem_singleton] at this
    exact this.symm
  have k' : v' = w := by
    have : w ∈ entities'.filter fun e => IsWorld e := List.mem_filter.2 ⟨hw', by simp [hworld]⟩
    rw [hv', List.mem_singleton] at this
    exact this.symm
  subst k k'
  have hn := buildEntity_deeper hwn (Nat.le_max_left depth depth')
  have hn' := buildEntity_deeper hwn' (Nat.le_max_right depth depth')
  unfold worldOf at hn hn'
  rw [buildEntity_local others_not_world others_not_world _ _ _ _ (others_same hs)] at hn
  cases hn.symm.trans hn'
  have hll := mapOut_eq_ok.2 hls
  have hll' := mapOut_eq_ok.2 hls'
  cases hll.symm.trans hll'
  refine ⟨wn :: ls.filterMap id, es, es', by rw [e1]; simp, by rw [e1']; simp, ?_, ?_⟩
  · rw [← hes.length_eq, List.countP_eq_length_filter]
  · rw [← hes'.length_eq, List.countP_eq_length_filter]

/-- C97: removing an entity that is in no group removes its node, with all in it, and changes nothing else: without
the entity the map loads too, and gives the other nodes. -/
theorem C97_removed (depth : Nat) (order : List (Str × List (BrushGeo F)) → List (Str × List (BrushGeo F)))
    (config : Config F) (text text' : Str) (pre post : List (Entity F)) (x : Entity F)
    (hl : LoadsAs text (pre ++ x :: post)) (hl' : LoadsAs text' (pre ++ post)) (hx : TopLevel x)
    (nodes : List (Node F))
    (h : Quarch.run depth order { config with mapFile := some text } = .ok nodes) :
    ∃ b n a, nodes = b ++ n :: a ∧ a.length = post.countP (fun e => TopLevel e) ∧
      Quarch.run depth order { config with mapFile := some text' } = .ok (b ++ a) := by
  obtain ⟨hall, w, wn, ls, es, hw, e1, hwn, hls, hes⟩ := (run_list rfl hl).1 h
  have hmem : ∀ p, membersOf (pre ++ x :: post) p = membersOf (pre ++ post) p := by
    intro p
    unfold membersOf
    rw [List.filter_append, List.filter_append, List.filter_cons_of_neg]
    simp [Under, hx.2]
  have hs : ∀ y, SameBeneath (others (pre ++ x :: post)) (others (pre ++ post)) y :=
    fun y => others_same fun p _ => hmem p
  have hxw : ¬ IsWorld x := hx.1
  rw [List.filter_append, List.filter_cons_of_pos (by simp [hx])] at hes
  obtain ⟨b, t, hb, ht, rfl⟩ := forall₂_append_inv hes
  obtain ⟨n, a, hn, ha, rfl⟩ := List.forall₂_cons_left_iff.1 ht
  refine ⟨wn :: (ls.filterMap id ++ b), n, a, by rw [e1]; simp, ?_, ?_⟩
  · rw [← ha.length_eq, List.countP_eq_length_filter]
  · refine (run_list rfl hl').2 ⟨fun e he => hall e ?_, w, wn, ls, b ++ a, ?_, by simp, ?_, hls, ?_⟩
    · rcases List.mem_append.1 he with h | h <;> simp [h]
    · rw [List.filter_append, List.filter_cons_of_neg (by simp [hxw])] at hw
      rw [List.filter_append, hw]
    · unfold worldOf at hwn ⊢
      rw [← buildEntity_local others_not_world others_not_world _ _ _ _ (hs _)]
      exact hwn
    · rw [List.filter_append]
      refine List.rel_append ?_ ?_
      · exact hb.imp fun e n he => by
          rw [← buildEntity_local others_not_world others_not_world _ _ _ _ (hs _)]
          exact he
      · exact ha.imp fun e n he => by
          rw [← buildEntity_local others_not_world others_not_world _ _ _ _ (hs _)]
          exact he

/-- C97: adding an entity that is in no group, has no group itself and can be built adds one node and changes nothing
else. The entity can be built if it has a classname, its group numbers are integers if its class is declared, and the
faces with plain texture coordinates and any corner have a largest component of the normal. -/
theorem C97_added [LawfulEq F] (depth : Nat) (order : List (Str × List (BrushGeo F)) → List (Str × List (BrushGeo F)))
    (config : Config F) (text text' : Str) (pre post : List (Entity F)) (x : Entity F)
    (hl : LoadsAs text (pre ++ post)) (hl' : LoadsAs text' (pre ++ x :: post)) (hx : TopLevel x)
    (halone : membersOf (pre ++ post) x = [])
    (hname : ∃ name, x.properties (str! "classname") = some name)
    (hids : (∃ d, FirstForge config.forgeGameData x d) → ∀ k ∈ [str! "_tb_id", str! "_tb_group"], ∀ s,
      x.properties k = some s → ∃ i, ReadsI32 s i)
    (hfaces : ∀ b ∈ x.brushes, ∀ p ∈ b.planes, (∃ u v, p.uv = .quake u v) → (∃ c, Found b.planes p c) →
      HasLargest (faceNormal p))
    (nodes : List (Node F))
    (h : Quarch.run depth order { config with mapFile := some text } = .ok nodes) :
    ∃ b n a, nodes = b ++ a ∧ a.length = post.countP (fun e => TopLevel e) ∧
      Quarch.run depth order { config with mapFile := some text' } = .ok (b ++ n :: a) := by
  obtain ⟨hall, w, wn, ls, es, hw, e1, hwn, hls, hes⟩ := (run_list rfl hl).1 h
  have hmem : ∀ p, membersOf (pre ++ x :: post) p = membersOf (pre ++ post) p := by
    intro p
    unfold membersOf
    rw [List.filter_append, List.filter_append, List.filter_cons_of_neg]
    simp [Under, hx.2]
  have hs : ∀ y, SameBeneath (others (pre ++ x :: post)) (others (pre ++ post)) y :=
    fun y => others_same fun p _ => hmem p
  have hxw : ¬ IsWorld x := hx.1
  rw [List.filter_append] at hes
  obtain ⟨b, a, hb, ha, rfl⟩ := forall₂_append_inv hes
  obtain ⟨name, hn⟩ := hname
  have hg : Geo.buildEntity config.textureInfo x = .ok (geoOf config.textureInfo x) := by
    obtain ⟨gs, hgs⟩ := (geo_succeeds config.textureInfo [x]).2 (fun e he => by
      cases List.mem_singleton.1 he
      exact hfaces)
    unfold Geo.run at hgs
    rw [mapOut_cons] at hgs
    obtain ⟨g, hg, _⟩ := Outcome.bind_eq_ok.1 hgs
    unfold geoOf
    rw [hg]
  have hfan := built_fanned hg
  have hbuild : ∃ n, Scene.buildEntity config.quarchitectGameData config.forgeGameData config.textureBlacklist
      (worldOf config.textureInfo w :: (others (pre ++ x :: post)).map fun e => (e, geoOf config.textureInfo e)) depth V3.zero
      (x, geoOf config.textureInfo x) = .ok n := by
    cases depth with
    | zero => unfold Scene.buildEntity at hwn; cases hwn
    | succ depth =>
      obtain ⟨v, h1⟩ := entityVisual_succeeds config.quarchitectGameData config.textureBlacklist x _ hfan hn
      obtain ⟨c, h2⟩ := entityCollision_succeeds config.quarchitectGameData x _ hfan hn
      obtain ⟨props, h3⟩ := (entityProperties_succeeds config.forgeGameData x).2 hids
      have hno : ((worldOf config.textureInfo w :: (others (pre ++ x :: post)).map fun e =>
          (e, geoOf config.textureInfo e)).drop 1).filter (fun child => inGroup x child.1) = [] := by
        rw [List.drop_succ_cons, List.drop_zero, members_filter others_not_world, others_members, hmem, halone,
          List.map_nil]
      have hn' : x.properties.get? (str! "classname") = some name := hn
      unfold Scene.buildEntity
      rw [h1, Outcome.ok_bind, h2, Outcome.ok_bind, hno, mapOut_nil, Outcome.ok_bind, hn', h3]
      exact ⟨_, rfl⟩
  obtain ⟨n, hn2⟩ := hbuild
  refine ⟨wn :: (ls.filterMap id ++ b), n, a, by rw [e1]; simp, ?_, ?_⟩
  · rw [← ha.length_eq, List.countP_eq_length_filter]
  · refine (run_list rfl hl').2 ⟨fun e he => ?_, w, wn, ls, b ++ n :: a, ?_, by simp, ?_, hls, ?_⟩
    · rcases List.mem_append.1 he with h | h
      · exact hall e (by simp [h])
      · rcases List.mem_cons.1 h with rfl | h
        · exact hg
        · exact hall e (by simp [h])
    · rw [List.filter_append, List.filter_cons_of_neg (by simp [hxw])]
      rw [List.filter_append] at hw
      exact hw
    · unfold worldOf at hwn ⊢
      rw [buildEntity_local others_not_world others_not_world _ _ _ _ (hs _)]
      exact hwn
    · rw [List.filter_append, List.filter_cons_of_pos (by simp [hx])]
      refine List.rel_append ?_ (.cons hn2 ?_)
      · exact hb.imp fun e n he => by
          rw [buildEntity_local others_not_world others_not_world _ _ _ _ (hs _)]
          exact he
      · exact ha.imp fun e n he => by
          rw [buildEntity_local others_not_world others_not_world _ _ _ _ (hs _)]
          exact he

/-! ### texts -/

theorem complete_tokens {text : Str} {es : List (Entity F)} (h : CompleteMap text es) :
    ∃ tokens blocks, Tokenizer.run Platform.bareCR text = .ok tokens ∧
      blocks.flatMap blockToks = tokens.filter (fun t => !isJunk t) ∧ List.Forall₂ Denotes blocks es := by
  obtain ⟨_, blocks, ⟨ls, final, ts, rfl, h1, h2, h3, h4⟩, h5⟩ := h
  refine ⟨ts, blocks, (C01_line_by_line Platform.bareCR ls final h1 h2 ts).2 h3, ?_, h5⟩
  simpa [MapFile.toks, Tail.toks] using h4

/-- Tokens of a text after a complete one. -/
theorem tokens_after {text : Str} {es : List (Entity F)} (h : CompleteMap text es) {rest : Str} {ta tb : List Token}
    (ha : Tokenizer.run Platform.bareCR text = .ok ta) (hb : Tokenizer.run Platform.bareCR rest = .ok tb) :
    Tokenizer.run Platform.bareCR (text ++ rest) = .ok (ta ++ tb) := by
  rcases h.1 with rfl | ⟨s, rfl⟩
  · have : Tokenizer.run Platform.bareCR [] = .ok [] := by
      unfold Tokenizer.run lines
      rfl
    rw [this] at ha
    cases ha
    exact hb
  · rw [List.append_assoc, List.cons_append, List.nil_append, C01_concat, ha, Outcome.ok_bind, hb]
    rfl

/-- C97: a complete map followed by the text of a map lists the entities of both. -/
theorem spec_C97_joined (a b : Str) (es es' : List (Entity F)) (ha : CompleteMap a es) (hb : MapIs b es') :
    MapIs (a ++ b) (es ++ es') := by
  rw [← C92_text] at hb ⊢
  obtain ⟨tb, pb, hb1, hb2⟩ := hb
  obtain ⟨ta, blocks, ha1, ha2, ha3⟩ := complete_tokens ha
  obtain ⟨f, hf, hd⟩ := (run_iff_grammar tb es').1 ⟨pb, hb2⟩
  obtain ⟨paths, hp⟩ := (run_iff_grammar (ta ++ tb) (es ++ es')).2 ⟨⟨blocks ++ f.closed, f.tail⟩, by
    rw [List.filter_append, ← ha2, ← hf]
    simp [MapFile.toks], by
    have : (⟨blocks ++ f.closed, f.tail⟩ : MapFile).blocks = blocks ++ f.blocks := by simp [MapFile.blocks]
    rw [this]
    exact List.rel_append ha3 hd⟩
  exact ⟨_, paths, tokens_after ha ha1 hb1, hp⟩

/-- C97 on texts: cutting the text of one entity that is in no group out of a map takes away one node, with all in it,
and changes nothing else. -/
theorem C97_cut_out (depth : Nat) (order : List (Str × List (BrushGeo F)) → List (Str × List (BrushGeo F)))
    (config : Config F) (a block b : Str) (pre post : List (Entity F)) (x : Entity F)
    (ha : CompleteMap a pre) (hx : CompleteMap block [x]) (hb : MapIs b post) (htop : TopLevel x)
    (nodes : List (Node F)) (h : Quarch.run depth order { config with mapFile := some (a ++ (block ++ b)) } = .ok nodes) :
    ∃ before n after, nodes = before ++ n :: after ∧ after.length = post.countP (fun e => TopLevel e) ∧
      Quarch.run depth order { config with mapFile := some (a ++ b) } = .ok (before ++ after) :=
  C97_removed depth order config _ _ pre post x
    ((C92_text _ _).2 (spec_C97_joined _ _ _ _ ha (spec_C97_joined _ _ _ _ hx hb)))
    ((C92_text _ _).2 (spec_C97_joined _ _ _ _ ha hb)) htop nodes h

end
end Quarch
