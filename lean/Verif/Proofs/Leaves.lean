import Verif.Props.Groups
/-
All visual and collision nodes of a scene.
-/
set_option linter.unusedSectionVars false
namespace Quarch
open Spec Scene

section
variable {F : Type} [Arith F]

/-- The node is the visual or the collision node of the entity. -/
def LeafOf (gd : GameData F) (bl : TextureBlacklist) (d : Entity F × EntityGeo F) (m : Node F) : Prop :=
  (∃ v, entityVisual gd bl d.1 d.2 = .ok v ∧ m ∈ visualChildren d.2.center v) ∨
  (∃ c, entityCollision gd d.1 d.2 = .ok c ∧ m ∈ collisionChildren d.2.center c)

theorem LeafOf.not_actor {gd : GameData F} {bl : TextureBlacklist} {d : Entity F × EntityGeo F} {m : Node F}
    (h : LeafOf gd bl d m) : ∀ o a cs, m ≠ .actor o a cs := by
  rintro o a cs rfl
  rcases h with ⟨v, _, h⟩ | ⟨c, _, h⟩
  · cases (visualChildren_mem h).1
  · cases (collisionChildren_mem h).1

theorem under_of_members {data : List (Entity F × EntityGeo F)} {e : Entity F} {d : Entity F × EntityGeo F}
    (h : d ∈ members data e) : Under e d.1 := by
  have := (List.mem_filter.1 h).2
  rw [inGroup_under] at this
  exact of_decide_eq_true this

theorem Spec.Anchored.mono {l l' : List (Entity F)} (h : ∀ e ∈ l, e ∈ l') {e : Entity F} (ha : Anchored l e) :
    Anchored l' e := by
  induction ha with
  | world h => exact .world h
  | top h => exact .top h
  | under hp hu _ ih => exact .under (h _ hp) hu ih

/-- A leaf in the subtree of an entity belongs to an entity that is reached. -/
theorem leaf_anchored {gd : GameData F} {fgd : Forge.GameData F} {bl : TextureBlacklist}
    {data : List (Entity F × EntityGeo F)} :
    ∀ {depth : Nat} {origin : V3 F} {d : Entity F × EntityGeo F} {node m : Node F}, d ∈ data →
    Anchored (data.map (·.1)) d.1 → buildEntity gd fgd bl data depth origin d = .ok node → Occurs m [node] →
    (∀ o a cs, m ≠ .actor o a cs) → ∃ d' ∈ data, Anchored (data.map (·.1)) d'.1 ∧ LeafOf gd bl d' m := by
  intro depth
  induction depth with
  | zero => intro origin d node m _ _ h; unfold buildEntity at h; cases h
  | succ depth ih =>
    intro origin ⟨e, g⟩ node m hd ha h hm hna
    obtain ⟨d', v, c, ents, name, props, e0, h1, h2, h3, _, _, rfl⟩ := buildEntity_ok h
    cases e0
    cases hm with
    | here hm =>
      rw [List.mem_singleton] at hm
      exact absurd hm (hna _ _ _)
    | child hm hocc =>
      rw [List.mem_singleton] at hm
      cases hm
      have key : ∀ n ∈ ents, Occurs m [n] → ∃ d' ∈ data, Anchored (data.map (·.1)) d'.1 ∧ LeafOf gd bl d' m := by
        intro n hn ho
        obtain ⟨cd, hcd, hb⟩ := forall₂_right h3 hn
        exact ih (members_mem hcd) (.under (List.mem_map_of_mem hd) (under_of_members hcd) ha) hb ho hna
      have leaf : ∀ n, n ∈ visualChildren g.center v ++ collisionChildren g.center c → LeafOf gd bl (e, g) n := by
        intro n hn
        rcases List.mem_append.1 hn with hn | hn
        · exact .inl ⟨v, h1, hn⟩
        · exact .inr ⟨c, h2, hn⟩
      cases hocc with
      | here hm =>
        rcases List.mem_append.1 hm with hm | hm
        · exact ⟨_, hd, ha, leaf m hm⟩
        · exact key m hm (.here (by simp))
      | child hm ho =>
        rcases List.mem_append.1 hm with hm | hm
        · exact absurd rfl ((leaf _ hm).not_actor _ _ _)
        · exact key _ hm (.child (List.mem_singleton.2 rfl) ho)

theorem Spec.Occurs.trans {m : Node F} {o : V3 F} {a : Actor F} {cs l : List (Node F)}
    (h : Occurs (.actor o a cs) l) (hm : m ∈ cs) : Occurs m l := by
  generalize hn : Node.actor o a cs = n at h
  induction h with
  | here h => subst hn; exact .child h (.here hm)
  | child h _ ih => exact .child h ih

theorem Spec.Occurs.mono {m : Node F} {l l' : List (Node F)} (h : ∀ n ∈ l, n ∈ l') (ho : Occurs m l) : Occurs m l' := by
  cases ho with
  | here hm => exact .here (h _ hm)
  | child hm ho => exact .child (h _ hm) ho

/-- Every entity that is reached has a node. -/
theorem anchored_built {gd : GameData F} {fgd : Forge.GameData F} {bl : TextureBlacklist}
    {W : Entity F × EntityGeo F} {R : List (Entity F × EntityGeo F)} {depth : Nat} {wn : Node F}
    {es : List (Node F)} (hR : ∀ d ∈ R, ¬ IsWorld d.1)
    (hwn : buildEntity gd fgd bl (W :: R) depth V3.zero W = .ok wn)
    (hes : List.Forall₂ (fun d n => buildEntity gd fgd bl (W :: R) depth V3.zero d = .ok n)
      (R.filter fun d => (groupOf d.1).isNone) es) {e : Entity F} (ha : Anchored ((W :: R).map (·.1)) e) :
    ∀ d ∈ W :: R, d.1 = e → ∃ depth' origin' node, buildEntity gd fgd bl (W :: R) depth' origin' d = .ok node ∧
      Occurs node (wn :: es) := by
  have hW : ∃ depth' origin' node, buildEntity gd fgd bl (W :: R) depth' origin' W = .ok node ∧
      Occurs node (wn :: es) := ⟨_, _, _, hwn, .here (by simp)⟩
  induction ha with
  | world h =>
    rintro d hd rfl
    rcases List.mem_cons.1 hd with rfl | hd
    · exact hW
    · exact absurd h (hR d hd)
  | top h =>
    rintro d hd rfl
    rcases List.mem_cons.1 hd with rfl | hd
    · exact hW
    · obtain ⟨n, hn, hb⟩ := forall₂_left hes (List.mem_filter.2 ⟨hd, by rw [h]; rfl⟩)
      exact ⟨_, _, _, hb, .here (by simp [hn])⟩
  | under hp hu _ ih =>
    rintro d hd rfl
    rcases List.mem_cons.1 hd with rfl | hd
    · exact hW
    · obtain ⟨dp, hdp, rfl⟩ := List.mem_map.1 hp
      obtain ⟨depth', origin', node, hb, ho⟩ := ih dp hdp rfl
      obtain ⟨d', v, c, ents, name, props, _, h1, h2, h3, _, _, rfl⟩ := buildEntity_ok (e := dp.1) (g := dp.2) hb
      obtain ⟨n, hn, hb'⟩ := forall₂_left h3 (show d ∈ members (W :: R) dp.1 from
        List.mem_filter.2 ⟨hd, by rw [inGroup_under]; exact decide_eq_true hu⟩)
      exact ⟨_, _, _, hb', ho.trans (List.mem_append_right _ hn)⟩

namespace Spec
/-- Every face of the brush has this layer texture (a brush without faces counts as water). -/
def InLayer (t : Str) (b : BrushGeo F) : Prop :=
  AllFaces t b ∧ (t = str! "*water0" ∨ t = str! "*slime0" ∧ ¬ AllFaces (str! "*water0") b)

instance (t : Str) (b : BrushGeo F) : Decidable (InLayer t b) := by unfold InLayer; infer_instance

/-- The brushes that stay with their entity. -/
def ownBrushes (e : Entity F) (bs : List (BrushGeo F)) : List (BrushGeo F) :=
  bs.filter fun b => ¬ (IsWorld e ∧ (AllFaces (str! "*water0") b ∨ AllFaces (str! "*slime0") b))
end Spec

variable [Platform]

theorem built_faces {textures : TextureInfo} {e : Entity F} {g : EntityGeo F}
    (h : Geo.buildEntity textures e = .ok g) :
    List.Forall₂ (fun b bg => List.Forall₂ (fun p pg => Geo.buildPlane textures e b.planes p = .ok pg)
      b.planes bg.planes) e.brushes g.brushes := by
  unfold Geo.buildEntity at h
  obtain ⟨bgs, h1, h2⟩ := Outcome.bind_eq_ok.1 h
  cases h2
  refine (mapOut_eq_ok.1 h1).imp fun b bg hb => ?_
  unfold Geo.buildBrush at hb
  obtain ⟨pgs, h3, h4⟩ := Outcome.bind_eq_ok.1 hb
  cases h4
  exact mapOut_eq_ok.1 h3

theorem built_fanned {textures : TextureInfo} {e : Entity F} {g : EntityGeo F}
    (h : Geo.buildEntity textures e = .ok g) : Fanned g.brushes := by
  intro b hb p hp
  obtain ⟨eb, _, hb'⟩ := forall₂_right (built_faces h) hb
  obtain ⟨ep, _, hp'⟩ := forall₂_right hb' hp
  exact C19_fan _ _ _ _ _ hp'

/-- All leaves of a scene: those of the entities that are reached, and those of the two layers. -/
theorem scene_leaves [LawfulEq F] {depth : Nat}
    {order : List (Str × List (BrushGeo F)) → List (Str × List (BrushGeo F))}
    (horder : ∀ l, (order l).Perm l) {config : Config F} {nodes : List (Node F)}
    (h : Quarch.run depth order config = .ok nodes) {text : Str} (ht : config.mapFile = some text)
    {entities : List (Entity F)} (hl : LoadsAs text entities) :
    ∃ w ∈ entities, IsWorld w ∧ (∀ e ∈ entities, IsWorld e → e = w) ∧
    (∀ e ∈ entities, ∃ g, Geo.buildEntity config.textureInfo e = .ok g) ∧
    ∀ m, (∀ o a cs, m ≠ .actor o a cs) → (Occurs m nodes ↔
      (∃ e ∈ entities, Anchored entities e ∧ ∃ g, Geo.buildEntity config.textureInfo e = .ok g ∧
        LeafOf config.quarchitectGameData config.textureBlacklist (e, ⟨g.center, ownBrushes e g.brushes⟩) m) ∨
      (∃ t layer g, (t = str! "*water0" ∨ t = str! "*slime0") ∧
        TheLayer config.quarchitectGameData.worldspawnLayers t layer ∧
        Geo.buildEntity config.textureInfo w = .ok g ∧
        ((∃ v, layerVisual layer t (g.brushes.filter fun b => InLayer t b) = .ok v ∧ m ∈ visualChildren V3.zero v) ∨
         (∃ c, layerCollision layer (g.brushes.filter fun b => InLayer t b) = .ok c ∧
            m ∈ collisionChildren V3.zero c)))) := by
  obtain ⟨text', P, w, g, Q, rest, layers, wn, ls, es, h1, h2, hw, ho, hgeo, hlf, e1, hwn, hls, hes⟩ := run_parts h
  rw [ht] at h1; cases h1
  have hee := hl.unique h2
  subst hee
  obtain ⟨hlay, hrest⟩ := C18_split_by_texture _ w g (by simp) hw _ _ hlf
  rw [List.head?_cons, Option.some.injEq] at hrest
  have hmem : ∀ e, e ∈ (P ++ (w, g) :: Q).map (·.1) ↔ e ∈ ((w, (⟨g.center, rest⟩ : EntityGeo F)) :: (P ++ Q)).map (·.1) := by
    intro e
    simp only [List.map_append, List.map_cons, List.mem_append, List.mem_cons]
    tauto
  have hown : ownBrushes w g.brushes = rest := by
    have := congrArg (fun d => d.2.brushes) hrest
    simp only at this
    rw [this]
    unfold ownBrushes
    apply List.filter_congr
    intro b _
    simp only [hw, true_and, not_or]
  have hother : ∀ d ∈ P ++ Q, ownBrushes d.1 d.2.brushes = d.2.brushes := by
    intro d hd
    unfold ownBrushes
    rw [List.filter_eq_self]
    intro b _
    simp [ho d hd]
  have hgw := hgeo (w, g) (by simp)
  have hfan : ∀ bs : List (BrushGeo F), (∀ b ∈ bs, b ∈ g.brushes) → Fanned bs := fun bs hbs b hb p hp =>
    (built_fanned hgw) b (hbs b hb) p hp
  refine ⟨w, by simp, hw, ?_, ?_, ?_⟩
  · intro e he hwe
    obtain ⟨d, hd, rfl⟩ := List.mem_map.1 he
    rcases List.mem_append.1 hd with hd | hd
    · exact absurd hwe (ho d (List.mem_append_left _ hd))
    · rcases List.mem_cons.1 hd with rfl | hd
      · rfl
      · exact absurd hwe (ho d (List.mem_append_right _ hd))
  · intro e he
    obtain ⟨d, hd, rfl⟩ := List.mem_map.1 he
    exact ⟨_, hgeo d hd⟩
  · intro m hm
    have hdata : ∀ d ∈ (w, (⟨g.center, rest⟩ : EntityGeo F)) :: (P ++ Q), ∃ g', Geo.buildEntity config.textureInfo d.1 = .ok g' ∧
        d = (d.1, ⟨g'.center, ownBrushes d.1 g'.brushes⟩) := by
      intro d hd
      rcases List.mem_cons.1 hd with rfl | hd
      · exact ⟨g, hgw, by rw [hown]⟩
      · refine ⟨d.2, hgeo d ?_, by rw [hother d hd]⟩
        rcases List.mem_append.1 hd with hd | hd
        · exact List.mem_append_left _ hd
        · exact List.mem_append_right _ (List.mem_cons_of_mem _ hd)
    have hsub : ∀ e, Anchored ((P ++ (w, g) :: Q).map (·.1)) e ↔
        Anchored (((w, (⟨g.center, rest⟩ : EntityGeo F)) :: (P ++ Q)).map (·.1)) e := fun e =>
      ⟨Anchored.mono fun e he => (hmem e).1 he, Anchored.mono fun e he => (hmem e).2 he⟩
    constructor
    · intro hocc
      have ent : ∀ d n, d ∈ (w, (⟨g.center, rest⟩ : EntityGeo F)) :: (P ++ Q) →
          Anchored (((w, (⟨g.center, rest⟩ : EntityGeo F)) :: (P ++ Q)).map (·.1)) d.1 →
          buildEntity config.quarchitectGameData config.forgeGameData config.textureBlacklist
            ((w, ⟨g.center, rest⟩) :: (P ++ Q)) depth V3.zero d = .ok n → Occurs m [n] →
          ∃ e ∈ (P ++ (w, g) :: Q).map (·.1), Anchored ((P ++ (w, g) :: Q).map (·.1)) e ∧
            ∃ g, Geo.buildEntity config.textureInfo e = .ok g ∧
            LeafOf config.quarchitectGameData config.textureBlacklist (e, ⟨g.center, ownBrushes e g.brushes⟩) m := by
        intro d n hd ha hb ho
        obtain ⟨d', hd', ha', hlf'⟩ := leaf_anchored hd ha hb ho hm
        obtain ⟨g', hg', e'⟩ := hdata d' hd'
        exact ⟨d'.1, (hmem _).2 (List.mem_map_of_mem hd'), (hsub _).2 ha', g', hg', e' ▸ hlf'⟩
      rw [e1, ← List.singleton_append] at hocc
      rcases occurs_append hocc with hocc | hocc
      · exact .inl (ent (w, ⟨g.center, rest⟩) wn (by simp) (.world hw) hwn hocc)
      · rcases occurs_append hocc with hocc | hocc
        · right
          obtain ⟨n, hn, ho'⟩ := occurs_single hocc
          obtain ⟨o, ho'', e⟩ := List.mem_filterMap.1 hn
          simp only [id_eq] at e
          subst e
          obtain ⟨l, hlm, hb⟩ := forall₂_right hls ho''
          obtain ⟨layer, v, c, hf, hv, hc, _, rfl⟩ := (buildLayer_ok hb).2 n rfl
          have hl1 : (l.1 = str! "*water0" ∨ l.1 = str! "*slime0") ∧ l.2 = g.brushes.filter fun b => InLayer l.1 b := by
            have := (horder layers).mem_iff.1 hlm
            rw [hlay] at this
            simp only [List.mem_cons, List.not_mem_nil, or_false] at this
            rcases this with rfl | rfl
            · refine ⟨.inl rfl, ?_⟩
              apply List.filter_congr
              intro b _
              simp [InLayer]
            · refine ⟨.inr rfl, ?_⟩
              apply List.filter_congr
              intro b _
              simp [InLayer]
          refine ⟨l.1, layer, g, hl1.1, filter_single.1 hf, hgw, ?_⟩
          rw [← hl1.2]
          have key : m ∈ visualChildren V3.zero v ++ collisionChildren V3.zero c := by
            cases ho' with
            | here h => exact absurd (List.mem_singleton.1 h) (hm _ _ _)
            | child h ho' =>
              rw [List.mem_singleton] at h
              cases h
              cases ho' with
              | here h => exact h
              | child h _ =>
                rcases List.mem_append.1 h with h | h
                · cases (visualChildren_mem h).1
                · cases (collisionChildren_mem h).1
          rcases List.mem_append.1 key with hk | hk
          · exact .inl ⟨v, hv, hk⟩
          · exact .inr ⟨c, hc, hk⟩
        · left
          obtain ⟨n, hn, ho'⟩ := occurs_single hocc
          obtain ⟨d, hd, hb⟩ := forall₂_right hes hn
          obtain ⟨hd1, hd2⟩ := List.mem_filter.1 hd
          exact ent d n (List.mem_cons_of_mem _ hd1) (.top (by simpa using hd2)) hb ho'
    · rintro (⟨e, he, ha, g', hg', hlf'⟩ | ⟨t, layer, g', htt, hT, hg', hk⟩)
      · obtain ⟨d, hd, rfl⟩ := List.mem_map.1 ((hmem e).1 he)
        obtain ⟨g'', hg'', e'⟩ := hdata d hd
        rw [hg'] at hg''
        cases hg''
        rw [← e'] at hlf'
        obtain ⟨depth', origin', node, hb, hocc⟩ := anchored_built ho hwn hes ((hsub _).1 ha) d hd rfl
        obtain ⟨d', v, c, ents, name, props, _, h1, h2, h3, _, _, rfl⟩ := buildEntity_ok (e := d.1) (g := d.2) hb
        refine (hocc.trans ?_).mono ?_
        · rcases hlf' with ⟨v', hv', hm'⟩ | ⟨c', hc', hm'⟩
          · rw [h1] at hv'; cases hv'
            exact List.mem_append_left _ (List.mem_append_left _ hm')
          · rw [h2] at hc'; cases hc'
            exact List.mem_append_left _ (List.mem_append_right _ hm')
        · intro n hn
          rw [e1]
          rcases List.mem_cons.1 hn with rfl | hn
          · simp
          · simp [hn]
      · rw [hgw] at hg'
        cases hg'
        have hin : (t, g.brushes.filter fun b => InLayer t b) ∈ order layers := by
          rw [(horder layers).mem_iff, hlay]
          rcases htt with rfl | rfl
          · simp [InLayer]
          · simp [InLayer]
        obtain ⟨o, hom, hb⟩ := forall₂_left hls hin
        have hne : ∃ v c, layerVisual layer t (g.brushes.filter fun b => InLayer t b) = .ok v ∧
            layerCollision layer (g.brushes.filter fun b => InLayer t b) = .ok c ∧
            m ∈ visualChildren V3.zero v ++ collisionChildren V3.zero c := by
          have hff := hfan (g.brushes.filter fun b => InLayer t b) fun b hb => (List.mem_filter.1 hb).1
          have a1 : ∃ v, layerVisual layer t (g.brushes.filter fun b => InLayer t b) = .ok v := by
            rcases layerVisual_ok layer t _ hff with ⟨_, h⟩ | ⟨_, s, h, _⟩
            · exact ⟨_, h⟩
            · exact ⟨_, h⟩
          have a2 : ∃ c, layerCollision layer (g.brushes.filter fun b => InLayer t b) = .ok c := by
            rcases layerCollision_ok layer _ hff with ⟨_, h⟩ | ⟨_, s, h, _⟩
            · exact ⟨_, h⟩
            · exact ⟨_, h⟩
          obtain ⟨v, hv⟩ := a1
          obtain ⟨c, hc⟩ := a2
          refine ⟨v, c, hv, hc, ?_⟩
          rcases hk with ⟨v', hv', hm'⟩ | ⟨c', hc', hm'⟩
          · rw [hv] at hv'; cases hv'; exact List.mem_append_left _ hm'
          · rw [hc] at hc'; cases hc'; exact List.mem_append_right _ hm'
        obtain ⟨v, c, hv, hc, hmm⟩ := hne
        unfold buildLayer at hb
        rw [filter_single.2 hT] at hb
        simp only [hv, hc, Outcome.ok_bind] at hb
        rw [if_neg (by
          intro he
          rw [List.isEmpty_iff.1 he] at hmm
          cases hmm)] at hb
        cases hb
        rw [e1]
        exact .child (List.mem_cons_of_mem _ (List.mem_append_left _
          (List.mem_filterMap.2 ⟨_, hom, rfl⟩))) (.here hmm)

end
end Quarch
