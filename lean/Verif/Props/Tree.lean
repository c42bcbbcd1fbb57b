import Verif.Proofs.Run
import Verif.Props.Entity
import Verif.Props.LayerNodes
import Verif.Props.Parser
import Verif.Props.Face
import Verif.Spec.Tree
import Mathlib.Data.List.Perm.Basic
/-
C33, C44, C45, C48, C52, C53: the scene as a whole.
-/
set_option linter.unusedSectionVars false
namespace Quarch
open Spec Scene

/-- The token list starts with a legal, readable part that is followed by an illegal token with error `e` or
by a face line with wrong trailing values, whose error is `e`. -/
def Spec.FirstFault (F : Type) [Arith F] [Platform] (tokens : List Token) (e : Err) : Prop :=
  ∃ pre t post, tokens = pre ++ t :: post ∧ LegalList pre ∧ FacesOk F pre ∧
    ((¬ Legal (Spec.depth pre) t ∧ e = .quarch (structMsg (Spec.depth pre) t)) ∨
     ∃ line msg, t = .brushPlane line ∧ Spec.depth pre = 2 ∧ FaceFault F line msg ∧ e = .quarch msg)

section
variable {F : Type} [Arith F]

theorem inGroup_under {e c : Entity F} : inGroup e c = decide (Under e c) := by
  rw [Bool.eq_iff_iff, decide_eq_true_eq]
  unfold inGroup Under groupOf idOf Map.get?
  rw [Bool.and_eq_true, beq_iff_eq]

theorem members_map {data : List (Entity F × EntityGeo F)} {e : Entity F} :
    (members data e).map (·.1) = ((data.drop 1).map (·.1)).filter fun c => Under e c := by
  unfold members
  rw [List.filter_map]
  congr 1
  apply List.filter_congr
  intro d _
  rw [inGroup_under]
  rfl

theorem forall₂_of_map {α β γ : Type} {R : β → γ → Prop} {f : α → β} {l : List α} {r : List γ}
    (h : List.Forall₂ (fun a c => R (f a) c) l r) : List.Forall₂ R (l.map f) r :=
  List.forall₂_map_left_iff.2 h

theorem represents_of_build {gd : GameData F} {fgd : Forge.GameData F} {bl : TextureBlacklist}
    {data : List (Entity F × EntityGeo F)} : ∀ {depth : Nat} {origin : V3 F} {d : Entity F × EntityGeo F}
    {node : Node F}, buildEntity gd fgd bl data depth origin d = .ok node →
    Represents ((data.drop 1).map (·.1)) d.1 node := by
  intro depth
  induction depth with
  | zero => intro o d n h; unfold buildEntity at h; cases h
  | succ depth ih =>
    intro o ⟨e, g⟩ n h
    obtain ⟨d', v, c, ents, name, props, e0, h1, h2, h3, hn, _, rfl⟩ := buildEntity_ok h
    cases e0
    refine .mk hn ?_ ?_
    · intro n hn o a cs he
      rcases List.mem_append.1 hn with hn | hn
      · rw [(visualChildren_mem hn).1] at he; cases he
      · rw [(collisionChildren_mem hn).1] at he; cases he
    · have := forall₂_of_map (R := Represents ((data.drop 1).map (·.1))) (f := Prod.fst)
        (h3.imp fun a b hab => ih hab)
      rw [members_map] at this
      exact this

/-- A node that shows an entity is an actor named by the classname. -/
theorem Spec.Represents.named {others : List (Entity F)} {e : Entity F} {n : Node F} (h : Represents others e n) :
    ∃ o a cs, n = .actor o a cs ∧ e.properties (str! "classname") = some a.name := by
  cases h with
  | mk h _ _ => exact ⟨_, _, _, rfl, h⟩

variable [Platform]

/-- The entities of a map text, if it can be tokenized and parsed. -/
def Spec.LoadsAs (text : Str) (entities : List (Entity F)) : Prop :=
  ∃ tokens paths, Tokenizer.run Platform.bareCR text = .ok tokens ∧ Parser.run tokens = .ok (paths, entities)

/-- Everything a successful run goes through, with the worldspawn in front. -/
theorem run_parts {depth : Nat} {order : List (Str × List (BrushGeo F)) → List (Str × List (BrushGeo F))}
    {config : Config F} {nodes : List (Node F)} (h : Quarch.run depth order config = .ok nodes) :
    ∃ text P w g Q rest layers wn ls es, config.mapFile = some text ∧
      LoadsAs text ((P ++ (w, g) :: Q).map (·.1)) ∧ IsWorld w ∧ (∀ d ∈ P ++ Q, ¬ IsWorld d.1) ∧
      (∀ d ∈ P ++ (w, g) :: Q, Geo.buildEntity config.textureInfo d.1 = .ok d.2) ∧
      LayerFilter.run (P ++ (w, g) :: Q) = .ok ((w, ⟨g.center, rest⟩) :: (P ++ Q), layers) ∧
      nodes = wn :: (ls.filterMap id ++ es) ∧
      buildEntity config.quarchitectGameData config.forgeGameData config.textureBlacklist
        ((w, ⟨g.center, rest⟩) :: (P ++ Q)) depth V3.zero (w, ⟨g.center, rest⟩) = .ok wn ∧
      List.Forall₂ (fun l o => buildLayer config.quarchitectGameData l = .ok o) (order layers) ls ∧
      List.Forall₂ (fun d n => buildEntity config.quarchitectGameData config.forgeGameData
        config.textureBlacklist ((w, ⟨g.center, rest⟩) :: (P ++ Q)) depth V3.zero d = .ok n)
        ((P ++ Q).filter fun d => (groupOf d.1).isNone) es := by
  obtain ⟨text, tokens, paths, entities, gs, data, layers, h1, h2, h3, h4, h5, h6⟩ := run_steps h
  have hmap := zip_map_fst (geo_length h4)
  have hgeo : ∀ d ∈ entities.zip gs, Geo.buildEntity config.textureInfo d.1 = .ok d.2 := by
    have := mapOut_eq_ok.1 h4
    intro d hd
    exact (List.forall₂_iff_zip.1 this).2 hd
  obtain ⟨P, w, g, Q, rest, e1, hw, ho, rfl⟩ := layerFilter_ok h5
  obtain ⟨ws, ls, es, rfl, h7, h8, h9⟩ := run_ok h6
  rw [e1] at hmap hgeo h5
  rw [List.take_succ_cons, List.take_zero] at h7
  cases h7 with
  | cons hwn ht =>
    cases ht
    refine ⟨text, P, w, g, Q, rest, layers, _, ls, es, h1, ⟨tokens, paths, h2, ?_⟩, hw, ho, hgeo, h5, ?_, hwn, h8, h9⟩
    · rw [hmap]; exact h3
    · rw [List.cons_append, List.cons_append, List.nil_append]

/-- C33: every surface of every visual node anywhere in the scene is well formed, and no visual node is
without surfaces. -/
theorem C33_surfaces_well_formed [LawfulEq F] (depth : Nat)
    (order : List (Str × List (BrushGeo F)) → List (Str × List (BrushGeo F)))
    (horder : ∀ l, (order l).Perm l) (config : Config F) (nodes : List (Node F))
    (h : Quarch.run depth order config = .ok nodes) (o : V3 F) (v : VisualGeometry F)
    (hv : Occurs (.visual o v) nodes) :
    ∃ ss, v = .mesh ss ∧ ss ≠ [] ∧ ∀ s ∈ ss, WellFormed s := by
  obtain ⟨text, tokens, paths, entities, gs, data, layers, h1, h2, h3, h4, h5, h6⟩ := run_steps h
  obtain ⟨hd, hl⟩ := loaded_geometry h4 h5
  rcases occurs_run h6 hv with ⟨_, _, d, _, hb⟩ | ⟨d, hmem, v', hb, hne, e⟩ | ⟨d, _, c, _, _, e⟩ |
    ⟨l, _, hb⟩ | ⟨l, hmem, layer, v', hb, hne, e⟩ | ⟨l, _, layer, c, _, _, e⟩
  · obtain ⟨a, cs, e, _⟩ := buildEntity_actor hb
    cases e
  · cases e
    obtain ⟨dd, pd, bd, _, _, hm, hbv, ss, rfl, hss⟩ := entityVisual_mesh hb hne
    refine ⟨ss, rfl, hss, fun s hs => ?_⟩
    exact textureSurface_wellFormed (hd d hmem).1 (brushVisual_surface (hd d hmem).1 hbv hs).2.2
  · cases e
  · obtain ⟨_, _, _, _, _, _, _, e⟩ := (buildLayer_ok hb).2 _ rfl
    cases e
  · cases e
    have hf := hl l ((horder layers).mem_iff.1 hmem)
    rcases layerVisual_ok layer l.1 l.2 hf with ⟨_, h⟩ | ⟨_, s, h, hs⟩
    · rw [hb] at h; cases h; exact absurd rfl hne
    · rw [hb] at h; cases h
      refine ⟨[s], rfl, by simp, fun s' hs' => ?_⟩
      rw [List.mem_singleton] at hs'
      subst hs'
      exact textureSurface_wellFormed (g := ⟨V3.zero, l.2⟩) hf hs
  · cases e

/-- C44, C45: the result is the worldspawn node, then layer nodes (at most two, each named by a layer
definition for its texture), then one node for every other entity without group, in file order. Each
entity node shows its entity: it is named by the classname and its entity children are, in file order and
recursively, the nodes of the non-worldspawn entities in its group. -/
theorem C45_groups_nest (depth : Nat)
    (order : List (Str × List (BrushGeo F)) → List (Str × List (BrushGeo F)))
    (horder : ∀ l, (order l).Perm l) (config : Config F) (nodes : List (Node F))
    (h : Quarch.run depth order config = .ok nodes) :
    ∃ text pre w post wn ls es, config.mapFile = some text ∧ LoadsAs text (pre ++ w :: post) ∧
      IsWorld w ∧ (∀ e ∈ pre ++ post, ¬ IsWorld e) ∧ nodes = wn :: (ls ++ es) ∧
      Represents (pre ++ post) w wn ∧ ls.length ≤ 2 ∧
      (∀ n ∈ ls, ∃ layer ∈ config.quarchitectGameData.worldspawnLayers,
        layer.texture ∈ [str! "*water0", str! "*slime0"] ∧ ∃ a cs, n = .actor V3.zero a cs ∧ a.name = layer.name ∧
        ∀ c ∈ cs, ∀ o a cs', c ≠ Node.actor o a cs') ∧
      List.Forall₂ (Represents (pre ++ post)) ((pre ++ post).filter fun e => groupOf e = none) es := by
  obtain ⟨text, P, w, g, Q, rest, layers, wn, ls, es, h1, h2, hw, ho, _, hl, rfl, hwn, hls, hes⟩ := run_parts h
  have hlay := (C18_split_by_texture _ w g (by simp) hw _ _ hl).1
  refine ⟨text, P.map (·.1), w, Q.map (·.1), wn, ls.filterMap id, es, h1, ?_, hw, ?_, rfl, ?_, ?_, ?_, ?_⟩
  · simpa using h2
  · intro e he
    rw [← List.map_append] at he
    obtain ⟨d, hd, rfl⟩ := List.mem_map.1 he
    exact ho d hd
  · have := represents_of_build hwn
    rw [List.drop_succ_cons, List.drop_zero, List.map_append] at this
    exact this
  · refine Nat.le_trans (List.length_filterMap_le _ _) ?_
    rw [← hls.length_eq, (horder layers).length_eq, hlay]
    simp
  · intro n hn
    obtain ⟨o, ho', e⟩ := List.mem_filterMap.1 hn
    simp only [id_eq] at e
    subst e
    obtain ⟨l, hmem, hb⟩ := forall₂_right hls ho'
    obtain ⟨layer, v, c, hf, _, _, _, rfl⟩ := (buildLayer_ok hb).2 n rfl
    have hlm : layer ∈ config.quarchitectGameData.worldspawnLayers.filter (fun x => x.texture == l.1) := by
      rw [hf]; simp
    obtain ⟨hlm1, hlm2⟩ := List.mem_filter.1 hlm
    refine ⟨layer, hlm1, ?_, _, _, rfl, rfl, ?_⟩
    · rw [eq_of_beq hlm2]
      have := (horder layers).mem_iff.1 hmem
      rw [hlay] at this
      simp only [List.mem_cons, List.not_mem_nil, or_false] at this
      rcases this with rfl | rfl <;> simp
    · intro x hx o a cs' he
      subst he
      rcases List.mem_append.1 hx with hx | hx
      · cases (visualChildren_mem hx).1
      · cases (collisionChildren_mem hx).1
  · have := forall₂_of_map (R := Represents ((P ++ Q).map (·.1))) (f := Prod.fst)
      (hes.imp fun a b hab => by
        have := represents_of_build hab
        rw [List.drop_succ_cons, List.drop_zero] at this
        exact this)
    rw [← List.map_append]
    have e : ((P ++ Q).map (·.1)).filter (fun e => decide (groupOf e = none)) =
        ((P ++ Q).filter fun d => (groupOf d.1).isNone).map Prod.fst := by
      rw [List.filter_map]
      congr 1
      apply List.filter_congr
      intro d _
      simp only [Function.comp]
      cases groupOf d.1 <;> simp
    rw [e]
    exact this

/-- C44: the top level. -/
theorem C44_top_level (depth : Nat)
    (order : List (Str × List (BrushGeo F)) → List (Str × List (BrushGeo F)))
    (horder : ∀ l, (order l).Perm l) (config : Config F) (nodes : List (Node F))
    (h : Quarch.run depth order config = .ok nodes) :
    ∃ (text : Str) (pre : List (Entity F)) (w : Entity F) (post : List (Entity F)) (wn : Node F)
      (ls es : List (Node F)), config.mapFile = some text ∧ LoadsAs text (pre ++ w :: post) ∧
      IsWorld w ∧ (∀ e ∈ pre ++ post, ¬ IsWorld e) ∧ nodes = wn :: (ls ++ es) ∧
      (∃ o a cs, wn = .actor o a cs ∧ a.name = str! "worldspawn") ∧
      (∀ n ∈ ls, ∃ layer ∈ config.quarchitectGameData.worldspawnLayers, ∃ a cs,
        n = .actor V3.zero a cs ∧ a.name = layer.name) ∧
      List.Forall₂ (fun e n => ∃ o a cs, n = Node.actor o a cs ∧ e.properties (str! "classname") = some a.name)
        ((pre ++ post).filter fun e => groupOf e = none) es := by
  obtain ⟨text, pre, w, post, wn, ls, es, h1, h2, hw, ho, e, hr, _, hl, hes⟩ :=
    C45_groups_nest depth order horder config nodes h
  refine ⟨text, pre, w, post, wn, ls, es, h1, h2, hw, ho, e, ?_, ?_, hes.imp fun a b hab => hab.named⟩
  · obtain ⟨o, a, cs, e, hn⟩ := hr.named
    refine ⟨o, a, cs, e, ?_⟩
    rw [show w.properties (str! "classname") = _ from hw] at hn
    exact (Option.some.inj hn).symm
  · intro n hn
    obtain ⟨layer, hl1, _, a, cs, e, hn, _⟩ := hl n hn
    exact ⟨layer, hl1, a, cs, e, hn⟩

/-! ### positions -/

omit [Platform] in
theorem V3.add_neg_add [ExactAdd F] (a b : V3 F) : V3.add a (V3.add (V3.neg a) b) = b := by
  simp [V3.add, V3.neg, ExactAdd.add_neg_add]

omit [Platform] in
theorem V3.zero_add [ExactAdd F] (a : V3 F) : V3.add V3.zero a = a := by
  simp [V3.add, V3.zero, ExactAdd.zero_add]

/-- Positions of the nodes inside a forest of entity nodes built at the same depth. -/
theorem reached_build [ExactAdd F] {gd : GameData F} {fgd : Forge.GameData F} {bl : TextureBlacklist}
    {data roots : List (Entity F × EntityGeo F)} (hroots : ∀ d ∈ roots, d ∈ data) {depth : Nat}
    {nodes : List (Node F)}
    (h : List.Forall₂ (fun d n => buildEntity gd fgd bl data depth V3.zero d = .ok n) roots nodes)
    {p : V3 F} {n : Node F} (hr : ReachedAt nodes p n) :
    ∀ o a cs, n = .actor o a cs →
    ∃ depth' origin', ∃ d ∈ data, buildEntity gd fgd bl data depth' origin' d = .ok n ∧ p = d.2.center := by
  induction hr with
  | top hn =>
    rintro o a cs rfl
    obtain ⟨d, hd, hb⟩ := forall₂_right h hn
    refine ⟨_, _, d, hroots d hd, hb, ?_⟩
    obtain ⟨a', cs', e, _⟩ := buildEntity_actor hb
    cases e
    exact V3.zero_add _
  | @child p o a cs n _ hn ih =>
    rintro o' a' cs' rfl
    obtain ⟨depth', origin', ⟨e, g⟩, hd, hb, rfl⟩ := ih _ _ _ rfl
    obtain ⟨d', v, c, ents, name, props, _, h1, h2, h3, _, _, e1⟩ := buildEntity_ok hb
    cases e1
    rcases List.mem_append.1 hn with hn | hn
    · rcases List.mem_append.1 hn with hn | hn
      · cases (visualChildren_mem hn).1
      · cases (collisionChildren_mem hn).1
    · obtain ⟨d2, hd2, hb2⟩ := forall₂_right h3 hn
      refine ⟨_, _, d2, members_mem hd2, hb2, ?_⟩
      obtain ⟨a3, cs3, e3, _⟩ := buildEntity_actor hb2
      cases e3
      exact V3.add_neg_add _ _

/-- C48: with exact addition, the origins on the path to an entity node add up to the centre of the entity
the node shows. (The paths start at the worldspawn node or at an ungrouped entity; layer nodes are at the
origin and contain no entities, C44.) -/
theorem C48_world_position [ExactAdd F] (depth : Nat)
    (order : List (Str × List (BrushGeo F)) → List (Str × List (BrushGeo F)))
    (horder : ∀ l, (order l).Perm l) (config : Config F) (nodes : List (Node F))
    (h : Quarch.run depth order config = .ok nodes) :
    ∃ text pre w post wn ls es, config.mapFile = some text ∧ LoadsAs text (pre ++ w :: post) ∧
      IsWorld w ∧ (∀ e ∈ pre ++ post, ¬ IsWorld e) ∧ nodes = wn :: (ls ++ es) ∧
      (∀ n ∈ ls, ∃ a cs, n = Node.actor V3.zero a cs ∧ ∀ c ∈ cs, ∀ o a cs', c ≠ Node.actor o a cs') ∧
      ∀ p o a cs, ReachedAt (wn :: es) p (.actor o a cs) →
        ∃ e ∈ pre ++ w :: post, ∃ g, Geo.buildEntity config.textureInfo e = .ok g ∧
          Represents (pre ++ post) e (.actor o a cs) ∧ p = g.center := by
  have hl := C45_groups_nest depth order horder config nodes h
  obtain ⟨text, P, w, g, Q, rest, layers, wn, ls, es, h1, h2, hw, ho, hgeo, hlf, e1, hwn, hls, hes⟩ := run_parts h
  refine ⟨text, P.map (·.1), w, Q.map (·.1), wn, ls.filterMap id, es, h1, ?_, hw, ?_, e1, ?_, ?_⟩
  · simpa using h2
  · intro e he
    rw [← List.map_append] at he
    obtain ⟨d, hd, rfl⟩ := List.mem_map.1 he
    exact ho d hd
  · intro n hn
    obtain ⟨o, ho', e⟩ := List.mem_filterMap.1 hn
    simp only [id_eq] at e
    subst e
    obtain ⟨l, hmem, hb⟩ := forall₂_right hls ho'
    obtain ⟨layer, v, c, hf, _, _, _, rfl⟩ := (buildLayer_ok hb).2 n rfl
    refine ⟨_, _, rfl, ?_⟩
    intro x hx o a cs' he
    subst he
    rcases List.mem_append.1 hx with hx | hx
    · cases (visualChildren_mem hx).1
    · cases (collisionChildren_mem hx).1
  · intro p o a cs hr
    have hall : List.Forall₂ (fun d n => buildEntity config.quarchitectGameData config.forgeGameData
        config.textureBlacklist ((w, ⟨g.center, rest⟩) :: (P ++ Q)) depth V3.zero d = .ok n)
        ((w, ⟨g.center, rest⟩) :: ((P ++ Q).filter fun d => (groupOf d.1).isNone)) (wn :: es) := .cons hwn hes
    obtain ⟨depth', origin', d, hd, hb, rfl⟩ := reached_build (by
      intro d hd
      rcases List.mem_cons.1 hd with rfl | hd
      · simp
      · exact List.mem_cons_of_mem _ (List.mem_filter.1 hd).1) hall hr _ _ _ rfl
    have hrep := represents_of_build hb
    rw [List.drop_succ_cons, List.drop_zero, List.map_append] at hrep
    rcases List.mem_cons.1 hd with rfl | hd
    · exact ⟨w, by simp, g, hgeo (w, g) (by simp), hrep, rfl⟩
    · refine ⟨d.1, ?_, d.2, hgeo d ?_, hrep, rfl⟩
      · rcases List.mem_append.1 hd with hd | hd
        · exact List.mem_append_left _ (List.mem_map_of_mem hd)
        · exact List.mem_append_right _ (List.mem_cons_of_mem _ (List.mem_map_of_mem hd))
      · rcases List.mem_append.1 hd with hd | hd
        · exact List.mem_append_left _ hd
        · exact List.mem_append_right _ (List.mem_cons_of_mem _ hd)

/-! ### determinism -/

/-- C52 (partial): the hash map order only permutes the layer nodes: either both runs succeed with the same
worldspawn node and the same entity nodes and permuted layer nodes in between, or both fail in the same way.
Missing: the order of the layer nodes, which does depend on the hash seed, see `C52_order_matters`. -/
theorem C52_deterministic_partial [LawfulEq F] (depth : Nat)
    (order order' : List (Str × List (BrushGeo F)) → List (Str × List (BrushGeo F)))
    (h1 : ∀ l, (order l).Perm l) (h2 : ∀ l, (order' l).Perm l) (config : Config F) :
    (∃ wn ls ls' es, Quarch.run depth order config = .ok (wn :: (ls ++ es)) ∧
      Quarch.run depth order' config = .ok (wn :: (ls' ++ es)) ∧ ls.Perm ls') ∨
    (Quarch.run depth order config = Quarch.run depth order' config ∧
      ∀ nodes, Quarch.run depth order config ≠ .ok nodes) := by
  have hrun : ∀ {data : List (Entity F × EntityGeo F)} {layers : List (Str × List (BrushGeo F))}
      {gd : GameData F} {fgd : Forge.GameData F} {bl : TextureBlacklist} {ls : List (Option (Node F))},
      List.Forall₂ (fun l o => buildLayer gd l = .ok o) layers ls →
      Scene.run depth gd fgd bl data layers =
        (mapOut (buildEntity gd fgd bl data depth V3.zero) (data.take 1)).bind fun ws =>
        (mapOut (buildEntity gd fgd bl data depth V3.zero)
          ((data.drop 1).filter fun d => (groupOf d.1).isNone)).bind fun es =>
        .ok (ws ++ ls.filterMap id ++ es) := by
    intro data layers gd fgd bl ls hls
    unfold Scene.run
    rw [mapOut_eq_ok.2 hls]
    rfl
  unfold Quarch.run
  cases config.mapFile with
  | none => right; exact ⟨rfl, fun _ h => by cases h⟩
  | some text =>
    simp only
    cases hT : Tokenizer.run Platform.bareCR text with
    | ok tokens =>
      rw [Outcome.ok_bind, Outcome.ok_bind]
      cases hP : Parser.run (F := F) tokens with
      | ok r =>
        obtain ⟨paths, entities⟩ := r
        rw [Outcome.ok_bind, Outcome.ok_bind]
        simp only
        cases hG : Geo.run config.textureInfo entities with
        | ok gs =>
          rw [Outcome.ok_bind, Outcome.ok_bind]
          cases hL : LayerFilter.run (entities.zip gs) with
          | ok r =>
            obtain ⟨data, layers⟩ := r
            rw [Outcome.ok_bind, Outcome.ok_bind]
            simp only
            have hfan := (loaded_geometry hG hL).2
            have hall : ∀ l ∈ layers, ∃ o, buildLayer config.quarchitectGameData l = .ok o := by
              intro l hl
              obtain ⟨o, ho, _⟩ := C51_layer_node config.quarchitectGameData l.1 l.2 (hfan l hl)
              exact ⟨o, ho⟩
            obtain ⟨ls, hls⟩ := mapOut_isOk.2 fun l hl => hall l ((h1 layers).mem_iff.1 hl)
            obtain ⟨ls', hls'⟩ := mapOut_isOk.2 fun l hl => hall l ((h2 layers).mem_iff.1 hl)
            rw [mapOut_eq_ok] at hls hls'
            have hperm : ls.Perm ls' := by
              obtain ⟨ks, hk1, hk2⟩ := List.perm_comp_forall₂ ((h1 layers).trans (h2 layers).symm) hls'
              have : ks = ls := by
                clear hk2 hls' hall
                generalize order layers = ol at hls hk1
                induction hls generalizing ks with
                | nil => cases hk1; rfl
                | cons a _ ih =>
                  cases hk1 with
                  | cons b hk =>
                    rw [a] at b
                    cases b
                    rw [ih _ hk]
              exact this ▸ hk2
            rw [hrun hls, hrun hls']
            obtain ⟨P, w, g, Q, rest, _, _, _, rfl⟩ := layerFilter_ok hL
            rw [List.take_succ_cons, List.take_zero, mapOut_cons]
            cases hW : buildEntity config.quarchitectGameData config.forgeGameData config.textureBlacklist
              ((w, ⟨g.center, rest⟩) :: (P ++ Q)) depth V3.zero (w, ⟨g.center, rest⟩) with
            | ok wn =>
              simp only [Outcome.ok_bind, mapOut_nil]
              cases hE : mapOut (buildEntity config.quarchitectGameData config.forgeGameData
                config.textureBlacklist ((w, ⟨g.center, rest⟩) :: (P ++ Q)) depth V3.zero)
                ((((w, (⟨g.center, rest⟩ : EntityGeo F)) :: (P ++ Q)).drop 1).filter
                  fun d => (groupOf d.1).isNone) with
              | ok es =>
                left
                refine ⟨wn, ls.filterMap id, ls'.filterMap id, es, ?_, ?_, hperm.filterMap _⟩ <;>
                simp
              | err e => right; exact ⟨rfl, fun _ h => by cases h⟩
              | panic e => right; exact ⟨rfl, fun _ h => by cases h⟩
              | overflow => right; exact ⟨rfl, fun _ h => by cases h⟩
            | err e => right; exact ⟨rfl, fun _ h => by cases h⟩
            | panic e => right; exact ⟨rfl, fun _ h => by cases h⟩
            | overflow => right; exact ⟨rfl, fun _ h => by cases h⟩
          | err e => right; exact ⟨rfl, fun _ h => by cases h⟩
          | panic e => right; exact ⟨rfl, fun _ h => by cases h⟩
          | overflow => right; exact ⟨rfl, fun _ h => by cases h⟩
        | err e => right; exact ⟨rfl, fun _ h => by cases h⟩
        | panic e => right; exact ⟨rfl, fun _ h => by cases h⟩
        | overflow => right; exact ⟨rfl, fun _ h => by cases h⟩
      | err e => right; exact ⟨rfl, fun _ h => by cases h⟩
      | panic e => right; exact ⟨rfl, fun _ h => by cases h⟩
      | overflow => right; exact ⟨rfl, fun _ h => by cases h⟩
    | err e => right; exact ⟨rfl, fun _ h => by cases h⟩
    | panic e => right; exact ⟨rfl, fun _ h => by cases h⟩
    | overflow => right; exact ⟨rfl, fun _ h => by cases h⟩

/-! ### errors and aborts -/

theorem faceLine_not_overflow (line : Str) : BrushPlane.new (F := F) line ≠ .overflow := by
  rcases C11_outcomes (F := F) line with ⟨_, h⟩ | ⟨_, h⟩ | ⟨_, h⟩ <;> rw [h] <;> simp

omit [Arith F] [Platform] in
theorem plain_tokenizer (bareCR : Bool) (text : Str) : Plain (Tokenizer.run bareCR text) := by
  unfold Tokenizer.run
  refine Plain.mapOut fun l _ => ?_
  unfold Tokenizer.tokenOf
  split
  · exact .ok _
  · exact (Plain.unwrap _).bind fun _ => (Plain.unwrap _).bind fun _ => .ok _
  · exact .ok _
  · exact .ok _
  · exact .ok _
  · exact .ok _

theorem parser_err_iff (tokens : List Token) (e : Err) :
    Parser.run (F := F) tokens = .err e ↔ FirstFault F tokens e := by
  constructor
  · intro h
    rcases spec_C05_cases (F := F) tokens with ⟨h1, h2⟩ | ⟨pre, t, post, rfl, h1, h2, h3 | ⟨line, rfl, hd, hb⟩⟩
    · obtain ⟨r, hr⟩ := C05_legal_loads tokens h1 h2
      rw [h] at hr; cases hr
    · have := C05_first_illegal_token (F := F) pre post t h1 h2 h3
      rw [h] at this
      cases this
      exact ⟨pre, t, post, rfl, h1, h2, .inl ⟨h3, rfl⟩⟩
    · obtain ⟨k1, k2⟩ := C05_first_bad_face (F := F) pre post line h1 h2 hd
      rcases hb with ⟨msg, hb⟩ | hb
      · have := k1 msg hb
        rw [h] at this
        cases this
        exact ⟨pre, _, post, rfl, h1, h2, .inr ⟨line, msg, rfl, hd, hb, rfl⟩⟩
      · obtain ⟨m, this⟩ := k2 hb
        rw [h] at this
        cases this
  · rintro ⟨pre, t, post, rfl, h1, h2, ⟨h3, rfl⟩ | ⟨line, msg, rfl, hd, hb, rfl⟩⟩
    · exact C05_first_illegal_token pre post t h1 h2 h3
    · exact (C05_first_bad_face pre post line h1 h2 hd).1 msg hb

/-- C53: loading returns an error exactly when the file cannot be read as text, or its lines can be read as
tokens and the first fault in them is a misplaced token or a face line with invalid trailing values. -/
theorem C53_error_iff (depth : Nat)
    (order : List (Str × List (BrushGeo F)) → List (Str × List (BrushGeo F))) (config : Config F) (e : Err) :
    Quarch.run depth order config = .err e ↔
      (config.mapFile = none ∧ e = .io) ∨
      ∃ text tokens, config.mapFile = some text ∧ Tokenizer.run Platform.bareCR text = .ok tokens ∧
        FirstFault F tokens e := by
  unfold Quarch.run
  cases hm : config.mapFile with
  | none =>
    simp only [Outcome.err.injEq, true_and, reduceCtorEq, false_and, exists_false, or_false]
    exact eq_comm
  | some text =>
    simp only [reduceCtorEq, false_and, false_or, Option.some.injEq]
    constructor
    · intro h
      rcases Outcome.bind_eq_err.1 h with h | ⟨tokens, h1, h⟩
      · exact absurd h ((plain_tokenizer _ _).not_err e)
      rcases Outcome.bind_eq_err.1 h with h | ⟨⟨paths, entities⟩, h2, h⟩
      · exact ⟨text, tokens, rfl, h1, (parser_err_iff tokens e).1 h⟩
      rcases Outcome.bind_eq_err.1 h with h | ⟨gs, h3, h⟩
      · exact absurd h ((plain_geo _ _).not_err e)
      rcases Outcome.bind_eq_err.1 h with h | ⟨⟨data, layers⟩, h4, h⟩
      · exact absurd h ((plain_layerFilter _).not_err e)
      exact absurd h (scene_not_err e)
    · rintro ⟨_, tokens, rfl, h1, h2⟩
      rw [h1, Outcome.ok_bind, (parser_err_iff tokens e).2 h2]
      rfl

/-- C53: in a successful load every entity that is shown has a classname; hence a map with an ungrouped
entity without classname is never loaded (the load aborts, unless it already returns an error). -/
theorem C53_no_classname (depth : Nat)
    (order : List (Str × List (BrushGeo F)) → List (Str × List (BrushGeo F))) (config : Config F)
    (text : Str) (hm : config.mapFile = some text) (entities : List (Entity F)) (hl : LoadsAs text entities)
    (e : Entity F) (he : e ∈ entities) (hg : groupOf e = none)
    (hc : e.properties (str! "classname") = none) :
    (Quarch.run depth order config).aborts = true := by
  cases h : Quarch.run depth order config with
  | ok nodes =>
    exfalso
    obtain ⟨text', P, w, g, Q, rest, layers, wn, ls, es, h1, h2, hw, ho, _, _, _, _, _, hes⟩ := run_parts h
    rw [hm] at h1; cases h1
    obtain ⟨tokens, paths, t1, p1⟩ := hl
    obtain ⟨tokens', paths', t2, p2⟩ := h2
    rw [t1] at t2; cases t2
    rw [p1] at p2
    have hent : entities = (P ++ (w, g) :: Q).map (·.1) := by cases p2; rfl
    rw [hent] at he
    obtain ⟨d, hd, rfl⟩ := List.mem_map.1 he
    have hd' : d ∈ P ++ Q := by
      rcases List.mem_append.1 hd with hd | hd
      · exact List.mem_append_left _ hd
      · rcases List.mem_cons.1 hd with rfl | hd
        · unfold IsWorld at hw
          rw [hc] at hw; cases hw
        · exact List.mem_append_right _ hd
    obtain ⟨n, _, hb⟩ := forall₂_left hes (List.mem_filter.2 ⟨hd', by rw [hg]; rfl⟩)
    obtain ⟨a, cs, _, hn⟩ := buildEntity_actor hb
    rw [hc] at hn
    cases hn
  | err err =>
    exfalso
    rcases (C53_error_iff depth order config err).1 h with ⟨h1, _⟩ | ⟨text', tokens, h1, h2, h3⟩
    · rw [hm] at h1; cases h1
    · rw [hm] at h1; cases h1
      obtain ⟨tokens', paths', t2, p2⟩ := hl
      rw [h2] at t2; cases t2
      rw [(parser_err_iff tokens err).2 h3] at p2
      cases p2
  | panic m => rfl
  | overflow => rfl

/-- C53: every actor in a successful load is a layer node (without entity children) or shows an entity of
the map, which has a classname. -/
theorem C53_names (depth : Nat)
    (order : List (Str × List (BrushGeo F)) → List (Str × List (BrushGeo F)))
    (config : Config F) (nodes : List (Node F))
    (h : Quarch.run depth order config = .ok nodes) (o : V3 F) (a : Actor F) (cs : List (Node F))
    (hocc : Occurs (.actor o a cs) nodes) :
    (∃ layer ∈ config.quarchitectGameData.worldspawnLayers, a.name = layer.name ∧
      ∀ c ∈ cs, ∀ o a cs', c ≠ Node.actor o a cs') ∨
    ∃ (text : Str) (entities : List (Entity F)), config.mapFile = some text ∧ LoadsAs text entities ∧
      ∃ e ∈ entities, e.properties (str! "classname") = some a.name := by
  obtain ⟨text, tokens, paths, entities, gs, data, layers, h1, h2, h3, h4, h5, h6⟩ := run_steps h
  rcases occurs_run h6 hocc with ⟨_, _, d, hd, hb⟩ | ⟨d, hmem, v', hb, hne, e⟩ | ⟨d, _, c, _, _, e⟩ |
    ⟨l, _, hb⟩ | ⟨l, hmem, layer, v', hb, hne, e⟩ | ⟨l, _, layer, c, _, _, e⟩
  · right
    obtain ⟨P, w, g, Q, rest, e1, hw, ho, rfl⟩ := layerFilter_ok h5
    have hmap := zip_map_fst (geo_length h4)
    refine ⟨text, entities, h1, ⟨tokens, paths, h2, h3⟩, d.1, ?_, ?_⟩
    · rw [← hmap, e1]
      rcases List.mem_cons.1 hd with rfl | hd
      · simp
      · rcases List.mem_append.1 hd with hd | hd
        · exact List.mem_map_of_mem (List.mem_append_left _ hd)
        · exact List.mem_map_of_mem (List.mem_append_right _ (List.mem_cons_of_mem _ hd))
    · obtain ⟨a', cs', e', hn⟩ := buildEntity_actor hb
      cases e'
      exact hn
  · cases e
  · cases e
  · left
    obtain ⟨layer, v, c, hf, _, _, _, e⟩ := (buildLayer_ok hb).2 _ rfl
    cases e
    have hlm : layer ∈ config.quarchitectGameData.worldspawnLayers.filter (fun x => x.texture == l.1) := by
      rw [hf]; simp
    refine ⟨layer, (List.mem_filter.1 hlm).1, rfl, ?_⟩
    intro x hx o a cs' he
    subst he
    rcases List.mem_append.1 hx with hx | hx
    · cases (visualChildren_mem hx).1
    · cases (collisionChildren_mem hx).1
  · cases e
  · cases e

end
end Quarch
