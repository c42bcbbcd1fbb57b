import Verif.Spec.Loads
import Verif.Proofs.Leaves
import Verif.Props.Groups
import Verif.Props.Degenerate
import Verif.Props.LayerNodes
/-
C92: exactly which map files can be loaded.
-/
set_option linter.unusedSectionVars false
namespace Quarch
open Spec Scene

/-! ### text -/

section
variable {F : Type} [Arith F] [Platform]

/-- C92: the entities of a map text are exactly those it lists. -/
theorem C92_text (text : Str) (entities : List (Entity F)) : LoadsAs text entities ↔ MapIs text entities := by
  constructor
  · rintro ⟨tokens, paths, h1, h2⟩
    obtain ⟨ls, final, hls, hf, rfl⟩ := spec_C01_text_is_lines text
    obtain ⟨f, hft, hd⟩ := (run_iff_grammar tokens entities).1 ⟨paths, h2⟩
    exact ⟨f, ⟨ls, final, tokens, rfl, hls, hf, (C01_line_by_line Platform.bareCR ls final hls hf tokens).1 h1, hft⟩,
      hd⟩
  · rintro ⟨f, ⟨ls, final, ts, rfl, h1, h2, h3, h4⟩, hd⟩
    obtain ⟨paths, hp⟩ := (run_iff_grammar ts entities).2 ⟨f, h4, hd⟩
    exact ⟨ts, paths, (C01_line_by_line Platform.bareCR ls final h1 h2 ts).2 h3, hp⟩

/-! ### success -/

theorem mapOut_ok_or_overflow {α β : Type} {f : α → Outcome β} : ∀ {l : List α},
    (∀ a ∈ l, (∃ b, f a = .ok b) ∨ f a = .overflow) → (∃ bs, mapOut f l = .ok bs) ∨ mapOut f l = .overflow
  | [], _ => .inl ⟨[], rfl⟩
  | a :: l, h => by
    rw [mapOut_cons]
    rcases h a (by simp) with ⟨b, hb⟩ | hb
    · rw [hb, Outcome.ok_bind]
      rcases mapOut_ok_or_overflow (l := l) (fun a ha => h a (by simp [ha])) with ⟨bs, hbs⟩ | hbs
      · rw [hbs]; exact .inl ⟨_, rfl⟩
      · rw [hbs]; exact .inr rfl
    · rw [hb]; exact .inr rfl

theorem forall₂_append_inv {α β : Type} {R : α → β → Prop} : ∀ {a b : List α} {l : List β}, List.Forall₂ R (a ++ b) l →
    ∃ l1 l2, List.Forall₂ R a l1 ∧ List.Forall₂ R b l2 ∧ l = l1 ++ l2
  | [], _, _, h => ⟨[], _, .nil, h, rfl⟩
  | _ :: _, _, _, .cons h hs => by
    obtain ⟨l1, l2, h1, h2, rfl⟩ := forall₂_append_inv hs
    exact ⟨_ :: l1, l2, .cons h h1, h2, rfl⟩

theorem entityVisual_succeeds [LawfulEq F] (gd : GameData F) (bl : TextureBlacklist) (e : Entity F) (g : EntityGeo F)
    (hf : Fanned g.brushes) {name : Str} (hn : e.properties (str! "classname") = some name) :
    ∃ v, entityVisual gd bl e g = .ok v := by
  unfold entityVisual Map.get?
  rw [hn]
  simp only
  split
  · split
    · exact ⟨_, rfl⟩
    · exact C34_succeeds _ _ _ _ hf
  · exact ⟨_, rfl⟩

theorem collisionOf_succeeds [LawfulEq F] (ct : CollisionType) (g : EntityGeo F) (hf : Fanned g.brushes) :
    ∃ c, collisionOf ct g = .ok c := by
  cases ct with
  | none => exact ⟨_, rfl⟩
  | convex => exact ⟨_, rfl⟩
  | concave => rcases C41_concave g hf with ⟨_, h'⟩ | ⟨_, _, h', _⟩ <;> exact ⟨_, h'⟩

theorem entityCollision_succeeds [LawfulEq F] (gd : GameData F) (e : Entity F) (g : EntityGeo F)
    (hf : Fanned g.brushes) {name : Str} (hn : e.properties (str! "classname") = some name) :
    ∃ c, entityCollision gd e g = .ok c := by
  unfold entityCollision Map.get?
  rw [hn]
  simp only
  split
  · split
    · exact ⟨_, rfl⟩
    · exact collisionOf_succeeds _ _ hf
  · exact ⟨_, rfl⟩

/-- What building the node of an entity needs besides stack. -/
structure Buildable (fgd : Forge.GameData F) (d : Entity F × EntityGeo F) : Prop where
  fanned : Fanned d.2.brushes
  named : ∃ name, d.1.properties (str! "classname") = some name
  props : ∃ props, entityProperties fgd d.1 = .ok props

theorem build_ok_or_overflow [LawfulEq F] {gd : GameData F} {fgd : Forge.GameData F} {bl : TextureBlacklist}
    {data : List (Entity F × EntityGeo F)} {S : Entity F × EntityGeo F → Prop}
    (hb : ∀ d, S d → Buildable fgd d) (hS : ∀ d, S d → ∀ c ∈ members data d.1, S c) :
    ∀ (depth : Nat) (o : V3 F) (d : Entity F × EntityGeo F), S d →
      (∃ n, buildEntity gd fgd bl data depth o d = .ok n) ∨ buildEntity gd fgd bl data depth o d = .overflow := by
  intro depth
  induction depth with
  | zero => intro o d _; exact .inr rfl
  | succ depth ih =>
    intro o d hd
    obtain ⟨hf, ⟨name, hn⟩, ⟨props, hp⟩⟩ := hb d hd
    have hS' := hS d hd
    obtain ⟨e, g⟩ := d
    obtain ⟨v, hv⟩ := entityVisual_succeeds gd bl e g hf hn
    obtain ⟨c, hc⟩ := entityCollision_succeeds gd e g hf hn
    unfold buildEntity
    rw [hv, Outcome.ok_bind, hc, Outcome.ok_bind]
    rcases mapOut_ok_or_overflow (l := members data e)
      (fun a ha => ih (V3.neg g.center) a (hS' a ha)) with ⟨cs, hcs⟩ | hcs
    · unfold members at hcs
      have hn' : e.properties.get? (str! "classname") = some name := hn
      have hp' : entityProperties fgd e = .ok props := hp
      rw [hcs, Outcome.ok_bind, hn', hp']
      exact .inl ⟨_, rfl⟩
    · unfold members at hcs
      rw [hcs]
      exact .inr rfl

theorem entityProperties_succeeds (fgd : Forge.GameData F) (e : Entity F) :
    (∃ props, entityProperties fgd e = .ok props) ↔ ((∃ d, FirstForge fgd e d) →
      ∀ k ∈ [str! "_tb_id", str! "_tb_group"], ∀ s, e.properties k = some s → ∃ i, ReadsI32 s i) := by
  obtain ⟨h1, h2⟩ := C50_aborts_iff fgd e
  constructor
  · rintro ⟨props, hp⟩ hd k hk s hs
    by_contra hi
    obtain ⟨m, hm⟩ := h1.2 ⟨hd, k, hk, s, hs, fun i hr => hi ⟨i, hr⟩⟩
    rw [hp] at hm
    cases hm
  · intro h
    rcases h2 with h2 | h2
    · exact h2
    · obtain ⟨hd, k, hk, s, hs, hi⟩ := h1.1 h2
      obtain ⟨i, hr⟩ := h hd k hk s hs
      exact absurd hr (hi i)

theorem geo_succeeds (textures : TextureInfo) (entities : List (Entity F)) :
    (∃ gs, Geo.run textures entities = .ok gs) ↔ ∀ e ∈ entities, ∀ b ∈ e.brushes, ∀ p ∈ b.planes,
      (∃ u v, p.uv = .quake u v) → (∃ x, Found b.planes p x) → HasLargest (faceNormal p) := by
  obtain ⟨h1, h2⟩ := C32_aborts_iff textures entities
  constructor
  · rintro ⟨gs, hg⟩ e he b hb p hp hq hx
    by_contra hn
    obtain ⟨m, hm⟩ := h1.2 ⟨e, he, b, hb, p, hp, hq, hx, hn⟩
    rw [hg] at hm
    cases hm
  · intro h
    refine h2 fun hm => ?_
    obtain ⟨e, he, b, hb, p, hp, hq, hx, hn⟩ := h1.1 hm
    exact hn (h e he b hb p hp hq hx)

/-- C92: whatever is loaded meets the requirements. -/
theorem C92_needs (depth : Nat) (order : List (Str × List (BrushGeo F)) → List (Str × List (BrushGeo F)))
    (config : Config F) (nodes : List (Node F)) (h : Quarch.run depth order config = .ok nodes) :
    ∃ entities, Loadable config entities := by
  obtain ⟨text, P, w, g, Q, rest, layers, wn, ls, es, h1, h2, hw, ho, hgeo, hlf, e1, hwn, hls, hes⟩ := run_parts h
  have hent := fun e => mem_front (P := P) (Q := Q) (w := w) (g := g) (g' := ⟨g.center, rest⟩) e
  have hbuilt : ∀ e ∈ (P ++ (w, g) :: Q).map (·.1), Anchored ((P ++ (w, g) :: Q).map (·.1)) e →
      (∃ name, e.properties (str! "classname") = some name) ∧
      ∃ props, entityProperties config.forgeGameData e = .ok props := by
    intro e he ha
    obtain ⟨d, hd, rfl⟩ := List.mem_map.1 ((hent e).1 he)
    obtain ⟨depth', o', node, hb, -⟩ := anchored_built ho hwn hes (ha.mono fun e he => (hent e).1 he) d hd rfl
    obtain ⟨d', v, c, ents, name, props, _, _, _, _, hn, hp, _⟩ := buildEntity_ok (e := d.1) (g := d.2) hb
    exact ⟨⟨name, hn⟩, props, hp⟩
  refine ⟨_, ⟨text, h1, (C92_text _ _).1 h2⟩, ?_, ?_, fun e he ha => (hbuilt e he ha).1,
    fun e he ha => (entityProperties_succeeds _ e).1 (hbuilt e he ha).2, fun hloop => ?_⟩
  · refine ⟨P.map (·.1), w, Q.map (·.1), by simp, hw, fun e he => ?_⟩
    rw [← List.map_append] at he
    obtain ⟨d, hd, rfl⟩ := List.mem_map.1 he
    exact ho d hd
  · refine (geo_succeeds config.textureInfo _).1 ⟨(P ++ (w, g) :: Q).map (·.2), mapOut_eq_ok.2 ?_⟩
    rw [List.forall₂_map_left_iff, List.forall₂_map_right_iff]
    exact List.forall₂_same.2 hgeo
  · have := C46_loop_aborts depth order config text h1 _ h2 hloop
    rw [h] at this
    cases this

/-- C92: whatever meets the requirements is loaded, given stack for one call per entity. -/
theorem C92_enough [LawfulEq F] (depth : Nat)
    (order : List (Str × List (BrushGeo F)) → List (Str × List (BrushGeo F))) (horder : ∀ l, (order l).Perm l)
    (config : Config F) (entities : List (Entity F)) (h : Loadable config entities) (hd : entities.length ≤ depth) :
    ∃ nodes, Quarch.run depth order config = .ok nodes := by
  obtain ⟨⟨text, hm, hmap⟩, ⟨pre, w, post, rfl, hw, hothers⟩, hfaces, hnamed, hids, htree⟩ := h
  have hl := (C92_text text _).2 hmap
  have hno := C46_terminates_partial depth order config text hm _ hl htree hd
  obtain ⟨gs, hgs⟩ := (geo_succeeds config.textureInfo _).2 hfaces
  obtain ⟨tokens, paths, h1, h2⟩ := hl
  have hlen := geo_length hgs
  have hpair := mapOut_eq_ok.1 hgs
  obtain ⟨gpre, gmid, hp1, hp2, rfl⟩ := forall₂_append_inv hpair
  obtain ⟨g, gpost, hg, hp3, rfl⟩ := List.forall₂_cons_left_iff.1 hp2
  have hz : (pre ++ w :: post).zip (gpre ++ g :: gpost) = pre.zip gpre ++ (w, g) :: post.zip gpost := by
    rw [List.zip_append hp1.length_eq]; rfl
  have hgeo : ∀ d ∈ pre.zip gpre ++ (w, g) :: post.zip gpost, Geo.buildEntity config.textureInfo d.1 = .ok d.2 := by
    rw [← hz]
    intro d hd
    exact (List.forall₂_iff_zip.1 hpair).2 hd
  have hfst : ∀ d ∈ pre.zip gpre ++ (w, g) :: post.zip gpost, d.1 ∈ pre ++ w :: post := by
    rw [← hz]
    intro d hd
    exact (List.of_mem_zip hd).1
  have ho : ∀ d ∈ pre.zip gpre ++ post.zip gpost, ¬ IsWorld d.1 := by
    intro d hd
    refine hothers d.1 ?_
    rcases List.mem_append.1 hd with hd | hd
    · exact List.mem_append_left _ (List.of_mem_zip hd).1
    · exact List.mem_append_right _ (List.of_mem_zip hd).1
  obtain ⟨rest, layers, hlf⟩ := C17_worldspawn_first _ _ w g hw ho
  have hsplit := C18_split_by_texture _ w g (by simp) hw _ _ hlf
  have hfan : ∀ d ∈ (w, (⟨g.center, rest⟩ : EntityGeo F)) :: (pre.zip gpre ++ post.zip gpost), Fanned d.2.brushes := by
    intro d hd
    rcases List.mem_cons.1 hd with rfl | hd
    · have hs := hsplit.2
      rw [List.head?_cons, Option.some.injEq, Prod.mk.injEq] at hs
      have hb := congrArg EntityGeo.brushes hs.2
      simp only at hb
      intro b hbm
      simp only at hbm
      rw [hb] at hbm
      exact built_fanned hg b (List.mem_filter.1 hbm).1
    · refine built_fanned (hgeo d ?_)
      rcases List.mem_append.1 hd with hd | hd
      · exact List.mem_append_left _ hd
      · exact List.mem_append_right _ (List.mem_cons_of_mem _ hd)
  have hmem : ∀ d ∈ (w, (⟨g.center, rest⟩ : EntityGeo F)) :: (pre.zip gpre ++ post.zip gpost),
      d.1 ∈ pre ++ w :: post := by
    intro d hd
    rcases List.mem_cons.1 hd with rfl | hd
    · simp
    · refine hfst d ?_
      rcases List.mem_append.1 hd with hd | hd
      · exact List.mem_append_left _ hd
      · exact List.mem_append_right _ (List.mem_cons_of_mem _ hd)
  have hbuild := build_ok_or_overflow (gd := config.quarchitectGameData) (fgd := config.forgeGameData)
    (bl := config.textureBlacklist) (data := (w, (⟨g.center, rest⟩ : EntityGeo F)) :: (pre.zip gpre ++ post.zip gpost))
    (S := fun d => d ∈ (w, (⟨g.center, rest⟩ : EntityGeo F)) :: (pre.zip gpre ++ post.zip gpost) ∧
      Anchored (pre ++ w :: post) d.1)
    (fun d hd => ⟨hfan d hd.1, hnamed _ (hmem d hd.1) hd.2,
      (entityProperties_succeeds _ _).2 (hids _ (hmem d hd.1) hd.2)⟩)
    (fun d hd c hc => by
      obtain ⟨hc1, hc2⟩ := List.mem_filter.1 hc
      rw [inGroup_under] at hc2
      exact ⟨List.mem_of_mem_drop hc1, .under (hmem d hd.1) (of_decide_eq_true hc2) hd.2⟩)
  suffices hsuf : (∃ nodes, Quarch.run depth order config = .ok nodes) ∨ Quarch.run depth order config = .overflow by
    exact hsuf.resolve_right hno
  unfold Quarch.run
  simp only [hm, h1, Outcome.ok_bind, h2, hgs, hz, hlf]
  unfold Scene.run
  rcases mapOut_ok_or_overflow (f := buildEntity config.quarchitectGameData config.forgeGameData
      config.textureBlacklist ((w, (⟨g.center, rest⟩ : EntityGeo F)) :: (pre.zip gpre ++ post.zip gpost)) depth V3.zero)
      (l := ((w, (⟨g.center, rest⟩ : EntityGeo F)) :: (pre.zip gpre ++ post.zip gpost)).take 1)
      (fun d hd => hbuild depth V3.zero d (by
        rw [List.take_succ_cons, List.take_zero, List.mem_singleton] at hd
        subst hd
        exact ⟨by simp, .world hw⟩)) with ⟨ws, hws⟩ | hws
  · rw [hws, Outcome.ok_bind]
    obtain ⟨ls, hls⟩ : ∃ ls, mapOut (buildLayer config.quarchitectGameData) (order layers) = .ok ls := by
      refine mapOut_isOk.2 fun l hlm => ?_
      have hlm := (horder layers).mem_iff.1 hlm
      rw [hsplit.1] at hlm
      have hfl : Fanned l.2 := by
        have hgf := built_fanned hg
        simp only [List.mem_cons, List.not_mem_nil, or_false] at hlm
        rcases hlm with rfl | rfl <;> exact fun b hb => hgf b (List.mem_filter.1 hb).1
      obtain ⟨o, ho, -⟩ := C51_layer_node config.quarchitectGameData l.1 l.2 hfl
      exact ⟨o, ho⟩
    rw [hls, Outcome.ok_bind]
    rcases mapOut_ok_or_overflow (f := buildEntity config.quarchitectGameData config.forgeGameData
        config.textureBlacklist ((w, (⟨g.center, rest⟩ : EntityGeo F)) :: (pre.zip gpre ++ post.zip gpost)) depth V3.zero)
        (l := (((w, (⟨g.center, rest⟩ : EntityGeo F)) :: (pre.zip gpre ++ post.zip gpost)).drop 1).filter
          fun d => (d.1.properties.get? (str! "_tb_group")).isNone)
        (fun d hd => hbuild depth V3.zero d (by
          obtain ⟨hd1, hd2⟩ := List.mem_filter.1 hd
          exact ⟨List.mem_of_mem_drop hd1, .top (Option.isNone_iff_eq_none.1 hd2)⟩)) with ⟨es, hes⟩ | hes
    · rw [hes]; exact .inl ⟨_, rfl⟩
    · rw [hes]; exact .inr rfl
  · rw [hws]; exact .inr rfl

/-- C92: a map can be loaded, with enough stack, exactly if it meets the requirements. -/
theorem C92_loads_iff [LawfulEq F] (order : List (Str × List (BrushGeo F)) → List (Str × List (BrushGeo F)))
    (horder : ∀ l, (order l).Perm l) (config : Config F) :
    (∃ depth nodes, Quarch.run depth order config = .ok nodes) ↔ ∃ entities, Loadable config entities := by
  constructor
  · rintro ⟨depth, nodes, h⟩
    exact C92_needs depth order config nodes h
  · rintro ⟨entities, h⟩
    obtain ⟨nodes, hn⟩ := C92_enough entities.length order horder config entities h (Nat.le_refl _)
    exact ⟨_, nodes, hn⟩

end
end Quarch
