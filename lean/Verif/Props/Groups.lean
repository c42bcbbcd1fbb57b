import Verif.Proofs.Visit
import Mathlib.Data.List.Perm.Subperm
/-
C46, C47: nesting of groups ends, and shows every entity once.
-/
set_option linter.unusedSectionVars false
namespace Quarch
open Spec Scene

section
variable {F : Type} [Arith F]

theorem mapOut_not_overflow {α β : Type} {f : α → Outcome β} : ∀ {l : List α},
    (∀ a ∈ l, f a ≠ .overflow) → mapOut f l ≠ .overflow
  | [], _ => by simp
  | x :: xs, hf => by
    rw [mapOut_cons]
    intro h
    rcases Outcome.bind_eq_overflow.1 h with h | ⟨_, _, h⟩
    · exact hf x (by simp) h
    rcases Outcome.bind_eq_overflow.1 h with h | ⟨_, _, h⟩
    · exact mapOut_not_overflow (fun a ha => hf a (by simp [ha])) h
    · cases h

/-- Chains of items, newest first, from a root. -/
inductive Path (items : List (Item F)) : List (Item F) → Prop
  | root {x : Item F} : x ∈ rootItems items → Path items [x]
  | step {x y : Item F} {p : List (Item F)} : Path items (x :: p) → y ∈ kids items x → Path items (y :: x :: p)

theorem Path.mem {items p : List (Item F)} (h : Path items p) : ∀ x ∈ p, x ∈ items := by
  induction h with
  | root hx =>
    intro y hy
    rw [List.mem_singleton] at hy
    exact hy ▸ (rootItems_sub items).subset hx
  | step _ hy ih =>
    intro z hz
    rcases List.mem_cons.1 hz with rfl | hz
    · exact List.mem_of_mem_drop (List.mem_filter.1 hy).1
    · exact ih z hz

theorem build_not_overflow {gd : GameData F} {fgd : Forge.GameData F} {bl : TextureBlacklist}
    {data : List (Entity F × EntityGeo F)} (hno : ∀ p, Path data.zipIdx p → p.Nodup) :
    ∀ {depth : Nat} {origin : V3 F} {x : Item F} {p : List (Item F)}, Path data.zipIdx (x :: p) →
      data.length + 1 ≤ (x :: p).length + depth →
      buildEntity gd fgd bl data depth origin x.1 ≠ .overflow := by
  intro depth
  induction depth with
  | zero =>
    intro o x p hp hlen
    exfalso
    have hsub : (x :: p) ⊆ data.zipIdx := fun y hy => hp.mem y hy
    have := (List.subperm_of_subset (hno _ hp) hsub).length_le
    rw [List.length_zipIdx] at this
    omega
  | succ depth ih =>
    rintro o ⟨⟨e, g⟩, i⟩ p hp hlen h
    unfold buildEntity at h
    rcases Outcome.bind_eq_overflow.1 h with h | ⟨v, _, h⟩
    · exact (plain_entityVisual _ _ _ _).not_overflow h
    rcases Outcome.bind_eq_overflow.1 h with h | ⟨c, _, h⟩
    · exact (plain_entityCollision _ _ _).not_overflow h
    rcases Outcome.bind_eq_overflow.1 h with h | ⟨ents, _, h⟩
    · refine mapOut_not_overflow ?_ h
      intro d hd
      have hm := members_kids data ((e, g), i)
      unfold members at hm
      simp only at hm
      rw [hm] at hd
      obtain ⟨y, hy, rfl⟩ := List.mem_map.1 hd
      exact ih (.step hp hy) (by simp only [List.length_cons] at hlen ⊢; omega)
    rcases Outcome.bind_eq_overflow.1 h with h | ⟨_, _, h⟩
    · exact (Plain.unwrap _).not_overflow h
    rcases Outcome.bind_eq_overflow.1 h with h | ⟨_, _, h⟩
    · exact (plain_entityProperties _ _).not_overflow h
    cases h

omit [Arith F] in
theorem item_zero {d : Entity F × EntityGeo F} {ds : List (Entity F × EntityGeo F)} {x : Item F}
    (hx : x ∈ (d :: ds).zipIdx) : x = (d, 0) ∨ x ∈ (d :: ds).zipIdx.drop 1 ∧ x.1 ∈ ds := by
  rw [List.zipIdx_cons] at hx ⊢
  rcases List.mem_cons.1 hx with rfl | hx
  · exact .inl rfl
  · right
    rw [List.drop_succ_cons, List.drop_zero]
    refine ⟨hx, ?_⟩
    have : x.1 ∈ (ds.zipIdx (0 + 1)).map (·.1) := List.mem_map_of_mem hx
    rwa [List.zipIdx_map_fst] at this

theorem Path.anchored {w : Entity F × EntityGeo F} {ds : List (Entity F × EntityGeo F)}
    {entities : List (Entity F)} (hent : ∀ e, e ∈ entities ↔ e ∈ (w :: ds).map (·.1))
    (hw : IsWorld w.1) (ho : ∀ d ∈ ds, ¬ IsWorld d.1)
    {p : List (Item F)} (h : Path (w :: ds).zipIdx p) :
    (∀ y ∈ p, y.1.1 ∈ entities ∧ Anchored entities y.1.1) ∧
    (∀ x q, p = x :: q → ∀ y ∈ q, Relation.TransGen (Step entities) y.1.1 x.1.1) := by
  have hin : ∀ y ∈ (w :: ds).zipIdx, y.1.1 ∈ entities := by
    intro y hy
    rw [hent]
    rcases item_zero hy with rfl | ⟨_, hy⟩
    · simp
    · exact List.mem_map_of_mem (List.mem_cons_of_mem _ hy)
  induction h with
  | @root x hx =>
    refine ⟨?_, by rintro _ _ e; cases e; simp⟩
    intro y hy
    rw [List.mem_singleton] at hy
    subst hy
    refine ⟨hin y ((rootItems_sub _).subset hx), ?_⟩
    rcases List.mem_append.1 hx with hx | hx
    · rw [List.zipIdx_cons, List.take_succ_cons, List.take_zero, List.mem_singleton] at hx
      subst hx
      exact .world hw
    · refine .top ?_
      have := (List.mem_filter.1 hx).2
      rwa [Option.isNone_iff_eq_none] at this
  | @step x y p hp hy ih =>
    have hy' := List.mem_filter.1 hy
    have hyi := List.mem_of_mem_drop hy'.1
    have hu : Under x.1.1 y.1.1 := by
      have := hy'.2
      rw [inGroup_under] at this
      exact of_decide_eq_true this
    have hx := ih.1 x (by simp)
    have hyw : y.1.1.properties (str! "classname") ≠ some (str! "worldspawn") := by
      rcases item_zero hyi with rfl | ⟨_, hy2⟩
      · have := drop_pos hy'.1
        simp at this
      · exact ho _ hy2
    have hstep : Step entities x.1.1 y.1.1 := ⟨hx.1, hin y hyi, hyw, hu⟩
    refine ⟨?_, ?_⟩
    · intro z hz
      rcases List.mem_cons.1 hz with rfl | hz
      · exact ⟨hin _ hyi, .under hx.1 hu hx.2⟩
      · exact ih.1 z hz
    · rintro _ _ e z hz
      cases e
      rcases List.mem_cons.1 hz with rfl | hz
      · exact .single hstep
      · exact (ih.2 _ _ rfl z hz).tail hstep

theorem Path.nodup {w : Entity F × EntityGeo F} {ds : List (Entity F × EntityGeo F)}
    {entities : List (Entity F)} (hent : ∀ e, e ∈ entities ↔ e ∈ (w :: ds).map (·.1))
    (hw : IsWorld w.1) (ho : ∀ d ∈ ds, ¬ IsWorld d.1) (hl : ¬ Loop entities)
    {p : List (Item F)} (h : Path (w :: ds).zipIdx p) : p.Nodup := by
  induction h with
  | root _ => simp
  | @step x y p hp hy ih =>
    refine List.nodup_cons.2 ⟨fun hm => ?_, ih⟩
    obtain ⟨h1, h2⟩ := Path.anchored hent hw ho (.step hp hy)
    exact hl ⟨y.1.1, (h1 y (by simp)).1, (h1 y (by simp)).2, h2 y _ rfl y hm⟩

/-- An entity that is built is not above itself. -/
theorem acc_of_build {gd : GameData F} {fgd : Forge.GameData F} {bl : TextureBlacklist}
    {w : Entity F × EntityGeo F} {ds : List (Entity F × EntityGeo F)}
    {entities : List (Entity F)} (hent : ∀ e, e ∈ entities ↔ e ∈ (w :: ds).map (·.1)) (hw : IsWorld w.1) :
    ∀ {depth : Nat} {origin : V3 F} {d : Entity F × EntityGeo F}
    {node : Node F}, buildEntity gd fgd bl (w :: ds) depth origin d = .ok node →
    Acc (fun c p => Step entities p c) d.1 := by
  intro depth
  induction depth with
  | zero => intro o d n h; unfold buildEntity at h; cases h
  | succ depth ih =>
    intro o ⟨e, g⟩ n h
    obtain ⟨d', v, c, ents, name, props, e0, h1, h2, h3, hn, _, rfl⟩ := buildEntity_ok h
    cases e0
    refine Acc.intro _ fun c ⟨_, hc, hcw, hu⟩ => ?_
    rw [hent] at hc
    obtain ⟨d, hd, rfl⟩ := List.mem_map.1 hc
    have hd' : d ∈ ds := by
      rcases List.mem_cons.1 hd with rfl | hd
      · exact absurd hw hcw
      · exact hd
    have hm : d ∈ members (w :: ds) e := by
      refine List.mem_filter.2 ⟨hd', ?_⟩
      rw [inGroup_under]
      exact decide_eq_true hu
    obtain ⟨n, _, hb⟩ := forall₂_left h3 hm
    exact ih hb

theorem acc_irrefl {α : Type} {r : α → α → Prop} {a : α} (h : Acc r a) : ¬ r a a := by
  induction h with
  | intro x _ ih => intro h; exact ih x h h

omit [Arith F] in
theorem unique_mem {entities : List (Entity F)} (hu : UniqueIds entities) {a b : Entity F}
    (ha : a ∈ entities) (hb : b ∈ entities) {id : Str} (h1 : idOf a = some id) (h2 : idOf b = some id) :
    a = b := by
  induction hu with
  | nil => cases ha
  | @cons x l hx _ ih =>
    rcases List.mem_cons.1 ha with ea | ha' <;> rcases List.mem_cons.1 hb with eb | hb'
    · rw [ea, eb]
    · exact absurd h2 (hx b hb' id (ea ▸ h1))
    · exact absurd h1 (hx a ha' id (eb ▸ h2))
    · exact ih ha' hb'

omit [Arith F] in
/-- Entities with unique ids have no reachable loop. -/
theorem no_loop_of_unique {entities : List (Entity F)} (hu : UniqueIds entities) : ¬ Loop entities := by
  rintro ⟨e, he, ha, hl⟩
  induction ha with
  | world hw =>
    obtain ⟨q, _, hs⟩ := Relation.TransGen.tail'_iff.1 hl
    exact hs.2.2.1 hw
  | top hg =>
    obtain ⟨q, _, hs⟩ := Relation.TransGen.tail'_iff.1 hl
    have := hs.2.2.2.1
    rw [hg] at this; cases this
  | @under e p hp hpe _ ih =>
    obtain ⟨q, hq, hs⟩ := Relation.TransGen.tail'_iff.1 hl
    obtain ⟨hqm, _, _, hqe⟩ := id hs
    have : q = p := by
      obtain ⟨h1, h2⟩ := hpe
      obtain ⟨_, h3⟩ := hqe
      rw [Option.isSome_iff_exists] at h1
      obtain ⟨id, h1⟩ := h1
      exact unique_mem hu hqm hp (by rw [← h3, h1]) (by rw [← h2, h1])
    subst this
    exact ih hqm (Relation.TransGen.head' hs hq)

variable [Platform]

omit [Arith F] in
theorem mem_front {P Q : List (Entity F × EntityGeo F)} {w : Entity F} {g g' : EntityGeo F} (e : Entity F) :
    e ∈ (P ++ (w, g) :: Q).map (·.1) ↔ e ∈ ((w, g') :: (P ++ Q)).map (·.1) := by
  simp only [List.map_append, List.map_cons, List.mem_append, List.mem_cons]
  tauto

/-- C46 (partial): loading a map in which no entity reached from the top level is nested in itself never
exhausts the stack, provided the stack has room for one call per entity. Missing: maps with such a loop, for
which loading never ends, see `C46_loop_aborts` and `C46_group_loop`. -/
theorem C46_terminates_partial (depth : Nat)
    (order : List (Str × List (BrushGeo F)) → List (Str × List (BrushGeo F))) (config : Config F)
    (text : Str) (hm : config.mapFile = some text) (entities : List (Entity F)) (hl : LoadsAs text entities)
    (hloop : ¬ Loop entities) (hdepth : entities.length ≤ depth) :
    Quarch.run depth order config ≠ .overflow := by
  obtain ⟨tokens, paths, h1, h2⟩ := hl
  unfold Quarch.run
  rw [hm]
  simp only [h1, h2, Outcome.ok_bind]
  intro h
  rcases Outcome.bind_eq_overflow.1 h with h | ⟨gs, h3, h⟩
  · exact (plain_geo _ _).not_overflow h
  rcases Outcome.bind_eq_overflow.1 h with h | ⟨⟨data, layers⟩, h4, h⟩
  · exact (plain_layerFilter _).not_overflow h
  have hmap := zip_map_fst (geo_length h3)
  obtain ⟨P, w, g, Q, rest, e1, hw, ho, rfl⟩ := layerFilter_ok h4
  rw [e1] at hmap
  have hent : ∀ e, e ∈ entities ↔ e ∈ ((w, (⟨g.center, rest⟩ : EntityGeo F)) :: (P ++ Q)).map (·.1) := by
    intro e
    rw [← hmap]
    exact mem_front e
  have hlen : ((w, (⟨g.center, rest⟩ : EntityGeo F)) :: (P ++ Q)).length = entities.length := by
    rw [← hmap]
    simp only [List.length_cons, List.length_append, List.length_map]
    omega
  have hno : ∀ p, Path ((w, (⟨g.center, rest⟩ : EntityGeo F)) :: (P ++ Q)).zipIdx p → p.Nodup :=
    fun p hp => hp.nodup hent hw ho hloop
  have hroot : ∀ x ∈ rootItems ((w, (⟨g.center, rest⟩ : EntityGeo F)) :: (P ++ Q)).zipIdx, ∀ o,
      buildEntity config.quarchitectGameData config.forgeGameData config.textureBlacklist
        ((w, ⟨g.center, rest⟩) :: (P ++ Q)) depth o x.1 ≠ .overflow := by
    intro x hx o
    exact build_not_overflow hno (.root hx) (by rw [hlen]; simp only [List.length_singleton]; omega)
  unfold Scene.run at h
  rcases Outcome.bind_eq_overflow.1 h with h | ⟨_, _, h⟩
  · refine mapOut_not_overflow ?_ h
    intro d hd
    rw [List.take_succ_cons, List.take_zero, List.mem_singleton] at hd
    subst hd
    refine hroot ((w, ⟨g.center, rest⟩), 0) (List.mem_append_left _ ?_) _
    rw [List.zipIdx_cons, List.take_succ_cons]
    simp
  rcases Outcome.bind_eq_overflow.1 h with h | ⟨_, _, h⟩
  · exact mapOut_not_overflow (fun a _ => (plain_buildLayer _ a).not_overflow) h
  rcases Outcome.bind_eq_overflow.1 h with h | ⟨_, _, h⟩
  · refine mapOut_not_overflow ?_ h
    intro d hd
    obtain ⟨hd1, hd2⟩ := List.mem_filter.1 hd
    rw [drop_zipIdx] at hd1
    obtain ⟨x, hx, rfl⟩ := List.mem_map.1 hd1
    exact hroot x (List.mem_append_right _ (List.mem_filter.2 ⟨hx, hd2⟩)) _
  · cases h

/-- C46 (partial): in particular this holds whenever no two entities have the same id. -/
theorem C46_unique_ids_partial (depth : Nat)
    (order : List (Str × List (BrushGeo F)) → List (Str × List (BrushGeo F))) (config : Config F)
    (text : Str) (hm : config.mapFile = some text) (entities : List (Entity F)) (hl : LoadsAs text entities)
    (hu : UniqueIds entities) (hdepth : entities.length ≤ depth) :
    Quarch.run depth order config ≠ .overflow :=
  C46_terminates_partial depth order config text hm entities hl (no_loop_of_unique hu) hdepth

/-- The entities of a text are unique. -/
theorem Spec.LoadsAs.unique {text : Str} {a b : List (Entity F)} (h : LoadsAs text a) (h' : LoadsAs text b) :
    a = b := by
  obtain ⟨tokens, paths, t1, p1⟩ := h
  obtain ⟨tokens', paths', t2, p2⟩ := h'
  rw [t1] at t2; cases t2
  rw [p1] at p2; cases p2; rfl

/-- C46 fails for every map with a loop: however large the stack is, loading does not succeed. -/
theorem C46_loop_aborts (depth : Nat)
    (order : List (Str × List (BrushGeo F)) → List (Str × List (BrushGeo F))) (config : Config F)
    (text : Str) (hm : config.mapFile = some text) (entities : List (Entity F)) (hl : LoadsAs text entities)
    (hloop : Loop entities) : (Quarch.run depth order config).aborts = true := by
  cases h : Quarch.run depth order config with
  | ok nodes =>
    exfalso
    obtain ⟨text', P, w, g, Q, rest, layers, wn, ls, es, h1, h2, hw, ho, _, _, _, hwn, _, hes⟩ := run_parts h
    rw [hm] at h1; cases h1
    have hee := hl.unique h2
    subst hee
    obtain ⟨e, he, ha, hl⟩ := hloop
    have hent := fun e => mem_front (P := P) (Q := Q) (w := w) (g := g) (g' := ⟨g.center, rest⟩) e
    have hacc : ∀ e ∈ (P ++ (w, g) :: Q).map (·.1), Anchored ((P ++ (w, g) :: Q).map (·.1)) e →
        Acc (fun c p => Step ((P ++ (w, g) :: Q).map (·.1)) p c) e := by
      intro e he ha
      induction ha with
      | @world e hwe =>
        rw [hent] at he
        rcases List.mem_cons.1 he with rfl | he
        · exact acc_of_build hent hw hwn
        · obtain ⟨d, hd, rfl⟩ := List.mem_map.1 he
          exact absurd hwe (ho d hd)
      | @top e hg =>
        rw [hent] at he
        rcases List.mem_cons.1 he with rfl | he
        · exact acc_of_build hent hw hwn
        · obtain ⟨d, hd, rfl⟩ := List.mem_map.1 he
          obtain ⟨n, _, hb⟩ := forall₂_left hes (List.mem_filter.2 ⟨hd, by rw [hg]; rfl⟩)
          exact acc_of_build hent hw hb
      | @under e p hp hpe hpa ih =>
        by_cases hwe : IsWorld e
        · rw [hent] at he
          rcases List.mem_cons.1 he with rfl | he
          · exact acc_of_build hent hw hwn
          · obtain ⟨d, hd, rfl⟩ := List.mem_map.1 he
            exact absurd hwe (ho d hd)
        · exact (ih hp).inv ⟨hp, he, hwe, hpe⟩
    have := acc_irrefl (hacc e he ha).transGen
    exact this (by
      have := Relation.transGen_swap.2 hl
      exact this)
  | err err =>
    exfalso
    rcases (C53_error_iff depth order config err).1 h with ⟨h1, _⟩ | ⟨text', tokens, h1, h2, h3⟩
    · rw [hm] at h1; cases h1
    · rw [hm] at h1; cases h1
      obtain ⟨tokens', paths', t2, p2⟩ := hl
      rw [h2] at t2; cases t2
      rw [(parser_err_iff tokens err).2 h3] at p2
      cases p2
  | panic m => rfl
  | overflow => rfl

/-! ### every entity once -/

omit [Platform] in
theorem kids_cnt {data : List (Entity F × EntityGeo F)} (hu : UniqueIds (data.map (·.1)))
    {x y : Item F} (hx : x ∈ data.zipIdx.drop 1) (hy : y ∈ data.zipIdx) (hxy : Under y.1.1 x.1.1) :
    ∀ z ∈ data.zipIdx, cnt x.2 (kids data.zipIdx z) = if z.2 = y.2 then 1 else 0 := by
  intro z hz
  have hxm := List.mem_of_mem_drop hx
  have hsub : (kids data.zipIdx z).Sublist data.zipIdx :=
    List.filter_sublist.trans (List.drop_sublist 1 _)
  rw [cnt_sub hsub]
  have key : (∃ x' ∈ kids data.zipIdx z, x'.2 = x.2) ↔ z.2 = y.2 := by
    constructor
    · rintro ⟨x', hx', e⟩
      have hx2 := List.mem_filter.1 hx'
      have := item_ext (List.mem_of_mem_drop hx2.1) hxm e
      subst this
      have hzx : Under z.1.1 x'.1.1 := by
        have := hx2.2
        rw [inGroup_under] at this
        exact of_decide_eq_true this
      obtain ⟨h1, h2⟩ := hxy
      obtain ⟨_, h3⟩ := hzx
      rw [Option.isSome_iff_exists] at h1
      obtain ⟨id, h1⟩ := h1
      have hzg := List.mem_zipIdx_iff_getElem?.1 hz
      have hyg := List.mem_zipIdx_iff_getElem?.1 hy
      unfold UniqueIds at hu
      rw [List.pairwise_map, List.pairwise_iff_getElem] at hu
      obtain ⟨lz, ez⟩ := List.getElem?_eq_some_iff.1 hzg
      obtain ⟨ly, ey⟩ := List.getElem?_eq_some_iff.1 hyg
      rcases Nat.lt_trichotomy z.2 y.2 with hlt | heq | hgt
      · have := hu z.2 y.2 lz ly hlt id
        rw [ez, ey] at this
        exact absurd (by rw [← h2, h1]) (this (by rw [← h3, h1]))
      · exact heq
      · have := hu y.2 z.2 ly lz hgt id
        rw [ez, ey] at this
        exact absurd (by rw [← h3, h1]) (this (by rw [← h2, h1]))
    · intro e
      have := item_ext hz hy e
      subst this
      refine ⟨x, List.mem_filter.2 ⟨hx, ?_⟩, rfl⟩
      rw [inGroup_under]
      exact decide_eq_true hxy
  by_cases h : z.2 = y.2
  · rw [if_pos h, if_pos (key.2 h)]
  · rw [if_neg h, if_neg (fun hk => h (key.1 hk))]

/-- Items that are anchored are visited once from the roots. -/
theorem visited_count {w : Entity F × EntityGeo F} {ds : List (Entity F × EntityGeo F)}
    (hu : UniqueIds ((w :: ds).map (·.1))) (ho : ∀ d ∈ ds, ¬ IsWorld d.1) {depth : Nat}
    (hc : ∀ x ∈ rootItems (w :: ds).zipIdx, Complete (w :: ds).zipIdx depth x) :
    ∀ e, Anchored ((w :: ds).map (·.1)) e → ∀ x ∈ (w :: ds).zipIdx, x.1.1 = e →
      cnt x.2 ((rootItems (w :: ds).zipIdx).flatMap (visit (w :: ds).zipIdx depth)) = 1 := by
  have hitems : ∃ items, items = (w :: ds).zipIdx := ⟨_, rfl⟩
  obtain ⟨items, hitems⟩ := hitems
  rw [← hitems] at hc ⊢
  have hrm : ∀ x ∈ rootItems items, x ∈ items := fun x hx => (rootItems_sub items).subset hx
  have hzero : (w, 0) ∈ rootItems items := by
    rw [hitems, List.zipIdx_cons]
    exact List.mem_append_left _ (by simp)
  have hrootc : ∀ x ∈ rootItems items, cnt x.2 ((rootItems items).flatMap (visit items depth)) = 1 := by
    intro x hx
    rw [cnt_flatMap]
    have hk : ∀ z ∈ items, ∀ y ∈ kids items z, y.2 ≠ x.2 := by
      intro z hz y hy e
      have hy' := List.mem_filter.1 hy
      have hyx : y = x := by
        have h1 := List.mem_of_mem_drop hy'.1
        have h2 := hrm x hx
        rw [hitems] at h1 h2
        exact item_ext h1 h2 e
      subst hyx
      rcases List.mem_append.1 hx with hx | hx
      · rw [hitems, List.zipIdx_cons, List.take_succ_cons, List.take_zero, List.mem_singleton] at hx
        have h1 := hy'.1
        rw [hitems] at h1
        have := drop_pos h1
        rw [hx] at this
        simp at this
      · have h1 := (List.mem_filter.1 hx).2
        have h2 := hy'.2
        rw [inGroup_under] at h2
        have h3 := (of_decide_eq_true h2).1
        rw [Option.isNone_iff_eq_none] at h1
        rw [h1] at h3
        cases h3
    have : (rootItems items).map (fun r => cnt x.2 (visit items depth r)) =
        (rootItems items).map fun r : Item F => if r.2 = x.2 then 1 else 0 :=
      List.map_congr_left fun r hr => cnt_visit_root hk (hrm r hr) (hc r hr)
    rw [this, ← cnt_eq_sum]
    have hsub := rootItems_sub items
    rw [hitems] at hsub hx ⊢
    rw [cnt_sub hsub, if_pos ⟨x, hx, rfl⟩]
  intro e he
  induction he with
  | @world e hwe =>
    intro x hx hxe
    subst hxe
    have hroot : x = (w, 0) := by
      rw [hitems] at hx
      rcases item_zero hx with h | ⟨_, h⟩
      · exact h
      · exact absurd hwe (ho _ h)
    subst hroot
    exact hrootc _ hzero
  | @top e hg =>
    intro x hx hxe
    subst hxe
    rw [hitems] at hx
    rcases item_zero hx with rfl | ⟨h, _⟩
    · exact hrootc _ hzero
    · refine hrootc x (List.mem_append_right _ (List.mem_filter.2 ⟨hitems ▸ h, ?_⟩))
      rw [hg]; rfl
  | @under e p hp hpe hpa ih =>
    intro x hx hxe
    subst hxe
    rw [hitems] at hx
    rcases item_zero hx with rfl | ⟨h, _⟩
    · exact hrootc _ hzero
    · obtain ⟨y, hy, hyp⟩ : ∃ y ∈ items, y.1.1 = p := by
        obtain ⟨d, hd, rfl⟩ := List.mem_map.1 hp
        have : d ∈ (w :: ds).zipIdx.map (·.1) := by rw [List.zipIdx_map_fst]; exact hd
        obtain ⟨y, hy, rfl⟩ := List.mem_map.1 this
        exact ⟨y, hitems ▸ hy, rfl⟩
      have h1 := ih y hy hyp
      rw [cnt_flatMap] at h1 ⊢
      subst hyp
      have hy' := hy
      rw [hitems] at hy'
      have hk := kids_cnt hu h hy' hpe
      rw [← hitems] at hk
      have : (rootItems items).map (fun r => cnt x.2 (visit items depth r)) =
          (rootItems items).map fun r => (if r.2 = x.2 then 1 else 0) + cnt y.2 (visit items depth r) :=
        List.map_congr_left fun r hr => cnt_visit_child hk (hrm r hr) (hc r hr)
      rw [this, sum_add, h1, ← cnt_eq_sum]
      have hsub := rootItems_sub items
      rw [hitems] at hsub ⊢
      rw [cnt_sub hsub, if_neg]
      rintro ⟨r, hr, e⟩
      have hrx : r = x := by
        refine item_ext (hsub.subset hr) hx e
      subst hrx
      rcases List.mem_append.1 hr with hr | hr
      · rw [List.zipIdx_cons, List.take_succ_cons, List.take_zero, List.mem_singleton] at hr
        have := drop_pos h
        rw [hr] at this
        simp at this
      · have h1 := (List.mem_filter.1 hr).2
        have h3 := hpe.1
        rw [Option.isNone_iff_eq_none] at h1
        rw [h1] at h3
        cases h3

/-- All items visited from the roots. -/
theorem visited_perm {w : Entity F × EntityGeo F} {ds : List (Entity F × EntityGeo F)}
    (hu : UniqueIds ((w :: ds).map (·.1))) (ho : ∀ d ∈ ds, ¬ IsWorld d.1)
    (ha : ∀ e ∈ (w :: ds).map (·.1), Anchored ((w :: ds).map (·.1)) e) {depth : Nat}
    (hc : ∀ x ∈ rootItems (w :: ds).zipIdx, Complete (w :: ds).zipIdx depth x) :
    ((rootItems (w :: ds).zipIdx).flatMap (visit (w :: ds).zipIdx depth)).Perm (w :: ds).zipIdx := by
  have hvalue := visited_count hu ho hc
  have hitems : ∃ items, items = (w :: ds).zipIdx := ⟨_, rfl⟩
  obtain ⟨items, hitems⟩ := hitems
  rw [← hitems] at hc hvalue ⊢
  have hrm : ∀ x ∈ rootItems items, x ∈ items := fun x hx => (rootItems_sub items).subset hx
  have hall : ∀ x ∈ items, cnt x.2 ((rootItems items).flatMap (visit items depth)) = 1 := by
    intro x hx
    refine hvalue x.1.1 (ha _ ?_) x hx rfl
    rw [hitems] at hx
    rcases item_zero hx with rfl | ⟨_, h⟩
    · simp
    · exact List.mem_map_of_mem (List.mem_cons_of_mem _ h)
  have hmem : ∀ x ∈ (rootItems items).flatMap (visit items depth), x ∈ items := by
    intro x hx
    obtain ⟨r, hr, hx⟩ := List.mem_flatMap.1 hx
    exact visit_mem (hrm r hr) hx
  have hcount : ∀ k (l : List (Item F)), (l.map (·.2)).count k = cnt k l := by
    intro k l
    unfold cnt List.count
    rw [List.countP_map]
    rfl
  have hn1 : ((rootItems items).flatMap (visit items depth)).Nodup := by
    apply List.Nodup.of_map (·.2)
    rw [List.nodup_iff_count_le_one]
    intro k
    by_cases hk : k ∈ ((rootItems items).flatMap (visit items depth)).map (·.2)
    · obtain ⟨x, hx, rfl⟩ := List.mem_map.1 hk
      rw [hcount, hall x (hmem x hx)]
    · rw [List.count_eq_zero_of_not_mem hk]
      omega
  have hn2 : items.Nodup := by
    apply List.Nodup.of_map (·.2)
    rw [hitems]
    exact zipIdx_nodup _
  rw [List.perm_ext_iff_of_nodup hn1 hn2]
  intro x
  refine ⟨hmem x, fun hx => ?_⟩
  have h1 := hall x hx
  unfold cnt at h1
  obtain ⟨y, hy, e⟩ := List.countP_pos_iff.1 (by rw [h1]; exact Nat.one_pos)
  rw [beq_iff_eq] at e
  have hy' := hmem y hy
  rw [hitems] at hy' hx
  rw [← item_ext hy' hx e]
  exact hy

/-- C47: if ids are unique and the group of every entity leads to the worldspawn or to an ungrouped
entity, then there is a correspondence between the entities of the map and the entity nodes of the scene, at
all depths, such that each entity is shown by the node corresponding to it: every entity appears exactly once.
(Layer nodes are the `ls`, which contain no entity nodes, see C44.) -/
theorem C47_every_entity_once (depth : Nat)
    (order : List (Str × List (BrushGeo F)) → List (Str × List (BrushGeo F))) (config : Config F)
    (text : Str) (hm : config.mapFile = some text) (entities : List (Entity F)) (hl : LoadsAs text entities)
    (hu : UniqueIds entities) (ha : ∀ e ∈ entities, Anchored entities e)
    (nodes : List (Node F)) (h : Quarch.run depth order config = .ok nodes) :
    ∃ pre w post wn ls es ns, entities = pre ++ w :: post ∧ IsWorld w ∧ nodes = wn :: (ls ++ es) ∧
      (∀ n ∈ ls, ∃ layer ∈ config.quarchitectGameData.worldspawnLayers, ∃ a cs,
        n = Node.actor V3.zero a cs ∧ a.name = layer.name ∧ ∀ c ∈ cs, ∀ o a cs', c ≠ Node.actor o a cs') ∧
      (actorsOf (wn :: es)).Perm ns ∧ List.Forall₂ (Represents (pre ++ post)) entities ns := by
  obtain ⟨text', P, w, g, Q, rest, layers, wn, ls, es, h1, h2, hw, ho, _, _, e1, hwn, hls, hes⟩ := run_parts h
  rw [hm] at h1; cases h1
  have hee := hl.unique h2
  subst hee
  obtain ⟨W, hW⟩ : ∃ W : Entity F × EntityGeo F, W = (w, ⟨g.center, rest⟩) := ⟨_, rfl⟩
  have hperm : ((P ++ (w, g) :: Q).map (·.1)).Perm ((W :: (P ++ Q)).map (·.1)) := by
    rw [hW, List.map_cons, List.map_append, List.map_cons, List.map_append]
    exact List.perm_middle
  have hu' : UniqueIds ((W :: (P ++ Q)).map (·.1)) := by
    refine (hperm.pairwise_iff ?_).1 hu
    intro a b hab id h1 h2
    exact hab id h2 h1
  have hanch : ∀ e, Anchored ((P ++ (w, g) :: Q).map (·.1)) e → Anchored ((W :: (P ++ Q)).map (·.1)) e := by
    intro e he
    induction he with
    | world h => exact .world h
    | top h => exact .top h
    | under hp hu _ ih => exact .under (hperm.mem_iff.1 hp) hu ih
  have ha' : ∀ e ∈ (W :: (P ++ Q)).map (·.1), Anchored ((W :: (P ++ Q)).map (·.1)) e :=
    fun e he => hanch e (ha e (hperm.mem_iff.2 he))
  rw [← hW] at hwn hes
  have hroots : (rootItems (W :: (P ++ Q)).zipIdx).map (·.1) =
      W :: ((P ++ Q).filter fun d => (groupOf d.1).isNone) := by
    unfold rootItems
    rw [List.map_append, List.map_take, List.zipIdx_map_fst, List.take_succ_cons, List.take_zero,
      List.singleton_append]
    congr 1
    have : P ++ Q = ((W :: (P ++ Q)).zipIdx.drop 1).map (·.1) := by
      rw [← drop_zipIdx, List.drop_succ_cons, List.drop_zero]
    conv_rhs => rw [this]
    rw [List.filter_map]
    rfl
  have hall : List.Forall₂ (fun (x : Item F) n => buildEntity config.quarchitectGameData config.forgeGameData
      config.textureBlacklist (W :: (P ++ Q)) depth V3.zero x.1 = .ok n)
      (rootItems (W :: (P ++ Q)).zipIdx) (wn :: es) := by
    have : List.Forall₂ (fun d n => buildEntity config.quarchitectGameData config.forgeGameData
      config.textureBlacklist (W :: (P ++ Q)) depth V3.zero d = .ok n)
      ((rootItems (W :: (P ++ Q)).zipIdx).map (·.1)) (wn :: es) := by
      rw [hroots]
      exact .cons hwn hes
    rwa [List.forall₂_map_left_iff] at this
  have hvis : List.Forall₂ (fun (y : Item F) n => Represents (((W :: (P ++ Q)).drop 1).map (·.1)) y.1.1 n)
      ((rootItems (W :: (P ++ Q)).zipIdx).flatMap (visit (W :: (P ++ Q)).zipIdx depth))
      (actorsOf (wn :: es)) := by
    have e : ∀ l : List (Node F), actorsOf l = (l.map actors).flatten := by
      intro l
      induction l with
      | nil => rfl
      | cons x xs ih => simp only [actorsOf, ih, List.map_cons, List.flatten_cons]
    rw [e]
    apply forall₂_flatMap
    rw [List.forall₂_map_right_iff]
    exact hall.imp fun a b hab => (build_actors hab).1
  have hc : ∀ x ∈ rootItems (W :: (P ++ Q)).zipIdx, Complete (W :: (P ++ Q)).zipIdx depth x := by
    intro x hx
    obtain ⟨n, _, hb⟩ := forall₂_left hall hx
    exact (build_actors hb).2
  have hvp := visited_perm hu' ho ha' hc
  have hvis2 : List.Forall₂ (Represents (((W :: (P ++ Q)).drop 1).map (·.1)))
      (((rootItems (W :: (P ++ Q)).zipIdx).flatMap (visit (W :: (P ++ Q)).zipIdx depth)).map fun y => y.1.1)
      (actorsOf (wn :: es)) := List.forall₂_map_left_iff.2 hvis
  have hp2 : ((P ++ (w, g) :: Q).map (·.1)).Perm
      (((rootItems (W :: (P ++ Q)).zipIdx).flatMap (visit (W :: (P ++ Q)).zipIdx depth)).map fun y => y.1.1) := by
    have h3 := (hvp.map fun y : Item F => y.1.1).symm
    have e : (W :: (P ++ Q)).zipIdx.map (fun y : Item F => y.1.1) = (W :: (P ++ Q)).map (·.1) := by
      conv_rhs => rw [← List.zipIdx_map_fst 0 (W :: (P ++ Q)), List.map_map]
      rfl
    rw [e] at h3
    exact hperm.trans h3
  obtain ⟨ns, hns1, hns2⟩ := List.perm_comp_forall₂ hp2 hvis2
  refine ⟨P.map (·.1), w, Q.map (·.1), wn, ls.filterMap id, es, ns, by simp, hw, e1, ?_, hns2.symm, ?_⟩
  · intro n hn
    obtain ⟨o, ho', e⟩ := List.mem_filterMap.1 hn
    simp only [id_eq] at e
    subst e
    obtain ⟨l, hmem, hb⟩ := forall₂_right hls ho'
    obtain ⟨layer, v, c, hf, _, _, _, rfl⟩ := (buildLayer_ok hb).2 n rfl
    have hlm : layer ∈ config.quarchitectGameData.worldspawnLayers.filter (fun x => x.texture == l.1) := by
      rw [hf]; simp
    refine ⟨layer, (List.mem_filter.1 hlm).1, _, _, rfl, rfl, ?_⟩
    intro x hx o a cs' he
    subst he
    rcases List.mem_append.1 hx with hx | hx
    · cases (visualChildren_mem hx).1
    · cases (collisionChildren_mem hx).1
  · rw [List.drop_succ_cons, List.drop_zero, List.map_append] at hns1
    exact hns1

end
end Quarch
