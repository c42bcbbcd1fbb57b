import Verif.Proofs.Surface
/-
The recursion of the scene builder.
-/
set_option linter.unusedSectionVars false
namespace Quarch
open Spec Scene

section
variable {F : Type} [Arith F]

/-- Entities that become children of `e`. -/
def members (data : List (Entity F × EntityGeo F)) (e : Entity F) : List (Entity F × EntityGeo F) :=
  (data.drop 1).filter fun child => inGroup e child.1

theorem inGroup_iff {e c : Entity F} : inGroup e c = true ↔
    ∃ id, c.properties (str! "_tb_group") = some id ∧ e.properties (str! "_tb_id") = some id := by
  unfold inGroup Map.get?
  generalize c.properties (str! "_tb_group") = a
  generalize e.properties (str! "_tb_id") = b
  cases a with
  | none => simp
  | some a =>
    simp only [Option.isSome_some, Bool.true_and, beq_iff_eq, Option.some.injEq]
    constructor
    · intro h; exact ⟨a, rfl, h.symm⟩
    · rintro ⟨_, rfl, h⟩; exact h.symm

theorem unwrap_eq_ok {α : Type} {o : Option α} {a : α} : Outcome.unwrap o = .ok a ↔ o = some a := by
  cases o <;> simp [Outcome.unwrap]

/-- One level of `buildEntity`. -/
theorem buildEntity_ok {gd : GameData F} {fgd : Forge.GameData F} {bl : TextureBlacklist}
    {data : List (Entity F × EntityGeo F)} {depth : Nat} {origin : V3 F} {e : Entity F} {g : EntityGeo F}
    {node : Node F} (h : buildEntity gd fgd bl data depth origin (e, g) = .ok node) :
    ∃ d v c ents name props, depth = d + 1 ∧ entityVisual gd bl e g = .ok v ∧
      entityCollision gd e g = .ok c ∧
      List.Forall₂ (fun child n => buildEntity gd fgd bl data d (V3.neg g.center) child = .ok n)
        (members data e) ents ∧
      e.properties (str! "classname") = some name ∧ entityProperties fgd e = .ok props ∧
      node = .actor (V3.add origin g.center)
        ⟨name, entityType gd e, entityComponentClass gd e, entityPropertyApplicationType gd e, props⟩
        (visualChildren g.center v ++ collisionChildren g.center c ++ ents) := by
  cases depth with
  | zero => unfold buildEntity at h; cases h
  | succ d =>
    unfold buildEntity at h
    obtain ⟨v, h1, h⟩ := Outcome.bind_eq_ok.1 h
    obtain ⟨c, h2, h⟩ := Outcome.bind_eq_ok.1 h
    obtain ⟨ents, h3, h⟩ := Outcome.bind_eq_ok.1 h
    obtain ⟨name, h4, h⟩ := Outcome.bind_eq_ok.1 h
    obtain ⟨props, h5, h⟩ := Outcome.bind_eq_ok.1 h
    cases h
    exact ⟨d, v, c, ents, name, props, rfl, h1, h2, mapOut_eq_ok.1 h3, unwrap_eq_ok.1 h4, h5, rfl⟩

theorem visualChildren_mem {o : V3 F} {v : VisualGeometry F} {n : Node F} (h : n ∈ visualChildren o v) :
    n = .visual o v ∧ v ≠ .none := by
  cases v with
  | none => cases h
  | mesh ss =>
    simp only [visualChildren, List.mem_singleton] at h
    exact ⟨h, by simp⟩

theorem collisionChildren_mem {o : V3 F} {c : CollisionGeometry F} {n : Node F}
    (h : n ∈ collisionChildren o c) : n = .collision o c ∧ c ≠ .none := by
  cases c with
  | none => cases h
  | convex s =>
    simp only [collisionChildren, List.mem_singleton] at h
    exact ⟨h, by simp⟩
  | concave s =>
    simp only [collisionChildren, List.mem_singleton] at h
    exact ⟨h, by simp⟩

theorem members_mem {data : List (Entity F × EntityGeo F)} {e : Entity F} {d : Entity F × EntityGeo F}
    (h : d ∈ members data e) : d ∈ data :=
  List.mem_of_mem_drop (List.mem_filter.1 h).1

/-- The node of an entity, or its visual or collision child. -/
def EntityPart (gd : GameData F) (fgd : Forge.GameData F) (bl : TextureBlacklist)
    (data : List (Entity F × EntityGeo F)) (m : Node F) : Prop :=
    (∃ depth' origin', ∃ d' ∈ data, buildEntity gd fgd bl data depth' origin' d' = .ok m) ∨
    (∃ d' ∈ data, ∃ v, entityVisual gd bl d'.1 d'.2 = .ok v ∧ v ≠ .none ∧ m = .visual d'.2.center v) ∨
    (∃ d' ∈ data, ∃ c, entityCollision gd d'.1 d'.2 = .ok c ∧ c ≠ .none ∧ m = .collision d'.2.center c)

/-- What a node of the subtree of an entity can be. -/
theorem occurs_entity {gd : GameData F} {fgd : Forge.GameData F} {bl : TextureBlacklist}
    {data : List (Entity F × EntityGeo F)} :
    ∀ {depth : Nat} {origin : V3 F} {d : Entity F × EntityGeo F} {node m : Node F}, d ∈ data →
    buildEntity gd fgd bl data depth origin d = .ok node → Occurs m [node] →
    EntityPart gd fgd bl data m := by
  intro depth
  induction depth with
  | zero => intro origin d node m _ h; unfold buildEntity at h; cases h
  | succ depth ih =>
    intro origin ⟨e, g⟩ node m hd h hm
    obtain ⟨d', v, c, ents, name, props, e0, h1, h2, h3, _, _, rfl⟩ := buildEntity_ok h
    cases e0
    cases hm with
    | here hm =>
      rw [List.mem_singleton] at hm
      subst hm
      exact .inl ⟨_, _, _, hd, h⟩
    | child hm hocc =>
      rw [List.mem_singleton] at hm
      cases hm
      have key : ∀ n ∈ ents, Occurs m [n] → EntityPart gd fgd bl data m := by
        intro n hn ho
        obtain ⟨cd, hcd, hb⟩ := forall₂_right h3 hn
        exact ih (members_mem hcd) hb ho
      have leaf : ∀ n, n ∈ visualChildren g.center v ++ collisionChildren g.center c →
          (∃ v, entityVisual gd bl e g = .ok v ∧ v ≠ .none ∧ n = .visual g.center v) ∨
          (∃ c, entityCollision gd e g = .ok c ∧ c ≠ .none ∧ n = .collision g.center c) := by
        intro n hn
        rcases List.mem_append.1 hn with hn | hn
        · obtain ⟨e1, e2⟩ := visualChildren_mem hn
          exact .inl ⟨v, h1, e2, e1⟩
        · obtain ⟨e1, e2⟩ := collisionChildren_mem hn
          exact .inr ⟨c, h2, e2, e1⟩
      cases hocc with
      | here hm =>
        rcases List.mem_append.1 hm with hm | hm
        · rcases leaf m hm with ⟨v, a, b, c⟩ | ⟨v, a, b, c⟩
          · exact .inr (.inl ⟨_, hd, v, a, b, c⟩)
          · exact .inr (.inr ⟨_, hd, v, a, b, c⟩)
        · exact key m hm (.here (by simp))
      | child hm ho =>
        rcases List.mem_append.1 hm with hm | hm
        · rcases leaf _ hm with ⟨v, a, b, c⟩ | ⟨v, a, b, c⟩ <;> cases c
        · exact key _ hm (.child (List.mem_singleton.2 rfl) ho)

theorem occurs_append {m : Node F} {l l' : List (Node F)} (h : Occurs m (l ++ l')) :
    Occurs m l ∨ Occurs m l' := by
  generalize hk : l ++ l' = k at h
  cases h with
  | here h =>
    subst hk
    rcases List.mem_append.1 h with h | h
    · exact .inl (.here h)
    · exact .inr (.here h)
  | child h ho =>
    subst hk
    rcases List.mem_append.1 h with h | h
    · exact .inl (.child h ho)
    · exact .inr (.child h ho)

theorem occurs_single {m : Node F} {l : List (Node F)} (h : Occurs m l) : ∃ n ∈ l, Occurs m [n] := by
  cases h with
  | here h => exact ⟨m, h, .here (by simp)⟩
  | child h ho => exact ⟨_, h, .child (List.mem_singleton.2 rfl) ho⟩

theorem run_ok {depth : Nat} {gd : GameData F} {fgd : Forge.GameData F} {bl : TextureBlacklist}
    {data : List (Entity F × EntityGeo F)} {layers : List (Str × List (BrushGeo F))} {nodes : List (Node F)}
    (h : Scene.run depth gd fgd bl data layers = .ok nodes) :
    ∃ ws ls es, nodes = ws ++ ls.filterMap id ++ es ∧
      List.Forall₂ (fun d n => buildEntity gd fgd bl data depth V3.zero d = .ok n) (data.take 1) ws ∧
      List.Forall₂ (fun l o => buildLayer gd l = .ok o) layers ls ∧
      List.Forall₂ (fun d n => buildEntity gd fgd bl data depth V3.zero d = .ok n)
        ((data.drop 1).filter fun d => (d.1.properties (str! "_tb_group")).isNone) es := by
  unfold Scene.run at h
  obtain ⟨ws, h1, h⟩ := Outcome.bind_eq_ok.1 h
  obtain ⟨ls, h2, h⟩ := Outcome.bind_eq_ok.1 h
  obtain ⟨es, h3, h⟩ := Outcome.bind_eq_ok.1 h
  cases h
  exact ⟨ws, ls, es, rfl, mapOut_eq_ok.1 h1, mapOut_eq_ok.1 h2, mapOut_eq_ok.1 h3⟩

/-- One layer node. -/
theorem buildLayer_ok {gd : GameData F} {entry : Str × List (BrushGeo F)} {o : Option (Node F)}
    (h : buildLayer gd entry = .ok o) :
    (o = none ∨ ∃ n, o = some n) ∧ ∀ n, o = some n →
      ∃ layer v c, gd.worldspawnLayers.filter (fun l => l.texture == entry.1) = [layer] ∧
        layerVisual layer entry.1 entry.2 = .ok v ∧ layerCollision layer entry.2 = .ok c ∧
        visualChildren V3.zero v ++ collisionChildren V3.zero c ≠ [] ∧
        n = .actor V3.zero ⟨layer.name, layer.entityType, componentClass layer.componentType, .properties,
          Map.empty⟩ (visualChildren V3.zero v ++ collisionChildren V3.zero c) := by
  refine ⟨by cases o <;> simp, ?_⟩
  rintro n rfl
  unfold buildLayer at h
  split at h
  · rename_i layer hl
    obtain ⟨v, h1, h⟩ := Outcome.bind_eq_ok.1 h
    obtain ⟨c, h2, h⟩ := Outcome.bind_eq_ok.1 h
    simp only at h
    split at h
    · cases h
    · rename_i he
      cases h
      exact ⟨layer, v, c, hl, h1, h2, by simpa using he, rfl⟩
  · cases h

/-- What a node of the scene can be. -/
theorem occurs_run {depth : Nat} {gd : GameData F} {fgd : Forge.GameData F} {bl : TextureBlacklist}
    {data : List (Entity F × EntityGeo F)} {layers : List (Str × List (BrushGeo F))} {nodes : List (Node F)}
    (h : Scene.run depth gd fgd bl data layers = .ok nodes) {m : Node F} (hm : Occurs m nodes) :
    (∃ depth' origin', ∃ d ∈ data, buildEntity gd fgd bl data depth' origin' d = .ok m) ∨
    (∃ d ∈ data, ∃ v, entityVisual gd bl d.1 d.2 = .ok v ∧ v ≠ .none ∧ m = .visual d.2.center v) ∨
    (∃ d ∈ data, ∃ c, entityCollision gd d.1 d.2 = .ok c ∧ c ≠ .none ∧ m = .collision d.2.center c) ∨
    (∃ l ∈ layers, buildLayer gd l = .ok (some m)) ∨
    (∃ l ∈ layers, ∃ layer v, layerVisual layer l.1 l.2 = .ok v ∧ v ≠ .none ∧ m = .visual V3.zero v) ∨
    (∃ l ∈ layers, ∃ layer c, layerCollision layer l.2 = .ok c ∧ c ≠ .none ∧ m = .collision V3.zero c) := by
  obtain ⟨ws, ls, es, rfl, h1, h2, h3⟩ := run_ok h
  have ent : ∀ {d : Entity F × EntityGeo F} {n : Node F}, d ∈ data →
      buildEntity gd fgd bl data depth V3.zero d = .ok n → Occurs m [n] → EntityPart gd fgd bl data m :=
    fun hd hb ho => occurs_entity hd hb ho
  rcases occurs_append hm with hm | hm
  rcases occurs_append hm with hm | hm
  · obtain ⟨n, hn, ho⟩ := occurs_single hm
    obtain ⟨d, hd, hb⟩ := forall₂_right h1 hn
    rcases ent (List.mem_of_mem_take hd) hb ho with a | a | a
    · exact .inl a
    · exact .inr (.inl a)
    · exact .inr (.inr (.inl a))
  · right; right; right
    obtain ⟨n, hn, ho⟩ := occurs_single hm
    obtain ⟨o, ho', e⟩ := List.mem_filterMap.1 hn
    simp only [id_eq] at e
    subst e
    obtain ⟨l, hl, hb⟩ := forall₂_right h2 ho'
    obtain ⟨layer, v, c, _, hv, hc, _, rfl⟩ := (buildLayer_ok hb).2 n rfl
    cases ho with
    | here hm =>
      rw [List.mem_singleton] at hm
      subst hm
      exact .inl ⟨l, hl, hb⟩
    | child hm' hocc =>
      rw [List.mem_singleton] at hm'
      cases hm'
      have leaf : ∀ n, n ∈ visualChildren V3.zero v ++ collisionChildren V3.zero c →
          (v ≠ .none ∧ n = .visual V3.zero v) ∨ (c ≠ .none ∧ n = .collision V3.zero c) := by
        intro n hn
        rcases List.mem_append.1 hn with hn | hn
        · obtain ⟨e1, e2⟩ := visualChildren_mem hn
          exact .inl ⟨e2, e1⟩
        · obtain ⟨e1, e2⟩ := collisionChildren_mem hn
          exact .inr ⟨e2, e1⟩
      cases hocc with
      | here hm =>
        rcases leaf m hm with ⟨a, b⟩ | ⟨a, b⟩
        · exact .inr (.inl ⟨l, hl, layer, v, hv, a, b⟩)
        · exact .inr (.inr ⟨l, hl, layer, c, hc, a, b⟩)
      | child hm ho =>
        rcases leaf _ hm with ⟨_, b⟩ | ⟨_, b⟩ <;> cases b
  · obtain ⟨n, hn, ho⟩ := occurs_single hm
    obtain ⟨d, hd, hb⟩ := forall₂_right h3 hn
    rcases ent (List.mem_of_mem_drop (List.mem_filter.1 hd).1) hb ho with a | a | a
    · exact .inl a
    · exact .inr (.inl a)
    · exact .inr (.inr (.inl a))

theorem findDef_iff {gd : GameData F} {c : Str} {d : EntityDef F} :
    findDef gd c = some d ↔ FirstDef gd c d := by
  unfold findDef FirstDef
  rw [List.find?_eq_some_iff_append]
  constructor
  · rintro ⟨h1, pre, post, h2, h3⟩
    exact ⟨pre, post, h2, eq_of_beq h1, fun x hx e => by simpa [e] using h3 x hx⟩
  · rintro ⟨pre, post, h1, h2, h3⟩
    exact ⟨by simp [h2], pre, post, h1, fun x hx => by simpa using h3 x hx⟩

theorem findDef_none {gd : GameData F} {c : Str} :
    findDef gd c = none ↔ ∀ d ∈ gd.entities, d.classname ≠ c := by
  unfold findDef
  rw [List.find?_eq_none]
  simp

end
end Quarch
