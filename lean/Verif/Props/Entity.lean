import Verif.Proofs.PropVal
import Verif.Props.Surface
/-
C42, C43, C49, C50: what an entity node contains.
-/
set_option linter.unusedSectionVars false
namespace Quarch
open Spec Scene

section
variable {F : Type} [Arith F]

namespace Spec
/-- `d` is the first game definition with the entity's classname. -/
def DefOf (gd : GameData F) (e : Entity F) (d : EntityDef F) : Prop :=
  ∃ c, e.properties (str! "classname") = some c ∧ FirstDef gd c d

/-- The entity has no classname or none of the definitions has it. -/
def NoDef (gd : GameData F) (e : Entity F) : Prop :=
  ∀ c, e.properties (str! "classname") = some c → ∀ d ∈ gd.entities, d.classname ≠ c
end Spec

theorem entityVisual_mesh {gd : GameData F} {bl : TextureBlacklist} {e : Entity F} {g : EntityGeo F}
    {v : VisualGeometry F} (h : entityVisual gd bl e g = .ok v) (hv : v ≠ .none) :
    ∃ d pd bd, DefOf gd e d ∧ d.data = .brush pd bd ∧ bd.visualType = .mesh ∧
      brushVisual e g bd bl = .ok v ∧ ∃ ss, v = .mesh ss ∧ ss ≠ [] := by
  unfold entityVisual at h
  split at h
  · rename_i c hc
    split at h
    · rename_i d hd
      split at h
      · cases h; exact absurd rfl hv
      · rename_i pd bd hdata
        refine ⟨d, pd, bd, ⟨c, hc, findDef_iff.1 hd⟩, hdata, ?_, h, ?_⟩
        · cases hbd : bd.visualType with
          | mesh => rfl
          | none =>
            unfold brushVisual at h
            rw [hbd] at h
            cases h; exact absurd rfl hv
        · unfold brushVisual at h
          split at h
          · obtain ⟨os, _, h⟩ := Outcome.bind_eq_ok.1 h
            simp only at h
            split at h
            · cases h; exact absurd rfl hv
            · rename_i he
              cases h
              exact ⟨_, rfl, by simpa using he⟩
          · cases h; exact absurd rfl hv
    · cases h; exact absurd rfl hv
  · cases h

theorem collisionOf_kind {ct : CollisionType} {g : EntityGeo F} {k : CollisionGeometry F}
    (h : collisionOf ct g = .ok k) (hk : k ≠ .none) :
    (ct = .convex ∧ ∃ s, k = .convex s) ∨ (ct = .concave ∧ ∃ s, k = .concave s ∧ s.length = 1) := by
  cases ct with
  | none => cases h; exact absurd rfl hk
  | convex => cases h; exact .inl ⟨rfl, _, rfl⟩
  | concave =>
    right
    refine ⟨rfl, ?_⟩
    unfold collisionOf concaveCollision at h
    obtain ⟨⟨vs, is⟩, _, h⟩ := Outcome.bind_eq_ok.1 h
    simp only at h
    split at h
    · cases h; exact absurd rfl hk
    · cases h; exact ⟨_, rfl, rfl⟩

theorem entityCollision_kind {gd : GameData F} {e : Entity F} {g : EntityGeo F}
    {k : CollisionGeometry F} (h : entityCollision gd e g = .ok k) (hk : k ≠ .none) :
    ∃ d pd bd, DefOf gd e d ∧ d.data = .brush pd bd ∧ collisionOf bd.collisionType g = .ok k := by
  unfold entityCollision at h
  split at h
  · rename_i c hc
    split at h
    · rename_i d hd
      split at h
      · cases h; exact absurd rfl hk
      · rename_i pd bd hdata
        exact ⟨d, pd, bd, ⟨c, hc, findDef_iff.1 hd⟩, hdata, h⟩
    · cases h; exact absurd rfl hk
  · cases h

theorem buildEntity_actor {gd : GameData F} {fgd : Forge.GameData F} {bl : TextureBlacklist}
    {data : List (Entity F × EntityGeo F)} {depth : Nat} {origin : V3 F} {d : Entity F × EntityGeo F}
    {node : Node F} (h : buildEntity gd fgd bl data depth origin d = .ok node) :
    ∃ a cs, node = .actor (V3.add origin d.2.center) a cs ∧
      d.1.properties (str! "classname") = some a.name := by
  obtain ⟨e, g⟩ := d
  obtain ⟨_, v, c, ents, name, props, _, _, _, _, h4, _, rfl⟩ := buildEntity_ok h
  exact ⟨_, _, rfl, h4⟩

/-- C42: the children of an entity node are at most one visual node, then at most one collision node, then
entity nodes; a visual node means the first definition is a brush definition with mesh visuals, a collision
node means it has that kind of collision. -/
theorem C42_children_follow_definition (gd : GameData F) (fgd : Forge.GameData F) (bl : TextureBlacklist)
    (data : List (Entity F × EntityGeo F)) (depth : Nat) (origin : V3 F) (e : Entity F) (g : EntityGeo F)
    (node : Node F) (h : buildEntity gd fgd bl data depth origin (e, g) = .ok node) :
    ∃ o a vis col ents, node = .actor o a (vis ++ col ++ ents) ∧
      vis.length ≤ 1 ∧ col.length ≤ 1 ∧ (∀ n ∈ ents, ∃ o a cs, n = Node.actor o a cs) ∧
      (∀ n ∈ vis, ∃ ss, n = .visual g.center (.mesh ss) ∧ ss ≠ [] ∧
        ∃ d pd bd, DefOf gd e d ∧ d.data = .brush pd bd ∧ bd.visualType = .mesh) ∧
      (∀ n ∈ col, ∃ k, n = .collision g.center k ∧
        ∃ d pd bd, DefOf gd e d ∧ d.data = .brush pd bd ∧
          ((bd.collisionType = .convex ∧ ∃ s, k = .convex s) ∨
           (bd.collisionType = .concave ∧ ∃ s, k = .concave s))) := by
  obtain ⟨dd, v, c, ents, name, props, _, h1, h2, h3, _, _, rfl⟩ := buildEntity_ok h
  refine ⟨_, _, visualChildren g.center v, collisionChildren g.center c, ents, rfl, ?_, ?_, ?_, ?_, ?_⟩
  · cases v <;> simp [visualChildren]
  · cases c <;> simp [collisionChildren]
  · intro n hn
    obtain ⟨cd, _, hb⟩ := forall₂_right h3 hn
    obtain ⟨a, cs, rfl, _⟩ := buildEntity_actor hb
    exact ⟨_, _, _, rfl⟩
  · intro n hn
    obtain ⟨rfl, hv⟩ := visualChildren_mem hn
    obtain ⟨d, pd, bd, hd, hdata, hm, _, ss, rfl, hss⟩ := entityVisual_mesh h1 hv
    exact ⟨ss, rfl, hss, d, pd, bd, hd, hdata, hm⟩
  · intro n hn
    obtain ⟨rfl, hc⟩ := collisionChildren_mem hn
    obtain ⟨d, pd, bd, hd, hdata, hk⟩ := entityCollision_kind h2 hc
    refine ⟨c, rfl, d, pd, bd, hd, hdata, ?_⟩
    rcases collisionOf_kind hk hc with ⟨e1, s, e2⟩ | ⟨e1, s, e2, _⟩
    · exact .inl ⟨e1, s, e2⟩
    · exact .inr ⟨e1, s, e2⟩

/-- C42: conversely a brush definition gets exactly the geometry of its settings. -/
theorem C42_brush_definition (gd : GameData F) (fgd : Forge.GameData F) (bl : TextureBlacklist)
    (data : List (Entity F × EntityGeo F)) (depth : Nat) (origin : V3 F) (e : Entity F) (g : EntityGeo F)
    (node : Node F) (h : buildEntity gd fgd bl data depth origin (e, g) = .ok node)
    (d : EntityDef F) (hd : DefOf gd e d) (pd : PointData F) (bd : BrushData) (hdata : d.data = .brush pd bd) :
    ∃ o a cs v k, node = .actor o a cs ∧ brushVisual e g bd bl = .ok v ∧ collisionOf bd.collisionType g = .ok k ∧
      (v ≠ .none → Node.visual g.center v ∈ cs) ∧ (k ≠ .none → Node.collision g.center k ∈ cs) := by
  obtain ⟨dd, v, c, ents, name, props, _, h1, h2, h3, _, _, rfl⟩ := buildEntity_ok h
  obtain ⟨cl, hcl, hf⟩ := hd
  unfold entityVisual Map.get? at h1
  unfold entityCollision Map.get? at h2
  simp only [hcl, findDef_iff.2 hf, hdata] at h1 h2
  refine ⟨_, _, _, v, c, rfl, h1, h2, ?_, ?_⟩
  · intro hv
    cases v with
    | none => exact absurd rfl hv
    | mesh ss => simp [visualChildren]
  · intro hc
    cases c with
    | none => exact absurd rfl hc
    | convex s => simp [collisionChildren]
    | concave s => simp [collisionChildren]

/-- C43: type, component class and property mode come from the first definition with the classname. -/
theorem C43_from_first_definition (gd : GameData F) (fgd : Forge.GameData F) (bl : TextureBlacklist)
    (data : List (Entity F × EntityGeo F)) (depth : Nat) (origin : V3 F) (e : Entity F) (g : EntityGeo F)
    (node : Node F) (h : buildEntity gd fgd bl data depth origin (e, g) = .ok node) :
    ∃ o a cs, node = .actor o a cs ∧
      ((∃ d, DefOf gd e d ∧ a.entityType = d.data.pointData.entityType ∧
        a.propertyApplicationType = d.data.pointData.propertyApplicationType ∧
        ∀ s, a.componentClass = some s ↔ d.data.pointData.componentType = .script s) ∨
       (NoDef gd e ∧ a.entityType = .placeholder ∧ a.componentClass = none ∧
        a.propertyApplicationType = .properties)) := by
  obtain ⟨dd, v, c, ents, name, props, _, h1, h2, h3, hn, _, rfl⟩ := buildEntity_ok h
  refine ⟨_, _, _, rfl, ?_⟩
  unfold entityType entityComponentClass entityPropertyApplicationType Map.get?
  simp only [hn]
  cases hf : findDef gd name with
  | none =>
    right
    refine ⟨?_, rfl, rfl, rfl⟩
    intro c hc
    rw [hn] at hc; cases hc
    exact findDef_none.1 hf
  | some d =>
    left
    refine ⟨d, ⟨name, hn, findDef_iff.1 hf⟩, rfl, rfl, ?_⟩
    intro s
    simp only
    cases d.data.pointData.componentType <;> simp [componentClass]

/-! ### properties -/

theorem find_forge_some {fgd : Forge.GameData F} {e : Entity F} {d : Forge.Entity F} :
    (fgd.definitions.find? fun d => some d.className == e.properties.get? (str! "classname")) = some d ↔
      FirstForge fgd e d := by
  unfold FirstForge Map.get?
  rw [List.find?_eq_some_iff_append]
  constructor
  · rintro ⟨h1, pre, post, h2, h3⟩
    exact ⟨pre, post, h2, (eq_of_beq h1).symm, fun x hx e' => by simpa [e'] using h3 x hx⟩
  · rintro ⟨pre, post, h1, h2, h3⟩
    refine ⟨by simp [h2], pre, post, h1, fun x hx => ?_⟩
    have := h3 x hx
    simp only [Bool.not_eq_true', beq_eq_false_iff_ne, ne_eq]
    exact fun h => this h.symm

theorem find_forge_none {fgd : Forge.GameData F} {e : Entity F} :
    (fgd.definitions.find? fun d => some d.className == e.properties.get? (str! "classname")) = none ↔
      ¬ ∃ d, FirstForge fgd e d := by
  constructor
  · rintro h ⟨d, hd⟩
    rw [find_forge_some.2 hd] at h
    cases h
  · intro h
    cases hf : fgd.definitions.find? fun d => some d.className == e.properties.get? (str! "classname") with
    | none => rfl
    | some d => exact absurd ⟨d, find_forge_some.1 hf⟩ h

/-- Declared properties inserted over a map. -/
def insertAll (e : Entity F) (ps : List (Forge.Property F)) (m : Properties F) : Properties F :=
  ps.foldl (fun props fp => props.insert fp.name (propertyValue fp.data (e.properties.get? fp.name))) m

theorem insertAll_notMem {e : Entity F} {ps : List (Forge.Property F)} {m : Properties F} {k : Str}
    (h : ∀ p ∈ ps, p.name ≠ k) : insertAll e ps m k = m k := by
  unfold insertAll
  induction ps generalizing m with
  | nil => rfl
  | cons p ps ih =>
    rw [List.foldl_cons, ih fun q hq => h q (by simp [hq])]
    unfold Map.insert
    rw [if_neg (fun e => h p (by simp) e.symm)]

theorem insertAll_last {e : Entity F} {pre post : List (Forge.Property F)} {fp : Forge.Property F}
    {m : Properties F} (h : ∀ p ∈ post, p.name ≠ fp.name) :
    insertAll e (pre ++ fp :: post) m fp.name =
      some (propertyValue fp.data (e.properties fp.name)) := by
  have : insertAll e (pre ++ fp :: post) m =
      insertAll e post ((insertAll e pre m).insert fp.name
        (propertyValue fp.data (e.properties.get? fp.name))) := by
    unfold insertAll
    rw [List.foldl_append, List.foldl_cons]
  rw [this, insertAll_notMem h]
  unfold Map.insert Map.get?
  rw [if_pos rfl]

theorem last_named {ps : List (Forge.Property F)} {k : Str} (h : ∃ p ∈ ps, p.name = k) :
    ∃ pre fp post, ps = pre ++ fp :: post ∧ fp.name = k ∧ ∀ p ∈ post, p.name ≠ k := by
  induction ps with
  | nil => obtain ⟨p, hp, _⟩ := h; cases hp
  | cons q ps ih =>
    by_cases hq : ∃ p ∈ ps, p.name = k
    · obtain ⟨pre, fp, post, rfl, h1, h2⟩ := ih hq
      exact ⟨q :: pre, fp, post, rfl, h1, h2⟩
    · obtain ⟨p, hp, hk⟩ := h
      rcases List.mem_cons.1 hp with rfl | hp
      · exact ⟨[], p, ps, rfl, hk, fun x hx e => hq ⟨x, hx, e⟩⟩
      · exact absurd ⟨p, hp, hk⟩ hq

/-- The internal properties before the declared ones. -/
theorem internal_ok {fgd : Forge.GameData F} {e : Entity F} {d : Forge.Entity F} (hd : FirstForge fgd e d)
    {props : Properties F} (h : entityProperties fgd e = .ok props) :
    ∃ base : Properties F, props = insertAll e d.properties base ∧
      (∀ k, k ∈ [str! "_tb_id", str! "_tb_group"] → ∀ s, e.properties k = some s →
        ∃ i, parseI32 s = some i ∧ base k = some (.integer i)) ∧
      (∀ k, k ∈ [str! "_tb_type", str! "_tb_name"] → ∀ s, e.properties k = some s →
        base k = some (.string s)) ∧
      ∀ k, (base k).isSome = true ↔ k ∈ internalNames ∧ (e.properties k).isSome = true := by
  unfold entityProperties at h
  simp only [find_forge_some.2 hd] at h
  obtain ⟨p1, h1, h⟩ := Outcome.bind_eq_ok.1 h
  obtain ⟨p2, h2, h⟩ := Outcome.bind_eq_ok.1 h
  cases h
  have int : ∀ (name : Str) (m m' : Properties F), addInternalInteger e name m = .ok m' →
      (∀ k, k ≠ name → m' k = m k) ∧ (e.properties name = none → m' name = m name) ∧
      ∀ s, e.properties name = some s → ∃ i, parseI32 s = some i ∧ m' name = some (.integer i) := by
    intro name m m' h
    unfold addInternalInteger Map.get? at h
    split at h
    · rename_i s hs
      obtain ⟨i, hi, h⟩ := Outcome.bind_eq_ok.1 h
      cases h
      refine ⟨(fun k hk => by unfold Map.insert; rw [if_neg hk]), (fun hn => by rw [hn] at hs; cases hs), ?_⟩
      intro t ht
      rw [hs] at ht; cases ht
      refine ⟨i, ?_, by unfold Map.insert; rw [if_pos rfl]⟩
      cases hp : parseI32 s with
      | none => rw [hp] at hi; cases hi
      | some j => rw [hp] at hi; cases hi; rfl
    · rename_i hn
      cases h
      exact ⟨fun _ _ => rfl, fun _ => rfl, fun s hs => by rw [hn] at hs; cases hs⟩
  have st : ∀ (name : Str) (m : Properties F),
      (∀ k, k ≠ name → addInternalString e name m k = m k) ∧
      (e.properties name = none → addInternalString e name m name = m name) ∧
      ∀ s, e.properties name = some s → addInternalString e name m name = some (.string s) := by
    intro name m
    unfold addInternalString Map.get?
    cases hs : e.properties name with
    | some s =>
      simp only
      refine ⟨(fun k hk => by unfold Map.insert; rw [if_neg hk]), (nomatch ·), ?_⟩
      intro t ht
      cases ht
      unfold Map.insert; rw [if_pos rfl]
    | none => exact ⟨fun _ _ => rfl, fun _ => rfl, fun s hs => (nomatch hs)⟩
  obtain ⟨a1, a2, a3⟩ := int _ _ _ h1
  obtain ⟨b1, b2, b3⟩ := int _ _ _ h2
  obtain ⟨c1, c2, c3⟩ := st (str! "_tb_type") p2
  obtain ⟨d1, d2, d3⟩ := st (str! "_tb_name") (addInternalString e (str! "_tb_type") p2)
  have n1 : (str! "_tb_id") ≠ (str! "_tb_group") := by decide
  have n2 : (str! "_tb_id") ≠ (str! "_tb_type") := by decide
  have n3 : (str! "_tb_id") ≠ (str! "_tb_name") := by decide
  have n4 : (str! "_tb_group") ≠ (str! "_tb_type") := by decide
  have n5 : (str! "_tb_group") ≠ (str! "_tb_name") := by decide
  have n6 : (str! "_tb_type") ≠ (str! "_tb_name") := by decide
  generalize hid : (str! "_tb_id") = kid at *
  generalize hgr : (str! "_tb_group") = kgr at *
  generalize hty : (str! "_tb_type") = kty at *
  generalize hna : (str! "_tb_name") = kna at *
  refine ⟨_, rfl, ?_, ?_, ?_⟩
  · intro k hk s hs
    simp only [List.mem_cons, List.not_mem_nil, or_false] at hk
    rcases hk with rfl | rfl
    · rw [d1 _ n3, c1 _ n2, b1 _ n1]; exact a3 s hs
    · rw [d1 _ n5, c1 _ n4]; exact b3 s hs
  · intro k hk s hs
    simp only [List.mem_cons, List.not_mem_nil, or_false] at hk
    rcases hk with rfl | rfl
    · rw [d1 _ n6]; exact c3 s hs
    · exact d3 s hs
  · intro k
    have hin : k ∈ internalNames ↔ k = kid ∨ k = kgr ∨ k = kty ∨ k = kna := by
      unfold internalNames
      rw [hid, hgr, hty, hna]
      simp
    rw [hin]
    by_cases e1 : k = kid
    · subst e1
      rw [d1 _ n3, c1 _ n2, b1 _ n1]
      cases hp : e.properties k with
      | none => rw [a2 hp]; simp [Map.empty]
      | some s => obtain ⟨i, _, hi⟩ := a3 s hp; simp [hi]
    · by_cases e2 : k = kgr
      · subst e2
        rw [d1 _ n5, c1 _ n4]
        cases hp : e.properties k with
        | none => rw [b2 hp, a1 _ e1]; simp [Map.empty]
        | some s => obtain ⟨i, _, hi⟩ := b3 s hp; simp [hi]
      · by_cases e3 : k = kty
        · subst e3
          rw [d1 _ n6]
          cases hp : e.properties k with
          | none => rw [c2 hp, b1 _ e2, a1 _ e1]; simp [Map.empty]
          | some s => simp [c3 s hp]
        · by_cases e4 : k = kna
          · subst e4
            cases hp : e.properties k with
            | none => rw [d2 hp, c1 _ e3, b1 _ e2, a1 _ e1]; simp [Map.empty]
            | some s => simp [d3 s hp]
          · rw [d1 _ e4, c1 _ e3, b1 _ e2, a1 _ e1]
            simp [Map.empty, e1, e2, e3, e4]

/-- C49: which properties an entity node has. -/
theorem C49_names (fgd : Forge.GameData F) (e : Entity F) (props : Properties F)
    (h : entityProperties fgd e = .ok props) :
    (∀ d, FirstForge fgd e d → ∀ k, (props k).isSome = true ↔
      (∃ fp ∈ d.properties, fp.name = k) ∨ (k ∈ internalNames ∧ (e.properties k).isSome = true)) ∧
    ((¬ ∃ d, FirstForge fgd e d) → ∀ k, props k = none) := by
  constructor
  · intro d hd k
    obtain ⟨base, rfl, _, _, hb⟩ := internal_ok hd h
    by_cases hk : ∃ fp ∈ d.properties, fp.name = k
    · obtain ⟨pre, fp, post, e1, e2, e3⟩ := last_named hk
      have hi := insertAll_last (e := e) (pre := pre) (m := base) (fun p hp => e2 ▸ e3 p hp)
      rw [← e1, e2] at hi
      rw [hi]
      simp [hk]
    · rw [insertAll_notMem fun p hp he => hk ⟨p, hp, he⟩, hb]
      simp [hk]
  · intro hn k
    unfold entityProperties at h
    simp only [find_forge_none.2 hn] at h
    cases h
    rfl

/-- C49: internal properties that are not declared. -/
theorem C49_internal (fgd : Forge.GameData F) (e : Entity F) (props : Properties F)
    (h : entityProperties fgd e = .ok props) (d : Forge.Entity F) (hd : FirstForge fgd e d)
    (k s : Str) (hk : ∀ fp ∈ d.properties, fp.name ≠ k) (hs : e.properties k = some s) :
    (k ∈ [str! "_tb_id", str! "_tb_group"] → ∃ i, ReadsI32 s i ∧ props k = some (.integer i)) ∧
    (k ∈ [str! "_tb_type", str! "_tb_name"] → props k = some (.string s)) := by
  obtain ⟨base, rfl, h1, h2, _⟩ := internal_ok hd h
  rw [insertAll_notMem hk]
  refine ⟨fun hm => ?_, fun hm => h2 k hm s hs⟩
  obtain ⟨i, hi, hb⟩ := h1 k hm s hs
  exact ⟨i, parseI32_iff.1 hi, hb⟩

/-- C49 (partial): every declared property except flags has its declared kind and carries the entity's
value if that is parsable, the default otherwise (the last declaration counts if a name is declared twice).
Missing: flags, which are delivered as choices, see `C49_flags_are_choices`. -/
theorem C49_values_partial (fgd : Forge.GameData F) (e : Entity F) (props : Properties F)
    (h : entityProperties fgd e = .ok props) (d : Forge.Entity F) (hd : FirstForge fgd e d)
    (pre post : List (Forge.Property F)) (fp : Forge.Property F) (hp : d.properties = pre ++ fp :: post)
    (hlast : ∀ x ∈ post, x.name ≠ fp.name) (hf : NotFlags fp.data) :
    ∃ val, props fp.name = some val ∧ Delivers fp.data (e.properties fp.name) val := by
  obtain ⟨base, rfl, _⟩ := internal_ok hd h
  rw [hp, insertAll_last hlast]
  exact ⟨_, rfl, propertyValue_delivers _ hf⟩

/-- C49 fails for flags: a declared flags property is delivered as a choices value (with the right number),
for every entity. -/
theorem C49_flags_are_choices (fgd : Forge.GameData F) (e : Entity F) (props : Properties F)
    (h : entityProperties fgd e = .ok props) (d : Forge.Entity F) (hd : FirstForge fgd e d)
    (pre post : List (Forge.Property F)) (fp : Forge.Property F) (hp : d.properties = pre ++ fp :: post)
    (hlast : ∀ x ∈ post, x.name ≠ fp.name) (fs : List Str) (dflt : Int) (hf : fp.data = .flags fs dflt) :
    (∃ i, props fp.name = some (.choices i) ∧ ValueOr ReadsI32 (e.properties fp.name) dflt i) ∧
    ∀ val, props fp.name = some val → ¬ Delivers fp.data (e.properties fp.name) val := by
  obtain ⟨base, rfl, _⟩ := internal_ok hd h
  rw [hp, insertAll_last hlast, hf]
  refine ⟨⟨_, rfl, valueOr_getD (fun _ _ => parseI32_iff) _ _⟩, ?_⟩
  rintro val hval ⟨i, rfl, _⟩
  cases hval

/-- C50: the property step aborts exactly when the class has a forge definition and `_tb_id` or `_tb_group`
is present but not a 32-bit integer; otherwise it succeeds, whatever the values of declared properties. -/
theorem C50_aborts_iff (fgd : Forge.GameData F) (e : Entity F) :
    ((∃ m, entityProperties fgd e = .panic m) ↔ (∃ d, FirstForge fgd e d) ∧
      ∃ k ∈ [str! "_tb_id", str! "_tb_group"], ∃ s, e.properties k = some s ∧ ∀ i, ¬ ReadsI32 s i) ∧
    ((∃ props, entityProperties fgd e = .ok props) ∨ ∃ m, entityProperties fgd e = .panic m) := by
  have int : ∀ (name : Str) (m : Properties F),
      (∃ m', addInternalInteger e name m = .ok m' ∧
        ∀ s, e.properties name = some s → ∃ i, ReadsI32 s i) ∨
      ((∃ msg, addInternalInteger e name m = .panic msg) ∧
        ∃ s, e.properties name = some s ∧ ∀ i, ¬ ReadsI32 s i) := by
    intro name m
    unfold addInternalInteger Map.get?
    cases hp : e.properties name with
    | none => left; exact ⟨_, rfl, fun s h => (nomatch h)⟩
    | some s =>
      simp only
      cases hi : parseI32 s with
      | some i =>
        left
        refine ⟨_, rfl, ?_⟩
        rintro t ht
        cases ht
        exact ⟨i, parseI32_iff.1 hi⟩
      | none =>
        right
        refine ⟨⟨_, rfl⟩, s, rfl, ?_⟩
        intro i hr
        rw [parseI32_iff.2 hr] at hi
        cases hi
  cases hf : fgd.definitions.find? fun d => some d.className == e.properties.get? (str! "classname") with
  | none =>
    have hr : entityProperties fgd e = .ok Map.empty := by
      unfold entityProperties; simp only [hf]
    rw [hr]
    refine ⟨⟨fun ⟨m, h⟩ => (nomatch h), fun h => absurd h.1 (find_forge_none.1 hf)⟩, .inl ⟨_, rfl⟩⟩
  | some d =>
    have hd : ∃ d, FirstForge fgd e d := ⟨d, find_forge_some.1 hf⟩
    have hex : (∃ k ∈ [str! "_tb_id", str! "_tb_group"], ∃ s, e.properties k = some s ∧ ∀ i, ¬ ReadsI32 s i) ↔
        (∃ s, e.properties (str! "_tb_id") = some s ∧ ∀ i, ¬ ReadsI32 s i) ∨
        ∃ s, e.properties (str! "_tb_group") = some s ∧ ∀ i, ¬ ReadsI32 s i := by
      constructor
      · rintro ⟨k, hk, h⟩
        simp only [List.mem_cons, List.not_mem_nil, or_false] at hk
        rcases hk with rfl | rfl
        · exact .inl h
        · exact .inr h
      · rintro (h | h)
        · exact ⟨_, by simp, h⟩
        · exact ⟨_, by simp, h⟩
    rw [hex]
    unfold entityProperties
    simp only [hf]
    rcases int (str! "_tb_id") Map.empty with ⟨m1, h1, k1⟩ | ⟨⟨m1, h1⟩, k1⟩
    · rw [h1, Outcome.ok_bind]
      rcases int (str! "_tb_group") m1 with ⟨m2, h2, k2⟩ | ⟨⟨m2, h2⟩, k2⟩
      · rw [h2, Outcome.ok_bind]
        refine ⟨⟨fun ⟨m, h⟩ => (nomatch h), ?_⟩, .inl ⟨_, rfl⟩⟩
        rintro ⟨_, ⟨s, hs, hn⟩ | ⟨s, hs, hn⟩⟩
        · obtain ⟨i, hi⟩ := k1 s hs
          exact absurd hi (hn i)
        · obtain ⟨i, hi⟩ := k2 s hs
          exact absurd hi (hn i)
      · rw [h2]
        exact ⟨⟨fun _ => ⟨hd, .inr k2⟩, fun _ => ⟨_, rfl⟩⟩, .inr ⟨_, rfl⟩⟩
    · rw [h1]
      exact ⟨⟨fun _ => ⟨hd, .inl k1⟩, fun _ => ⟨_, rfl⟩⟩, .inr ⟨_, rfl⟩⟩

end

section Examples
attribute [local instance] refPlatform intArith

/-- An entity with properties given as a list and no brushes. -/
def propEntity (ps : List (Str × Str)) (brushes : List (Brush Int)) : Entity Int :=
  ⟨fun k => (ps.find? fun p => p.1 == k).map (·.2), brushes⟩

/-- A door: brush class with mesh visuals and concave collision; `light` is a point class. The second
definition of `door` is never used. -/
def exampleGameData : GameData Int :=
  ⟨[⟨str! "light", .point ⟨.cls (str! "Light"), .none, .properties, Map.empty⟩⟩,
    ⟨str! "door", .brush ⟨.prefab (str! "Door"), .script (str! "DoorScript"), .metadata, Map.empty⟩
      ⟨.mesh, .concave⟩⟩,
    ⟨str! "door", .point ⟨.placeholder, .none, .properties, Map.empty⟩⟩], []⟩

/-- Forge definitions with one property of several kinds. -/
def exampleForge : Forge.GameData Int :=
  ⟨str! "Game", [], [⟨.solidClass, [], str! "door", str! "A door",
    [⟨str! "speed", [], [], .integer 5⟩, ⟨str! "wait", [], [], .float 3⟩,
     ⟨str! "dir", [], [], .vector3 ⟨0, 0, 1⟩⟩, ⟨str! "spawnflags", [], [], .flags [str! "locked"] 0⟩]⟩]⟩

/-- A door with a good, a bad and a missing value. -/
def exampleDoor : Entity Int := propEntity
  [(str! "classname", str! "door"), (str! "_tb_id", str! "7"), (str! "_tb_name", str! "front"),
   (str! "speed", str! "fast"), (str! "dir", str! "1 2 3"), (str! "spawnflags", str! "1")] []

/-- A brush with a single triangle. -/
def triangleGeo : EntityGeo Int :=
  let v (x y : Int) : Vertex Int := ⟨⟨x, y, 0⟩, ⟨0, 0, 1⟩, (⟨1, 0, 0⟩, 1), none, none⟩
  ⟨⟨4, 5, 6⟩, [⟨⟨0, 0, 0⟩, [⟨⟨0, 0, 0⟩, [v 0 0, v 1 0, v 0 1], [0, 1, 2], none⟩]⟩]⟩

-- C42, C43: the door has a visual and a collision node and the settings of the first door definition
set_option maxRecDepth 4000 in
example : (match buildEntity exampleGameData exampleForge TextureBlacklist.default [] 1 ⟨0, 0, 0⟩
      (exampleDoor, triangleGeo) with
    | .ok (.actor o a [.visual o1 (.mesh [_]), .collision o2 (.concave [_])]) =>
      decide (o = ⟨4, 5, 6⟩ ∧ o1 = ⟨4, 5, 6⟩ ∧ o2 = ⟨4, 5, 6⟩ ∧ a.name = str! "door" ∧
        a.entityType = .prefab (str! "Door") ∧ a.componentClass = some (str! "DoorScript") ∧
        a.propertyApplicationType = .metadata)
    | _ => false) = true := by decide

example : DefOf exampleGameData exampleDoor exampleGameData.entities[1] :=
  ⟨str! "door", by decide, [exampleGameData.entities[0]], [exampleGameData.entities[2]], rfl, rfl, by decide⟩

-- C49: kinds, parsed values, defaults, internal properties; the flags property comes as choices
set_option maxRecDepth 4000 in
example : (match entityProperties exampleForge exampleDoor with
    | .ok p => decide (p (str! "speed") = some (.integer 5) ∧ p (str! "wait") = some (.float 3) ∧
        p (str! "dir") = some (.vector3 ⟨1, 2, 3⟩) ∧ p (str! "spawnflags") = some (.choices 1) ∧
        p (str! "_tb_id") = some (.integer 7) ∧ p (str! "_tb_name") = some (.string (str! "front")) ∧
        p (str! "_tb_group") = none ∧ p (str! "classname") = none)
    | _ => false) = true := by decide

example : FirstForge exampleForge exampleDoor exampleForge.definitions[0] :=
  ⟨[], [], rfl, by decide, by simp⟩

-- C50: a bad id aborts, but only if the class is known to the forge
example : (entityProperties exampleForge (propEntity
      [(str! "classname", str! "door"), (str! "_tb_id", str! "x")] [])).isPanic = true ∧
    (entityProperties exampleForge (propEntity
      [(str! "classname", str! "gate"), (str! "_tb_id", str! "x")] [])).isOk = true := by decide

end Examples
end Quarch
