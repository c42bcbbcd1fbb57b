import Verif.Spec.Size
import Verif.Props.Loads
/-
C131: how large the scene is.
-/
set_option linter.unusedSectionVars false
namespace Quarch
open Spec Scene

section
variable {F : Type} [Arith F]

theorem nodeCounts_append (a b : List (Node F)) : nodeCounts (a ++ b) = nodeCounts a + nodeCounts b := by
  induction a with
  | nil => simp [nodeCounts]
  | cons x xs ih => simp [nodeCounts, ih]; omega

theorem leaves_count (o o' : V3 F) (v : VisualGeometry F) (c : CollisionGeometry F) :
    nodeCounts (visualChildren o v ++ collisionChildren o' c) ≤ 2 ∧
      actorsOf (visualChildren o v ++ collisionChildren o' c) = [] := by
  cases v <;> cases c <;>
    exact ⟨by simp [visualChildren, collisionChildren, nodeCounts, nodeCount], rfl⟩

/-- A node of an entity has at most three times as many nodes as actors. -/
theorem build_size {gd : GameData F} {fgd : Forge.GameData F} {bl : TextureBlacklist}
    {data : List (Entity F × EntityGeo F)} : ∀ {depth : Nat} {origin : V3 F} {x : Entity F × EntityGeo F}
    {node : Node F}, buildEntity gd fgd bl data depth origin x = .ok node →
    nodeCount node ≤ 3 * (actors node).length := by
  intro depth
  induction depth with
  | zero => intro o x n h; unfold buildEntity at h; cases h
  | succ depth ih =>
    rintro o ⟨e, g⟩ n h
    obtain ⟨d', v, c, ents, name, props, e0, h1, h2, h3, hn, hp, rfl⟩ := buildEntity_ok h
    cases e0
    obtain ⟨hl, ha⟩ := leaves_count g.center g.center v c
    have hents : nodeCounts ents ≤ 3 * (actorsOf ents).length := by
      clear h
      revert h3
      generalize members data e = ms
      intro h3
      induction h3 with
      | nil => simp [nodeCounts]
      | cons hb _ ihl =>
        have := ih hb
        simp only [nodeCounts, actorsOf, List.length_append]
        omega
    unfold nodeCount actors
    rw [nodeCounts_append, actorsOf_append, ha, List.nil_append, List.length_cons]
    omega

/-- Visited items are anchored. -/
theorem visited_anchored {w : Entity F × EntityGeo F} {ds : List (Entity F × EntityGeo F)} (hw : IsWorld w.1) {depth : Nat} :
    ∀ y ∈ (rootItems (w :: ds).zipIdx).flatMap (visit (w :: ds).zipIdx depth),
      Anchored ((w :: ds).map (·.1)) y.1.1 := by
  have hmem : ∀ {y : Item F}, y ∈ (w :: ds).zipIdx → y.1.1 ∈ (w :: ds).map (·.1) := by
    intro y hy
    have : y.1 ∈ (w :: ds).zipIdx.map (·.1) := List.mem_map_of_mem hy
    rw [List.zipIdx_map_fst] at this
    exact List.mem_map_of_mem this
  have key : ∀ {d : Nat} {x y : Item F}, x ∈ (w :: ds).zipIdx → Anchored ((w :: ds).map (·.1)) x.1.1 →
      y ∈ visit (w :: ds).zipIdx d x → Anchored ((w :: ds).map (·.1)) y.1.1 := by
    intro d
    induction d with
    | zero => intro x y _ _ h; cases h
    | succ d ih =>
      intro x y hx ha h
      unfold visit at h
      rcases List.mem_cons.1 h with rfl | h
      · exact ha
      · obtain ⟨z, hz, h⟩ := List.mem_flatMap.1 h
        have hz' := List.mem_filter.1 hz
        have hu := hz'.2
        rw [inGroup_under] at hu
        exact ih (List.mem_of_mem_drop hz'.1) (.under (hmem hx) (of_decide_eq_true hu) ha) h
  intro y hy
  obtain ⟨r, hr, hy⟩ := List.mem_flatMap.1 hy
  refine key ((rootItems_sub _).subset hr) ?_ hy
  rcases List.mem_append.1 hr with hr | hr
  · rw [List.zipIdx_cons, List.take_succ_cons, List.take_zero, List.mem_singleton] at hr
    subst hr
    exact .world hw
  · exact .top (Option.isNone_iff_eq_none.1 (List.mem_filter.1 hr).2)

variable [Platform]

/-- With unique ids no item is visited twice. -/
theorem visited_subperm {w : Entity F × EntityGeo F} {ds : List (Entity F × EntityGeo F)}
    (hu : UniqueIds ((w :: ds).map (·.1))) (hw : IsWorld w.1) (ho : ∀ d ∈ ds, ¬ IsWorld d.1) {depth : Nat}
    (hc : ∀ x ∈ rootItems (w :: ds).zipIdx, Complete (w :: ds).zipIdx depth x) :
    ((rootItems (w :: ds).zipIdx).flatMap (visit (w :: ds).zipIdx depth)).Subperm (w :: ds).zipIdx := by
  have hone := visited_count hu ho hc
  have hanch := visited_anchored (ds := ds) hw (depth := depth)
  have hmem : ∀ x ∈ (rootItems (w :: ds).zipIdx).flatMap (visit (w :: ds).zipIdx depth), x ∈ (w :: ds).zipIdx := by
    intro x hx
    obtain ⟨r, hr, hx⟩ := List.mem_flatMap.1 hx
    exact visit_mem ((rootItems_sub _).subset hr) hx
  have hn : ((rootItems (w :: ds).zipIdx).flatMap (visit (w :: ds).zipIdx depth)).Nodup := by
    apply List.Nodup.of_map (·.2)
    rw [List.nodup_iff_count_le_one]
    intro k
    by_cases hk : k ∈ ((rootItems (w :: ds).zipIdx).flatMap (visit (w :: ds).zipIdx depth)).map (·.2)
    · obtain ⟨x, hx, rfl⟩ := List.mem_map.1 hk
      have h1 := hone _ (hanch x hx) x (hmem x hx) rfl
      unfold cnt at h1
      unfold List.count
      rw [List.countP_map]
      exact Nat.le_of_eq h1
    · rw [List.count_eq_zero_of_not_mem hk]
      omega
  exact hn.subperm hmem

theorem visited_le {w : Entity F × EntityGeo F} {ds : List (Entity F × EntityGeo F)}
    (hu : UniqueIds ((w :: ds).map (·.1))) (hw : IsWorld w.1) (ho : ∀ d ∈ ds, ¬ IsWorld d.1) {depth : Nat}
    (hc : ∀ x ∈ rootItems (w :: ds).zipIdx, Complete (w :: ds).zipIdx depth x) :
    ((rootItems (w :: ds).zipIdx).flatMap (visit (w :: ds).zipIdx depth)).length ≤ (w :: ds).length := by
  have := (visited_subperm hu hw ho hc).length_le
  rwa [List.length_zipIdx] at this

/-- C131: if no two entities have the same id, then the scene has no more actors than the map has entities,
apart from at most two layers, and no more than three times as many nodes. -/
theorem C131_unique (depth : Nat)
    (order : List (Str × List (BrushGeo F)) → List (Str × List (BrushGeo F))) (horder : ∀ l, (order l).Perm l)
    (config : Config F) (text : Str) (hm : config.mapFile = some text) (entities : List (Entity F))
    (hl : LoadsAs text entities) (hu : UniqueIds entities)
    (nodes : List (Node F)) (h : Quarch.run depth order config = .ok nodes) :
    (actorsOf nodes).length ≤ entities.length + 2 ∧ nodeCounts nodes ≤ 3 * (entities.length + 2) := by
  obtain ⟨text', P, w, g, Q, rest, layers, wn, ls, es, h1, h2, hw, ho, _, hlr, e1, hwn, hls, hes⟩ := run_parts h
  rw [hm] at h1; cases h1
  have hlay := (C18_split_by_texture _ w g (by simp) hw _ _ hlr).1
  have hee := hl.unique h2
  subst hee
  obtain ⟨W, hW⟩ : ∃ W : Entity F × EntityGeo F, W = (w, ⟨g.center, rest⟩) := ⟨_, rfl⟩
  have hperm : ((P ++ (w, g) :: Q).map (·.1)).Perm ((W :: (P ++ Q)).map (·.1)) := by
    rw [hW, List.map_cons, List.map_append, List.map_cons, List.map_append]
    exact List.perm_middle
  have hu' : UniqueIds ((W :: (P ++ Q)).map (·.1)) := by
    refine (hperm.pairwise_iff ?_).1 hu
    intro a b hab id h1 h2
    exact hab id h2 h1
  rw [← hW] at hwn hes
  have hroots : (rootItems (W :: (P ++ Q)).zipIdx).map (·.1) =
      W :: ((P ++ Q).filter fun d => (groupOf d.1).isNone) := by
    unfold rootItems
    rw [List.map_append, List.map_take, List.zipIdx_map_fst, List.take_succ_cons, List.take_zero,
      List.singleton_append]
    congr 1
    have : P ++ Q = ((W :: (P ++ Q)).zipIdx.drop 1).map (·.1) := by
      rw [← drop_zipIdx, List.drop_succ_cons, List.drop_zero]
    conv_rhs => rw [this]
    rw [List.filter_map]
    rfl
  have hall : List.Forall₂ (fun (x : Item F) n => buildEntity config.quarchitectGameData config.forgeGameData
      config.textureBlacklist (W :: (P ++ Q)) depth V3.zero x.1 = .ok n)
      (rootItems (W :: (P ++ Q)).zipIdx) (wn :: es) := by
    have : List.Forall₂ (fun d n => buildEntity config.quarchitectGameData config.forgeGameData
      config.textureBlacklist (W :: (P ++ Q)) depth V3.zero d = .ok n)
      ((rootItems (W :: (P ++ Q)).zipIdx).map (·.1)) (wn :: es) := by
      rw [hroots]
      exact .cons hwn hes
    rwa [List.forall₂_map_left_iff] at this
  have hc : ∀ x ∈ rootItems (W :: (P ++ Q)).zipIdx, Complete (W :: (P ++ Q)).zipIdx depth x := by
    intro x hx
    obtain ⟨n, _, hb⟩ := forall₂_left hall hx
    exact (build_actors hb).2
  have hvl := visited_le hu' (by rw [hW]; exact hw) ho hc
  have hvis : (actorsOf (wn :: es)).length =
      ((rootItems (W :: (P ++ Q)).zipIdx).flatMap (visit (W :: (P ++ Q)).zipIdx depth)).length := by
    clear hroots hvl hc
    revert hall
    generalize rootItems (W :: (P ++ Q)).zipIdx = xs
    generalize wn :: es = ns
    intro hall
    induction hall with
    | nil => rfl
    | cons hb _ ih =>
      simp only [actorsOf, List.flatMap_cons, List.length_append, ih, (build_actors hb).1.length_eq]
  have hsize : nodeCounts (wn :: es) ≤ 3 * (actorsOf (wn :: es)).length := by
    clear hroots hvl hc hvis
    revert hall
    generalize rootItems (W :: (P ++ Q)).zipIdx = xs
    generalize wn :: es = ns
    intro hall
    induction hall with
    | nil => simp [nodeCounts]
    | cons hb _ ih =>
      have := build_size hb
      simp only [nodeCounts, actorsOf, List.length_append]
      omega
  have hlcount : (ls.filterMap id).length ≤ 2 := by
    refine Nat.le_trans (List.length_filterMap_le _ _) ?_
    rw [← hls.length_eq, (horder layers).length_eq, hlay]
    simp
  have hlayer : ∀ n ∈ ls.filterMap id, nodeCount n ≤ 3 ∧ (actors n).length = 1 := by
    intro n hn
    obtain ⟨o, ho', e⟩ := List.mem_filterMap.1 hn
    simp only [id_eq] at e
    subst e
    obtain ⟨l, hmem, hb⟩ := forall₂_right hls ho'
    obtain ⟨layer, v, c, hf, _, _, _, rfl⟩ := (buildLayer_ok hb).2 n rfl
    obtain ⟨h3, h4⟩ := leaves_count V3.zero V3.zero v c
    constructor
    · unfold nodeCount; omega
    · unfold actors; rw [h4]; rfl
  have hlsum : ∀ l : List (Node F), (∀ n ∈ l, nodeCount n ≤ 3 ∧ (actors n).length = 1) →
      nodeCounts l ≤ 3 * l.length ∧ (actorsOf l).length = l.length := by
    intro l
    induction l with
    | nil => intro _; exact ⟨Nat.le_refl _, rfl⟩
    | cons n l ih =>
      intro hl
      obtain ⟨h3, h4⟩ := hl n (by simp)
      obtain ⟨h5, h6⟩ := ih fun n hn => hl n (by simp [hn])
      simp only [nodeCounts, actorsOf, List.length_append, List.length_cons]
      omega
  obtain ⟨h3, h4⟩ := hlsum _ hlayer
  have hlen : (P ++ (w, g) :: Q).length = (W :: (P ++ Q)).length := by simp; omega
  subst e1
  rw [List.length_map, hlen]
  simp only [nodeCounts, nodeCounts_append, actorsOf, actorsOf_append, List.length_append] at hvis hsize ⊢
  rw [← hvis] at hvl
  omega

/-! ### texts without brushes -/

/-- The entity without brushes that has these properties. -/
def pointOf (props : List (Str × Str)) : Entity F :=
  ⟨fun k => lastValue k (props.map fun p => .prop p.1 p.2), []⟩

theorem pointLines_classified {props : List (Str × Str)} (h : ∀ p ∈ props, '"' ∉ p.1 ∧ '"' ∉ p.2) :
    List.Forall₂ Classifies (pointLines props) (blockToks (props.map fun p => .prop p.1 p.2)) := by
  unfold pointLines blockToks
  refine .cons (.openBrace []) (List.rel_append ?_ (.cons (.closeBrace []) .nil))
  induction props with
  | nil => exact .nil
  | cons p props ih =>
    refine .cons ?_ (ih fun p hp => h p (by simp [hp]))
    exact .property p.1 [' '] p.2 ['"'] (h p (by simp)).1 (by decide) (h p (by simp)).2 (.inr ⟨[], rfl⟩)

theorem pointLines_wf {props : List (Str × Str)} (h : ∀ p ∈ props, '\n' ∉ p.1 ∧ '\n' ∉ p.2) :
    ∀ l ∈ pointLines props, Line.WF ⟨l, false⟩ := by
  intro l hl
  unfold pointLines at hl
  rcases List.mem_cons.1 hl with rfl | hl
  · exact ⟨by decide, fun _ => by decide⟩
  rcases List.mem_append.1 hl with hl | hl
  · obtain ⟨p, hp, rfl⟩ := List.mem_map.1 hl
    constructor
    · simp [(h p hp).1, (h p hp).2]
    · intro _
      have e : ('"' :: (p.1 ++ '"' :: ([' '] ++ '"' :: (p.2 ++ ['"'])))) =
          ('"' :: (p.1 ++ '"' :: ([' '] ++ '"' :: p.2))) ++ ['"'] := by simp
      simp only [e, List.getLast?_append]
      simp
  · rw [List.mem_singleton] at hl
    subst hl
    exact ⟨by decide, fun _ => by decide⟩

/-- The text of such a map lists these entities. -/
theorem pointMap_is {pss : List (List (Str × Str))}
    (h : ∀ ps ∈ pss, ∀ p ∈ ps, ('"' ∉ p.1 ∧ '"' ∉ p.2) ∧ '\n' ∉ p.1 ∧ '\n' ∉ p.2) :
    MapIs (F := F) (pointMap pss) (pss.map pointOf) := by
  refine ⟨⟨pss.map fun ps => ps.map fun p => .prop p.1 p.2, .none⟩,
    ⟨(pss.flatMap pointLines).map (⟨·, false⟩), [],
      pss.flatMap fun ps => blockToks (ps.map fun p => .prop p.1 p.2), ?_, ?_, by simp, ?_, ?_⟩, ?_⟩
  · unfold pointMap textOf
    rw [List.map_map, List.append_nil, List.flatMap_def]
    rfl
  · intro l hl
    obtain ⟨s, hs, rfl⟩ := List.mem_map.1 hl
    obtain ⟨ps, hps, hs⟩ := List.mem_flatMap.1 hs
    exact pointLines_wf (fun p hp => (h ps hps p hp).2) s hs
  · unfold contents unterminated
    rw [if_pos rfl, List.append_nil, List.map_map]
    have : (Line.content ∘ fun x : Str => (⟨x, false⟩ : Line)) = id := rfl
    rw [this, List.map_id]
    clear this
    induction pss with
    | nil => exact .nil
    | cons ps pss ih =>
      rw [List.flatMap_cons, List.flatMap_cons]
      exact List.rel_append (pointLines_classified fun p hp => (h ps (by simp) p hp).1)
        (ih fun ps hps => h ps (by simp [hps]))
  · unfold MapFile.toks Tail.toks
    rw [List.append_nil, List.flatMap_map]
    symm
    rw [List.filter_eq_self]
    intro t ht
    obtain ⟨ps, _, ht⟩ := List.mem_flatMap.1 ht
    unfold blockToks at ht
    simp only [List.flatMap_map, List.mem_cons, List.mem_append, List.mem_flatMap, Item.toks,
      List.not_mem_nil, or_false] at ht
    rcases ht with rfl | ⟨p, _, rfl⟩ | rfl <;> rfl
  · unfold MapFile.blocks Tail.blocks
    rw [List.append_nil, List.forall₂_map_left_iff, List.forall₂_map_right_iff]
    apply List.forall₂_same.2
    intro ps _
    refine ⟨fun _ => rfl, ?_⟩
    have : (ps.map fun p : Str × Str => Item.prop p.1 p.2).filterMap Item.faces? = [] := by
      rw [List.filterMap_map, List.filterMap_eq_nil_iff]
      intro p _
      rfl
    rw [this]
    exact .nil

/-! ### the levels -/

theorem level_class (i : Nat) : (pointOf (F := F) (levelProps i)).properties (str! "classname") = some (str! "g") := by
  unfold levelProps
  split <;> rfl

theorem level_id (i : Nat) : idOf (pointOf (F := F) (levelProps i)) = some (zeros (i + 1)) := by
  unfold levelProps
  split <;> rfl

theorem level_group (i : Nat) : groupOf (pointOf (F := F) (levelProps i)) = if i = 0 then none else some (zeros i) := by
  unfold levelProps
  split <;> rfl

theorem zeros_inj {a b : Nat} (h : zeros a = zeros b) : a = b := by
  have := congrArg List.length h
  simpa [zeros] using this

theorem level_under (i j : Nat) :
    Under (pointOf (F := F) (levelProps i)) (pointOf (levelProps j)) ↔ j = i + 1 := by
  unfold Under
  rw [level_id, level_group]
  constructor
  · rintro ⟨h1, h2⟩
    split at h2
    · cases h2
    · exact zeros_inj (Option.some.inj h2)
  · rintro rfl
    simp

/-- The groups of all levels. -/
def levels (F : Type) (k : Nat) : List (Entity F) :=
  (List.range k).flatMap fun i => [pointOf (levelProps i), pointOf (levelProps i)]

theorem mem_levels {k : Nat} {e : Entity F} (h : e ∈ levels F k) : ∃ i < k, e = pointOf (levelProps i) := by
  obtain ⟨i, hi, h⟩ := List.mem_flatMap.1 h
  refine ⟨i, List.mem_range.1 hi, ?_⟩
  simpa using h

theorem levels_pair {k i : Nat} (hi : i < k) (q : Entity F → Bool) (hq : q (pointOf (levelProps i)) = true) :
    2 ≤ ((levels F k).filter q).length := by
  obtain ⟨a, b, e⟩ := List.append_of_mem (List.mem_range.2 hi)
  unfold levels
  rw [e]
  simp [hq]
  omega

theorem forall₂_actors {R : Entity F → Node F → Prop} {m : Nat} {xs : List (Entity F)} {ns : List (Node F)}
    (h : List.Forall₂ R xs ns) (hm : ∀ x ∈ xs, ∀ n, R x n → m ≤ (actors n).length) :
    xs.length * m ≤ (actorsOf ns).length := by
  induction h with
  | nil => simp
  | cons hr _ ih =>
    have h1 := hm _ (by simp) _ hr
    have h2 := ih fun x hx => hm x (by simp [hx])
    simp only [actorsOf, List.length_append, List.length_cons, Nat.add_mul]
    omega

/-- What a group of level `i` grows to. -/
theorem level_actors {k : Nat} : ∀ (d i : Nat), i + d + 1 = k → ∀ n, Represents (levels F k) (pointOf (levelProps i)) n →
    2 ^ (d + 1) ≤ (actors n).length + 1 := by
  intro d
  induction d with
  | zero =>
    intro i _ n h
    cases h with
    | mk _ _ _ => unfold actors; simp
  | succ d ih =>
    intro i hi n h
    cases h with
    | @mk _ o a leaves ents _ _ h3 =>
      have h1 : 2 ^ (d + 1) - 1 ≤ 2 ^ (d + 1) - 1 := Nat.le_refl _
      have h4 := forall₂_actors (m := 2 ^ (d + 1) - 1) h3 (by
        intro x hx n hn
        obtain ⟨hx1, hx2⟩ := List.mem_filter.1 hx
        obtain ⟨j, _, rfl⟩ := mem_levels hx1
        have := (level_under i j).1 (of_decide_eq_true hx2)
        subst this
        have := ih (i + 1) (by omega) n hn
        omega)
      have h5 := levels_pair (F := F) (k := k) (i := i + 1) (by omega)
        (fun c => decide (Under (pointOf (levelProps i)) c)) (decide_eq_true ((level_under i (i + 1)).2 rfl))
      have h6 := Nat.mul_le_mul_right (2 ^ (d + 1) - 1) h5
      have h7 : 1 ≤ 2 ^ (d + 1) := Nat.one_le_two_pow
      have h8 : 2 ^ (d + 1 + 1) = 2 * 2 ^ (d + 1) := by rw [Nat.pow_succ, Nat.mul_comm]
      unfold actors
      rw [actorsOf_append, List.length_cons, List.length_append]
      omega

theorem zeros_read (n : Nat) : ReadsI32 (zeros (n + 1)) 0 := by
  have : DecVal (zeros (n + 1)) 0 := by
    induction n with
    | zero => exact .one (c := '0') (d := 0) (by decide) (by decide)
    | succ n ih =>
      have := DecVal.snoc (c := '0') (d := 0) ih (by decide) (by decide)
      have e : zeros (n + 1) ++ ['0'] = zeros (n + 1 + 1) := by
        unfold zeros
        rw [← List.replicate_succ']
      rw [e] at this
      exact this
  exact ⟨by decide, by decide, _, 0, this, .inl ⟨rfl, rfl⟩⟩

/-- The entities of the text. -/
def doubled (F : Type) (k : Nat) : List (Entity F) :=
  pointOf [(str! "classname", str! "worldspawn")] :: levels F k

theorem doubling_is (k : Nat) : MapIs (F := F) (doubling k) (doubled F k) := by
  have : doubled F k = ([(str! "classname", str! "worldspawn")] ::
      (List.range k).flatMap fun i => [levelProps i, levelProps i]).map pointOf := by
    unfold doubled levels
    rw [List.map_cons, List.map_flatMap]
    rfl
  rw [this]
  refine pointMap_is ?_
  have hz : ∀ n c, c ≠ '0' → c ∉ zeros n := fun n c hc hm => hc (List.eq_of_mem_replicate hm)
  intro ps hps p hp
  rcases List.mem_cons.1 hps with rfl | hps
  · rw [List.mem_singleton] at hp
    subst hp
    decide
  · obtain ⟨i, _, hps⟩ := List.mem_flatMap.1 hps
    have : ps = levelProps i := by simpa using hps
    subst this
    unfold levelProps at hp
    simp only [List.cons_append, List.nil_append, List.mem_cons] at hp
    rcases hp with rfl | rfl | hp
    · decide
    · exact ⟨⟨by simp, hz _ _ (by decide)⟩, by simp, hz _ _ (by decide)⟩
    · split at hp
      · cases hp
      · rw [List.mem_singleton] at hp
        subst hp
        exact ⟨⟨by simp, hz _ _ (by decide)⟩, by simp, hz _ _ (by decide)⟩

theorem doubled_length (k : Nat) : (doubled F k).length = 2 * k + 1 := by
  unfold doubled levels
  rw [List.length_cons, List.length_flatMap]
  simp
  omega

theorem doubled_tree (k : Nat) : ¬ Loop (doubled F k) := by
  have hstep : ∀ a b, Relation.TransGen (Step (doubled F k)) a b →
      (∃ j, b = pointOf (levelProps j)) ∧ ∀ i j, a = pointOf (levelProps i) → b = pointOf (levelProps j) → i < j := by
    have hchild : ∀ {a b : Entity F}, Step (doubled F k) a b → ∃ j, b = pointOf (levelProps j) := by
      rintro a b ⟨_, hb, hc, _⟩
      rcases List.mem_cons.1 hb with rfl | hb
      · exact absurd rfl hc
      · obtain ⟨j, _, rfl⟩ := mem_levels hb
        exact ⟨j, rfl⟩
    have hone : ∀ {i j : Nat}, Step (doubled F k) (pointOf (levelProps i)) (pointOf (levelProps j)) → i < j := by
      rintro i j ⟨_, _, _, hu⟩
      have := (level_under i j).1 hu
      omega
    intro a b h
    induction h with
    | single h =>
      refine ⟨hchild h, ?_⟩
      rintro i j rfl rfl
      exact hone h
    | tail _ h ih =>
      refine ⟨hchild h, ?_⟩
      rintro i j rfl rfl
      obtain ⟨⟨m, rfl⟩, ih⟩ := ih
      exact Nat.lt_trans (ih i m rfl rfl) (hone h)
  rintro ⟨e, _, _, h⟩
  obtain ⟨⟨j, rfl⟩, h⟩ := hstep e e h
  exact absurd (h j j rfl rfl) (Nat.lt_irrefl j)

theorem doubled_loadable (k : Nat) (config : Config F) (hm : config.mapFile = some (doubling k)) :
    Loadable config (doubled F k) := by
  have hnb : ∀ e ∈ doubled F k, e.brushes = [] := by
    intro e he
    rcases List.mem_cons.1 he with rfl | he
    · rfl
    · obtain ⟨i, _, rfl⟩ := mem_levels he
      rfl
  refine ⟨⟨_, hm, doubling_is k⟩, ⟨[], _, levels F k, rfl, rfl, ?_⟩, ?_, ?_, ?_, doubled_tree k⟩
  · intro e he
    obtain ⟨i, _, rfl⟩ := mem_levels he
    rw [level_class]
    decide
  · intro e he b hb
    rw [hnb e he] at hb
    cases hb
  · intro e he _
    rcases List.mem_cons.1 he with rfl | he
    · exact ⟨_, rfl⟩
    · obtain ⟨i, _, rfl⟩ := mem_levels he
      exact ⟨_, level_class i⟩
  · intro e he _ _ key hk s hs
    rcases List.mem_cons.1 he with rfl | he
    · simp only [List.mem_cons, List.not_mem_nil, or_false] at hk
      rcases hk with rfl | rfl <;> cases hs
    · obtain ⟨i, _, rfl⟩ := mem_levels he
      simp only [List.mem_cons, List.not_mem_nil, or_false] at hk
      rcases hk with rfl | rfl
      · have := (level_id (F := F) i).symm.trans hs
        cases this
        exact ⟨0, zeros_read i⟩
      · have := (level_group (F := F) i).symm.trans hs
        split at this
        · cases this
        · cases this
          obtain ⟨j, rfl⟩ := Nat.exists_eq_succ_of_ne_zero ‹i ≠ 0›
          exact ⟨0, zeros_read j⟩

theorem doubling_length (k : Nat) : (doubling k).length ≤ 100 * (k + 1) ^ 2 := by
  have hl : ∀ i, ((pointLines (levelProps i)).flatMap fun l => l ++ ['\n']).length ≤ 48 + 2 * i := by
    intro i
    unfold levelProps pointLines zeros
    split <;> simp <;> omega
  have key : ∀ k, (((List.range k).flatMap fun i => [levelProps i, levelProps i]).flatMap pointLines |>.flatMap
      fun l => l ++ ['\n']).length ≤ 96 * k + 2 * k * k := by
    intro k
    induction k with
    | zero => simp
    | succ k ih =>
      rw [List.range_succ, List.flatMap_append, List.flatMap_append, List.flatMap_append, List.length_append]
      have := hl k
      simp only [List.flatMap_cons, List.flatMap_nil, List.append_nil, List.flatMap_append, List.length_append]
      nlinarith
  unfold doubling pointMap
  rw [List.flatMap_cons, List.flatMap_append, List.length_append]
  have h1 := key k
  have h2 : ((pointLines [(str! "classname", str! "worldspawn")]).flatMap fun l => l ++ ['\n']).length ≤ 40 := by decide
  nlinarith

/-- C131: without unique ids there is no such bound. For every `k` there is a text of at most `100 (k + 1)²`
characters that lists `2 k + 1` entities without brushes and without nesting in itself, which loads under every
configuration and gives at least `2 ^ (k + 1) - 1` actors. -/
theorem C131_exponential [LawfulEq F] (k : Nat) :
    (doubling k).length ≤ 100 * (k + 1) ^ 2 ∧ ∃ entities : List (Entity F), LoadsAs (doubling k) entities ∧
      entities.length = 2 * k + 1 ∧ (∀ e ∈ entities, e.brushes = []) ∧ ¬ Loop entities ∧
      ∀ (depth : Nat) (order : List (Str × List (BrushGeo F)) → List (Str × List (BrushGeo F))) (config : Config F),
        (∀ l, (order l).Perm l) → config.mapFile = some (doubling k) → 2 * k + 1 ≤ depth →
        ∃ nodes, Quarch.run depth order config = .ok nodes ∧ 2 ^ (k + 1) - 1 ≤ (actorsOf nodes).length := by
  refine ⟨doubling_length k, doubled F k, (C92_text _ _).2 (doubling_is k), doubled_length k, ?_, doubled_tree k, ?_⟩
  · intro e he
    rcases List.mem_cons.1 he with rfl | he
    · rfl
    · obtain ⟨i, _, rfl⟩ := mem_levels he
      rfl
  · intro depth order config ho hm hd
    obtain ⟨nodes, hrun⟩ := C92_enough depth order ho config _ (doubled_loadable k config hm)
      (by rw [doubled_length]; exact hd)
    refine ⟨nodes, hrun, ?_⟩
    obtain ⟨text, pre, w, post, wn, ls, es, h1, h2, hw, hno, rfl, hwn, _, _, hes⟩ :=
      C45_groups_nest depth order ho config nodes hrun
    rw [hm] at h1
    cases h1
    have hu := LoadsAs.unique h2 ((C92_text _ _).2 (doubling_is k))
    have hpre : pre = [] ∧ post = levels F k := by
      cases pre with
      | nil => exact ⟨rfl, (List.cons.inj hu).2⟩
      | cons p pre =>
        have := (List.cons.inj hu).1
        exact absurd (by rw [this]; rfl) (hno p (by simp))
    obtain ⟨rfl, rfl⟩ := hpre
    rw [List.nil_append] at hwn hes
    have hwa : 1 ≤ (actors wn).length := by
      cases hwn with
      | mk _ _ _ => unfold actors; simp
    cases k with
    | zero =>
      simp only [actorsOf, List.length_append]
      omega
    | succ d =>
      have h4 := forall₂_actors (m := 2 ^ (d + 1) - 1) hes (by
        intro x hx n hn
        obtain ⟨hx1, hx2⟩ := List.mem_filter.1 hx
        obtain ⟨j, _, rfl⟩ := mem_levels hx1
        have hj := of_decide_eq_true hx2
        rw [level_group] at hj
        have : j = 0 := by
          by_contra h
          rw [if_neg h] at hj
          cases hj
        subst this
        have := level_actors d 0 (by omega) n hn
        omega)
      have h5 := levels_pair (F := F) (k := d + 1) (i := 0) (by omega)
        (fun c => decide (groupOf c = none)) (decide_eq_true (by rw [level_group]; rfl))
      have h6 := Nat.mul_le_mul_right (2 ^ (d + 1) - 1) h5
      have h7 : 1 ≤ 2 ^ (d + 1) := Nat.one_le_two_pow
      have h8 : 2 ^ (d + 1 + 1) = 2 * 2 ^ (d + 1) := by rw [Nat.pow_succ, Nat.mul_comm]
      simp only [actorsOf, actorsOf_append, List.length_append]
      omega

end

end Quarch
