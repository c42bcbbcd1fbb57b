import Verif.Props.Tree
import Mathlib.Data.List.Nodup
import Mathlib.Data.List.Count
import Mathlib.Data.List.Range
/-
Which entities the recursion of the scene builder visits, and how often.
-/
set_option linter.unusedSectionVars false
namespace Quarch
open Spec Scene

section
variable {F : Type} [Arith F]

/-- An entity with its geometry and its place in the list. -/
abbrev Item (F : Type) := (Entity F × EntityGeo F) × Nat

/-- Items visited as children of an item. -/
def kids (items : List (Item F)) (x : Item F) : List (Item F) :=
  (items.drop 1).filter fun y => inGroup x.1.1 y.1.1

/-- Items visited from an item, itself first. -/
def visit (items : List (Item F)) : Nat → Item F → List (Item F)
  | 0, _ => []
  | d + 1, x => x :: (kids items x).flatMap (visit items d)

/-- The depth limit is not reached from the item. -/
def Complete (items : List (Item F)) : Nat → Item F → Prop
  | 0, _ => False
  | d + 1, x => ∀ y ∈ kids items x, Complete items d y

theorem drop_zipIdx (data : List (Entity F × EntityGeo F)) :
    data.drop 1 = (data.zipIdx.drop 1).map (·.1) := by
  rw [List.map_drop, List.zipIdx_map_fst]

theorem members_kids (data : List (Entity F × EntityGeo F)) (x : Item F) :
    members data x.1.1 = (kids data.zipIdx x).map (·.1) := by
  unfold members kids
  rw [drop_zipIdx, List.filter_map]
  rfl

omit [Arith F] in
theorem actorsOf_append (a b : List (Node F)) : actorsOf (a ++ b) = actorsOf a ++ actorsOf b := by
  induction a with
  | nil => simp [actorsOf]
  | cons x xs ih => simp [actorsOf, ih]

theorem forall₂_flatMap {α β γ : Type} {R : β → γ → Prop} {f : α → List β} {ns : List (List γ)}
    {l : List α} (h : List.Forall₂ (fun a n => List.Forall₂ R (f a) n) l ns) :
    List.Forall₂ R (l.flatMap f) ns.flatten := by
  induction h with
  | nil => exact .nil
  | cons h _ ih =>
    rw [List.flatMap_cons, List.flatten_cons]
    exact List.rel_append h ih

theorem build_actors {gd : GameData F} {fgd : Forge.GameData F} {bl : TextureBlacklist}
    {data : List (Entity F × EntityGeo F)} : ∀ {depth : Nat} {origin : V3 F} {x : Item F}
    {node : Node F}, buildEntity gd fgd bl data depth origin x.1 = .ok node →
    List.Forall₂ (fun y n => Represents ((data.drop 1).map (·.1)) y.1.1 n) (visit data.zipIdx depth x) (actors node) ∧
      Complete data.zipIdx depth x := by
  intro depth
  induction depth with
  | zero => intro o x n h; unfold buildEntity at h; cases h
  | succ depth ih =>
    rintro o ⟨⟨e, g⟩, i⟩ n h
    have hrep := represents_of_build h
    obtain ⟨d', v, c, ents, name, props, e0, h1, h2, h3, hn, hp, rfl⟩ := buildEntity_ok h
    cases e0
    have hm := members_kids data ((e, g), i)
    simp only at hm
    rw [hm, List.forall₂_map_left_iff] at h3
    have hleaf : actorsOf (visualChildren g.center v ++ collisionChildren g.center c) = [] := by
      cases v <;> cases c <;> rfl
    constructor
    · unfold visit actors
      rw [actorsOf_append, hleaf, List.nil_append]
      refine .cons hrep ?_
      have : actorsOf ents = (ents.map actors).flatten := by
        clear h3 h hrep
        induction ents with
        | nil => rfl
        | cons x xs ih => simp [actorsOf, ih]
      rw [this]
      apply forall₂_flatMap
      rw [List.forall₂_map_right_iff]
      exact h3.imp fun a b hab => (ih hab).1
    · intro y hy
      obtain ⟨n, _, hb⟩ := forall₂_left h3 hy
      exact (ih hb).2

/-- How often the item number occurs. -/
def cnt (k : Nat) (l : List (Item F)) : Nat := l.countP fun y => y.2 == k

theorem cnt_cons (k : Nat) (x : Item F) (l : List (Item F)) :
    cnt k (x :: l) = (if x.2 = k then 1 else 0) + cnt k l := by
  unfold cnt
  rw [List.countP_cons]
  simp only [beq_iff_eq]
  omega

theorem cnt_flatMap (k : Nat) (f : Item F → List (Item F)) (l : List (Item F)) :
    cnt k (l.flatMap f) = (l.map fun x => cnt k (f x)).sum := by
  unfold cnt
  rw [List.countP_flatMap]
  rfl

theorem cnt_eq_sum (k : Nat) (l : List (Item F)) :
    cnt k l = (l.map fun x : Item F => if x.2 = k then 1 else 0).sum := by
  induction l with
  | nil => rfl
  | cons x xs ih => rw [cnt_cons, List.map_cons, List.sum_cons, ih]

theorem sum_add {α : Type} (f g : α → Nat) (l : List α) :
    (l.map fun x => f x + g x).sum = (l.map f).sum + (l.map g).sum := by
  induction l with
  | nil => rfl
  | cons x xs ih => simp only [List.map_cons, List.sum_cons, ih]; omega

/-- Items that are nobody's child are visited only as roots. -/
theorem cnt_visit_root {items : List (Item F)} {k : Nat}
    (hk : ∀ x ∈ items, ∀ y ∈ kids items x, y.2 ≠ k) :
    ∀ {d : Nat} {x : Item F}, x ∈ items → Complete items d x →
      cnt k (visit items d x) = if x.2 = k then 1 else 0 := by
  intro d
  induction d with
  | zero => intro x _ h; exact absurd h id
  | succ d ih =>
    intro x hx hc
    unfold visit
    rw [cnt_cons, cnt_flatMap]
    have : ((kids items x).map fun y => cnt k (visit items d y)) = (kids items x).map fun _ => 0 := by
      apply List.map_congr_left
      intro y hy
      rw [ih (List.mem_of_mem_drop (List.mem_filter.1 hy).1) (hc y hy), if_neg (hk x hx y hy)]
    rw [this]
    simp

/-- An item with a unique parent is visited once per visit of the parent. -/
theorem cnt_visit_child {items : List (Item F)} {k p : Nat}
    (hk : ∀ x ∈ items, cnt k (kids items x) = if x.2 = p then 1 else 0) :
    ∀ {d : Nat} {x : Item F}, x ∈ items → Complete items d x →
      cnt k (visit items d x) = (if x.2 = k then 1 else 0) + cnt p (visit items d x) := by
  intro d
  induction d with
  | zero => intro x _ h; exact absurd h id
  | succ d ih =>
    intro x hx hc
    unfold visit
    rw [cnt_cons, cnt_cons, cnt_flatMap, cnt_flatMap]
    have : ((kids items x).map fun y => cnt k (visit items d y)) =
        (kids items x).map fun y => (if y.2 = k then 1 else 0) + cnt p (visit items d y) := by
      apply List.map_congr_left
      intro y hy
      exact ih (List.mem_of_mem_drop (List.mem_filter.1 hy).1) (hc y hy)
    rw [this, sum_add, ← cnt_eq_sum, hk x hx]

theorem visit_mem {items : List (Item F)} : ∀ {d : Nat} {x y : Item F}, x ∈ items →
    y ∈ visit items d x → y ∈ items := by
  intro d
  induction d with
  | zero => intro x y _ h; cases h
  | succ d ih =>
    intro x y hx h
    unfold visit at h
    rcases List.mem_cons.1 h with rfl | h
    · exact hx
    · obtain ⟨z, hz, h⟩ := List.mem_flatMap.1 h
      exact ih (List.mem_of_mem_drop (List.mem_filter.1 hz).1) h

/-! ### the numbering -/

omit [Arith F] in
theorem zipIdx_nodup (data : List (Entity F × EntityGeo F)) : (data.zipIdx.map (·.2)).Nodup := by
  rw [List.zipIdx_map_snd]
  exact List.nodup_range'

omit [Arith F] in
theorem item_ext {data : List (Entity F × EntityGeo F)} {x y : Item F} (hx : x ∈ data.zipIdx)
    (hy : y ∈ data.zipIdx) (h : x.2 = y.2) : x = y := by
  have h1 := List.mem_zipIdx_iff_getElem?.1 hx
  have h2 := List.mem_zipIdx_iff_getElem?.1 hy
  rw [h] at h1
  rw [h1] at h2
  exact Prod.ext (Option.some.inj h2) h

omit [Arith F] in
theorem drop_pos {data : List (Entity F × EntityGeo F)} {y : Item F} (h : y ∈ data.zipIdx.drop 1) :
    1 ≤ y.2 := by
  cases data with
  | nil => cases h
  | cons d ds =>
    rw [List.zipIdx_cons, List.drop_succ_cons, List.drop_zero] at h
    have : y.2 ∈ (ds.zipIdx (0 + 1)).map (·.2) := List.mem_map_of_mem h
    rw [List.zipIdx_map_snd, List.mem_range'_1] at this
    omega

omit [Arith F] in
theorem mem_drop {data : List (Entity F × EntityGeo F)} {y : Item F} (h : y ∈ data.zipIdx) (hp : 1 ≤ y.2) :
    y ∈ data.zipIdx.drop 1 := by
  cases data with
  | nil => cases h
  | cons d ds =>
    rw [List.zipIdx_cons, List.drop_succ_cons, List.drop_zero]
    rw [List.zipIdx_cons] at h
    rcases List.mem_cons.1 h with rfl | h
    · exact absurd hp (by simp)
    · exact h

theorem cnt_sub {data : List (Entity F × EntityGeo F)} {l : List (Item F)} (hl : l.Sublist data.zipIdx)
    (k : Nat) : cnt k l = if ∃ x ∈ l, x.2 = k then 1 else 0 := by
  have hn : (l.map (·.2)).Nodup := (zipIdx_nodup data).sublist (hl.map _)
  have hc : cnt k l = (l.map (·.2)).count k := by
    unfold cnt List.count
    rw [List.countP_map]
    rfl
  rw [hc, hn.count]
  simp only [List.mem_map]

/-- Roots of the scene. -/
def rootItems (items : List (Item F)) : List (Item F) :=
  items.take 1 ++ (items.drop 1).filter fun y => (groupOf y.1.1).isNone

omit [Arith F] in
theorem rootItems_sub (items : List (Item F)) : (rootItems items).Sublist items := by
  conv_rhs => rw [← List.take_append_drop 1 items]
  exact (List.Sublist.refl _).append List.filter_sublist

end
end Quarch
