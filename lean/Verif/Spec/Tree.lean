import Verif.Spec.Scene
import Mathlib.Data.List.Forall2
import Mathlib.Logic.Relation
/-
Groups, nesting and positions in a scene tree, written without the functions of the scene builder.
-/
namespace Quarch.Spec
section
variable {F : Type}

/-- The editor's id of an entity. -/
def idOf (e : Entity F) : Option Str := e.properties (str! "_tb_id")

/-- The id of the group an entity is in. -/
def groupOf (e : Entity F) : Option Str := e.properties (str! "_tb_group")

/-- `c` names `e` as its group. -/
def Under (e c : Entity F) : Prop := (groupOf c).isSome = true ∧ groupOf c = idOf e

instance (e c : Entity F) : Decidable (Under e c) := by unfold Under; infer_instance

/-- The node shows the entity: it is named by the classname, and its children are visual and collision
nodes followed by one node for each of the `others` in the entity's group, in order, each of which shows
its entity in the same way. -/
inductive Represents (others : List (Entity F)) : Entity F → Node F → Prop
  | mk {e : Entity F} {o : V3 F} {a : Actor F} {leaves ents : List (Node F)} :
      e.properties (str! "classname") = some a.name →
      (∀ n ∈ leaves, ∀ o a cs, n ≠ Node.actor o a cs) →
      List.Forall₂ (Represents others) (others.filter fun c => Under e c) ents →
      Represents others e (.actor o a (leaves ++ ents))

mutual
/-- All actor nodes in a node, parents before children. -/
def actors : Node F → List (Node F)
  | .actor o a cs => .actor o a cs :: actorsOf cs
  | .visual _ _ => []
  | .collision _ _ => []
/-- All actor nodes in a list of nodes, at any depth. -/
def actorsOf : List (Node F) → List (Node F)
  | [] => []
  | n :: ns => actors n ++ actorsOf ns
end

/-- No two of the entities have the same id. -/
def UniqueIds (entities : List (Entity F)) : Prop :=
  entities.Pairwise fun a b => ∀ id, idOf a = some id → idOf b ≠ some id

/-- The entity is the worldspawn, is in no group, or is in the group of an entity for which this holds. -/
inductive Anchored (entities : List (Entity F)) : Entity F → Prop
  | world {e : Entity F} : e.properties (str! "classname") = some (str! "worldspawn") → Anchored entities e
  | top {e : Entity F} : groupOf e = none → Anchored entities e
  | under {e p : Entity F} : p ∈ entities → Under p e → Anchored entities p → Anchored entities e

/-- `c` is built as a child of `p`. -/
def Step (entities : List (Entity F)) (p c : Entity F) : Prop :=
  p ∈ entities ∧ c ∈ entities ∧ c.properties (str! "classname") ≠ some (str! "worldspawn") ∧ Under p c

/-- Some entity that is reached from the top level is nested, over any number of steps, in itself. -/
def Loop (entities : List (Entity F)) : Prop :=
  ∃ e ∈ entities, Anchored entities e ∧ Relation.TransGen (Step entities) e e

/-- Origin of a node relative to its parent. -/
def originOf : Node F → V3 F
  | .actor o _ _ => o
  | .visual o _ => o
  | .collision o _ => o

/-- The node occurs in the forest and the origins on the path to it add up to the position. -/
inductive ReachedAt [Arith F] (forest : List (Node F)) : V3 F → Node F → Prop
  | top {n : Node F} : n ∈ forest → ReachedAt forest (originOf n) n
  | child {p : V3 F} {o : V3 F} {a : Actor F} {cs : List (Node F)} {n : Node F} :
      ReachedAt forest p (.actor o a cs) → n ∈ cs → ReachedAt forest (V3.add p (originOf n)) n

/-- Addition without rounding. -/
class ExactAdd (F : Type) [Arith F] : Prop where
  zero_add : ∀ a : F, Arith.add Arith.zero a = a
  add_neg_add : ∀ a b : F, Arith.add a (Arith.add (Arith.neg a) b) = b

end
end Quarch.Spec
