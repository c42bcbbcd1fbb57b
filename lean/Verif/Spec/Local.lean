import Verif.Spec.Loads
/-
Which entities of a map belong to the node of one of them and which texts can be joined (C97). Written without the functions of the scene builder.
-/
namespace Quarch.Spec
section
variable {F : Type}

/-- The entities that name `p` as their group, in file order; a worldspawn is in no group. -/
def membersOf (entities : List (Entity F)) (p : Entity F) : List (Entity F) :=
  entities.filter fun c => c.properties (str! "classname") ≠ some (str! "worldspawn") ∧ Under p c

/-- `y` itself, or a member of the group of such an entity. -/
inductive Beneath (entities : List (Entity F)) (y : Entity F) : Entity F → Prop
  | self : Beneath entities y y
  | member {p c : Entity F} : Beneath entities y p → c ∈ membersOf entities p → Beneath entities y c

/-- Two maps have the same entities in the group of `y`, in the groups in it, and so on. -/
def SameBeneath (entities entities' : List (Entity F)) (y : Entity F) : Prop :=
  ∀ p, Beneath entities y p → membersOf entities p = membersOf entities' p

/-- Neither the worldspawn nor in a group. -/
def TopLevel (e : Entity F) : Prop :=
  e.properties (str! "classname") ≠ some (str! "worldspawn") ∧ groupOf e = none

instance (e : Entity F) : Decidable (TopLevel e) := by unfold TopLevel; infer_instance

/-- The text lists these entities, all its braces are closed, and it ends with a line end if it is not empty. -/
def CompleteMap [Arith F] [Platform] (text : Str) (entities : List (Entity F)) : Prop :=
  (text = [] ∨ ∃ s, text = s ++ ['\n']) ∧
  ∃ blocks, TextIs text ⟨blocks, .none⟩ ∧
    List.Forall₂ Denotes blocks entities

end
end Quarch.Spec
