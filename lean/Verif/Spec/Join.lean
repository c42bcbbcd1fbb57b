import Verif.Spec.Tree
import Verif.Spec.Geo
/-
Joining two maps (C142).
-/
namespace Quarch.Spec
section
variable {F : Type}

/-- A brush of an entity that is in the scene and has these properties. -/
def HasBrush (entities : List (Entity F)) (properties : Map Str Str) (br : Brush F) : Prop :=
  ∃ e ∈ entities, Anchored entities e ∧ e.properties = properties ∧ br ∈ e.brushes

/-- Every brush of the two maps is in the third one, in an entity with the same properties, and there are no others. -/
def Joins (a b whole : List (Entity F)) : Prop :=
  ∀ properties br, HasBrush whole properties br ↔ HasBrush a properties br ∨ HasBrush b properties br

end
end Quarch.Spec
