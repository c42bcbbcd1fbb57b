import Verif.Model.SceneTree
import Verif.Spec.Geo
import Verif.Spec.Number
import Verif.Spec.Scene
/-
Values of entity properties, written without the functions of the scene builder.
-/
namespace Quarch.Spec

section
variable {F : Type} [Arith F]

/-- `s` has at least three words separated by single spaces, the first three being the numbers. -/
def ReadsTriple (s : Str) (x y z : F) : Prop :=
  ∃ a b c rest, ' ' ∉ a ∧ ' ' ∉ b ∧ ' ' ∉ c ∧ (∀ w ∈ rest, ' ' ∉ w) ∧ s = joinSpace (a :: b :: c :: rest) ∧
    Arith.parse a = some x ∧ Arith.parse b = some y ∧ Arith.parse c = some z

/-- The parsed value if there is a parsable one, the default otherwise. -/
def ValueOr {α : Type} (reads : Str → α → Prop) (value : Option Str) (default x : α) : Prop :=
  (∃ s, value = some s ∧ reads s x) ∨ ((∀ s y, value = some s → ¬ reads s y) ∧ x = default)

/-- What a declared property must deliver: the declared kind, with the entity's value or the default. -/
def Delivers (data : Forge.PropertyData F) (value : Option Str) (val : PropVal F) : Prop :=
  match data with
  | .integer d => ∃ i, val = .integer i ∧ ValueOr ReadsI32 value d i
  | .float d => ∃ f, val = .float f ∧ ValueOr (fun s f => Arith.parse s = some f) value d f
  | .vector3 d => ∃ v, val = .vector3 v ∧ ValueOr (fun s (v : V3 F) => ReadsTriple s v.x v.y v.z) value d v
  | .string d => ∃ s, val = .string s ∧ ValueOr (fun s t => t = s) value d s
  | .color d => ∃ c, val = .color c ∧
      ValueOr (fun s (c : Color F) => ReadsTriple s c.r c.g c.b) value d c
  | .choices _ d => ∃ i, val = .choices i ∧ ValueOr ReadsI32 value d i
  | .flags _ d => ∃ i, val = .flags i ∧ ValueOr ReadsI32 value d i
  | .targetSource => val = .targetSource
  | .targetDestination => val = .targetDestination

/-- Not a flags property. -/
def NotFlags : Forge.PropertyData F → Prop
  | .flags _ _ => False
  | _ => True

/-- `d` is the first forge definition with the entity's classname. -/
def FirstForge (fgd : Forge.GameData F) (e : Entity F) (d : Forge.Entity F) : Prop :=
  ∃ pre post, fgd.definitions = pre ++ d :: post ∧ e.properties (str! "classname") = some d.className ∧
    ∀ x ∈ pre, e.properties (str! "classname") ≠ some x.className

/-- The editor's own property names. -/
def internalNames : List Str := [str! "_tb_id", str! "_tb_group", str! "_tb_type", str! "_tb_name"]

end
end Quarch.Spec
