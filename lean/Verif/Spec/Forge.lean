import Verif.Model.GameData
import Mathlib.Data.List.Forall2
/-
FGD text and enumeration codes, written without the printing functions of the model.
-/
namespace Quarch.Spec

/-- Decimal notation as Lean prints it. -/
def dec (i : Int) : Str := (toString i).toList

/-- Bit `i` of the two's complement representation of `d`. -/
def BitSet (d : Int) (i : Nat) : Prop := d / 2 ^ i % 2 = 1

instance (d : Int) (i : Nat) : Decidable (BitSet d i) := by unfold BitSet; infer_instance

/-- Table row of flag number `i`. -/
def flagRow (d : Int) (i : Nat) (name : Str) : Str :=
  str! "\t\t" ++ dec (2 ^ i) ++ str! " : \"" ++ name ++ str! "\" : " ++
    (if BitSet d i then str! "1" else str! "0") ++ str! "\n"

/-- Sum of the values of those of the first `n` flags whose bit is set. -/
def flagSum (d : Int) (n : Nat) : Int :=
  (((List.range n).filter fun i => BitSet d i).map fun i => (2 : Int) ^ i).sum

section
variable {F : Type} [Arith F]

/-- How the value of a choice looks in the table. -/
inductive ChoiceText : Forge.ChoiceData F → Str → Prop
  | integer (i : Int) : ChoiceText (.integer i) (dec i)
  | float (f : F) : ChoiceText (.float f) (Arith.disp f)
  | string (s : Str) : ChoiceText (.string s) ('"' :: (s ++ ['"']))

/-- How the value of a choice looks as a default, without the surrounding quotes. -/
inductive DefaultText : Forge.ChoiceData F → Str → Prop
  | integer (i : Int) : DefaultText (.integer i) (dec i)
  | float (f : F) : DefaultText (.float f) (Arith.disp f)
  | string (s : Str) : DefaultText (.string s) s

/-- Table row of a choice. -/
def ChoiceRow (c : Forge.Choice F) (row : Str) : Prop :=
  ∃ v, ChoiceText c.value v ∧ row = str! "\t\t" ++ v ++ str! " : \"" ++ c.name ++ str! "\"\n"

/-- Properties that cannot be printed: a choices default that is no index, or (with overflow checks) more
than 31 flags. -/
def Unprintable (checks : Bool) (p : Forge.Property F) : Prop :=
  (∃ cs d, p.data = .choices cs d ∧ (d < 0 ∨ (cs.length : Int) ≤ d)) ∨
  (checks = true ∧ ∃ fs d, p.data = .flags fs d ∧ 31 < fs.length)

/-- Names joined by `", "`. -/
def joinComma : List Str → Str
  | [] => []
  | [a] => a
  | a :: rest => a ++ str! ", " ++ joinComma rest

/-- The word after the name of a property. -/
def kindWord : Forge.PropertyData F → Str
  | .integer _ => str! "integer"
  | .float _ => str! "float"
  | .vector3 _ => str! "string"
  | .string _ => str! "string"
  | .color _ => str! "color255"
  | .choices _ _ => str! "choices"
  | .flags _ _ => str! "flags"
  | .targetSource => str! "target_source"
  | .targetDestination => str! "target_destination"

/-- No quote and no line break. -/
def Clean (s : Str) : Prop := '"' ∉ s ∧ '\n' ∉ s

/-- Floats are displayed without quotes and line breaks. -/
def PlainDisplay (F : Type) [Arith F] : Prop := ∀ f : F, Clean (Arith.disp f)

/-- The texts inside a property value are clean. -/
def CleanData : Forge.PropertyData F → Prop
  | .string s => Clean s
  | .choices cs _ => ∀ c ∈ cs, Clean c.name ∧ ∀ s, c.value = .string s → Clean s
  | .flags fs _ => ∀ f ∈ fs, Clean f
  | _ => True

/-- The name, descriptions and texts of a property are clean. -/
structure CleanProperty (p : Forge.Property F) : Prop where
  name : Clean p.name
  short : Clean p.shortDescription
  long : Clean p.longDescription
  data : CleanData p.data

/-- The class name, description, base class names and properties are clean; the class name has no `=`. -/
structure CleanEntity (e : Forge.Entity F) : Prop where
  className : Clean e.className
  noEq : '=' ∉ e.className
  description : Clean e.description
  base : ∀ m ∈ e.metadata, ∀ cs, m = .base cs → ∀ c ∈ cs, Clean c
  properties : ∀ p ∈ e.properties, CleanProperty p

/-- What the text of a property shows of its value is the same for both. -/
def SameShown : Forge.PropertyData F → Forge.PropertyData F → Prop
  | .integer i, .integer j => i = j
  | .float x, .float y => Arith.disp x = Arith.disp y
  | .vector3 a, .vector3 b => Arith.disp a.x ++ ' ' :: (Arith.disp a.y ++ ' ' :: Arith.disp a.z) =
      Arith.disp b.x ++ ' ' :: (Arith.disp b.y ++ ' ' :: Arith.disp b.z)
  | .vector3 a, .string s => Arith.disp a.x ++ ' ' :: (Arith.disp a.y ++ ' ' :: Arith.disp a.z) = s
  | .string s, .vector3 a => s = Arith.disp a.x ++ ' ' :: (Arith.disp a.y ++ ' ' :: Arith.disp a.z)
  | .string s, .string t => s = t
  | .color a, .color b => Arith.toI32 (Arith.mul a.r Arith.c255) = Arith.toI32 (Arith.mul b.r Arith.c255) ∧
      Arith.toI32 (Arith.mul a.g Arith.c255) = Arith.toI32 (Arith.mul b.g Arith.c255) ∧
      Arith.toI32 (Arith.mul a.b Arith.c255) = Arith.toI32 (Arith.mul b.b Arith.c255)
  | .choices cs d, .choices ds e => ∃ c₁ c₂ t,
      (0 ≤ d ∧ cs[d.toNat]? = some c₁) ∧ (0 ≤ e ∧ ds[e.toNat]? = some c₂) ∧
      DefaultText c₁.value t ∧ DefaultText c₂.value t ∧
      List.Forall₂ (fun a b => a.name = b.name ∧ ∃ v, ChoiceText a.value v ∧ ChoiceText b.value v) cs ds
  | .flags fs d, .flags gs e => fs = gs ∧ ∀ i < fs.length, i < 31 → (BitSet d i ↔ BitSet e i)
  | .targetSource, .targetSource => True
  | .targetDestination, .targetDestination => True
  | _, _ => False

/-- Value text shown as the default in the FGD, which an editor puts into the map: the text between the
quotes, or the bare number; for flags the sum of the values of the flags that are on. -/
inductive EditorDefault : Forge.PropertyData F → Str → Prop
  | integer (i : Int) : EditorDefault (.integer i) (dec i)
  | float (f : F) : EditorDefault (.float f) (Arith.disp f)
  | vector3 (v : V3 F) : EditorDefault (.vector3 v)
      (Arith.disp v.x ++ ' ' :: (Arith.disp v.y ++ ' ' :: Arith.disp v.z))
  | string (s : Str) : EditorDefault (.string s) s
  | color (c : Color F) : EditorDefault (.color c)
      (dec (Arith.toI32 (Arith.mul c.r Arith.c255)) ++ ' ' ::
        (dec (Arith.toI32 (Arith.mul c.g Arith.c255)) ++ ' ' ::
          dec (Arith.toI32 (Arith.mul c.b Arith.c255))))
  | choices (cs : List (Forge.Choice F)) (d : Nat) (c : Forge.Choice F) (s : Str) :
      cs[d]? = some c → DefaultText c.value s → EditorDefault (.choices cs d) s
  | flags (fs : List Str) (d : Int) : EditorDefault (.flags fs d) (dec (flagSum d fs.length))

/-- Property value that stands for the declared default. -/
def declaredDefault : Forge.PropertyData F → PropVal F
  | .integer i => .integer i
  | .float f => .float f
  | .vector3 v => .vector3 v
  | .string s => .string s
  | .color c => .color c
  | .choices _ d => .choices d
  | .flags _ d => .flags d
  | .targetSource => .targetSource
  | .targetDestination => .targetDestination

end

/-- Codes of an enumeration: `codes` lists the valid codes with their values. -/
structure Codes {α : Type} (toCode : α → Int) (ofCode : Int → Outcome α) (codes : List Int) : Prop where
  back : ∀ a, ofCode (toCode a) = .ok a
  valid : ∀ a, toCode a ∈ codes
  forth : ∀ i ∈ codes, ∃ a, ofCode i = .ok a ∧ toCode a = i
  invalid : ∀ i, i ∉ codes → ∃ m, ofCode i = .panic m

end Quarch.Spec
