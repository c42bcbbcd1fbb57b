import Verif.Spec.Forge
/-
The complete text of a game definition file, written without the printing functions of the model.
-/
namespace Quarch.Spec
section
variable {F : Type} [Arith F]

/-- Red, green and blue as numbers up to 255. -/
def colorText (c : Color F) : Str :=
  dec (Arith.toI32 (Arith.mul c.r Arith.c255)) ++ str! " " ++ dec (Arith.toI32 (Arith.mul c.g Arith.c255)) ++
    str! " " ++ dec (Arith.toI32 (Arith.mul c.b Arith.c255))

/-- Text of a metadata entry. (Empty class names at the beginning of a base list are left out.) -/
inductive MetadataText : Forge.Metadata F → Str → Prop
  | base (classes : List Str) : MetadataText (.base classes)
      (str! "base(" ++ joinComma (classes.dropWhile fun c => c.isEmpty) ++ str! ")")
  | color (c : Color F) : MetadataText (.color c) (str! "color(" ++ colorText c ++ str! ")")
  | size (a b : V3 F) : MetadataText (.size a b) (str! "size(" ++
      joinComma [Arith.disp a.x, Arith.disp a.y, Arith.disp a.z, Arith.disp b.x, Arith.disp b.y, Arith.disp b.z] ++
      str! ")")

/-- `name(kind) : "short" : value : "long"` -/
def lineText (p : Forge.Property F) (kind value : Str) : Str :=
  p.name ++ str! "(" ++ kind ++ str! ") : \"" ++ p.shortDescription ++ str! "\" : " ++ value ++ str! " : \"" ++
    p.longDescription ++ str! "\""

/-- Table row of flag number `i`; from number 31 on the value does not fit and the flag counts as off. -/
def anyFlagRow (d : Int) (i : Nat) (name : Str) : Str :=
  if i < 31 then flagRow d i name
  else str! "\t\t" ++ (if i = 31 then str! "-2147483648" else str! "0") ++ str! " : \"" ++ name ++ str! "\" : 0\n"

/-- Text of a property. -/
inductive PropertyText (checks : Bool) (p : Forge.Property F) : Str → Prop
  | integer (i : Int) : p.data = .integer i → PropertyText checks p (lineText p (str! "integer") (dec i))
  | float (f : F) : p.data = .float f → PropertyText checks p (lineText p (str! "float") (Arith.disp f))
  | vector3 (v : V3 F) : p.data = .vector3 v → PropertyText checks p (lineText p (str! "string")
      (str! "\"" ++ Arith.disp v.x ++ str! " " ++ Arith.disp v.y ++ str! " " ++ Arith.disp v.z ++ str! "\""))
  | string (s : Str) : p.data = .string s →
      PropertyText checks p (lineText p (str! "string") (str! "\"" ++ s ++ str! "\""))
  | color (c : Color F) : p.data = .color c →
      PropertyText checks p (lineText p (str! "color255") (str! "\"" ++ colorText c ++ str! "\""))
  | choices (cs : List (Forge.Choice F)) (d : Nat) (c : Forge.Choice F) (v : Str) (rows : List Str) :
      p.data = .choices cs d → cs[d]? = some c → DefaultText c.value v → List.Forall₂ ChoiceRow cs rows →
      PropertyText checks p (p.name ++ str! "(choices) : \"" ++ p.shortDescription ++ str! "\" : \"" ++ v ++
        str! "\" =\n\t[\n" ++ rows.flatten ++ str! "\t]")
  | flags (fs : List Str) (d : Int) : p.data = .flags fs d → (checks = true → fs.length ≤ 31) →
      PropertyText checks p (p.name ++ str! "(flags) =\n\t[\n" ++
        ((fs.zipIdx 0).map fun q => anyFlagRow d q.2 q.1).flatten ++ str! "\t]")
  | source : p.data = .targetSource → PropertyText checks p (p.name ++ str! "(target_source) : \"" ++
      p.shortDescription ++ str! "\" : : \"" ++ p.longDescription ++ str! "\"")
  | destination : p.data = .targetDestination → PropertyText checks p (p.name ++ str! "(target_destination) : \"" ++
      p.shortDescription ++ str! "\" : : \"" ++ p.longDescription ++ str! "\"")

/-- Text of a definition: class keyword, metadata, name, description, one line or table per property. -/
def DefinitionText (checks : Bool) (e : Forge.Entity F) (t : Str) : Prop :=
  ∃ ms ps, List.Forall₂ MetadataText e.metadata ms ∧ List.Forall₂ (PropertyText checks) e.properties ps ∧
    t = (match e.classType with
      | .baseClass => str! "@BaseClass "
      | .pointClass => str! "@PointClass "
      | .solidClass => str! "@SolidClass ") ++ (ms.map fun m => m ++ str! " ").flatten ++
      str! "= " ++ e.className ++ str! " : \"" ++ e.description ++ str! "\"\n[\n" ++
      (ps.map fun s => str! "\t" ++ s ++ str! "\n").flatten ++ str! "]"

/-- Text of a game definition file: name, includes, definitions. -/
def FileText (checks : Bool) (g : Forge.GameData F) (t : Str) : Prop :=
  ∃ blocks, List.Forall₂ (DefinitionText checks) g.definitions blocks ∧
    t = str! "// " ++ g.name ++ str! "\n\n" ++
      (g.includes.map fun i => str! "@include \"" ++ i ++ str! "\"\n").flatten ++ str! "\n" ++
      (blocks.map fun b => b ++ str! "\n\n").flatten

/-- What the text of a metadata entry shows of it is the same for both. -/
def SameMetadata : Forge.Metadata F → Forge.Metadata F → Prop
  | .base cs, .base ds => (cs.dropWhile fun c => c.isEmpty) = ds.dropWhile fun c => c.isEmpty
  | .color a, .color b => Arith.toI32 (Arith.mul a.r Arith.c255) = Arith.toI32 (Arith.mul b.r Arith.c255) ∧
      Arith.toI32 (Arith.mul a.g Arith.c255) = Arith.toI32 (Arith.mul b.g Arith.c255) ∧
      Arith.toI32 (Arith.mul a.b Arith.c255) = Arith.toI32 (Arith.mul b.b Arith.c255)
  | .size a b, .size a' b' => Arith.disp a.x = Arith.disp a'.x ∧ Arith.disp a.y = Arith.disp a'.y ∧
      Arith.disp a.z = Arith.disp a'.z ∧ Arith.disp b.x = Arith.disp b'.x ∧ Arith.disp b.y = Arith.disp b'.y ∧
      Arith.disp b.z = Arith.disp b'.z
  | _, _ => False

end
end Quarch.Spec
