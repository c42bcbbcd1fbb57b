import Verif.Model.Arith
/-
/repo/src/game_data/types/*.rs and /repo/src/game_data/forge/*.rs
-/
namespace Quarch

/-! ### /repo/src/game_data/types -/

/-- `/repo/src/game_data/types/entity_type.rs:1-6` -/
inductive EntityType where
  | placeholder
  | cls (name : Str)
  | prefab (name : Str)
deriving DecidableEq, Repr

/-- `Into<i64> for EntityType`, `/repo/src/game_data/types/entity_type.rs:18-26`. -/
def EntityType.toCode : EntityType → Int
  | .placeholder => 0
  | .cls _ => 1
  | .prefab _ => 2

/-- `/repo/src/game_data/types/component_type.rs:1-5` -/
inductive ComponentType where
  | none
  | script (name : Str)
deriving DecidableEq, Repr

/-- `Into<i64> for ComponentType`, `/repo/src/game_data/types/component_type.rs:7-14`. -/
def ComponentType.toCode : ComponentType → Int
  | .none => 0
  | .script _ => 1

/-- `/repo/src/game_data/types/visual_type.rs:1-5` -/
inductive VisualType where
  | none
  | mesh
deriving DecidableEq, Repr

/-- `Into<i64> for VisualType`, `/repo/src/game_data/types/visual_type.rs:7-14`. -/
def VisualType.toCode : VisualType → Int
  | .none => 0
  | .mesh => 1

/-- `From<i64> for VisualType`, `/repo/src/game_data/types/visual_type.rs:16-24`. -/
def VisualType.ofCode (i : Int) : Outcome VisualType :=
  if i = 0 then .ok .none else if i = 1 then .ok .mesh else .panic "Invalid visual type"

/-- `/repo/src/game_data/types/collision_type.rs:1-6` -/
inductive CollisionType where
  | none
  | convex
  | concave
deriving DecidableEq, Repr

/-- `Into<i64> for CollisionType`, `/repo/src/game_data/types/collision_type.rs:8-16`. -/
def CollisionType.toCode : CollisionType → Int
  | .none => 0
  | .convex => 1
  | .concave => 2

/-- `From<i64> for CollisionType`, `/repo/src/game_data/types/collision_type.rs:18-27`. -/
def CollisionType.ofCode (i : Int) : Outcome CollisionType :=
  if i = 0 then .ok .none else if i = 1 then .ok .convex else if i = 2 then .ok .concave
  else .panic "Invalid collision type"

/-- `/repo/src/game_data/types/point_data.rs:3-8` -/
inductive PropertyApplicationType where
  | properties
  | dictionary
  | metadata
deriving DecidableEq, Repr

/-- `Property`, `/repo/src/game_data/types/properties.rs:6-17`. -/
inductive PropVal (F : Type) where
  | integer (i : Int)
  | float (f : F)
  | vector3 (v : V3 F)
  | string (s : Str)
  | color (c : Color F)
  | choices (i : Int)
  | flags (i : Int)
  | targetSource
  | targetDestination
deriving DecidableEq, Repr

/-- `Properties`, `/repo/src/game_data/types/properties.rs:19-20`. -/
abbrev Properties (F : Type) := Map Str (PropVal F)

/-- `/repo/src/game_data/types/point_data.rs:10-16` -/
structure PointData (F : Type) where
  entityType : EntityType
  componentType : ComponentType
  propertyApplicationType : PropertyApplicationType
  properties : Properties F

/-- `/repo/src/game_data/types/brush_data.rs:3-7` -/
structure BrushData where
  visualType : VisualType
  collisionType : CollisionType
deriving DecidableEq, Repr

/-- `/repo/src/game_data/types/entity.rs:6-10` -/
inductive EntityData (F : Type) where
  | point (p : PointData F)
  | brush (p : PointData F) (b : BrushData)

/-- The point data present in either variant, `scene_tree/mod.rs:208-209, 231-232, 260-261`. -/
def EntityData.pointData {F : Type} : EntityData F → PointData F
  | .point p => p
  | .brush p _ => p

/-- `game_data::Entity`, `/repo/src/game_data/types/entity.rs:12-16`. -/
structure EntityDef (F : Type) where
  classname : Str
  data : EntityData F

/-- `/repo/src/game_data/types/worldspawn_layer.rs:3-11` -/
structure WorldspawnLayer where
  name : Str
  texture : Str
  entityType : EntityType
  componentType : ComponentType
  visualType : VisualType
  collisionType : CollisionType
deriving DecidableEq, Repr

/-- `/repo/src/game_data/types/game_data.rs:1-5` -/
structure GameData (F : Type) where
  entities : List (EntityDef F)
  worldspawnLayers : List WorldspawnLayer

/-! ### /repo/src/game_data/forge -/

namespace Forge

/-- `/repo/src/game_data/forge/choice.rs:3-8` -/
inductive ChoiceData (F : Type) where
  | integer (i : Int)
  | float (f : F)
  | string (s : Str)
deriving DecidableEq, Repr

/-- `/repo/src/game_data/forge/choice.rs:20-24` -/
structure Choice (F : Type) where
  name : Str
  value : ChoiceData F
deriving DecidableEq, Repr

/-- `PropertyData`, `/repo/src/game_data/forge/property.rs:4-15`. -/
inductive PropertyData (F : Type) where
  | integer (i : Int)
  | float (f : F)
  | vector3 (v : V3 F)
  | string (s : Str)
  | color (c : Color F)
  | choices (cs : List (Choice F)) (default : Int)
  | flags (fs : List Str) (default : Int)
  | targetSource
  | targetDestination
deriving DecidableEq, Repr

/-- `Property`, `/repo/src/game_data/forge/property.rs:17-23`. -/
structure Property (F : Type) where
  name : Str
  shortDescription : Str
  longDescription : Str
  data : PropertyData F
deriving DecidableEq, Repr

/-- `/repo/src/game_data/forge/metadata.rs:4-9` -/
inductive Metadata (F : Type) where
  | base (classes : List Str)
  | color (c : Color F)
  | size (min max : V3 F)
deriving DecidableEq, Repr

/-- `From<Metadata> for i32`, `/repo/src/game_data/forge/metadata.rs:25-33`. -/
def Metadata.toCode {F : Type} : Metadata F → Int
  | .base _ => 0
  | .color _ => 1
  | .size _ _ => 2

/-- `/repo/src/game_data/forge/entity.rs:3-8` -/
inductive ClassType where
  | baseClass
  | pointClass
  | solidClass
deriving DecidableEq, Repr

/-- `Into<i64> for ClassType`, `/repo/src/game_data/forge/entity.rs:10-18`. -/
def ClassType.toCode : ClassType → Int
  | .baseClass => 0
  | .pointClass => 1
  | .solidClass => 2

/-- `From<i64> for ClassType`, `/repo/src/game_data/forge/entity.rs:20-29`. -/
def ClassType.ofCode (i : Int) : Outcome ClassType :=
  if i = 0 then .ok .baseClass else if i = 1 then .ok .pointClass else if i = 2 then .ok .solidClass
  else .panic "Unexpected class type"

/-- `forge::Entity`, `/repo/src/game_data/forge/entity.rs:31-38`. -/
structure Entity (F : Type) where
  classType : ClassType
  metadata : List (Metadata F)
  className : Str
  description : Str
  properties : List (Property F)
deriving DecidableEq, Repr

/-- `PartialEq for Entity`, `/repo/src/game_data/forge/entity.rs:46-50`. -/
def Entity.beq {F : Type} (a b : Entity F) : Bool := a.className == b.className

/-- `forge::GameData`, `/repo/src/game_data/forge/game_data.rs:3-8`. -/
structure GameData (F : Type) where
  name : Str
  includes : List Str
  definitions : List (Entity F)
deriving DecidableEq, Repr

section
variable {F : Type} [Arith F]

/-- `Display for ChoiceData`, `/repo/src/game_data/forge/choice.rs:10-18`. -/
def ChoiceData.display : ChoiceData F → Str
  | .integer i => showInt i
  | .float f => Arith.disp f
  | .string s => s

/-- `Choice::to_string`, `/repo/src/game_data/forge/choice.rs:55-64`. -/
def Choice.toStr (c : Choice F) : Str :=
  let value := match c.value with
    | .integer i => showInt i
    | .float f => Arith.disp f
    | .string s => str! "\"" ++ s ++ str! "\""
  value ++ str! " : \"" ++ c.name ++ str! "\""

/-- `2_i32.pow(i as u32)`, `/repo/src/game_data/forge/property.rs:109`: overflows from `i = 31` on;
without overflow checks the result wraps (`2^31` to `i32::MIN`, larger powers to 0). -/
def pow2I32 (checks : Bool) (i : Nat) : Outcome Int :=
  if i < 31 then .ok (2 ^ i)
  else if checks then .panic "attempt to multiply with overflow"
  else .ok (if i = 31 then -2147483648 else 0)

/-- `a & b` on `i32` (two's complement). -/
def andI32 (a b : Int) : Int := (BitVec.ofInt 32 a &&& BitVec.ofInt 32 b).toInt

/-- One line of the flags table, `/repo/src/game_data/forge/property.rs:108-116`. -/
def flagLine (checks : Bool) (default : Int) (i : Nat) (name : Str) : Outcome Str :=
  (pow2I32 checks i).bind fun bit =>
  .ok (str! "\t\t" ++ showInt bit ++ str! " : \"" ++ name ++ str! "\" : " ++
    showInt (if andI32 default bit > 0 then 1 else 0) ++ str! "\n")

/-- The fold over `flags.iter().enumerate()`, `/repo/src/game_data/forge/property.rs:104-116`. -/
def flagLines (checks : Bool) (default : Int) (start : Nat) : List Str → Outcome Str
  | [] => .ok []
  | f :: fs =>
    (flagLine checks default start f).bind fun line =>
    (flagLines checks default (start + 1) fs).bind fun rest => .ok (line ++ rest)

/-- `choices[*default as usize]`, `/repo/src/game_data/forge/property.rs:99`: a negative default becomes
a huge index. -/
def choiceAt (cs : List (Choice F)) (default : Int) : Outcome (Choice F) :=
  match default with
  | .ofNat n => match cs[n]? with
    | some c => .ok c
    | none => .panic "index out of bounds"
  | .negSucc _ => .panic "index out of bounds"

/-- The common layout `name(kind) : "short" : default : "long"`,
`/repo/src/game_data/forge/property.rs:62-89, 119-126`. -/
def propertyLine (p : Property F) (kind default : Str) : Str :=
  p.name ++ str! "(" ++ kind ++ str! ") : \"" ++ p.shortDescription ++ str! "\" : " ++ default ++
    str! " : \"" ++ p.longDescription ++ str! "\""

/-- `Property::to_string`, `/repo/src/game_data/forge/property.rs:59-129`. -/
def Property.toStr (checks : Bool) (p : Property F) : Outcome Str :=
  match p.data with
  | .integer i => .ok (propertyLine p (str! "integer") (showInt i))
  | .float f => .ok (propertyLine p (str! "float") (Arith.disp f))
  | .vector3 v => .ok (propertyLine p (str! "string")
      (str! "\"" ++ Arith.disp v.x ++ str! " " ++ Arith.disp v.y ++ str! " " ++ Arith.disp v.z ++ str! "\""))
  | .string s => .ok (propertyLine p (str! "string") (str! "\"" ++ s ++ str! "\""))
  | .color c => .ok (propertyLine p (str! "color255") (str! "\"" ++ c.toStr ++ str! "\""))
  | .choices cs default =>
    let choicesString := (cs.map fun c => str! "\t\t" ++ c.toStr ++ str! "\n").flatten
    (choiceAt cs default).bind fun c =>
    .ok (p.name ++ str! "(choices) : \"" ++ p.shortDescription ++ str! "\" : \"" ++ c.value.display ++
      str! "\" =\n\t[\n" ++ choicesString ++ str! "\t]")
  | .flags fs default =>
    (flagLines checks default 0 fs).bind fun flagsString =>
    .ok (p.name ++ str! "(flags) =\n\t[\n" ++ flagsString ++ str! "\t]")
  | .targetSource => .ok (p.name ++ str! "(target_source) : \"" ++ p.shortDescription ++
      str! "\" : : \"" ++ p.longDescription ++ str! "\"")
  | .targetDestination => .ok (p.name ++ str! "(target_destination) : \"" ++ p.shortDescription ++
      str! "\" : : \"" ++ p.longDescription ++ str! "\"")

/-- The fold joining base class names, `/repo/src/game_data/forge/metadata.rs:40-46`. -/
def joinBase (classes : List Str) : Str :=
  classes.foldl (fun acc next => (if acc.isEmpty then acc else acc ++ str! ", ") ++ next) []

/-- `Metadata::to_string`, `/repo/src/game_data/forge/metadata.rs:35-56`. -/
def Metadata.toStr : Metadata F → Str
  | .base classes => str! "base(" ++ joinBase classes ++ str! ")"
  | .color c => str! "color(" ++ c.toStr ++ str! ")"
  | .size min max => str! "size(" ++
      (Arith.disp min.x ++ str! ", " ++ Arith.disp min.y ++ str! ", " ++ Arith.disp min.z) ++ str! ", " ++
      (Arith.disp max.x ++ str! ", " ++ Arith.disp max.y ++ str! ", " ++ Arith.disp max.z) ++ str! ")"

/-- Class keyword, `/repo/src/game_data/forge/entity.rs:94-98`. -/
def ClassType.keyword : ClassType → Str
  | .baseClass => str! "@BaseClass"
  | .pointClass => str! "@PointClass"
  | .solidClass => str! "@SolidClass"

/-- `Entity::to_string`, `/repo/src/game_data/forge/entity.rs:92-113`. -/
def Entity.toStr (checks : Bool) (e : Entity F) : Outcome Str :=
  let metadata := (e.metadata.map fun m => m.toStr ++ str! " ").flatten
  (mapOut (fun p => (Property.toStr checks p).bind fun s => .ok (str! "\t" ++ s ++ str! "\n"))
    e.properties).bind fun props =>
  .ok (e.classType.keyword ++ str! " " ++ metadata ++ str! "= " ++ e.className ++ str! " : \"" ++
    e.description ++ str! "\"\n[\n" ++ props.flatten ++ str! "]")

/-- `GameData::to_string`, `/repo/src/game_data/forge/game_data.rs:39-51`. -/
def GameData.toStr (checks : Bool) (g : GameData F) : Outcome Str :=
  (mapOut (fun e => (Entity.toStr checks e).bind fun s => .ok (s ++ str! "\n\n")) g.definitions).bind
    fun entities =>
  let includes := (g.includes.map fun i => str! "@include \"" ++ i ++ str! "\"\n").flatten
  .ok (str! "// " ++ g.name ++ str! "\n\n" ++ includes ++ str! "\n" ++ entities.flatten)

end
end Forge
end Quarch
