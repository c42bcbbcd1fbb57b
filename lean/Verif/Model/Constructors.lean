import Verif.Model.SceneTree
import Verif.Model.Wad
/-
Constructors and `Default` implementations. Elsewhere the model builds these values directly.
-/
namespace Quarch

section
variable {F : Type} [Arith F]

/-- `EntityType::class`, `/repo/src/game_data/types/entity_type.rs:9-11`. -/
def EntityType.mkClass (className : Str) : EntityType := .cls className
/-- `EntityType::prefab`, `/repo/src/game_data/types/entity_type.rs:13-15`. -/
def EntityType.mkPrefab (prefabName : Str) : EntityType := .prefab prefabName

/-- `Properties::default`, `/repo/src/game_data/types/properties.rs:28-32`. -/
def Properties.default : Properties F := Map.empty

/-- `PointData::default`, `/repo/src/game_data/types/point_data.rs:34-48`. -/
def PointData.default : PointData F := ⟨.placeholder, .none, .properties, Properties.default⟩

/-- `BrushData::default`, `/repo/src/game_data/types/brush_data.rs:18-28`. -/
def BrushData.default : BrushData := ⟨.none, .none⟩

/-- `Entity::point`, `/repo/src/game_data/types/entity.rs:19-28`. -/
def EntityDef.mkPoint (classname : Str) (entityType : EntityType) (componentType : ComponentType)
    (propertyApplicationType : PropertyApplicationType) (properties : Properties F) : EntityDef F :=
  ⟨classname, .point ⟨entityType, componentType, propertyApplicationType, properties⟩⟩

/-- `Entity::brush`, `/repo/src/game_data/types/entity.rs:30-51`. -/
def EntityDef.mkBrush (classname : Str) (entityType : EntityType) (componentType : ComponentType)
    (propertyApplicationType : PropertyApplicationType) (properties : Properties F) (visualType : VisualType)
    (collisionType : CollisionType) : EntityDef F :=
  ⟨classname, .brush ⟨entityType, componentType, propertyApplicationType, properties⟩ ⟨visualType, collisionType⟩⟩

/-- `WorldspawnLayer::default`, `/repo/src/game_data/types/worldspawn_layer.rs:33-51`. -/
def WorldspawnLayer.default : WorldspawnLayer :=
  ⟨str! "Worldspawn Layer", str! "", .cls (str! ""), .none, .mesh, .concave⟩

/-- `Color::default`, `/repo/src/types/color.rs:14-21`. -/
def Color.default : Color F := ⟨Arith.one, Arith.one, Arith.one⟩

namespace Forge

/-- `Choice::integer`, `/repo/src/game_data/forge/choice.rs:27-31`. -/
def Choice.mkInteger (name : Str) (value : Int) : Choice F := ⟨name, .integer value⟩
/-- `Choice::float`, `/repo/src/game_data/forge/choice.rs:33-37`. -/
def Choice.mkFloat (name : Str) (value : F) : Choice F := ⟨name, .float value⟩
/-- `Choice::string`, `/repo/src/game_data/forge/choice.rs:39-43`. -/
def Choice.mkString (name value : Str) : Choice F := ⟨name, .string value⟩
/-- `Choice::default`, `/repo/src/game_data/forge/choice.rs:46-53`. -/
def Choice.default : Choice F := ⟨[], .integer 0⟩

/-- `Metadata::base`, `/repo/src/game_data/forge/metadata.rs:12-14`. -/
def Metadata.mkBase (classes : List Str) : Metadata F := .base classes
/-- `Metadata::color`, `/repo/src/game_data/forge/metadata.rs:16-18`. -/
def Metadata.mkColor (color : Color F) : Metadata F := .color color
/-- `Metadata::size`, `/repo/src/game_data/forge/metadata.rs:20-22`. -/
def Metadata.mkSize (min max : V3 F) : Metadata F := .size min max

/-- `Property::new`, `/repo/src/game_data/forge/property.rs:26-41`. -/
def Property.new (name shortDescription longDescription : Str) (data : PropertyData F) : Property F :=
  ⟨name, shortDescription, longDescription, data⟩
/-- `Property::default`, `/repo/src/game_data/forge/property.rs:44-57`. -/
def Property.default : Property F := ⟨[], [], [], .integer 0⟩

/-- `Entity::new`, `/repo/src/game_data/forge/entity.rs:53-69`. -/
def Entity.new (classType : ClassType) (metadata : List (Metadata F)) (className description : Str)
    (properties : List (Property F)) : Entity F := ⟨classType, metadata, className, description, properties⟩
/-- `Entity::default`, `/repo/src/game_data/forge/entity.rs:74-90`. -/
def Entity.default : Entity F := ⟨.baseClass, [], [], [], []⟩

/-- `Hash for Entity`, `/repo/src/game_data/forge/entity.rs:40-44`: only the class name is fed to the hasher. -/
def Entity.hash {H : Type} (hashName : Str → H → H) (e : Entity F) (state : H) : H := hashName e.className state

/-- `GameData::new`, `/repo/src/game_data/forge/game_data.rs:11-17`. -/
def GameData.new (name : Str) (includes : List Str) (definitions : List (Entity F)) : GameData F :=
  ⟨name, includes, definitions⟩
/-- `GameData::default`, `/repo/src/game_data/forge/game_data.rs:25-37`. -/
def GameData.default : GameData F := ⟨[], [], []⟩

end Forge

namespace Scene

/-- `Actor::new` and `SceneTreeNode::entity`, `/repo/src/scene_tree/types/actor.rs:12-28`,
`/repo/src/scene_tree/types/scene_tree.rs:20-36`. -/
def Node.mkEntity (name : Str) (origin : V3 F) (actorType : EntityType) (componentClass : Option Str)
    (propertyApplicationType : PropertyApplicationType) (properties : Properties F) (children : List (Node F)) :
    Node F :=
  .actor origin ⟨name, actorType, componentClass, propertyApplicationType, properties⟩ children

end Scene
end

namespace Wad

/-- `Header::default`, `/repo/src/wad/header.rs:10-18`. -/
def Header.default : Header := ⟨[Char.ofNat 0, Char.ofNat 0, Char.ofNat 0, Char.ofNat 0], 0, 0⟩

/-- `Entry::default`, `/repo/src/wad/entry.rs:17-28`. -/
def Entry.default : Entry := ⟨0, 0, 0, Char.ofNat 0, 0, []⟩

end Wad
end Quarch
