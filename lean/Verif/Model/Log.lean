import Verif.Model.Output
/-
What `run` (/repo/src/lib.rs:55-86) writes to the standard output and the standard error while it works. The functions
of the load are repeated here with their `println!` and `eprintln!` calls; C94 proves that they return what the functions
of the model return.
-/
namespace Quarch.Output

/-- A line written by `println!` or by `eprintln!`. -/
inductive LogLine where
  | out (s : Str)
  | err (s : Str)
deriving DecidableEq, Repr

/-- What was written, in order, and how the call ended. -/
abbrev Logged (α : Type) := List LogLine × Outcome α

/-- Sequencing: what is written before a call fails stays written. -/
def Logged.bind {α β : Type} (x : Logged α) (f : α → Logged β) : Logged β :=
  match x.2 with
  | .ok a => (x.1 ++ (f a).1, (f a).2)
  | .err e => (x.1, .err e)
  | .panic m => (x.1, .panic m)
  | .overflow => (x.1, .overflow)

/-- `println!`. -/
def say (s : Str) : Logged Unit := ([.out s], .ok ())

/-- A call that writes nothing. -/
def quiet {α : Type} (x : Outcome α) : Logged α := ([], x)

/-- `mapOut` for calls that write. -/
def mapLog {α β : Type} (f : α → Logged β) : List α → Logged (List β)
  | [] => quiet (.ok [])
  | x :: xs => (f x).bind fun y => (mapLog f xs).bind fun ys => quiet (.ok (y :: ys))

section
variable {F : Type} [Arith F]

/-- Derived `Debug` of `VisualType`, `/repo/src/game_data/types/visual_type.rs:1-5`. -/
def debugVisualType : VisualType → Str
  | .none => str! "None"
  | .mesh => str! "Mesh"

/-- `println!` of `/repo/src/scene_tree/mod.rs:473, 618`. -/
def undefinedLine (style : DebugStyle) (classname : Str) : Str :=
  str! "No entity definition for classname " ++ debugStr style classname

/-- `get_entity_visual_geometry` and `get_brush_entity_visual_geometry`, `/repo/src/scene_tree/mod.rs:452-537`. -/
def entityVisualLog (style : DebugStyle) (gd : GameData F) (bl : TextureBlacklist) (entity : Entity F)
    (g : EntityGeo F) : Logged (VisualGeometry F) :=
  match entity.properties.get? (str! "classname") with
  | some classname => match Scene.findDef gd classname with
    | some d => match d.data with
      | .point _ => quiet (.ok .none)
      | .brush _ brushData =>
        (say (str! "Visual type: " ++ debugVisualType brushData.visualType)).bind fun _ =>
        quiet (Scene.brushVisual entity g brushData bl)
    | none => (say (undefinedLine style classname)).bind fun _ => quiet (.ok .none)
  | none => quiet (.panic "No classname in entity")

/-- Dispatch on the collision type, `/repo/src/scene_tree/mod.rs:626-630, 563-567`, with the `println!` of
`get_entity_concave_collision`, line 674. -/
def collisionLog (ct : CollisionType) (g : EntityGeo F) : Logged (CollisionGeometry F) :=
  match ct with
  | .convex => quiet (.ok (Scene.convexCollision g))
  | .concave => (say (str! "Gathering concave collision geometry")).bind fun _ => quiet (Scene.concaveCollision g)
  | .none => quiet (.ok .none)

/-- `get_entity_collision_geometry`, `/repo/src/scene_tree/mod.rs:599-631`. -/
def entityCollisionLog (style : DebugStyle) (gd : GameData F) (entity : Entity F) (g : EntityGeo F) :
    Logged (CollisionGeometry F) :=
  match entity.properties.get? (str! "classname") with
  | some classname => match Scene.findDef gd classname with
    | some d => match d.data with
      | .point _ => quiet (.ok .none)
      | .brush _ brushData => collisionLog brushData.collisionType g
    | none => (say (undefinedLine style classname)).bind fun _ => quiet (.ok .none)
  | none => quiet (.panic "No classname in entity")

/-- Derived `Debug` of `Option<&String>`. -/
def debugOption (style : DebugStyle) : Option Str → Str
  | some s => str! "Some(" ++ debugStr style s ++ str! ")"
  | none => str! "None"

/-- `get_entity_properties`, `/repo/src/scene_tree/mod.rs:272-398`, with the `eprintln!` of line 286. -/
def entityPropertiesLog (style : DebugStyle) (fgd : Forge.GameData F) (entity : Entity F) : Logged (Properties F) :=
  let classname := entity.properties.get? (str! "classname")
  match fgd.definitions.find? fun d => some d.className == classname with
  | none => ([.err (str! "Failed to get forge entity for classname " ++ debugOption style classname)], .ok Map.empty)
  | some _ => quiet (Scene.entityProperties fgd entity)

/-- `build_entity`, `/repo/src/scene_tree/mod.rs:70-124`. -/
def buildEntityLog (style : DebugStyle) (gd : GameData F) (fgd : Forge.GameData F) (bl : TextureBlacklist)
    (entityData : List (Entity F × EntityGeo F)) :
    Nat → V3 F → Entity F × EntityGeo F → Logged (Node F)
  | 0, _, _ => quiet .overflow
  | depth + 1, origin, (entity, g) =>
    (entityVisualLog style gd bl entity g).bind fun v =>
    (entityCollisionLog style gd entity g).bind fun c =>
    (mapLog (fun child => buildEntityLog style gd fgd bl entityData depth (V3.neg g.center) child)
      ((entityData.drop 1).filter fun child => Scene.inGroup entity child.1)).bind fun childEntities =>
    (quiet (Outcome.unwrap (entity.properties.get? (str! "classname")))).bind fun name =>
    (entityPropertiesLog style fgd entity).bind fun props =>
    quiet (.ok (.actor (V3.add origin g.center)
      { name := name
        entityType := Scene.entityType gd entity
        componentClass := Scene.entityComponentClass gd entity
        propertyApplicationType := Scene.entityPropertyApplicationType gd entity
        properties := props }
      (Scene.visualChildren g.center v ++ Scene.collisionChildren g.center c ++ childEntities)))

/-- `build_worldspawn_layer`, `/repo/src/scene_tree/mod.rs:126-192`. The collision geometry is computed a second time if
it is not `None` (line 168). -/
def buildLayerLog (style : DebugStyle) (gd : GameData F) (entry : Str × List (BrushGeo F)) :
    Logged (Option (Node F)) :=
  match gd.worldspawnLayers.filter fun l => l.texture == entry.1 with
  | [layer] =>
    (quiet (Scene.layerVisual layer entry.1 entry.2)).bind fun v =>
    (collisionLog layer.collisionType ⟨V3.zero, entry.2⟩).bind fun c =>
    (match c with
      | .none => quiet (.ok CollisionGeometry.none)
      | _ => collisionLog layer.collisionType ⟨V3.zero, entry.2⟩).bind fun c =>
    let children := Scene.visualChildren V3.zero v ++ Scene.collisionChildren V3.zero c
    if children.isEmpty then quiet (.ok none)
    else quiet (.ok (some (.actor V3.zero
      { name := layer.name
        entityType := layer.entityType
        componentClass := Scene.componentClass layer.componentType
        propertyApplicationType := .properties
        properties := Map.empty } children)))
  | _ => (say (str! "Worldspawn layer data for texture " ++ debugStr style entry.1 ++ str! " is not a singleton")).bind
      fun _ => quiet (.ok none)

/-- `scene_tree::run`, `/repo/src/scene_tree/mod.rs:22-68`. -/
def sceneLog (style : DebugStyle) (depth : Nat) (gd : GameData F) (fgd : Forge.GameData F) (bl : TextureBlacklist)
    (entityData : List (Entity F × EntityGeo F)) (layers : List (Str × List (BrushGeo F))) : Logged (List (Node F)) :=
  (say (str! "TODO-2: Implement godot group assignment")).bind fun _ =>
  (say (str! "TODO-1: Make TB groups optional")).bind fun _ =>
  (say (str! "TODO-1: Implement group node type assignment")).bind fun _ =>
  (mapLog (buildEntityLog style gd fgd bl entityData depth V3.zero) (entityData.take 1)).bind fun ws =>
  (mapLog (buildLayerLog style gd) layers).bind fun ls =>
  (mapLog (buildEntityLog style gd fgd bl entityData depth V3.zero)
    ((entityData.drop 1).filter fun d => (d.1.properties.get? (str! "_tb_group")).isNone)).bind fun es =>
  quiet (.ok (ws ++ ls.filterMap id ++ es))

/-- `layer_filter::run`, `/repo/src/layer_filter/mod.rs:5-64`, with the `println!` of lines 48-52. -/
def layerFilterLog (entityData : List (Entity F × EntityGeo F)) :
    Logged (List (Entity F × EntityGeo F) × List (Str × List (BrushGeo F))) :=
  let (ws, others) := entityData.partition fun d => LayerFilter.isWorldspawn d.1
  match ws with
  | [(entity, geo)] =>
    let (rest, layers) := LayerFilter.splitLayers LayerFilter.layerTextures geo.brushes
    (say (str! "Worldspawn Brush Geo: " ++ showNat rest.length ++ str! ", Worldspawn Layer Geo: " ++
      showNat layers.length)).bind fun _ =>
    quiet (.ok ((entity, { geo with brushes := rest }) :: others, layers))
  | _ => quiet (.panic "Worldspawn element not a singleton")

variable [Platform]

/-- `run`, `/repo/src/lib.rs:55-86`, on the bytes of the map file: what is written and how it ends. (`println!` of
`lib.rs:56, 59`, `tokenizer.rs:44`, `parser.rs:117`, `geo_builder/mod.rs:9`.) -/
def runLog (style : DebugStyle) (depth : Nat)
    (order : List (Str × List (BrushGeo F)) → List (Str × List (BrushGeo F)))
    (file : Option (List UInt8)) (config : Config F) : Logged (List (Node F)) :=
  (say (str! "TODO-3: Profile performance cost centers against ad_sepulcher.map, multithread with rayon")).bind fun _ =>
  (say (str! "Parse map")).bind fun _ =>
  (quiet (match readToString file with | some text => .ok text | none => .err .io)).bind fun text =>
  (say (str! "TODO-3: Rewrite with nom")).bind fun _ =>
  (quiet (Tokenizer.run Platform.bareCR text)).bind fun tokens =>
  (say (str! "TODO-3: Rewrite with nom")).bind fun _ =>
  (quiet (Parser.run tokens)).bind fun (_, entities) =>
  (say (str! "Running geo builder")).bind fun _ =>
  (quiet (Geo.run config.textureInfo entities)).bind fun geometry =>
  (layerFilterLog (entities.zip geometry)).bind fun (entityData, layers) =>
  sceneLog style depth config.quarchitectGameData config.forgeGameData config.textureBlacklist entityData (order layers)

end
end Quarch.Output
