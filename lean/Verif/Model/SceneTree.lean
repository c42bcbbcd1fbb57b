import Verif.Model.GeoBuilder
import Verif.Model.GameData
/-
/repo/src/scene_tree/**
-/
namespace Quarch

/-- `MeshSurface`, `/repo/src/scene_tree/types/visual_geometry.rs:22-31`. -/
structure MeshSurface (F : Type) where
  texture : Option Str
  vertices : List (V3 F)
  normals : List (V3 F)
  tangents : List (V3 F × F)
  uvs : Option (List (V2 F))
  colors : Option (List (Color F))
  indices : List Nat
deriving DecidableEq, Repr

/-- `VisualGeometry` with `VisualMesh`, `/repo/src/scene_tree/types/visual_geometry.rs:5-20`. -/
inductive VisualGeometry (F : Type) where
  | none
  | mesh (surfaces : List (MeshSurface F))
deriving DecidableEq, Repr

/-- `ConvexCollision`, `/repo/src/scene_tree/types/collision_geometry.rs:20-24`. -/
structure ConvexCollision (F : Type) where
  center : V3 F
  points : List (V3 F)
deriving DecidableEq, Repr

/-- `ConcaveCollision`, `/repo/src/scene_tree/types/collision_geometry.rs:32-37`. -/
structure ConcaveCollision (F : Type) where
  center : V3 F
  vertices : List (V3 F)
  indices : List Nat
deriving DecidableEq, Repr

/-- `CollisionGeometry`, `/repo/src/scene_tree/types/collision_geometry.rs:3-8`. -/
inductive CollisionGeometry (F : Type) where
  | none
  | convex (shapes : List (ConvexCollision F))
  | concave (shapes : List (ConcaveCollision F))
deriving DecidableEq, Repr

/-- `Actor`, `/repo/src/scene_tree/types/actor.rs:3-10`. -/
structure Actor (F : Type) where
  name : Str
  entityType : EntityType
  componentClass : Option Str
  propertyApplicationType : PropertyApplicationType
  properties : Properties F

/-- `SceneTreeNode` with `SceneTreeType`, `/repo/src/scene_tree/types/scene_tree.rs:7-18`: every node has
an origin and is an actor with children, visual geometry or collision geometry. -/
inductive Node (F : Type) where
  | actor (origin : V3 F) (a : Actor F) (children : List (Node F))
  | visual (origin : V3 F) (v : VisualGeometry F)
  | collision (origin : V3 F) (c : CollisionGeometry F)

namespace Scene
section
variable {F : Type} [Arith F]

/-! ### predicates, `/repo/src/scene_tree/predicates` -/

/-- `predicates::brush::not_blacklisted`, `/repo/src/scene_tree/predicates/brush.rs:3-19`. -/
def brushNotBlacklisted (bl : TextureBlacklist) (b : BrushGeo F) : Bool :=
  b.planes.any fun plane => match plane.texture with
    | some texture => !bl.isBlacklistedBrush texture
    | none => true

/-- `predicates::plane::has_texture`, `/repo/src/scene_tree/predicates/plane.rs:1-7`. -/
def hasTexture (texture : Option Str) (p : PlaneGeo F) : Bool := p.texture == texture

/-- `position.is_none() || position.unwrap() >= i`, `/repo/src/scene_tree/predicates/vertex.rs:12, 20`. -/
def noneOrGe (position : Option Nat) (i : Nat) : Bool :=
  match position with
  | none => true
  | some k => i ≤ k

/-- All attributes equal, `/repo/src/scene_tree/predicates/vertex.rs:5-9`. -/
def sameVertex (comp vertex : Vertex F) : Bool :=
  V3.beq comp.pos vertex.pos && V3.beq comp.normal vertex.normal && tanBeq comp.tangent vertex.tangent &&
  optBeq V2.beq comp.uv vertex.uv && optBeq Color.beq comp.color vertex.color

/-- Positions equal, `/repo/src/scene_tree/predicates/vertex.rs:18`, `scene_tree/mod.rs:799`. -/
def samePos (comp vertex : Vertex F) : Bool := V3.beq comp.pos vertex.pos

/-- `predicates::vertex::unique`, `/repo/src/scene_tree/predicates/vertex.rs:3-13`. -/
def vertexUnique (i : Nat) (vertex : Vertex F) (vertices : List (Vertex F)) : Bool :=
  noneOrGe (vertices.findIdx? fun comp => sameVertex comp vertex) i

/-- `predicates::vertex::unique_position`, `/repo/src/scene_tree/predicates/vertex.rs:15-21`. -/
def vertexUniquePosition (i : Nat) (vertex : Vertex F) (vertices : List (Vertex F)) : Bool :=
  noneOrGe (vertices.findIdx? fun comp => samePos comp vertex) i

/-- Textures surviving `predicates::texture::unique_not_blacklisted`,
`/repo/src/scene_tree/predicates/texture.rs:3-24` applied by `scene_tree/mod.rs:501-513`: those that do not
occur again later and are not on the face blacklist. The enumeration with `skip(i + 1)` is the recursion
over tails. -/
def uniqueTextures (bl : TextureBlacklist) : List Str → List Str
  | [] => []
  | t :: rest =>
    (if (rest.find? fun comp => comp == t).isNone && !bl.isBlacklistedPlane t then [t] else []) ++
      uniqueTextures bl rest

/-! ### gathering geometry, `/repo/src/scene_tree/mod.rs:696-815` -/

/-- A vertex predicate of `filter_vertices`. -/
abbrev VertexPred (F : Type) := Nat → Vertex F → List (Vertex F) → Bool

/-- Mutable variables of `filter_vertices`, `/repo/src/scene_tree/mod.rs:788-790`. -/
structure FilterState (F : Type) where
  indices : List Nat
  newIndices : List Nat
  newVertices : List (Vertex F)

/-- Loop body of `filter_vertices`, `/repo/src/scene_tree/mod.rs:792-807`. -/
def filterStep (vertices : List (Vertex F)) (predicate : VertexPred F) (s : FilterState F)
    (iv : Vertex F × Nat) : Outcome (FilterState F) :=
  let vertex := iv.1
  let i := iv.2
  if predicate i vertex vertices then
    .ok { s with newIndices := s.newIndices ++ [i], newVertices := s.newVertices ++ [vertex] }
  else
    (Outcome.unwrap (vertices.findIdx? fun comp => samePos comp vertex)).bind fun position =>
    .ok { s with indices := s.indices.map fun index => if index = i then position else index }

/-- `filter_vertices`, `/repo/src/scene_tree/mod.rs:783-815`. -/
def filterVertices (vertices : List (Vertex F)) (indices : List Nat) (predicate : VertexPred F) :
    Outcome (List (Vertex F) × List Nat) :=
  (foldOut (filterStep vertices predicate) ⟨indices, [], []⟩ vertices.zipIdx).bind fun s =>
  .ok (s.newVertices, s.indices.filterMap fun index => s.newIndices.findIdx? fun comp => comp == index)

/-- Index lists concatenated with running offsets: the closures with `index_offset`,
`/repo/src/scene_tree/mod.rs:721-734` and `757-775`. Each part is (number of vertices, indices). -/
def offsetIndices : Nat → List (Nat × List Nat) → List Nat
  | _, [] => []
  | off, (n, is) :: rest => is.map (· + off) ++ offsetIndices (off + n) rest

/-- `gather_brush_geometry`, `/repo/src/scene_tree/mod.rs:739-781`. -/
def gatherBrush (b : BrushGeo F) (planePred : Option (PlaneGeo F → Bool))
    (vertexPred : Option (VertexPred F)) : Outcome (List (Vertex F) × List Nat) :=
  let pred := planePred.getD fun _ => true
  let planes := b.planes.filter pred
  let vertices := planes.flatMap (·.vertices)
  let indices := offsetIndices 0 (planes.map fun p => (p.vertices.length, p.indices))
  match vertexPred with
  | some vp => filterVertices vertices indices vp
  | none => .ok (vertices, indices)

/-- `gather_entity_geometry`, `/repo/src/scene_tree/mod.rs:696-737`. -/
def gatherEntity (g : EntityGeo F) (brushPred : Option (BrushGeo F → Bool))
    (planePred : Option (PlaneGeo F → Bool)) (vertexPred : Option (VertexPred F)) :
    Outcome (List (Vertex F) × List Nat) :=
  let pred := brushPred.getD fun _ => true
  (mapOut (fun b => gatherBrush b planePred vertexPred) (g.brushes.filter pred)).bind fun parts =>
  .ok (parts.flatMap (·.1), offsetIndices 0 (parts.map fun p => (p.1.length, p.2)))

/-- `iter.map(..).collect::<Option<Vec<_>>>()`. -/
def collectOption {α : Type} : List (Option α) → Option (List α)
  | [] => some []
  | none :: _ => none
  | some a :: rest => (collectOption rest).map (a :: ·)

/-! ### visual geometry -/

/-- `build_brush_entity_texture_surface`, `/repo/src/scene_tree/mod.rs:570-597`. -/
def textureSurface (g : EntityGeo F) (bl : TextureBlacklist) (texture : Option Str) :
    Outcome (Option (MeshSurface F)) :=
  (gatherEntity g (some (brushNotBlacklisted bl)) (some (hasTexture texture)) (some vertexUnique)).bind
    fun (vertices, indices) =>
  if vertices.isEmpty then .ok none
  else .ok (some {
    texture := texture
    vertices := vertices.map (·.pos)
    normals := vertices.map (·.normal)
    tangents := vertices.map (·.tangent)
    uvs := collectOption (vertices.map (·.uv))
    colors := collectOption (vertices.map (·.color))
    indices := indices })

/-- `get_brush_entity_visual_geometry`, `/repo/src/scene_tree/mod.rs:484-537`. -/
def brushVisual (entity : Entity F) (g : EntityGeo F) (brushData : BrushData) (bl : TextureBlacklist) :
    Outcome (VisualGeometry F) :=
  match brushData.visualType with
  | .mesh =>
    let textures := entity.brushes.flatMap fun b => b.planes.map (·.texture)
    let textures := (uniqueTextures bl textures).map some ++ [none]
    (mapOut (textureSurface g bl) textures).bind fun surfaces =>
    let surfaces := surfaces.filterMap id
    if surfaces.isEmpty then .ok .none else .ok (.mesh surfaces)
  | .none => .ok .none

/-- The first definition with the entity's classname, `/repo/src/scene_tree/mod.rs:201-204, 224-227,
253-256, 462-465, 607-610`. -/
def findDef (gd : GameData F) (classname : Str) : Option (EntityDef F) :=
  gd.entities.find? fun d => d.classname == classname

/-- `get_entity_visual_geometry`, `/repo/src/scene_tree/mod.rs:452-482`. -/
def entityVisual (gd : GameData F) (bl : TextureBlacklist) (entity : Entity F) (g : EntityGeo F) :
    Outcome (VisualGeometry F) :=
  match entity.properties.get? (str! "classname") with
  | some classname => match findDef gd classname with
    | some d => match d.data with
      | .point _ => .ok .none
      | .brush _ brushData => brushVisual entity g brushData bl
    | none => .ok .none
  | none => .panic "No classname in entity"

/-! ### collision geometry -/

/-- The dedupe of collision points, `/repo/src/scene_tree/mod.rs:649-664`: a point is kept if it does not
occur again later. -/
def uniquePoints : List (V3 F) → List (V3 F)
  | [] => []
  | v :: rest => (if (rest.find? fun comp => V3.beq v comp).isNone then [v] else []) ++ uniquePoints rest

/-- `get_entity_convex_collision`, `/repo/src/scene_tree/mod.rs:633-671`. -/
def convexCollision (g : EntityGeo F) : CollisionGeometry F :=
  .convex (g.brushes.map fun b =>
    let points := b.planes.flatMap fun p => p.vertices.map (·.pos)
    ⟨b.center, uniquePoints points⟩)

/-- `get_entity_concave_collision`, `/repo/src/scene_tree/mod.rs:673-694`. -/
def concaveCollision (g : EntityGeo F) : Outcome (CollisionGeometry F) :=
  (gatherEntity g none none (some vertexUniquePosition)).bind fun (vertices, indices) =>
  let collisionVertices := vertices.map (·.pos)
  if collisionVertices.isEmpty then .ok .none
  else .ok (.concave [⟨g.center, collisionVertices, indices⟩])

/-- Dispatch on the collision type, `/repo/src/scene_tree/mod.rs:626-630` and `563-567`. -/
def collisionOf (ct : CollisionType) (g : EntityGeo F) : Outcome (CollisionGeometry F) :=
  match ct with
  | .convex => .ok (convexCollision g)
  | .concave => concaveCollision g
  | .none => .ok .none

/-- `get_entity_collision_geometry`, `/repo/src/scene_tree/mod.rs:599-631`. -/
def entityCollision (gd : GameData F) (entity : Entity F) (g : EntityGeo F) :
    Outcome (CollisionGeometry F) :=
  match entity.properties.get? (str! "classname") with
  | some classname => match findDef gd classname with
    | some d => match d.data with
      | .point _ => .ok .none
      | .brush _ brushData => collisionOf brushData.collisionType g
    | none => .ok .none
  | none => .panic "No classname in entity"

/-! ### entity attributes -/

/-- `get_entity_type`, `/repo/src/scene_tree/mod.rs:194-218`. -/
def entityType (gd : GameData F) (entity : Entity F) : EntityType :=
  match entity.properties.get? (str! "classname") with
  | some classname => match findDef gd classname with
    | some d => d.data.pointData.entityType
    | none => .placeholder
  | none => .placeholder

/-- `ComponentType` to optional class name, `/repo/src/scene_tree/mod.rs:147-150, 233-236`. -/
def componentClass : ComponentType → Option Str
  | .script c => some c
  | .none => none

/-- `get_entity_component_class`, `/repo/src/scene_tree/mod.rs:220-244`. -/
def entityComponentClass (gd : GameData F) (entity : Entity F) : Option Str :=
  match entity.properties.get? (str! "classname") with
  | some classname => match findDef gd classname with
    | some d => componentClass d.data.pointData.componentType
    | none => none
  | none => none

/-- `get_entity_property_application_type`, `/repo/src/scene_tree/mod.rs:246-270`. -/
def entityPropertyApplicationType (gd : GameData F) (entity : Entity F) : PropertyApplicationType :=
  match entity.properties.get? (str! "classname") with
  | some classname => match findDef gd classname with
    | some d => d.data.pointData.propertyApplicationType
    | none => .properties
  | none => .properties

/-- `parse_float`, `/repo/src/scene_tree/mod.rs:442-450`, on the word at some position. -/
def parseFloat (w : Option Str) : Option F := w.bind Arith.parse

/-- `parse_vector3_property`, `/repo/src/scene_tree/mod.rs:400-419`. -/
def parseVector3 (value : Str) : Option (V3 F) :=
  let comps := splitOn ' ' value
  match parseFloat comps[0]? with
  | none => none
  | some x => match parseFloat comps[1]? with
    | none => none
    | some y => match parseFloat comps[2]? with
      | none => none
      | some z => some ⟨x, y, z⟩

/-- `parse_color_property`, `/repo/src/scene_tree/mod.rs:421-440`. -/
def parseColor (value : Str) : Option (Color F) :=
  let comps := splitOn ' ' value
  match parseFloat comps[0]? with
  | none => none
  | some r => match parseFloat comps[1]? with
    | none => none
    | some g => match parseFloat comps[2]? with
      | none => none
      | some b => some ⟨r, g, b⟩

/-- The value of one declared property, `/repo/src/scene_tree/mod.rs:328-392`. (`Flags` really yields
`Property::Choices`, line 388.) -/
def propertyValue (data : Forge.PropertyData F) (value : Option Str) : PropVal F :=
  match data with
  | .integer d => .integer ((value.bind parseI32).getD d)
  | .float d => .float ((value.bind Arith.parse).getD d)
  | .vector3 d => .vector3 ((value.bind parseVector3).getD d)
  | .string d => .string (value.getD d)
  | .color d => .color ((value.bind parseColor).getD d)
  | .choices _ d => .choices ((value.bind parseI32).getD d)
  | .flags _ d => .choices ((value.bind parseI32).getD d)
  | .targetSource => .targetSource
  | .targetDestination => .targetDestination

/-- `add_internal_property_integer`, `/repo/src/scene_tree/mod.rs:293-307`. -/
def addInternalInteger (entity : Entity F) (name : Str) (props : Properties F) : Outcome (Properties F) :=
  match entity.properties.get? name with
  | some value => (Outcome.unwrapParse (parseI32 value)).bind fun i => .ok (props.insert name (.integer i))
  | none => .ok props

/-- `add_internal_property_string`, `/repo/src/scene_tree/mod.rs:312-321`. -/
def addInternalString (entity : Entity F) (name : Str) (props : Properties F) : Properties F :=
  match entity.properties.get? name with
  | some value => props.insert name (.string value)
  | none => props

/-- `get_entity_properties`, `/repo/src/scene_tree/mod.rs:272-398`. -/
def entityProperties (fgd : Forge.GameData F) (entity : Entity F) : Outcome (Properties F) :=
  let classname := entity.properties.get? (str! "classname")
  match fgd.definitions.find? fun d => some d.className == classname with
  | none => .ok Map.empty
  | some d =>
    (addInternalInteger entity (str! "_tb_id") Map.empty).bind fun props =>
    (addInternalInteger entity (str! "_tb_group") props).bind fun props =>
    let props := addInternalString entity (str! "_tb_type") props
    let props := addInternalString entity (str! "_tb_name") props
    .ok (d.properties.foldl (fun props fp =>
      props.insert fp.name (propertyValue fp.data (entity.properties.get? fp.name))) props)

/-! ### the tree -/

/-- Visual child unless `VisualGeometry::None`, `/repo/src/scene_tree/mod.rs:80-88, 154-160`. -/
def visualChildren (origin : V3 F) : VisualGeometry F → List (Node F)
  | .none => []
  | v => [.visual origin v]

/-- Collision child unless `CollisionGeometry::None`, `/repo/src/scene_tree/mod.rs:90-93, 164-170`. -/
def collisionChildren (origin : V3 F) : CollisionGeometry F → List (Node F)
  | .none => []
  | c => [.collision origin c]

/-- Is `child` in the group of `entity`, `/repo/src/scene_tree/mod.rs:95-102`. -/
def inGroup (entity child : Entity F) : Bool :=
  let childGroup := child.properties.get? (str! "_tb_group")
  childGroup.isSome && childGroup == entity.properties.get? (str! "_tb_id")

/-- `build_entity`, `/repo/src/scene_tree/mod.rs:70-124`. The first argument bounds the depth of the call
stack. -/
def buildEntity (gd : GameData F) (fgd : Forge.GameData F) (bl : TextureBlacklist)
    (entityData : List (Entity F × EntityGeo F)) :
    Nat → V3 F → Entity F × EntityGeo F → Outcome (Node F)
  | 0, _, _ => .overflow
  | depth + 1, origin, (entity, g) =>
    (entityVisual gd bl entity g).bind fun v =>
    (entityCollision gd entity g).bind fun c =>
    (mapOut (fun child => buildEntity gd fgd bl entityData depth (V3.neg g.center) child)
      ((entityData.drop 1).filter fun child => inGroup entity child.1)).bind fun childEntities =>
    (Outcome.unwrap (entity.properties.get? (str! "classname"))).bind fun name =>
    (entityProperties fgd entity).bind fun props =>
    .ok (.actor (V3.add origin g.center)
      { name := name
        entityType := entityType gd entity
        componentClass := entityComponentClass gd entity
        propertyApplicationType := entityPropertyApplicationType gd entity
        properties := props }
      (visualChildren g.center v ++ collisionChildren g.center c ++ childEntities))

/-- `get_worldspawn_layer_visual_geometry`, `/repo/src/scene_tree/mod.rs:539-555`. -/
def layerVisual (layer : WorldspawnLayer) (texture : Str) (brushes : List (BrushGeo F)) :
    Outcome (VisualGeometry F) :=
  match layer.visualType with
  | .none => .ok .none
  | .mesh =>
    (textureSurface ⟨V3.zero, brushes⟩ TextureBlacklist.default (some texture)).bind fun
      | some s => .ok (.mesh [s])
      | none => .ok .none

/-- `get_worldspawn_layer_collision_geometry`, `/repo/src/scene_tree/mod.rs:557-568`. -/
def layerCollision (layer : WorldspawnLayer) (brushes : List (BrushGeo F)) :
    Outcome (CollisionGeometry F) :=
  collisionOf layer.collisionType ⟨V3.zero, brushes⟩

/-- `build_worldspawn_layer`, `/repo/src/scene_tree/mod.rs:126-192`. (The collision geometry is computed
twice in the source, lines 162-169, with the same result.) -/
def buildLayer (gd : GameData F) (entry : Str × List (BrushGeo F)) : Outcome (Option (Node F)) :=
  match gd.worldspawnLayers.filter fun l => l.texture == entry.1 with
  | [layer] =>
    (layerVisual layer entry.1 entry.2).bind fun v =>
    (layerCollision layer entry.2).bind fun c =>
    let children := visualChildren V3.zero v ++ collisionChildren V3.zero c
    if children.isEmpty then .ok none
    else .ok (some (.actor V3.zero
      { name := layer.name
        entityType := layer.entityType
        componentClass := componentClass layer.componentType
        propertyApplicationType := .properties
        properties := Map.empty } children))
  | _ => .ok none

/-- `scene_tree::run`, `/repo/src/scene_tree/mod.rs:22-68`. `layers` lists the entries of the
`HashMap` in the order in which it happens to be iterated. -/
def run (depth : Nat) (gd : GameData F) (fgd : Forge.GameData F) (bl : TextureBlacklist)
    (entityData : List (Entity F × EntityGeo F)) (layers : List (Str × List (BrushGeo F))) :
    Outcome (List (Node F)) :=
  (mapOut (buildEntity gd fgd bl entityData depth V3.zero) (entityData.take 1)).bind fun ws =>
  (mapOut (buildLayer gd) layers).bind fun ls =>
  (mapOut (buildEntity gd fgd bl entityData depth V3.zero)
    ((entityData.drop 1).filter fun d => (d.1.properties.get? (str! "_tb_group")).isNone)).bind fun es =>
  .ok (ws ++ ls.filterMap id ++ es)

end
end Scene
end Quarch
