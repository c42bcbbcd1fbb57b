import Verif.Model.GeoBuilder
/-
/repo/src/layer_filter/mod.rs
-/
namespace Quarch
namespace LayerFilter
variable {F : Type}

/-- `brush_geometry_by_layer`, `/repo/src/layer_filter/mod.rs:66-76`. -/
def byLayer (layer : Str) (b : BrushGeo F) : Bool :=
  b.planes.all fun p => match p.texture with
    | some texture => texture == layer
    | none => false

/-- Classname test, `/repo/src/layer_filter/mod.rs:18-21`. -/
def isWorldspawn (e : Entity F) : Bool :=
  match e.getProperty (str! "classname") with
  | some c => c == str! "worldspawn"
  | none => false

/-- `worldspawn_layer_textures`, `/repo/src/layer_filter/mod.rs:36`. -/
def layerTextures : List Str := [str! "*water0", str! "*slime0"]

/-- The loop over the layer textures, `/repo/src/layer_filter/mod.rs:38-46`: the remaining worldspawn
brushes and the `(texture, brushes)` pairs inserted into the map, in insertion order (the keys are
distinct, so nothing is overwritten). -/
def splitLayers (layers : List Str) (brushes : List (BrushGeo F)) :
    List (BrushGeo F) × List (Str × List (BrushGeo F)) :=
  layers.foldl (fun (rest, acc) layer =>
    let (layerGeo, rest') := rest.partition (byLayer layer)
    (rest', acc ++ [(layer, layerGeo)])) (brushes, [])

/-- `layer_filter::run`, `/repo/src/layer_filter/mod.rs:5-64`. The returned map is given by its entries
in insertion order; iteration order is chosen by the caller of the model. -/
def run (entityData : List (Entity F × EntityGeo F)) :
    Outcome (List (Entity F × EntityGeo F) × List (Str × List (BrushGeo F))) :=
  let (ws, others) := entityData.partition fun d => isWorldspawn d.1
  match ws with
  | [(entity, geo)] =>
    let (rest, layers) := splitLayers layerTextures geo.brushes
    .ok ((entity, { geo with brushes := rest }) :: others, layers)
  | _ => .panic "Worldspawn element not a singleton"

end LayerFilter
end Quarch
