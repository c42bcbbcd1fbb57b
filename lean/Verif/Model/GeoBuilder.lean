import Verif.Model.MapTypes
/-
/repo/src/geo_builder/**
-/
namespace Quarch

/-- `brush_plane::Geometry`, `/repo/src/geo_builder/brush_plane/geometry.rs:4-10`. -/
structure PlaneGeo (F : Type) where
  center : V3 F
  vertices : List (Vertex F)
  indices : List Nat
  texture : Option Str
deriving DecidableEq, Repr

/-- `brush::Geometry`, `/repo/src/geo_builder/brush/geometry.rs:4-8`. -/
structure BrushGeo (F : Type) where
  center : V3 F
  planes : List (PlaneGeo F)
deriving DecidableEq, Repr

/-- `entity::Geometry`, `/repo/src/geo_builder/entity/geometry.rs:4-8`. -/
structure EntityGeo (F : Type) where
  center : V3 F
  brushes : List (BrushGeo F)
deriving DecidableEq, Repr

namespace Geo
section
variable {F : Type} [Arith F]

/-- `intersect_brush_planes`, `/repo/src/geo_builder/brush_plane/vertices.rs:6-24`. -/
def intersect (p0 p1 p2 : BrushPlane F) : Option (V3 F) :=
  let n0 := p0.normal
  let n1 := p1.normal
  let n2 := p2.normal
  let denom := Arith.dot (Arith.cross n0 n1) n2
  if Arith.lt denom Arith.cmpEpsilon then none
  else some (V3.sdiv
    (V3.add (V3.add (V3.smul (Arith.cross n1 n2) p0.dist) (V3.smul (Arith.cross n2 n0) p1.dist))
      (V3.smul (Arith.cross n0 n1) p2.dist)) denom)

/-- `vertex_in_hull`, `/repo/src/geo_builder/brush_plane/vertices.rs:26-34`. -/
def inHull (vertex : V3 F) (hull : List (BrushPlane F)) : Bool :=
  hull.all fun p =>
    let proj := Arith.dot p.normal vertex
    !(Arith.lt p.dist proj && Arith.lt Arith.cmpEpsilon (Arith.sub proj p.dist))

/-- `phong_normal`, `/repo/src/geo_builder/brush_plane/normals.rs:15-36`. -/
def phongNormal (p0 p1 p2 : BrushPlane F) (phongAngle : Option Str) : V3 F :=
  match phongAngle.bind Arith.parse with
  | some angle =>
    let threshold := Arith.cos (Arith.mul (Arith.add angle Arith.hundredth) Arith.oneDegree)
    let normal := p0.normal
    let normal := if Arith.lt threshold (Arith.dot p0.normal p1.normal) then V3.add normal p1.normal else normal
    let normal := if Arith.lt threshold (Arith.dot p0.normal p2.normal) then V3.add normal p2.normal else normal
    Arith.normalize normal
  | none => Arith.normalize (V3.add (V3.add p0.normal p1.normal) p2.normal)

/-- `entity.get_property("_phong") == Some("1")`, `normals.rs:8`, `brush_plane/mod.rs:44-45`. -/
def isPhong (entity : Entity F) : Bool := entity.getProperty (str! "_phong") == some (str! "1")

/-- `vertex_normal`, `/repo/src/geo_builder/brush_plane/normals.rs:7-13`. -/
def vertexNormal (entity : Entity F) (p0 p1 p2 : BrushPlane F) : V3 F :=
  if isPhong entity then phongNormal p0 p1 p2 (entity.getProperty (str! "_phong_angle")) else p0.normal

/-- `up_vector`, `right_vector`, `forward_vector` of `tangents.rs:13-15` and `uvs.rs:15-17`. -/
def upVector : V3 F := ⟨Arith.zero, Arith.zero, Arith.one⟩
def rightVector : V3 F := ⟨Arith.zero, Arith.one, Arith.zero⟩
def forwardVector : V3 F := ⟨Arith.one, Arith.zero, Arith.zero⟩

/-- `standard_tangent`, `/repo/src/geo_builder/brush_plane/tangents.rs:12-42`. -/
def standardTangent (p : BrushPlane F) : Outcome (V3 F × F) :=
  let du := Arith.dot p.normal upVector
  let dr := Arith.dot p.normal rightVector
  let df := Arith.dot p.normal forwardVector
  let duA := Arith.abs du
  let drA := Arith.abs dr
  let dfA := Arith.abs df
  let tangent : Option (V3 F × F) :=
    if Arith.le drA duA && Arith.le dfA duA then some (forwardVector, Arith.signum du)
    else if Arith.le duA drA && Arith.le dfA drA then some (forwardVector, Arith.neg (Arith.signum dr))
    else if Arith.le duA dfA && Arith.le drA dfA then some (rightVector, Arith.signum df)
    else none
  match tangent with
  | some (v, s) =>
    .ok (Arith.rotate p.normal (Arith.mul (Arith.neg (Arith.toRadians p.rotation)) s) v,
         Arith.mul s (Arith.signum p.scale.y))
  | none => .panic "Failed to generate tangent"

/-- `vertex_tangent` with `valve_tangent`, `/repo/src/geo_builder/brush_plane/tangents.rs:5-10, 44-55`. -/
def vertexTangent (p : BrushPlane F) : Outcome (V3 F × F) :=
  match p.uv with
  | .quake _ _ => standardTangent p
  | .valve uAxis _ vAxis _ =>
    .ok (uAxis, Arith.neg (Arith.signum (Arith.dot (Arith.cross p.normal uAxis) vAxis)))

/-- `standard_uv`, `/repo/src/geo_builder/brush_plane/uvs.rs:14-54`, for `uv = UV::Quake(u, v)`. -/
def standardUV (vertex : V3 F) (p : BrushPlane F) (texture : Texture) (u v : F) : Outcome (V2 F) :=
  let du := Arith.abs (Arith.dot p.normal upVector)
  let dr := Arith.abs (Arith.dot p.normal rightVector)
  let df := Arith.abs (Arith.dot p.normal forwardVector)
  let xy : Option (V2 F) :=
    if Arith.le dr du && Arith.le df du then some ⟨vertex.x, Arith.neg vertex.y⟩
    else if Arith.le du dr && Arith.le df dr then some ⟨vertex.x, Arith.neg vertex.z⟩
    else if Arith.le du df && Arith.le dr df then some ⟨vertex.y, Arith.neg vertex.z⟩
    else none
  match xy with
  | some xy =>
    let uv := Arith.rotate2 (Arith.toRadians p.rotation) xy
    let uv := V2.div uv texture.size
    let uv := V2.div uv p.scale
    .ok (V2.add uv (V2.div ⟨u, v⟩ texture.size))
  | none => .panic "Zero-length normal"

/-- `vertex_uv` with `valve_uv`, `/repo/src/geo_builder/brush_plane/uvs.rs:7-12, 56-69`. -/
def vertexUV (vertex : V3 F) (p : BrushPlane F) (texture : Texture) : Outcome (V2 F) :=
  match p.uv with
  | .quake u v => standardUV vertex p texture u v
  | .valve uAxis uOffset vAxis vOffset =>
    let uv : V2 F := ⟨Arith.dot uAxis vertex, Arith.dot vAxis vertex⟩
    let uv := V2.div uv texture.size
    let uv := V2.div uv p.scale
    .ok (V2.add uv (V2.div ⟨uOffset, vOffset⟩ texture.size))

/-- `plane.extra` colour, `/repo/src/geo_builder/brush_plane/mod.rs:134-137`. -/
def planeColor (p : BrushPlane F) : Option (Color F) :=
  match p.extra with
  | .daikatana _ c => some c
  | _ => none

/-- `build_plane_vertex`, `/repo/src/geo_builder/brush_plane/mod.rs:116-144`. -/
def buildPlaneVertex (texture : Option Texture) (entity : Entity F) (planes : List (BrushPlane F))
    (plane p1 p2 : BrushPlane F) : Outcome (Option (Vertex F)) :=
  match intersect plane p1 p2 with
  | some vertex =>
    if inHull vertex planes then
      let normal := vertexNormal entity plane p1 p2
      (vertexTangent plane).bind fun tangent =>
      (match texture with
        | some t => (vertexUV vertex plane t).bind fun uv => .ok (some uv)
        | none => .ok none).bind fun uv =>
      .ok (some ⟨vertex, normal, tangent, uv, planeColor plane⟩)
    else .ok none
  | none => .ok none

/-- `plane_vertices`, `/repo/src/geo_builder/brush_plane/mod.rs:25-32`. -/
def planeVertices (texture : Option Texture) (entity : Entity F) (planes : List (BrushPlane F))
    (plane : BrushPlane F) : Outcome (List (Vertex F)) :=
  (mapOut (fun p1 =>
    (mapOut (fun p2 => buildPlaneVertex texture entity planes plane p1 p2) planes).bind fun vs =>
    .ok (vs.filterMap id)) planes).bind fun vss =>
  .ok vss.flatten

/-- The closure of `unique_vertices` for the vertex at some index, given the vertices after it,
`/repo/src/geo_builder/brush_plane/mod.rs:37-62`. -/
def uniqueVertex (phong : Bool) (vertex : Vertex F) (rest : List (Vertex F)) : Option (Vertex F) :=
  match rest.find? (fun comp => V3.beq comp.pos vertex.pos) with
  | none =>
    if phong then
      let v := rest.foldl (fun acc next =>
        if V3.beq next.pos acc.pos then { acc with normal := next.normal } else acc) vertex
      some { v with normal := Arith.normalize v.normal }
    else some vertex
  | some _ => none

/-- `unique_vertices`, `/repo/src/geo_builder/brush_plane/mod.rs:34-63`: the loop over `(i, vertex)` with
`skip(i + 1)` is the recursion over tails. -/
def uniqueVertices (phong : Bool) : List (Vertex F) → List (Vertex F)
  | [] => []
  | v :: rest => (uniqueVertex phong v rest).toList ++ uniqueVertices phong rest

/-- The mean used for centres: `fold(0, +) / len.max(1)`, `/repo/src/geo_builder/brush_plane/mod.rs:65-68`,
`/repo/src/geo_builder/brush/mod.rs:21-26`, `/repo/src/geo_builder/entity/mod.rs:30-33`. -/
def mean (l : List (V3 F)) : V3 F :=
  V3.sdiv (l.foldl V3.add V3.zero) (Arith.ofNat (max l.length 1))

/-- `u_axis` and `v_axis`, `/repo/src/geo_builder/brush_plane/mod.rs:75-76`. -/
def uAxis (plane : BrushPlane F) : V3 F := Arith.normalize (V3.sub plane.v1 plane.v0)
def vAxis (plane : BrushPlane F) : V3 F := Arith.cross plane.normal (uAxis plane)

/-- `atan2` angle of a (centre-relative) position, `/repo/src/geo_builder/brush_plane/mod.rs:83-90`. -/
def angle (plane : BrushPlane F) (pos : V3 F) : F :=
  Arith.atan2 (Arith.dot pos (vAxis plane)) (Arith.dot pos (uAxis plane))

/-- The comparison passed to `sort_by`, `/repo/src/geo_builder/brush_plane/mod.rs:79-93`. -/
def windCmp (plane : BrushPlane F) (a b : Vertex F) : Ordering :=
  (partialCmp (angle plane b.pos) (angle plane a.pos)).getD .eq

/-- Recentring, sorting and moving back, `/repo/src/geo_builder/brush_plane/mod.rs:70-98`. -/
def windVertices [Platform] (plane : BrushPlane F) (center : V3 F) (vs : List (Vertex F)) :
    List (Vertex F) :=
  let localVerts := vs.map fun v => { v with pos := V3.sub v.pos center }
  let wound := Platform.sortBy (windCmp plane) localVerts
  wound.map fun v => { v with pos := V3.add v.pos center }

/-- `indices`, `/repo/src/geo_builder/brush_plane/mod.rs:100-106`. -/
def fanIndices (n : Nat) : List Nat :=
  if n < 3 then [] else (List.range (n - 2)).flatMap fun i => [0, i + 1, i + 2]

/-- `brush_plane::build`, `/repo/src/geo_builder/brush_plane/mod.rs:17-114`. -/
def buildPlane [Platform] (textures : TextureInfo) (entity : Entity F) (planes : List (BrushPlane F))
    (plane : BrushPlane F) : Outcome (PlaneGeo F) :=
  let textureInfo := textures.get? plane.texture
  (planeVertices textureInfo entity planes plane).bind fun pvs =>
  let unique := uniqueVertices (isPhong entity) pvs
  let center := mean (unique.map (·.pos))
  let world := windVertices plane center unique
  let texture := match textureInfo with
    | some _ => some plane.texture
    | none => none
  .ok ⟨center, world, fanIndices world.length, texture⟩

/-- `brush::build`, `/repo/src/geo_builder/brush/mod.rs:11-29`. -/
def buildBrush [Platform] (textures : TextureInfo) (entity : Entity F) (brush : Brush F) :
    Outcome (BrushGeo F) :=
  (mapOut (fun plane => buildPlane textures entity brush.planes plane) brush.planes).bind fun pgs =>
  .ok ⟨mean (pgs.map (·.center)), pgs⟩

/-- One component of `origin`, `/repo/src/geo_builder/entity/mod.rs:24-26`:
`comps.next().unwrap_or("0.0").parse().unwrap_or(0.0)`. -/
def originComp (w : Option Str) : F := (Arith.parse (w.getD (str! "0.0"))).getD Arith.zero

/-- The `origin` branch, `/repo/src/geo_builder/entity/mod.rs:22-28`. -/
def parseOrigin (origin : Str) : V3 F :=
  let comps := splitOn ' ' origin
  ⟨originComp comps[0]?, originComp comps[1]?, originComp comps[2]?⟩

/-- `entity::build`, `/repo/src/geo_builder/entity/mod.rs:10-38`. -/
def buildEntity [Platform] (textures : TextureInfo) (entity : Entity F) : Outcome (EntityGeo F) :=
  (mapOut (fun brush => buildBrush textures entity brush) entity.brushes).bind fun bgs =>
  let center := match entity.properties.get? (str! "origin") with
    | some origin => parseOrigin origin
    | none => mean (bgs.map (·.center))
  .ok ⟨center, bgs⟩

/-- `geo_builder::run`, `/repo/src/geo_builder/mod.rs:8-14`. -/
def run [Platform] (textures : TextureInfo) (entities : List (Entity F)) : Outcome (List (EntityGeo F)) :=
  mapOut (fun entity => buildEntity textures entity) entities

end
end Geo
end Quarch
