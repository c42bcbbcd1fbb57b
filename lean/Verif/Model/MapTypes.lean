import Verif.Model.Arith
/-
/repo/src/map/types/uv.rs and /repo/src/map/quake/types/*.rs
-/
namespace Quarch

/-- `UV`, `QuakeUV`, `ValveUV`, `/repo/src/map/types/uv.rs:3-48`. -/
inductive UV (F : Type) where
  | quake (u v : F)
  | valve (uAxis : V3 F) (uOffset : F) (vAxis : V3 F) (vOffset : F)
deriving DecidableEq, Repr

/-- `SurfaceData`, `/repo/src/map/quake/types/brush_plane.rs:8-23`. -/
structure SurfaceData (F : Type) where
  contents : Int
  flags : Int
  value : F
deriving DecidableEq, Repr

/-- `ExtraData`, `/repo/src/map/quake/types/brush_plane.rs:25-31`. -/
inductive ExtraData (F : Type) where
  | none
  | hexen2 (v : F)
  | quake2 (s : SurfaceData F)
  | daikatana (s : SurfaceData F) (c : Color F)
deriving DecidableEq, Repr

/-- `BrushPlane`, `/repo/src/map/quake/types/brush_plane.rs:83-93`. -/
structure BrushPlane (F : Type) where
  v0 : V3 F
  v1 : V3 F
  v2 : V3 F
  texture : Str
  uv : UV F
  rotation : F
  scale : V2 F
  extra : ExtraData F
deriving DecidableEq, Repr

/-- `Brush`, `/repo/src/map/quake/types/brush.rs:3-13`. -/
structure Brush (F : Type) where
  planes : List (BrushPlane F)
deriving DecidableEq, Repr

/-- `Entity`, `/repo/src/map/quake/types/entity.rs:4-18`. -/
structure Entity (F : Type) where
  properties : Map Str Str
  brushes : List (Brush F)

/-- `Entity::new`, `/repo/src/map/quake/types/entity.rs:11-18`. -/
def Entity.new {F : Type} : Entity F := ⟨Map.empty, []⟩

/-- `Entity::get_property`, `/repo/src/map/quake/types/entity.rs:20-25`. -/
def Entity.getProperty {F : Type} (e : Entity F) (name : Str) : Option Str := e.properties.get? name

section
variable {F : Type} [Arith F]

/-- `ExtraData::quake_2`, `/repo/src/map/quake/types/brush_plane.rs:34-55`. -/
def SurfaceData.parse (comps : List Str) : Outcome (SurfaceData F) :=
  (Outcome.unwrap comps[0]?).bind fun c0 =>
  match parseI32 c0 with
  | none => .err (.quarch "Failed to parse surface contents")
  | some contents =>
    (Outcome.unwrap comps[1]?).bind fun c1 =>
    match parseI32 c1 with
    | none => .err (.quarch "Failed to parse surface flags")
    | some flags =>
      (Outcome.unwrap comps[2]?).bind fun c2 =>
      match Arith.parse (F := F) c2 with
      | none => .err (.quarch "Failed to parse surface value")
      | some value => .ok ⟨contents, flags, value⟩

/-- `ExtraData::daikatana`, `/repo/src/map/quake/types/brush_plane.rs:57-79`. (The `panic!()` of line 77
is unreachable because `quake_2` only returns `Quake2`.) -/
def ExtraData.parseDaikatana (comps : List Str) : Outcome (ExtraData F) :=
  (SurfaceData.parse comps).bind fun s =>
  (Outcome.unwrap comps[3]?).bind fun c3 =>
  match Arith.parse (F := F) c3 with
  | Option.none => .err (.quarch "Failed to parse R color component")
  | some r =>
    (Outcome.unwrap comps[4]?).bind fun c4 =>
    match Arith.parse (F := F) c4 with
    | Option.none => .err (.quarch "Failed to parse G color component")
    | some g =>
      (Outcome.unwrap comps[5]?).bind fun c5 =>
      match Arith.parse (F := F) c5 with
      | Option.none => .err (.quarch "Failed to parse B color component")
      | some b => .ok (.daikatana s ⟨r, g, b⟩)

/-- `comps.next().unwrap().parse().unwrap()` on an `f32`: the value and the remaining words. -/
def nextF (comps : List Str) : Outcome (F × List Str) :=
  (Outcome.unwrap comps.head?).bind fun w =>
  (Outcome.unwrapParse (Arith.parse w)).bind fun x =>
  .ok (x, comps.tail)

/-- One round of the loop `/repo/src/map/quake/types/brush_plane.rs:103-120`: a word is skipped, three
numbers are read, a word is skipped (`comps.next()` on an exhausted iterator is a no-op). -/
def parsePoint (comps : List Str) : Outcome (V3 F × List Str) :=
  (nextF comps.tail).bind fun (x, comps) =>
  (nextF comps).bind fun (y, comps) =>
  (nextF comps).bind fun (z, comps) =>
  .ok (⟨x, y, z⟩, comps.tail)

/-- The UV part, `/repo/src/map/quake/types/brush_plane.rs:124-147`. -/
def parseUV (comps : List Str) : Outcome (UV F × List Str) :=
  (Outcome.unwrap comps.head?).bind fun w =>
  let comps := comps.tail
  match Arith.parse (F := F) w with
  | some u => (nextF comps).bind fun (v, comps) => .ok (.quake u v, comps)
  | none =>
    (nextF comps).bind fun (ux, comps) =>
    (nextF comps).bind fun (uy, comps) =>
    (nextF comps).bind fun (uz, comps) =>
    (nextF comps).bind fun (uo, comps) =>
    let comps := comps.tail.tail
    (nextF comps).bind fun (vx, comps) =>
    (nextF comps).bind fun (vy, comps) =>
    (nextF comps).bind fun (vz, comps) =>
    (nextF comps).bind fun (vo, comps) =>
    .ok (.valve ⟨ux, uy, uz⟩ uo ⟨vx, vy, vz⟩ vo, comps.tail)

/-- The extra data, `/repo/src/map/quake/types/brush_plane.rs:155-162`. -/
def parseExtra (extra : List Str) : Outcome (ExtraData F) :=
  match extra.length with
  | 0 => .ok .none
  | 1 => (Outcome.unwrap extra.head?).bind fun w =>
         (Outcome.unwrapParse (Arith.parse w)).bind fun x => .ok (.hexen2 x)
  | 3 => (SurfaceData.parse extra).bind fun s => .ok (.quake2 s)
  | 6 => ExtraData.parseDaikatana extra
  | _ => .err (.quarch "Unrecognized extra data")

/-- `BrushPlane::new` on the words of the line, `/repo/src/map/quake/types/brush_plane.rs:97-174`. -/
def BrushPlane.ofWords [Platform] (comps : List Str) : Outcome (BrushPlane F) :=
  (parsePoint comps).bind fun (v0, comps) =>
  (parsePoint comps).bind fun (v1, comps) =>
  (parsePoint comps).bind fun (v2, comps) =>
  (Outcome.unwrap comps.head?).bind fun tex =>
  let texture := Platform.lowercase tex
  (parseUV comps.tail).bind fun (uv, comps) =>
  (nextF comps).bind fun (rotation, comps) =>
  (nextF comps).bind fun (x, comps) =>
  (nextF comps).bind fun (y, comps) =>
  (parseExtra comps).bind fun extra =>
  .ok { v0, v1, v2, texture, uv, rotation, scale := ⟨x, y⟩, extra }

/-- `BrushPlane::new`, `/repo/src/map/quake/types/brush_plane.rs:96-174`. -/
def BrushPlane.new [Platform] (source : Str) : Outcome (BrushPlane F) :=
  BrushPlane.ofWords (splitWhitespace source)

/-- `BrushPlane::normal`, `/repo/src/map/quake/types/brush_plane.rs:176-180`. -/
def BrushPlane.normal (p : BrushPlane F) : V3 F :=
  let v0v1 := V3.sub p.v1 p.v0
  let v0v2 := V3.sub p.v2 p.v0
  Arith.normalize (Arith.cross v0v2 v0v1)

/-- `BrushPlane::dist`, `/repo/src/map/quake/types/brush_plane.rs:182-185`. -/
def BrushPlane.dist (p : BrushPlane F) : F := Arith.dot p.normal p.v0
end

end Quarch
