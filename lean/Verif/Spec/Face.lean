import Verif.Model.MapTypes
import Verif.Spec.Number
/-
How a face line is laid out, word by word. Written with positions in the word list, without the reader's
word-by-word iteration.
-/
namespace Quarch.Spec

section
variable {F : Type} [Arith F]

/-- The number at word position `i`, if there is a word and it is a number. -/
def numAt (ws : List Str) (i : Nat) : Option F := ws[i]?.bind Arith.parse

/-- The word after the texture is a number: the plain (non-Valve) UV layout. -/
def plainUV (F : Type) [Arith F] (ws : List Str) : Bool := (numAt (F := F) ws 16).isSome

/-- Positions of the words that must be numbers. -/
def numberPositions (F : Type) [Arith F] (ws : List Str) : List Nat :=
  [1, 2, 3, 6, 7, 8, 11, 12, 13] ++
    if plainUV F ws then [16, 17, 18, 19, 20] else [17, 18, 19, 20, 23, 24, 25, 26, 28, 29, 30]

/-- The words after the scale. -/
def extraWords (F : Type) [Arith F] (ws : List Str) : List Str :=
  ws.drop (if plainUV F ws then 21 else 31)

/-- All numbers before the extra words are there. -/
def HeadOk (F : Type) [Arith F] (ws : List Str) : Prop :=
  ∀ i ∈ numberPositions F ws, ∃ x : F, numAt ws i = some x

/-- The trailing values of the Quake II / Daikatana layouts, with the message for an unreadable one. -/
def extraMessages : List String :=
  ["Failed to parse surface contents", "Failed to parse surface flags", "Failed to parse surface value",
   "Failed to parse R color component", "Failed to parse G color component",
   "Failed to parse B color component"]

/-- The `i`-th trailing value can be read: the first two are 32-bit integers, the others numbers. -/
def ExtraReadable (F : Type) [Arith F] (ex : List Str) (i : Nat) : Prop :=
  if i < 2 then ∃ w n, ex[i]? = some w ∧ ReadsI32 w n else ∃ x : F, numAt ex i = some x

/-- The error for the trailing words. -/
def ExtraError (F : Type) [Arith F] (ex : List Str) (msg : String) : Prop :=
  (ex.length ∉ [0, 1, 3, 6] ∧ msg = "Unrecognized extra data") ∨
  (ex.length ∈ [3, 6] ∧ ∃ i < ex.length, extraMessages[i]? = some msg ∧ ¬ ExtraReadable F ex i ∧
    ∀ j < i, ExtraReadable F ex j)

/-- The trailing words hold the extra data. -/
def ExtraIs : List Str → ExtraData F → Prop
  | [], .none => True
  | [w], .hexen2 x => Arith.parse w = some x
  | [c, f, v], .quake2 s =>
    ReadsI32 c s.contents ∧ ReadsI32 f s.flags ∧ Arith.parse v = some s.value
  | [c, f, v, r, g, b], .daikatana s col =>
    ReadsI32 c s.contents ∧ ReadsI32 f s.flags ∧ Arith.parse v = some s.value ∧
    Arith.parse r = some col.r ∧ Arith.parse g = some col.g ∧ Arith.parse b = some col.b
  | _, _ => False

/-- The words hold the UV data, rotation and scale. -/
def UVIs (ws : List Str) (uv : UV F) (rotation : F) (scale : V2 F) : Prop :=
  match uv with
  | .quake u v => numAt ws 16 = some u ∧ numAt ws 17 = some v ∧ numAt ws 18 = some rotation ∧
      numAt ws 19 = some scale.x ∧ numAt ws 20 = some scale.y
  | .valve ua uo va vo => numAt (F := F) ws 16 = none ∧
      numAt ws 17 = some ua.x ∧ numAt ws 18 = some ua.y ∧ numAt ws 19 = some ua.z ∧
      numAt ws 20 = some uo ∧ numAt ws 23 = some va.x ∧ numAt ws 24 = some va.y ∧
      numAt ws 25 = some va.z ∧ numAt ws 26 = some vo ∧ numAt ws 28 = some rotation ∧
      numAt ws 29 = some scale.x ∧ numAt ws 30 = some scale.y

/-- A point at three consecutive word positions. -/
def PointAt (ws : List Str) (i : Nat) (v : V3 F) : Prop :=
  numAt ws i = some v.x ∧ numAt ws (i + 1) = some v.y ∧ numAt ws (i + 2) = some v.z

/-- The words describe the face. -/
def FaceIs [Platform] (ws : List Str) (p : BrushPlane F) : Prop :=
  PointAt ws 1 p.v0 ∧ PointAt ws 6 p.v1 ∧ PointAt ws 11 p.v2 ∧
  (ws[15]?.map Platform.lowercase) = some p.texture ∧
  UVIs ws p.uv p.rotation p.scale ∧ ExtraIs (extraWords F ws) p.extra

/-! ### Printing -/

/-- Words of a point. -/
def PointWords (v : V3 F) (ws : List Str) : Prop :=
  ∃ x y z, ws = [str! "(", x, y, z, str! ")"] ∧
    Arith.parse x = some v.x ∧ Arith.parse y = some v.y ∧ Arith.parse z = some v.z

/-- Words of the UV data: `u v`, or `[ ux uy uz uo ] [ vx vy vz vo ]`. -/
def UVWords (uv : UV F) (ws : List Str) : Prop :=
  match uv with
  | .quake u v => ∃ a b, ws = [a, b] ∧ Arith.parse a = some u ∧ Arith.parse b = some v
  | .valve ua uo va vo => ∃ a b c d e f g h,
      ws = [str! "[", a, b, c, d, str! "]", str! "[", e, f, g, h, str! "]"] ∧
      Arith.parse a = some ua.x ∧ Arith.parse b = some ua.y ∧ Arith.parse c = some ua.z ∧
      Arith.parse d = some uo ∧ Arith.parse e = some va.x ∧ Arith.parse f = some va.y ∧
      Arith.parse g = some va.z ∧ Arith.parse h = some vo

/-- Words of a face in one of the supported layouts: standard or Valve 220 UVs, followed by nothing,
one Hexen II value, three Quake II values or six Daikatana values. The texture may be in any letter case. -/
def FaceWords [Platform] (p : BrushPlane F) (ws : List Str) : Prop :=
  ∃ a b c tex uv r sx sy ex, ws = a ++ b ++ c ++ [tex] ++ uv ++ [r, sx, sy] ++ ex ∧
    PointWords p.v0 a ∧ PointWords p.v1 b ∧ PointWords p.v2 c ∧
    Platform.lowercase tex = p.texture ∧ UVWords p.uv uv ∧ Arith.parse r = some p.rotation ∧
    Arith.parse sx = some p.scale.x ∧ Arith.parse sy = some p.scale.y ∧ ExtraIs ex p.extra

/-- A line made of words, each followed by a gap. -/
def spaced : Str → List (Str × Str) → Str
  | lead, [] => lead
  | lead, (w, gap) :: rest => lead ++ w ++ spaced gap rest

/-- The gaps are whitespace, non-empty between two words; words are non-empty and without whitespace. -/
def SpacedOk : List (Str × Str) → Prop
  | [] => True
  | (w, gap) :: rest => w ≠ [] ∧ (∀ c ∈ w, isBlank c = false) ∧
      (∀ c ∈ gap, isBlank c = true) ∧ (rest ≠ [] → gap ≠ []) ∧ SpacedOk rest

instance instDecidableSpacedOk : (l : List (Str × Str)) → Decidable (SpacedOk l)
  | [] => isTrue trivial
  | (w, gap) :: rest => by
    have := (instDecidableSpacedOk : (l : List (Str × Str)) → Decidable (SpacedOk l)) rest
    unfold SpacedOk; infer_instance

/-- The words of the line describe the face. -/
def FaceText [Platform] (line : Str) (p : BrushPlane F) : Prop :=
  ∃ lead ws, line = spaced lead ws ∧ (∀ c ∈ lead, isBlank c = true) ∧ SpacedOk ws ∧ FaceIs (ws.map Prod.fst) p

/-- The line has all its numbers, but wrong trailing values: their error. -/
def FaceFault (F : Type) [Arith F] (line : Str) (msg : String) : Prop :=
  ∃ lead ws, line = spaced lead ws ∧ (∀ c ∈ lead, isBlank c = true) ∧ SpacedOk ws ∧ HeadOk F (ws.map Prod.fst) ∧
    ExtraError F (extraWords F (ws.map Prod.fst)) msg

/-- A number of the line is missing or unreadable, or its only trailing value is. -/
def FaceAborts (F : Type) [Arith F] (line : Str) : Prop :=
  ∃ lead ws, line = spaced lead ws ∧ (∀ c ∈ lead, isBlank c = true) ∧ SpacedOk ws ∧
    (¬ HeadOk F (ws.map Prod.fst) ∨
      ((extraWords F (ws.map Prod.fst)).length = 1 ∧ numAt (F := F) (extraWords F (ws.map Prod.fst)) 0 = none))

/-- The line of a face: its words with any whitespace before, between and after them. -/
def FaceLine [Platform] (p : BrushPlane F) (line : Str) : Prop :=
  ∃ lead ws, line = spaced lead ws ∧ (∀ c ∈ lead, isBlank c = true) ∧ SpacedOk ws ∧
    FaceWords p (ws.map Prod.fst)

end
end Quarch.Spec
