import Verif.Spec.Face
import Verif.Spec.Grammar
import Verif.Spec.Text
/-
Map text for given entities: which texts are a printed form of which entities (any layout, comments and
blank lines anywhere), and one concrete printer.
-/
namespace Quarch.Spec

/-- What is written inside an entity. -/
inductive SrcItem (F : Type) where
  | prop (key value : Str)
  | brush (faces : List (BrushPlane F))

section
variable {F : Type}

/-- Value given to a key. -/
def SrcItem.valueOf (key : Str) : SrcItem F → Option Str
  | .prop k v => if k = key then some v else none
  | .brush _ => none

/-- Brush of an item. -/
def SrcItem.brush? : SrcItem F → Option (Brush F)
  | .prop _ _ => none
  | .brush faces => some ⟨faces⟩

/-- The entity written by a list of items: the last value of every key, and all brushes in order. -/
def entityOf (items : List (SrcItem F)) : Entity F where
  properties key := (items.filterMap (SrcItem.valueOf key)).getLast?
  brushes := items.filterMap SrcItem.brush?

/-- A line that means nothing: empty, a comment, or starting with none of the marker characters. -/
def JunkLine (line : Str) : Prop := ∀ c ∈ ['{', '}', '(', '"'], line.head? ≠ some c

variable [Arith F] [Platform]

/-- Lines inside a brush. -/
inductive FaceLines : List (BrushPlane F) → List Str → Prop
  | nil : FaceLines [] []
  | junk {ps ls line} : JunkLine line → FaceLines ps ls → FaceLines ps (line :: ls)
  | face {p ps line ls} : FaceLine p line → line.head? = some '(' → FaceLines ps ls →
      FaceLines (p :: ps) (line :: ls)

/-- Lines inside an entity. A property line may have anything after the closing quote of the value, brace
lines anything after the brace. -/
inductive ItemLines : List (SrcItem F) → List Str → Prop
  | nil : ItemLines [] []
  | junk {is ls line} : JunkLine line → ItemLines is ls → ItemLines is (line :: ls)
  | prop {is ls key value} (mid rest : Str) : '"' ∉ key → '"' ∉ value → '"' ∉ mid → ItemLines is ls →
      ItemLines (.prop key value :: is)
        (('"' :: (key ++ '"' :: (mid ++ '"' :: (value ++ '"' :: rest)))) :: ls)
  | brush {is ls ps fl} (r r' : Str) : FaceLines ps fl → ItemLines is ls →
      ItemLines (.brush ps :: is) (('{' :: r) :: (fl ++ ('}' :: r') :: ls))

/-- Lines of a map file. -/
inductive MapLines : List (List (SrcItem F)) → List Str → Prop
  | nil : MapLines [] []
  | junk {es ls line} : JunkLine line → MapLines es ls → MapLines es (line :: ls)
  | entity {es ls items il} (r r' : Str) : ItemLines items il → MapLines es ls →
      MapLines (items :: es) (('{' :: r) :: (il ++ ('}' :: r') :: ls))

/-! ### A concrete printer -/

/-- Words of a point. -/
def printPoint (v : V3 F) : List Str :=
  [str! "(", Arith.disp v.x, Arith.disp v.y, Arith.disp v.z, str! ")"]

/-- Words of the UV data. -/
def printUV : UV F → List Str
  | .quake u v => [Arith.disp u, Arith.disp v]
  | .valve ua uo va vo =>
    [str! "[", Arith.disp ua.x, Arith.disp ua.y, Arith.disp ua.z, Arith.disp uo, str! "]",
     str! "[", Arith.disp va.x, Arith.disp va.y, Arith.disp va.z, Arith.disp vo, str! "]"]

/-- Words of the extra data. -/
def printExtra : ExtraData F → List Str
  | .none => []
  | .hexen2 x => [Arith.disp x]
  | .quake2 s => [showInt s.contents, showInt s.flags, Arith.disp s.value]
  | .daikatana s c => [showInt s.contents, showInt s.flags, Arith.disp s.value,
      Arith.disp c.r, Arith.disp c.g, Arith.disp c.b]

/-- Words of a face. -/
def printFaceWords (p : BrushPlane F) : List Str :=
  printPoint p.v0 ++ printPoint p.v1 ++ printPoint p.v2 ++ [p.texture] ++ printUV p.uv ++
    [Arith.disp p.rotation, Arith.disp p.scale.x, Arith.disp p.scale.y] ++ printExtra p.extra

/-- Line of a face: every word followed by a blank. -/
def printFace (p : BrushPlane F) : Str := (printFaceWords p).flatMap fun w => w ++ [' ']

/-- Lines of an item. -/
def printItem : SrcItem F → List Str
  | .prop k v => ['"' :: k ++ ['"', ' ', '"'] ++ v ++ ['"']]
  | .brush faces => [['{']] ++ faces.map printFace ++ [['}']]

/-- Lines of an entity. -/
def printEntity (items : List (SrcItem F)) : List Str := [['{']] ++ items.flatMap printItem ++ [['}']]

/-- Text of a map: all lines, each ended by `\n`. -/
def printMap (es : List (List (SrcItem F))) : Str :=
  (es.flatMap printEntity).flatMap fun l => l ++ ['\n']

/-- Numbers print as one word that reads back as the same number. -/
def NumOk (x : F) : Prop :=
  Arith.parse (Arith.disp x) = some x ∧ Arith.disp x ≠ [] ∧ ∀ c ∈ Arith.disp x, isBlank c = false

/-- 32-bit integers. -/
def I32 (i : Int) : Prop := -2147483648 ≤ i ∧ i ≤ 2147483647

instance (i : Int) : Decidable (I32 i) := by unfold I32; infer_instance

/-- Surface values that print and read back. -/
def SurfaceOk (s : SurfaceData F) : Prop := I32 s.contents ∧ I32 s.flags ∧ NumOk s.value

/-- A face whose content can be written: numbers that read back, a non-empty lower-case texture name
without whitespace. -/
def FaceOk (p : BrushPlane F) : Prop :=
  (NumOk p.v0.x ∧ NumOk p.v0.y ∧ NumOk p.v0.z) ∧ (NumOk p.v1.x ∧ NumOk p.v1.y ∧ NumOk p.v1.z) ∧
  (NumOk p.v2.x ∧ NumOk p.v2.y ∧ NumOk p.v2.z) ∧
  (p.texture ≠ [] ∧ (∀ c ∈ p.texture, isBlank c = false) ∧ Platform.lowercase p.texture = p.texture) ∧
  (match p.uv with
    | .quake u v => NumOk u ∧ NumOk v
    | .valve ua uo va vo => (NumOk ua.x ∧ NumOk ua.y ∧ NumOk ua.z ∧ NumOk uo) ∧
        NumOk va.x ∧ NumOk va.y ∧ NumOk va.z ∧ NumOk vo) ∧
  (NumOk p.rotation ∧ NumOk p.scale.x ∧ NumOk p.scale.y) ∧
  (match p.extra with
    | .none => True
    | .hexen2 x => NumOk x
    | .quake2 s => SurfaceOk s
    | .daikatana s c => SurfaceOk s ∧ NumOk c.r ∧ NumOk c.g ∧ NumOk c.b)

/-- An item that can be written: no quotes or line breaks in keys and values, writable faces. -/
def SrcItem.Ok : SrcItem F → Prop
  | .prop k v => '"' ∉ k ∧ '\n' ∉ k ∧ '"' ∉ v ∧ '\n' ∉ v
  | .brush faces => ∀ p ∈ faces, FaceOk p

end
end Quarch.Spec
