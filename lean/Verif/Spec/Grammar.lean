import Verif.Model.Parser
import Verif.Spec.Face
import Mathlib.Data.List.Forall2
/-
Grammar of map files over tokens, what a file denotes, brace depth and the structural error table.
Written without the parser's state machine.
-/
namespace Quarch.Spec

/-- Comment and unrecognised lines. -/
def isJunk : Token → Bool
  | .comment _ => true
  | .unrecognized _ => true
  | _ => false

/-! ### Brace depth and legality -/

/-- Brace depth after reading `pre`: opening minus closing braces. -/
def depth (pre : List Token) : Int := (pre.count .openBrace : Int) - (pre.count .closeBrace : Int)

/-- Which tokens may appear at which depth: 0 file, 1 entity, 2 brush. -/
def Legal (d : Int) : Token → Prop
  | .openBrace => d < 2
  | .closeBrace => 0 < d
  | .property _ _ => d = 1
  | .brushPlane _ => d = 2
  | .comment _ => True
  | .unrecognized _ => True

/-- Every token of the list is legal where it stands. -/
def LegalList (tokens : List Token) : Prop :=
  ∀ p t q, tokens = p ++ t :: q → Legal (depth p) t

/-- The message for a token that is illegal at depth `d`. -/
def structMsg (d : Int) : Token → String
  | .openBrace => "Open brace in brush scope"
  | .closeBrace => "Close brace in file scope"
  | .property _ _ => if d = 0 then "Property in file scope" else "Property in brush scope"
  | .brushPlane _ => if d = 0 then "Brushplane in file scope" else "Brushplane in entity scope"
  | .comment _ => ""
  | .unrecognized _ => ""

/-! ### Grammar -/

/-- What can stand inside an entity: a key/value pair or a brush (the list of its face lines). -/
inductive Item where
  | prop (key value : Str)
  | brush (faces : List Str)
deriving DecidableEq, Repr

/-- Tokens of an item. -/
def Item.toks : Item → List Token
  | .prop k v => [.property k v]
  | .brush faces => .openBrace :: (faces.map .brushPlane ++ [.closeBrace])

/-- What follows the last complete entity: nothing, or an entity that is never closed, possibly ending
in a brush that is never closed. -/
inductive Tail where
  | none
  | inEntity (items : List Item)
  | inBrush (items : List Item) (faces : List Str)
deriving DecidableEq, Repr

/-- Tokens of the tail. -/
def Tail.toks : Tail → List Token
  | .none => []
  | .inEntity items => .openBrace :: items.flatMap Item.toks
  | .inBrush items faces =>
    .openBrace :: (items.flatMap Item.toks ++ .openBrace :: faces.map .brushPlane)

/-- Entity blocks of the tail. -/
def Tail.blocks : Tail → List (List Item)
  | .none => []
  | .inEntity items => [items]
  | .inBrush items faces => [items ++ [.brush faces]]

/-- A map file: complete entities and a tail. -/
structure MapFile where
  closed : List (List Item)
  tail : Tail
deriving DecidableEq, Repr

/-- Tokens of a complete entity. -/
def blockToks (items : List Item) : List Token :=
  .openBrace :: (items.flatMap Item.toks ++ [.closeBrace])

/-- Tokens of a map file. -/
def MapFile.toks (f : MapFile) : List Token := f.closed.flatMap blockToks ++ f.tail.toks

/-- The entity blocks of a map file, in order. -/
def MapFile.blocks (f : MapFile) : List (List Item) := f.closed ++ f.tail.blocks

/-- Value of an item for a key, if it is that key's property. -/
def Item.valueOf (key : Str) : Item → Option Str
  | .prop k v => if k = key then some v else none
  | .brush _ => none

/-- Faces of an item, if it is a brush. -/
def Item.faces? : Item → Option (List Str)
  | .prop _ _ => none
  | .brush faces => some faces

/-- The last value given to a key in a block. -/
def lastValue (key : Str) (items : List Item) : Option Str := (items.filterMap (Item.valueOf key)).getLast?

section
variable {F : Type} [Arith F] [Platform]

/-- The brush read from face lines. -/
def BrushOf (faces : List Str) (b : Brush F) : Prop :=
  List.Forall₂ FaceText faces b.planes

/-- The entity a block stands for: last value of every key, brushes with their faces in order. -/
def Denotes (items : List Item) (e : Entity F) : Prop :=
  (∀ key, e.properties key = lastValue key items) ∧
  List.Forall₂ BrushOf (items.filterMap Item.faces?) e.brushes

end

/-- All face lines among the tokens can be read. -/
def FacesOk (F : Type) [Arith F] [Platform] (ts : List Token) : Prop :=
  ∀ line, .brushPlane line ∈ ts → ∃ p : BrushPlane F, FaceText line p

/-- `xs` is `ys` cut somewhere: a prefix of `ys`, whose last element may itself be cut (by `R`). -/
def CutOf {α : Type} (R : α → α → Prop) (xs ys : List α) : Prop :=
  xs <+: ys ∨ ∃ init x y more, xs = init ++ [x] ∧ ys = init ++ y :: more ∧ R x y

/-- A brush with trailing faces missing. -/
def BrushCut {F : Type} (b b' : Brush F) : Prop := b.planes <+: b'.planes

/-- An entity with trailing brushes, faces or properties missing. -/
def EntityCut {F : Type} (e e' : Entity F) : Prop :=
  (∀ key, (e.properties key).isSome → (e'.properties key).isSome) ∧ CutOf BrushCut e.brushes e'.brushes

end Quarch.Spec
