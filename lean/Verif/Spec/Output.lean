import Verif.Model.Tokenizer
import Mathlib.Data.List.Forall2
/-
The report of `run_diff` as lines of text, independent of the formatting machinery.
-/
namespace Quarch.Spec

/-- Value of a hexadecimal digit. -/
def digitValue (c : Char) : Option Nat :=
  [('0', 0), ('1', 1), ('2', 2), ('3', 3), ('4', 4), ('5', 5), ('6', 6), ('7', 7), ('8', 8), ('9', 9), ('a', 10),
    ('b', 11), ('c', 12), ('d', 13), ('e', 14), ('f', 15)].lookup c

/-- `Hex h n`: `h` is `n` in hexadecimal digits. -/
inductive Hex : Str → Nat → Prop
  | nil : Hex [] 0
  | snoc {h : Str} {n : Nat} {c : Char} {v : Nat} : Hex h n → digitValue c = some v → Hex (h ++ [c]) (16 * n + v)

/-- How a character may be written between quotes. -/
inductive Piece : Char → Str → Prop
  | plain (c : Char) : c ∉ ['\\', '"', '\n', '\r', '\t'] → Piece c [c]
  | nul : Piece '\x00' ['\\', '0']
  | tab : Piece '\t' ['\\', 't']
  | cr : Piece '\r' ['\\', 'r']
  | nl : Piece '\n' ['\\', 'n']
  | backslash : Piece '\\' ['\\', '\\']
  | quote : Piece '"' ['\\', '"']
  | single : Piece '\'' ['\\', '\'']
  | code (c : Char) (h : Str) : Hex h c.toNat → Piece c (['\\', 'u', '{'] ++ h ++ ['}'])

/-- `q` is the text `s` in quotes. -/
def Quoted (s q : Str) : Prop := ∃ pieces, List.Forall₂ Piece s pieces ∧ q = str! "\"" ++ pieces.flatten ++ str! "\""

/-- The lines that report one line of a map. -/
inductive TokenLines : Token → List Str → Prop
  | comment (s q : Str) : Quoted s q →
      TokenLines (.comment s) [str! "        Comment(", str! "            " ++ q ++ str! ",", str! "        ),"]
  | openBrace : TokenLines .openBrace [str! "        OpenBrace,"]
  | closeBrace : TokenLines .closeBrace [str! "        CloseBrace,"]
  | property (key value k v : Str) : Quoted key k → Quoted value v →
      TokenLines (.property key value) [str! "        Property(", str! "            Property {",
        str! "                key: " ++ k ++ str! ",", str! "                value: " ++ v ++ str! ",",
        str! "            },", str! "        ),"]
  | brushPlane (s q : Str) : Quoted s q →
      TokenLines (.brushPlane s) [str! "        BrushPlane(", str! "            " ++ q ++ str! ",", str! "        ),"]
  | unrecognized (s q : Str) : Quoted s q → TokenLines (.unrecognized s)
      [str! "        Unrecognized(", str! "            " ++ q ++ str! ",", str! "        ),"]

/-- The lines of one half of the report. -/
inductive HalfLines (name : Str) : List Token → List Str → Prop
  | none : HalfLines name [] [str! "    " ++ name ++ str! ": [],"]
  | some (ts : List Token) (blocks : List (List Str)) : ts ≠ [] → List.Forall₂ TokenLines ts blocks →
      HalfLines name ts ((str! "    " ++ name ++ str! ": [") :: (blocks.flatten ++ [str! "    ],"]))

/-- The lines of the report. -/
def ReportLines (added removed : List Token) (lines : List Str) : Prop :=
  ∃ a r, HalfLines (str! "added") added a ∧ HalfLines (str! "removed") removed r ∧
    lines = str! "Diff {" :: (a ++ r ++ [str! "}"])

/-- Lines as a text. -/
def unlines (lines : List Str) : Str := (lines.map fun l => l ++ ['\n']).flatten

/-- `common` is a longest common subsequence of the two lists. -/
def LongestCommon (common a b : List Token) : Prop :=
  common.Sublist a ∧ common.Sublist b ∧ ∀ c : List Token, c.Sublist a → c.Sublist b → c.length ≤ common.length

end Quarch.Spec
