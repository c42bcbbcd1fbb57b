import Verif.Model.Tokenizer
/-
What a text file and its lines are, and what kind of token a line is. Written without the tokenizer's
helper functions (`lines`, `splitOn`, ...).
-/
namespace Quarch.Spec

/-- A terminated line of a text file: its content and whether it ends in `\r\n` (else `\n`). -/
structure Line where
  content : Str
  crlf : Bool
deriving DecidableEq, Repr

/-- The characters of the line in the file. -/
def Line.text (l : Line) : Str := l.content ++ (if l.crlf then ['\r', '\n'] else ['\n'])

/-- The content has no line break; a `\r` directly before `\n` belongs to the line ending. -/
def Line.WF (l : Line) : Prop :=
  '\n' ∉ l.content ∧ (l.crlf = false → l.content.getLast? ≠ some '\r')

/-- The text made of terminated lines followed by an unterminated rest. -/
def textOf (ls : List Line) (final : Str) : Str := (ls.map Line.text).flatten ++ final

/-- The line made by an unterminated rest: none if it is empty. A trailing `\r` is dropped or not
depending on the standard library version. -/
def unterminated (bareCR : Bool) (final : Str) : List Str :=
  if final = [] then []
  else if bareCR = true ∧ final.getLast? = some '\r' then [final.dropLast] else [final]

/-- The contents of all lines of `textOf ls final`. -/
def contents (bareCR : Bool) (ls : List Line) (final : Str) : List Str :=
  ls.map Line.content ++ unterminated bareCR final

/-- Kind and content of the token for a line. -/
inductive Classifies : Str → Token → Prop
  | comment (rest : Str) : Classifies ('/' :: rest) (.comment ('/' :: rest))
  | openBrace (rest : Str) : Classifies ('{' :: rest) .openBrace
  | closeBrace (rest : Str) : Classifies ('}' :: rest) .closeBrace
  | face (rest : Str) : Classifies ('(' :: rest) (.brushPlane ('(' :: rest))
  | property (key mid value tail : Str) :
      '"' ∉ key → '"' ∉ mid → '"' ∉ value → (tail = [] ∨ ∃ t, tail = '"' :: t) →
      Classifies ('"' :: (key ++ '"' :: (mid ++ '"' :: (value ++ tail)))) (.property key value)
  | other (line : Str) : (∀ c ∈ ['/', '{', '}', '(', '"'], line.head? ≠ some c) →
      Classifies line (.unrecognized line)

/-- A property line that cannot be read: it starts with a quote and has fewer than three quotes. -/
def BadPropertyLine (line : Str) : Prop := line.head? = some '"' ∧ line.count '"' < 3

instance (line : Str) : Decidable (BadPropertyLine line) := by unfold BadPropertyLine; infer_instance

end Quarch.Spec
