import Verif.Model.Files
/-
What `run_diff` (/repo/src/lib.rs:88-99) writes to the standard output: the derived `Debug` implementations of
/repo/src/map/quake/tokenizer.rs:1, 29, 67 under `{:#?}`, with the formatting machinery of `core::fmt` they use.
-/
namespace Quarch.Output

/-- What differs between versions of the standard library, or is a Unicode table: which characters `char::escape_debug`
leaves as they are, whether NUL is written `\0`, whether `'` is escaped inside strings. -/
structure DebugStyle where
  shown : Char → Bool
  shortNul : Bool
  escapeSingle : Bool

/-- A hexadecimal digit as written by `char::escape_unicode`. -/
def hexDigit (n : Nat) : Char := if n < 10 then Char.ofNat (48 + n) else Char.ofNat (87 + n)

/-- The digits written by `char::escape_unicode`: as many as the highest bit of `c | 1` asks for. -/
def hexDigits (n : Nat) : Str :=
  (List.range ((n ||| 1).log2 / 4 + 1)).reverse.map fun i => hexDigit (n / 16 ^ i % 16)

/-- `char::escape_debug` inside a string. -/
def escapeChar (style : DebugStyle) (c : Char) : Str :=
  if c = '\x00' ∧ style.shortNul then ['\\', '0']
  else if c = '\t' then ['\\', 't']
  else if c = '\r' then ['\\', 'r']
  else if c = '\n' then ['\\', 'n']
  else if c = '\\' then ['\\', '\\']
  else if c = '"' then ['\\', '"']
  else if c = '\'' ∧ style.escapeSingle then ['\\', '\'']
  else if style.shown c then [c]
  else ['\\', 'u', '{'] ++ hexDigits c.toNat ++ ['}']

/-- `impl Debug for str`. -/
def debugStr (style : DebugStyle) (s : Str) : Str := '"' :: (s.flatMap (escapeChar style) ++ ['"'])

/-- `core::fmt::builders::PadAdapter`: four spaces before the first character of every line; the flag is
`on_newline`. -/
def pad : Bool → Str → Str
  | _, [] => []
  | true, c :: s => str! "    " ++ c :: pad (c == '\n') s
  | false, c :: s => c :: pad (c == '\n') s

/-- `debug_struct` with at least one field, alternate form. -/
def debugStruct (name : Str) (fields : List (Str × Str)) : Str :=
  name ++ str! " {\n" ++ (fields.map fun f => pad true (f.1 ++ str! ": " ++ f.2 ++ str! ",\n")).flatten ++ str! "}"

/-- `debug_tuple` with at least one field, alternate form. -/
def debugTuple (name : Str) (fields : List Str) : Str :=
  name ++ str! "(\n" ++ (fields.map fun f => pad true (f ++ str! ",\n")).flatten ++ str! ")"

/-- `debug_list`, alternate form. -/
def debugList (entries : List Str) : Str :=
  str! "[" ++ (if entries.isEmpty then [] else
    str! "\n" ++ (entries.map fun e => pad true (e ++ str! ",\n")).flatten) ++ str! "]"

/-- Derived `Debug` of `Token` and `Property`, `/repo/src/map/quake/tokenizer.rs:1-9, 29-33`. -/
def debugToken (style : DebugStyle) : Token → Str
  | .comment s => debugTuple (str! "Comment") [debugStr style s]
  | .openBrace => str! "OpenBrace"
  | .closeBrace => str! "CloseBrace"
  | .property key value => debugTuple (str! "Property")
      [debugStruct (str! "Property") [(str! "key", debugStr style key), (str! "value", debugStr style value)]]
  | .brushPlane s => debugTuple (str! "BrushPlane") [debugStr style s]
  | .unrecognized s => debugTuple (str! "Unrecognized") [debugStr style s]

/-- Derived `Debug` of `Diff`, `/repo/src/map/quake/tokenizer.rs:67-71`. -/
def debugDiff (style : DebugStyle) (d : Tokenizer.Diff Token) : Str :=
  debugStruct (str! "Diff") [(str! "added", debugList (d.added.map (debugToken style))),
    (str! "removed", debugList (d.removed.map (debugToken style)))]

/-- `println!` in the tokenizer, `/repo/src/map/quake/tokenizer.rs:44`. -/
def banner : Str := str! "TODO-3: Rewrite with nom\n"

/-- `run_diff`, `/repo/src/lib.rs:88-99`, on the bytes of the two files: what is on the standard output when it
returns or aborts, and how it ends. -/
def runDiffPrints [Platform] (style : DebugStyle) (fileA fileB : Option (List UInt8)) : Str × Outcome Unit :=
  match readToString fileA with
  | none => ([], .err .io)
  | some a => match readToString fileB with
    | none => ([], .err .io)
    | some b =>
      match Tokenizer.run Platform.bareCR a with
      | .err e => (banner, .err e)
      | .panic m => (banner, .panic m)
      | .overflow => (banner, .overflow)
      | .ok ta => match Tokenizer.run Platform.bareCR b with
        | .err e => (banner ++ banner, .err e)
        | .panic m => (banner ++ banner, .panic m)
        | .overflow => (banner ++ banner, .overflow)
        | .ok tb => match Tokenizer.diffTokens ta tb with
          | .err e => (banner ++ banner, .err e)
          | .panic m => (banner ++ banner, .panic m)
          | .overflow => (banner ++ banner, .overflow)
          | .ok d => (banner ++ banner ++ debugDiff style d ++ ['\n'], .ok ())

end Quarch.Output
