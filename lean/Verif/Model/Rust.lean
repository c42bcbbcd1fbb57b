/-
Rust-level vocabulary used by the model: outcomes, strings, finite maps, integer parsing/printing.
These definitions model the Rust *standard library* functions called by /repo; each comment names the
call sites in /repo that use them.
-/
namespace Quarch

/-- Rust strings (`String`, `&str`) as the list of their Unicode scalar values. -/
abbrev Str := List Char

/-- `str! "abc"` is the character list `['a', 'b', 'c']` (a literal the kernel can compute with). -/
syntax (name := strLit) "str! " str : term
macro_rules
  | `(str! $s:str) => do
    let cs := s.getString.toList.toArray.map fun c => Lean.Syntax.mkCharLit c
    `([ $[$cs],* ])

/-- Errors of `/repo/src/wad/mod.rs:89-382` and `/repo/src/wad/palette.rs:15-27`, one constructor per
`format!` call that builds an error string. The OS error text and `{:?}` dumps embedded in the strings
are not modelled; the entry index of `mod.rs:162` is kept. -/
inductive WadErr where
  | openWad              -- mod.rs:98
  | readHeader           -- mod.rs:138
  | parseHeader          -- mod.rs:143
  | readEntry (i : Nat)  -- mod.rs:162
  | parseEntry           -- mod.rs:167
  | readMiptex           -- mod.rs:214
  | parseMiptex          -- mod.rs:219
  | readMipdata (name : Str) -- mod.rs:282-285 (the dumped texture is identified by its name)
  | parseMip (level : Nat)   -- mod.rs:292, 299, 310, 321
  | readPalette          -- mod.rs:348
  | parsePalette         -- mod.rs:354
  | noPalette            -- mod.rs:64
  | loadPaletteFile      -- palette.rs:18
  | parsePaletteFile     -- palette.rs:23
deriving DecidableEq, Repr

/-- Values of `Result::Err` in /repo: `QuarchitectError` (`/repo/src/lib.rs:45-53`), an I/O error of
`fs::read_to_string` (`/repo/src/lib.rs:60`), or a WAD error string. -/
inductive Err where
  | quarch (msg : String)
  | io
  | wad (e : WadErr)
deriving DecidableEq, Repr

/-- What a call into the library can do: return `Ok`/a plain value, return `Err`, panic (unwinding the
caller), or exhaust the call stack. -/
inductive Outcome (α : Type u) where
  | ok (a : α)
  | err (e : Err)
  | panic (msg : String)
  | overflow
deriving Repr

instance [DecidableEq α] : DecidableEq (Outcome α)
  | .ok a, .ok b => if h : a = b then isTrue (by rw [h]) else isFalse (by intro e; cases e; exact h rfl)
  | .err a, .err b => if h : a = b then isTrue (by rw [h]) else isFalse (by intro e; cases e; exact h rfl)
  | .panic a, .panic b => if h : a = b then isTrue (by rw [h]) else isFalse (by intro e; cases e; exact h rfl)
  | .overflow, .overflow => isTrue rfl
  | .ok _, .err _ => isFalse (by intro e; cases e)
  | .ok _, .panic _ => isFalse (by intro e; cases e)
  | .ok _, .overflow => isFalse (by intro e; cases e)
  | .err _, .ok _ => isFalse (by intro e; cases e)
  | .err _, .panic _ => isFalse (by intro e; cases e)
  | .err _, .overflow => isFalse (by intro e; cases e)
  | .panic _, .ok _ => isFalse (by intro e; cases e)
  | .panic _, .err _ => isFalse (by intro e; cases e)
  | .panic _, .overflow => isFalse (by intro e; cases e)
  | .overflow, .ok _ => isFalse (by intro e; cases e)
  | .overflow, .err _ => isFalse (by intro e; cases e)
  | .overflow, .panic _ => isFalse (by intro e; cases e)

namespace Outcome

/-- Sequencing of Rust statements: `?`, panics and stack exhaustion leave the function. -/
@[inline] def bind {α : Type u} {β : Type v} (x : Outcome α) (f : α → Outcome β) : Outcome β :=
  match x with
  | .ok a => f a
  | .err e => .err e
  | .panic m => .panic m
  | .overflow => .overflow

instance : Monad Outcome where
  pure := .ok
  bind := Outcome.bind

/-- `Option::unwrap` (used throughout /repo). -/
def unwrap {α : Type u} : Option α → Outcome α
  | some a => .ok a
  | none => .panic "called `Option::unwrap()` on a `None` value"

/-- `Result::unwrap` of a parse result (used throughout /repo). -/
def unwrapParse {α : Type u} : Option α → Outcome α
  | some a => .ok a
  | none => .panic "called `Result::unwrap()` on an `Err` value"

/-- The call returned normally with a value. -/
def isOk {α : Type u} : Outcome α → Bool
  | .ok _ => true
  | _ => false

/-- The call panicked. -/
def isPanic {α : Type u} : Outcome α → Bool
  | .panic _ => true
  | _ => false

/-- The call returned `Err`. -/
def isErr {α : Type u} : Outcome α → Bool
  | .err _ => true
  | _ => false

/-- The call did not return: it panicked or exhausted the stack. -/
def aborts {α : Type u} : Outcome α → Bool
  | .panic _ => true
  | .overflow => true
  | _ => false

/-- The value of a successful call. -/
def value? {α : Type u} : Outcome α → Option α
  | .ok a => some a
  | _ => none

end Outcome

/-- Evaluate a fallible closure on each element in order and collect the values: `iter.map(f).collect()`
where `f` may leave the enclosing function. -/
def mapOut {α : Type u} {β : Type v} (f : α → Outcome β) : List α → Outcome (List β)
  | [] => .ok []
  | x :: xs => (f x).bind fun y => (mapOut f xs).bind fun ys => .ok (y :: ys)

/-- A `for` loop threading a mutable state through a fallible body. -/
def foldOut {σ : Type u} {α : Type v} (f : σ → α → Outcome σ) : σ → List α → Outcome σ
  | s, [] => .ok s
  | s, x :: xs => (f s x).bind fun s' => foldOut f s' xs

/-- Collecting a `Vec<Result<..>>` first and looking for an error afterwards
(`/repo/src/wad/mod.rs:152-201, 205-241, 253-381`): a panic in any closure aborts, otherwise the first
`Err` is returned, otherwise all values. The list holds what each closure call did, in order. -/
def collectResults {α : Type u} (l : List (Outcome α)) : Outcome (List α) :=
  match l.find? Outcome.aborts with
  | some (.panic m) => .panic m
  | some _ => .overflow
  | none =>
    match l.find? Outcome.isErr with
    | some (.err e) => .err e
    | _ => .ok (l.filterMap Outcome.value?)

/-! ### Strings -/

/-- `str::split(c)` for a character `c` (`tokenizer.rs:51`, `entity/mod.rs:23`, `scene_tree/mod.rs:401`):
always at least one piece. -/
def splitOn (c : Char) : Str → List Str
  | [] => [[]]
  | x :: xs =>
    if x = c then [] :: splitOn c xs
    else match splitOn c xs with
      | h :: t => (x :: h) :: t
      | [] => [[x]]

/-- Remove one trailing carriage return. -/
def stripCR (l : Str) : Str :=
  if l.getLast? = some '\r' then l.dropLast else l

/-- `str::lines` (`tokenizer.rs:47`): split at `\n`, drop the empty piece after a final `\n`, remove one
`\r` before each `\n`. `bareCR` says whether a `\r` at the very end of the text (not followed by `\n`)
is removed as well: older standard libraries do, newer ones do not; both are covered. -/
def lines (bareCR : Bool) (s : Str) : List Str :=
  let parts := splitOn '\n' s
  let last := parts.getLast?.getD []
  parts.dropLast.map stripCR ++
    (if last = [] then [] else [if bareCR then stripCR last else last])

/-- `char::is_whitespace`: the Unicode `White_Space` property. -/
def isWhitespace (c : Char) : Bool :=
  let n := c.toNat
  (9 ≤ n && n ≤ 13) || n = 32 || n = 0x85 || n = 0xA0 || n = 0x1680 ||
  (0x2000 ≤ n && n ≤ 0x200A) || n = 0x2028 || n = 0x2029 || n = 0x202F || n = 0x205F || n = 0x3000

/-- Pieces between whitespace characters, empty pieces included. -/
def splitWs : Str → List Str
  | [] => [[]]
  | x :: xs =>
    if isWhitespace x then [] :: splitWs xs
    else match splitWs xs with
      | h :: t => (x :: h) :: t
      | [] => [[x]]

/-- `str::split_whitespace` (`brush_plane.rs:97`): the non-empty pieces between whitespace. -/
def splitWhitespace (s : Str) : List Str :=
  (splitWs s).filter fun w => !w.isEmpty

/-! ### Integers as text -/

/-- Value of an ASCII decimal digit. -/
def digitVal (c : Char) : Option Nat :=
  if '0' ≤ c ∧ c ≤ '9' then some (c.toNat - '0'.toNat) else none

/-- Value of a string of ASCII digits, most significant first, starting from `acc`. -/
def digitsVal (acc : Nat) : Str → Option Nat
  | [] => some acc
  | c :: cs => match digitVal c with
    | some d => digitsVal (acc * 10 + d) cs
    | none => none

/-- `str::parse::<i32>` (`brush_plane.rs:35, 40`, `scene_tree/mod.rs:302, 332, 370, 381`): optional sign,
at least one ASCII digit, nothing else, and the value must fit in 32 bits. -/
def parseI32 (s : Str) : Option Int :=
  let r : Option Int := match s with
    | [] => none
    | '+' :: ds => if ds.isEmpty then none else (digitsVal 0 ds).map Int.ofNat
    | '-' :: ds => if ds.isEmpty then none else (digitsVal 0 ds).map fun n => - Int.ofNat n
    | ds => (digitsVal 0 ds).map Int.ofNat
  match r with
  | some v => if -2147483648 ≤ v ∧ v ≤ 2147483647 then some v else none
  | none => none

/-- The ASCII digit for `d < 10`. -/
def digitChar (d : Nat) : Char := Char.ofNat ('0'.toNat + d)

/-- Decimal digits of a natural number, `Display` for unsigned integers. -/
def showNat (n : Nat) : Str :=
  if n < 10 then [digitChar n] else showNat (n / 10) ++ [digitChar (n % 10)]
termination_by n

/-- `Display` for `i32` (`color.rs:25-30`, `property.rs:62, 110`, `choice.rs:58`). -/
def showInt (i : Int) : Str :=
  match i with
  | .ofNat n => showNat n
  | .negSucc n => '-' :: showNat (n + 1)

/-! ### Finite maps -/

/-- `std::collections::HashMap` where only `get`, `contains_key` and `insert` are used: a partial
function. (Where /repo iterates a `HashMap` the model uses a list in arbitrary order instead.) -/
abbrev Map (K : Type u) (V : Type v) := K → Option V

namespace Map
/-- `HashMap::new`. -/
def empty {K : Type u} {V : Type v} : Map K V := fun _ => none
/-- `HashMap::insert`: replaces an existing value. -/
def insert {K : Type u} {V : Type v} [DecidableEq K] (m : Map K V) (k : K) (v : V) : Map K V :=
  fun k' => if k' = k then some v else m k'
/-- `HashMap::get`. -/
def get? {K : Type u} {V : Type v} (m : Map K V) (k : K) : Option V := m k
/-- `HashMap::contains_key`. -/
def contains {K : Type u} {V : Type v} (m : Map K V) (k : K) : Bool := (m k).isSome
end Map

/-! ### 32-bit arithmetic -/

/-- `a + b` on `u32`: with overflow checks (debug builds) an overflow panics, without them it wraps. -/
def addU32 (checks : Bool) (a b : Nat) : Outcome Nat :=
  if a + b < 2 ^ 32 then .ok (a + b)
  else if checks then .panic "attempt to add with overflow" else .ok ((a + b) % 2 ^ 32)

/-- `a * b` on `u32`. -/
def mulU32 (checks : Bool) (a b : Nat) : Outcome Nat :=
  if a * b < 2 ^ 32 then .ok (a * b)
  else if checks then .panic "attempt to multiply with overflow" else .ok ((a * b) % 2 ^ 32)

end Quarch
