import Verif.Model.Rust
/-
/repo/src/map/quake/tokenizer.rs
-/
namespace Quarch

/-- `Token` and `Property`, `/repo/src/map/quake/tokenizer.rs:1-9, 29-33`. -/
inductive Token where
  | comment (s : Str)
  | openBrace
  | closeBrace
  | property (key value : Str)
  | brushPlane (s : Str)
  | unrecognized (s : Str)
deriving DecidableEq, Repr

namespace Tokenizer

/-- The closure of `run`, `/repo/src/map/quake/tokenizer.rs:48-62`. The iterator `comps` over the pieces
between quotes is advanced four times; `unwrap` is applied to the second and fourth. -/
def tokenOf (line : Str) : Outcome Token :=
  match line with
  | '/' :: _ => .ok (.comment line)
  | '"' :: _ =>
    let comps := splitOn '"' line
    (Outcome.unwrap comps[1]?).bind fun key =>
    (Outcome.unwrap comps[3]?).bind fun value =>
    .ok (.property key value)
  | '{' :: _ => .ok .openBrace
  | '}' :: _ => .ok .closeBrace
  | '(' :: _ => .ok (.brushPlane line)
  | _ => .ok (.unrecognized line)

/-- `run`, `/repo/src/map/quake/tokenizer.rs:43-64`. -/
def run (bareCR : Bool) (fileString : Str) : Outcome (List Token) :=
  mapOut tokenOf (lines bareCR fileString)

/-! ### diff_tokens, `/repo/src/map/quake/tokenizer.rs:79-143` -/

/-- `l[x][y]` read, panicking outside the table. -/
def get2 (l : List (List Nat)) (x y : Nat) : Outcome Nat :=
  match l[x]? with
  | some row => match row[y]? with
    | some v => .ok v
    | none => .panic "index out of bounds"
  | none => .panic "index out of bounds"

/-- `l[x][y] = v`, panicking outside the table. -/
def set2 (l : List (List Nat)) (x y v : Nat) : Outcome (List (List Nat)) :=
  match l[x]? with
  | some row => if y < row.length then .ok (l.set x (row.set y v)) else .panic "index out of bounds"
  | none => .panic "index out of bounds"

/-- `a[i]` on a slice. -/
def getIdx {α : Type} (a : List α) (i : Nat) : Outcome α :=
  match a[i]? with
  | some v => .ok v
  | none => .panic "index out of bounds"

/-- `a - b` on `usize`; an underflow panics (in release builds it wraps to a huge index which then
panics at the following slice access, see the call sites). -/
def subUsize (a b : Nat) : Outcome Nat :=
  if b ≤ a then .ok (a - b) else .panic "attempt to subtract with overflow"

section
variable {τ : Type} [DecidableEq τ]

/-- Body of the double loop, `tokenizer.rs:90-98`. -/
def tableStep (a b : List τ) (l : List (List Nat)) (xy : Nat × Nat) : Outcome (List (List Nat)) :=
  let x := xy.1
  let y := xy.2
  if x = 0 ∨ y = 0 then set2 l x y 0
  else
    (getIdx a (x - 1)).bind fun ta =>
    (getIdx b (y - 1)).bind fun tb =>
    if ta = tb then
      (get2 l (x - 1) (y - 1)).bind fun v => set2 l x y (v + 1)
    else
      (get2 l (x - 1) y).bind fun u =>
      (get2 l x (y - 1)).bind fun w =>
      set2 l x y (max u w)

/-- The index pairs visited by the double loop, `tokenizer.rs:88-89`. -/
def loopPairs (sizeX sizeY : Nat) : List (Nat × Nat) :=
  (List.range sizeX).flatMap fun x => (List.range sizeY).map fun y => (x, y)

/-- Allocation and filling of the table `l`, `tokenizer.rs:80-100`. -/
def buildTable (a b : List τ) : Outcome (List (List Nat)) :=
  let sizeX := a.length
  let sizeY := b.length
  let l := List.replicate (sizeX + 1) (List.replicate (sizeY + 1) 0)
  foldOut (tableStep a b) l (loopPairs sizeX sizeY)

/-- The `while` loop, `tokenizer.rs:107-122`, with its mutable variables as arguments. -/
def backtrack (a b : List τ) (l : List (List Nat)) (i j index : Nat) (lcs : List (Option τ)) :
    Outcome (List (Option τ)) :=
  if h : i > 0 ∧ j > 0 then
    (getIdx a (i - 1)).bind fun ta =>
    (getIdx b (j - 1)).bind fun tb =>
    if ta = tb then
      (subUsize index 1).bind fun k =>
      if k < lcs.length then
        backtrack a b l (i - 1) (j - 1) k (lcs.set k (some ta))
      else .panic "index out of bounds"
    else
      (get2 l (i - 1) j).bind fun u =>
      (get2 l i (j - 1)).bind fun w =>
      if u > w then backtrack a b l (i - 1) j index lcs
      else backtrack a b l i (j - 1) index lcs
  else .ok lcs
termination_by i + j
decreasing_by all_goals omega

/-- The kept common part: table, allocation of `lcs`, backtracking and the final `unwrap`s,
`tokenizer.rs:80-126`. The subtractions of line 102 underflow exactly when a file has no lines. -/
def lcsTokens (a b : List τ) : Outcome (List τ) :=
  (buildTable a b).bind fun l =>
  (subUsize a.length 1).bind fun i =>
  (subUsize b.length 1).bind fun j =>
  (get2 l i j).bind fun index =>
  (backtrack a b l i j index (List.replicate index none)).bind fun lcs =>
  mapOut Outcome.unwrap lcs

/-- `Diff`, `/repo/src/map/quake/tokenizer.rs:67-71`. -/
structure Diff (τ : Type) where
  added : List τ
  removed : List τ
deriving DecidableEq, Repr

/-- `diff_tokens`, `/repo/src/map/quake/tokenizer.rs:79-143`. -/
def diffTokens (a b : List τ) : Outcome (Diff τ) :=
  (lcsTokens a b).bind fun lcs =>
  .ok { removed := a.filter (fun t => (lcs.find? fun c => c = t).isNone)
        added := b.filter (fun t => (lcs.find? fun c => c = t).isNone) }
end

end Tokenizer
end Quarch
