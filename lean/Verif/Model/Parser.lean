import Verif.Model.Tokenizer
import Verif.Model.MapTypes
/-
/repo/src/map/quake/parser.rs
-/
namespace Quarch
namespace Parser

/-- `ParseScope`, `/repo/src/map/quake/parser.rs:67-86`. -/
inductive Scope where
  | file
  | entity (entityIdx : Nat)
  | brush (entityIdx brushIdx : Nat)
deriving DecidableEq, Repr

/-- `TokenPath`, `/repo/src/map/quake/parser.rs:88-112`. -/
inductive TokenPath where
  | entity (entityIdx : Nat)
  | property (entityIdx : Nat) (name : Str)
  | brush (entityIdx brushIdx : Nat)
  | brushPlane (entityIdx brushIdx planeIdx : Nat)
deriving DecidableEq, Repr

/-- The mutable variables of `run`, `/repo/src/map/quake/parser.rs:119-122`. `token_paths` is keyed by
the token (by content, as `&Token: Hash + Eq` is). -/
structure State (F : Type) where
  scope : Scope
  tokenPaths : Map Token TokenPath
  entities : List (Entity F)

/-- `v.last_mut().unwrap()` followed by a modification. -/
def withLast {α β : Type} (l : List α) (f : α → Outcome (α × β)) : Outcome (List α × β) :=
  (Outcome.unwrap l.getLast?).bind fun x =>
  (f x).bind fun (x', r) => .ok (l.dropLast ++ [x'], r)

section
variable {F : Type} [Arith F] [Platform]

/-- Initial state, `/repo/src/map/quake/parser.rs:119-122`. -/
def init : State F := ⟨.file, Map.empty, []⟩

/-- Loop body, `/repo/src/map/quake/parser.rs:125-191`. -/
def step (s : State F) (token : Token) : Outcome (State F) :=
  match token with
  | .openBrace => match s.scope with
    | .file =>
      let id := s.entities.length
      .ok { scope := .entity id
            entities := s.entities ++ [Entity.new]
            tokenPaths := s.tokenPaths.insert token (.entity id) }
    | .entity e =>
      (withLast s.entities fun ent =>
        .ok ({ ent with brushes := ent.brushes ++ [⟨[]⟩] }, ent.brushes.length)).bind fun (es, bi) =>
      .ok { scope := .brush e bi
            entities := es
            tokenPaths := s.tokenPaths.insert token (.brush e bi) }
    | .brush _ _ => .err (.quarch "Open brace in brush scope")
  | .closeBrace => match s.scope with
    | .file => .err (.quarch "Close brace in file scope")
    | .entity _ => .ok { s with scope := .file }
    | .brush e _ => .ok { s with scope := .entity e }
  | .property k v => match s.scope with
    | .file => .err (.quarch "Property in file scope")
    | .entity e =>
      (withLast s.entities fun ent =>
        .ok ({ ent with properties := ent.properties.insert k v }, ())).bind fun (es, _) =>
      .ok { s with entities := es, tokenPaths := s.tokenPaths.insert token (.property e k) }
    | .brush _ _ => .err (.quarch "Property in brush scope")
  | .brushPlane bp => match s.scope with
    | .file => .err (.quarch "Brushplane in file scope")
    | .entity _ => .err (.quarch "Brushplane in entity scope")
    | .brush e b =>
      (withLast s.entities fun ent =>
        (withLast ent.brushes fun br =>
          (BrushPlane.new bp).bind fun plane =>
          .ok (({ planes := br.planes ++ [plane] } : Brush F), br.planes.length)).bind fun (bs, pi) =>
        .ok ({ ent with brushes := bs }, pi)).bind fun (es, pi) =>
      .ok { s with entities := es, tokenPaths := s.tokenPaths.insert token (.brushPlane e b pi) }
  | .comment _ => .ok s
  | .unrecognized _ => .ok s

/-- `run`, `/repo/src/map/quake/parser.rs:114-195`. -/
def run (tokens : List Token) : Outcome (Map Token TokenPath × List (Entity F)) :=
  (foldOut step init tokens).bind fun s => .ok (s.tokenPaths, s.entities)

end
end Parser
end Quarch
