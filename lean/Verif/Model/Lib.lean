import Verif.Model.Parser
import Verif.Model.LayerFilter
import Verif.Model.SceneTree
/-
/repo/src/lib.rs
-/
namespace Quarch

/-- `Config`, `/repo/src/lib.rs:17-43`; `mapFile` is the result of reading the file as text
(`fs::read_to_string`, line 60): `none` if that fails. -/
structure Config (F : Type) where
  mapFile : Option Str
  textureInfo : TextureInfo
  textureBlacklist : TextureBlacklist
  forgeGameData : Forge.GameData F
  quarchitectGameData : GameData F

section
variable {F : Type} [Arith F] [Platform]

/-- `run`, `/repo/src/lib.rs:55-86`. `depth` bounds the call stack, `order` is the iteration order of the
hash map of worldspawn layers (a reordering of the inserted entries). -/
def run (depth : Nat) (order : List (Str × List (BrushGeo F)) → List (Str × List (BrushGeo F)))
    (config : Config F) : Outcome (List (Node F)) :=
  match config.mapFile with
  | none => .err .io
  | some text =>
    (Tokenizer.run Platform.bareCR text).bind fun tokens =>
    (Parser.run tokens).bind fun (_, entities) =>
    (Geo.run config.textureInfo entities).bind fun geometry =>
    (LayerFilter.run (entities.zip geometry)).bind fun (entityData, layers) =>
    Scene.run depth config.quarchitectGameData config.forgeGameData config.textureBlacklist entityData
      (order layers)

/-- `run_diff`, `/repo/src/lib.rs:88-99`: the printed value. -/
def runDiff (fileA fileB : Option Str) : Outcome (Tokenizer.Diff Token) :=
  match fileA with
  | none => .err .io
  | some a => match fileB with
    | none => .err .io
    | some b =>
      (Tokenizer.run Platform.bareCR a).bind fun ta =>
      (Tokenizer.run Platform.bareCR b).bind fun tb =>
      Tokenizer.diffTokens ta tb
end

end Quarch
