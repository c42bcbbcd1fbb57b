import Verif.Props.Groups
/-
Negations of C46 and C52 with their witnesses, and a concrete map for the theorems about whole scenes.
-/
set_option linter.unusedSectionVars false
namespace Quarch
open Spec Scene

/-- Tokens of a map whose entities have only properties. -/
def toksOf (l : List (List (Str × Str))) : List Token :=
  l.flatMap fun ps => .openBrace :: (ps.map fun p => .property p.1 p.2) ++ [.closeBrace]

/-- An entity with only properties. -/
def pointEntity (F : Type) (ps : List (Str × Str)) : Entity F :=
  ⟨ps.foldl (fun m p => m.insert p.1 p.2) Map.empty, []⟩

/-- A group whose id is used again by an entity in that group. -/
def loopMap : Str :=
  str! "{\n\"classname\" \"worldspawn\"\n}\n{\n\"classname\" \"group\"\n\"_tb_id\" \"1\"\n}\n{\n\"classname\" \"group\"\n\"_tb_id\" \"1\"\n\"_tb_group\" \"1\"\n}\n"

def loopProps : List (List (Str × Str)) :=
  [[(str! "classname", str! "worldspawn")], [(str! "classname", str! "group"), (str! "_tb_id", str! "1")],
   [(str! "classname", str! "group"), (str! "_tb_id", str! "1"), (str! "_tb_group", str! "1")]]

set_option maxRecDepth 20000 in
theorem loop_tokens (b : Bool) : Tokenizer.run b loopMap = .ok (toksOf loopProps) := by
  cases b <;> decide

/-- A map with only a worldspawn. -/
def worldMap : Str := str! "{\n\"classname\" \"worldspawn\"\n}\n"

def worldProps : List (List (Str × Str)) := [[(str! "classname", str! "worldspawn")]]

set_option maxRecDepth 20000 in
theorem world_tokens (b : Bool) : Tokenizer.run b worldMap = .ok (toksOf worldProps) := by
  cases b <;> decide

section
variable {F : Type} [Arith F]

/-- Geometry of an entity without brushes and origin. -/
def noGeo : EntityGeo F := ⟨Geo.mean [], []⟩

/-- The worldspawn, the group, and the group inside it. -/
def loopData : List (Entity F × EntityGeo F) := loopProps.map fun ps => (pointEntity F ps, noGeo)

theorem loop_inner (bl : TextureBlacklist) (depth : Nat) (o : V3 F) :
    buildEntity (F := F) ⟨[], []⟩ ⟨[], [], []⟩ bl loopData depth o
      (pointEntity F [(str! "classname", str! "group"), (str! "_tb_id", str! "1"), (str! "_tb_group", str! "1")],
        noGeo) = .overflow := by
  induction depth generalizing o with
  | zero => rfl
  | succ depth ih =>
    have e : buildEntity (F := F) ⟨[], []⟩ ⟨[], [], []⟩ bl loopData (depth + 1) o
      (pointEntity F [(str! "classname", str! "group"), (str! "_tb_id", str! "1"), (str! "_tb_group", str! "1")],
        noGeo) = (mapOut (fun child => buildEntity ⟨[], []⟩ ⟨[], [], []⟩ bl loopData depth
          (V3.neg (noGeo (F := F)).center) child)
          [(pointEntity F [(str! "classname", str! "group"), (str! "_tb_id", str! "1"),
            (str! "_tb_group", str! "1")], noGeo)]).bind fun _ => .overflow := by
      rw [mapOut_cons, ih]
      conv_lhs => unfold buildEntity
      have : (loopData (F := F).drop 1).filter (fun child => inGroup (pointEntity F
          [(str! "classname", str! "group"), (str! "_tb_id", str! "1"), (str! "_tb_group", str! "1")]) child.1) =
          [(pointEntity F [(str! "classname", str! "group"), (str! "_tb_id", str! "1"),
            (str! "_tb_group", str! "1")], noGeo)] := rfl
      rw [this, mapOut_cons, ih]
      rfl
    rw [e, mapOut_cons, ih]
    rfl

theorem loop_outer (bl : TextureBlacklist) (depth : Nat) (o : V3 F) :
    buildEntity (F := F) ⟨[], []⟩ ⟨[], [], []⟩ bl loopData depth o
      (pointEntity F [(str! "classname", str! "group"), (str! "_tb_id", str! "1")], noGeo) = .overflow := by
  cases depth with
  | zero => rfl
  | succ depth =>
    unfold buildEntity
    have : (loopData (F := F).drop 1).filter (fun child => inGroup (pointEntity F
        [(str! "classname", str! "group"), (str! "_tb_id", str! "1")]) child.1) =
        [(pointEntity F [(str! "classname", str! "group"), (str! "_tb_id", str! "1"),
          (str! "_tb_group", str! "1")], noGeo)] := rfl
    rw [this, mapOut_cons, loop_inner]
    rfl

variable [Platform]

theorem loop_loads : LoadsAs loopMap (loopProps.map (pointEntity F)) :=
  ⟨_, _, loop_tokens _, rfl⟩

/-- C46 is false: there is a map (a group with id 1 and, in it, another group with id 1) for which the
recursion exceeds every stack size, in every iteration order. -/
theorem C46_group_loop (textures : TextureInfo) (bl : TextureBlacklist)
    (order : List (Str × List (BrushGeo F)) → List (Str × List (BrushGeo F))) :
    ∃ text, ∀ depth, Quarch.run depth order
      (⟨some text, textures, bl, ⟨[], [], []⟩, ⟨[], []⟩⟩ : Config F) = .overflow := by
  refine ⟨loopMap, fun depth => ?_⟩
  unfold Quarch.run
  simp only [loop_tokens, Outcome.ok_bind]
  have hp : ∃ paths, Parser.run (toksOf loopProps) = .ok (paths, loopProps.map (pointEntity F)) := ⟨_, rfl⟩
  obtain ⟨paths, hp⟩ := hp
  rw [hp, Outcome.ok_bind]
  have hg : Geo.run textures (loopProps.map (pointEntity F)) = .ok [noGeo, noGeo, noGeo] := rfl
  simp only [hg, Outcome.ok_bind]
  have hl : LayerFilter.run ((loopProps.map (pointEntity F)).zip [noGeo, noGeo, noGeo]) =
    .ok (loopData, [(str! "*water0", []), (str! "*slime0", [])]) := rfl
  simp only [hl, Outcome.ok_bind]
  have hw : (∃ n, mapOut (buildEntity (F := F) ⟨[], []⟩ ⟨[], [], []⟩ bl loopData depth V3.zero)
      (loopData.take 1) = .ok n) ∨ mapOut (buildEntity (F := F) ⟨[], []⟩ ⟨[], [], []⟩ bl loopData depth V3.zero)
      (loopData.take 1) = .overflow := by
    cases depth with
    | zero => exact .inr rfl
    | succ depth => exact .inl ⟨_, rfl⟩
  have hls : ∀ l : List (Str × List (BrushGeo F)), ∃ o, mapOut (buildLayer (F := F) ⟨[], []⟩) l = .ok o := by
    intro l
    exact mapOut_isOk.2 fun a _ => ⟨none, rfl⟩
  unfold Scene.run
  rcases hw with ⟨n, hw⟩ | hw
  · rw [hw, Outcome.ok_bind]
    obtain ⟨o, ho⟩ := hls (order [(str! "*water0", []), (str! "*slime0", [])])
    rw [ho, Outcome.ok_bind]
    have hf : (loopData (F := F).drop 1).filter
        (fun d => (d.1.properties.get? (str! "_tb_group")).isNone) =
        [(pointEntity F [(str! "classname", str! "group"), (str! "_tb_id", str! "1")], noGeo)] := rfl
    rw [hf, mapOut_cons, loop_outer]
    rfl
  · rw [hw]
    rfl

/-- Two layers with collision shapes. -/
def twoLayers : GameData F :=
  ⟨[], [⟨str! "water", str! "*water0", .placeholder, .none, .none, .convex⟩,
        ⟨str! "slime", str! "*slime0", .placeholder, .none, .none, .convex⟩]⟩

/-- Names of the actors in a list. -/
def namesOf : Outcome (List (Node F)) → List Str
  | .ok ns => ns.map fun
    | .actor _ a _ => a.name
    | _ => []
  | _ => []

/-- C52 is false: for a map with only a worldspawn and game data with two layers, the iteration order of
the hash map is visible in the result. -/
theorem C52_order_matters (textures : TextureInfo) (bl : TextureBlacklist) (depth : Nat) :
    let config : Config F := ⟨some worldMap, textures, bl, ⟨[], [], []⟩, twoLayers⟩
    Quarch.run (depth + 1) id config ≠ Quarch.run (depth + 1) List.reverse config := by
  intro config h
  have e : ∀ order, Quarch.run (depth + 1) order config = Scene.run (depth + 1) twoLayers ⟨[], [], []⟩ bl
      [(pointEntity F [(str! "classname", str! "worldspawn")], noGeo)]
      (order [(str! "*water0", []), (str! "*slime0", [])]) := by
    intro order
    unfold Quarch.run
    simp only [config, world_tokens, Outcome.ok_bind]
    rfl
  rw [e, e] at h
  have h2 := congrArg namesOf h
  have a1 : namesOf (Scene.run (F := F) (depth + 1) twoLayers ⟨[], [], []⟩ bl
      [(pointEntity F [(str! "classname", str! "worldspawn")], noGeo)]
      (id [(str! "*water0", []), (str! "*slime0", [])])) =
      [str! "worldspawn", str! "water", str! "slime"] := rfl
  have a2 : namesOf (Scene.run (F := F) (depth + 1) twoLayers ⟨[], [], []⟩ bl
      [(pointEntity F [(str! "classname", str! "worldspawn")], noGeo)]
      (List.reverse [(str! "*water0", []), (str! "*slime0", [])])) =
      [str! "worldspawn", str! "slime", str! "water"] := rfl
  rw [a1, a2] at h2
  revert h2
  decide
end

/-! ### a concrete scene -/

section Example
attribute [local instance] refPlatform intArith

instance : ExactAdd Int := ⟨fun a => Int.zero_add a, fun a b => by
  show a + (-a + b) = b
  omega⟩

/-- A worldspawn with a box, a group and a door in the group. -/
def sceneMap : Str := str! "{\n\"classname\" \"worldspawn\"\n{\n( 0 0 2 ) ( 0 1 2 ) ( 1 0 2 ) stone 0 0 0 1 1\n( 0 0 0 ) ( 1 0 0 ) ( 0 1 0 ) stone 0 0 0 1 1\n( 2 0 0 ) ( 2 0 1 ) ( 2 1 0 ) stone 0 0 0 1 1\n( 0 0 0 ) ( 0 1 0 ) ( 0 0 1 ) stone 0 0 0 1 1\n( 0 2 0 ) ( 1 2 0 ) ( 0 2 1 ) stone 0 0 0 1 1\n( 0 0 0 ) ( 0 0 1 ) ( 1 0 0 ) stone 0 0 0 1 1\n}\n}\n{\n\"classname\" \"group\"\n\"_tb_id\" \"1\"\n\"origin\" \"5 6 7\"\n}\n{\n\"classname\" \"door\"\n\"_tb_group\" \"1\"\n\"origin\" \"1 2 3\"\n}\n"

/-- Meshes for the worldspawn, nothing else defined; two layers with collision. -/
def sceneConfig : Config Int :=
  ⟨some sceneMap, exampleTextures, ⟨[], []⟩, ⟨[], [], []⟩,
   ⟨[⟨str! "worldspawn", .brush ⟨.placeholder, .none, .properties, Map.empty⟩ ⟨.mesh, .convex⟩⟩],
    (twoLayers (F := Int)).worldspawnLayers⟩⟩

def sceneTokens : List Token :=
  [.openBrace, .property (str! "classname") (str! "worldspawn"), .openBrace,
   .brushPlane (str! "( 0 0 2 ) ( 0 1 2 ) ( 1 0 2 ) stone 0 0 0 1 1"),
   .brushPlane (str! "( 0 0 0 ) ( 1 0 0 ) ( 0 1 0 ) stone 0 0 0 1 1"),
   .brushPlane (str! "( 2 0 0 ) ( 2 0 1 ) ( 2 1 0 ) stone 0 0 0 1 1"),
   .brushPlane (str! "( 0 0 0 ) ( 0 1 0 ) ( 0 0 1 ) stone 0 0 0 1 1"),
   .brushPlane (str! "( 0 2 0 ) ( 1 2 0 ) ( 0 2 1 ) stone 0 0 0 1 1"),
   .brushPlane (str! "( 0 0 0 ) ( 0 0 1 ) ( 1 0 0 ) stone 0 0 0 1 1"),
   .closeBrace, .closeBrace, .openBrace, .property (str! "classname") (str! "group"),
   .property (str! "_tb_id") (str! "1"), .property (str! "origin") (str! "5 6 7"), .closeBrace, .openBrace,
   .property (str! "classname") (str! "door"), .property (str! "_tb_group") (str! "1"),
   .property (str! "origin") (str! "1 2 3"), .closeBrace]

def sceneBox : List (BrushPlane Int) := [
   boxFace ⟨0, 0, 2⟩ ⟨0, 1, 2⟩ ⟨1, 0, 2⟩ .none,
   boxFace ⟨0, 0, 0⟩ ⟨1, 0, 0⟩ ⟨0, 1, 0⟩ .none,
   boxFace ⟨2, 0, 0⟩ ⟨2, 0, 1⟩ ⟨2, 1, 0⟩ .none,
   boxFace ⟨0, 0, 0⟩ ⟨0, 1, 0⟩ ⟨0, 0, 1⟩ .none,
   boxFace ⟨0, 2, 0⟩ ⟨1, 2, 0⟩ ⟨0, 2, 1⟩ .none,
   boxFace ⟨0, 0, 0⟩ ⟨0, 0, 1⟩ ⟨1, 0, 0⟩ .none]

set_option maxRecDepth 100000 in
theorem scene_tokens : Tokenizer.run false sceneMap = .ok sceneTokens := by decide

set_option maxRecDepth 100000 in
theorem scene_face0 : BrushPlane.new (F := Int) (str! "( 0 0 2 ) ( 0 1 2 ) ( 1 0 2 ) stone 0 0 0 1 1") =
    .ok (boxFace ⟨0, 0, 2⟩ ⟨0, 1, 2⟩ ⟨1, 0, 2⟩ .none) := by decide

set_option maxRecDepth 100000 in
theorem scene_face1 : BrushPlane.new (F := Int) (str! "( 0 0 0 ) ( 1 0 0 ) ( 0 1 0 ) stone 0 0 0 1 1") =
    .ok (boxFace ⟨0, 0, 0⟩ ⟨1, 0, 0⟩ ⟨0, 1, 0⟩ .none) := by decide

set_option maxRecDepth 100000 in
theorem scene_face2 : BrushPlane.new (F := Int) (str! "( 2 0 0 ) ( 2 0 1 ) ( 2 1 0 ) stone 0 0 0 1 1") =
    .ok (boxFace ⟨2, 0, 0⟩ ⟨2, 0, 1⟩ ⟨2, 1, 0⟩ .none) := by decide

set_option maxRecDepth 100000 in
theorem scene_face3 : BrushPlane.new (F := Int) (str! "( 0 0 0 ) ( 0 1 0 ) ( 0 0 1 ) stone 0 0 0 1 1") =
    .ok (boxFace ⟨0, 0, 0⟩ ⟨0, 1, 0⟩ ⟨0, 0, 1⟩ .none) := by decide

set_option maxRecDepth 100000 in
theorem scene_face4 : BrushPlane.new (F := Int) (str! "( 0 2 0 ) ( 1 2 0 ) ( 0 2 1 ) stone 0 0 0 1 1") =
    .ok (boxFace ⟨0, 2, 0⟩ ⟨1, 2, 0⟩ ⟨0, 2, 1⟩ .none) := by decide

set_option maxRecDepth 100000 in
theorem scene_face5 : BrushPlane.new (F := Int) (str! "( 0 0 0 ) ( 0 0 1 ) ( 1 0 0 ) stone 0 0 0 1 1") =
    .ok (boxFace ⟨0, 0, 0⟩ ⟨0, 0, 1⟩ ⟨1, 0, 0⟩ .none) := by decide


def sceneWorld : Entity Int :=
  ⟨Map.insert Map.empty (str! "classname") (str! "worldspawn"), [⟨sceneBox⟩]⟩
def sceneEntities : List (Entity Int) :=
  [sceneWorld, pointEntity Int [(str! "classname", str! "group"), (str! "_tb_id", str! "1"), (str! "origin", str! "5 6 7")],
   pointEntity Int [(str! "classname", str! "door"), (str! "_tb_group", str! "1"), (str! "origin", str! "1 2 3")]]

theorem scene_parse : ∃ paths, Parser.run sceneTokens = .ok (paths, sceneEntities) := by
  refine ⟨?_, ?_⟩
  rotate_left
  · unfold sceneTokens Parser.run
    simp only [foldOut_cons, Parser.step, scene_face0, scene_face1, scene_face2, scene_face3, scene_face4, scene_face5]
    rfl

/-- Geometry of the box. -/
def sceneBoxGeo : BrushGeo Int := ⟨⟨1, 1, 1⟩, [
    ⟨⟨1, 1, 2⟩, [⟨⟨0, 0, 2⟩, ⟨0, 0, 1⟩, (⟨1, 0, 0⟩, 1), some ⟨0, 0⟩, none⟩,
     ⟨⟨0, 2, 2⟩, ⟨0, 0, 1⟩, (⟨1, 0, 0⟩, 1), some ⟨0, -2⟩, none⟩,
     ⟨⟨2, 2, 2⟩, ⟨0, 0, 1⟩, (⟨1, 0, 0⟩, 1), some ⟨2, -2⟩, none⟩,
     ⟨⟨2, 0, 2⟩, ⟨0, 0, 1⟩, (⟨1, 0, 0⟩, 1), some ⟨2, 0⟩, none⟩], [0, 1, 2, 0, 2, 3], some (str! "stone")⟩,
    ⟨⟨1, 1, 0⟩, [⟨⟨0, 0, 0⟩, ⟨0, 0, -1⟩, (⟨1, 0, 0⟩, -1), some ⟨0, 0⟩, none⟩,
     ⟨⟨2, 0, 0⟩, ⟨0, 0, -1⟩, (⟨1, 0, 0⟩, -1), some ⟨2, 0⟩, none⟩,
     ⟨⟨2, 2, 0⟩, ⟨0, 0, -1⟩, (⟨1, 0, 0⟩, -1), some ⟨2, -2⟩, none⟩,
     ⟨⟨0, 2, 0⟩, ⟨0, 0, -1⟩, (⟨1, 0, 0⟩, -1), some ⟨0, -2⟩, none⟩], [0, 1, 2, 0, 2, 3], some (str! "stone")⟩,
    ⟨⟨2, 1, 1⟩, [⟨⟨2, 0, 0⟩, ⟨1, 0, 0⟩, (⟨0, 1, 0⟩, 1), some ⟨0, 0⟩, none⟩,
     ⟨⟨2, 0, 2⟩, ⟨1, 0, 0⟩, (⟨0, 1, 0⟩, 1), some ⟨0, -2⟩, none⟩,
     ⟨⟨2, 2, 2⟩, ⟨1, 0, 0⟩, (⟨0, 1, 0⟩, 1), some ⟨2, -2⟩, none⟩,
     ⟨⟨2, 2, 0⟩, ⟨1, 0, 0⟩, (⟨0, 1, 0⟩, 1), some ⟨2, 0⟩, none⟩], [0, 1, 2, 0, 2, 3], some (str! "stone")⟩,
    ⟨⟨0, 1, 1⟩, [⟨⟨0, 0, 0⟩, ⟨-1, 0, 0⟩, (⟨0, 1, 0⟩, -1), some ⟨0, 0⟩, none⟩,
     ⟨⟨0, 2, 0⟩, ⟨-1, 0, 0⟩, (⟨0, 1, 0⟩, -1), some ⟨2, 0⟩, none⟩,
     ⟨⟨0, 2, 2⟩, ⟨-1, 0, 0⟩, (⟨0, 1, 0⟩, -1), some ⟨2, -2⟩, none⟩,
     ⟨⟨0, 0, 2⟩, ⟨-1, 0, 0⟩, (⟨0, 1, 0⟩, -1), some ⟨0, -2⟩, none⟩], [0, 1, 2, 0, 2, 3], some (str! "stone")⟩,
    ⟨⟨1, 2, 1⟩, [⟨⟨0, 2, 0⟩, ⟨0, 1, 0⟩, (⟨1, 0, 0⟩, -1), some ⟨0, 0⟩, none⟩,
     ⟨⟨2, 2, 0⟩, ⟨0, 1, 0⟩, (⟨1, 0, 0⟩, -1), some ⟨2, 0⟩, none⟩,
     ⟨⟨2, 2, 2⟩, ⟨0, 1, 0⟩, (⟨1, 0, 0⟩, -1), some ⟨2, -2⟩, none⟩,
     ⟨⟨0, 2, 2⟩, ⟨0, 1, 0⟩, (⟨1, 0, 0⟩, -1), some ⟨0, -2⟩, none⟩], [0, 1, 2, 0, 2, 3], some (str! "stone")⟩,
    ⟨⟨1, 0, 1⟩, [⟨⟨0, 0, 0⟩, ⟨0, -1, 0⟩, (⟨1, 0, 0⟩, 1), some ⟨0, 0⟩, none⟩,
     ⟨⟨0, 0, 2⟩, ⟨0, -1, 0⟩, (⟨1, 0, 0⟩, 1), some ⟨0, -2⟩, none⟩,
     ⟨⟨2, 0, 2⟩, ⟨0, -1, 0⟩, (⟨1, 0, 0⟩, 1), some ⟨2, -2⟩, none⟩,
     ⟨⟨2, 0, 0⟩, ⟨0, -1, 0⟩, (⟨1, 0, 0⟩, 1), some ⟨2, 0⟩, none⟩], [0, 1, 2, 0, 2, 3], some (str! "stone")⟩]⟩

set_option maxRecDepth 100000 in
theorem scene_box : Geo.buildBrush exampleTextures sceneWorld ⟨sceneBox⟩ = .ok sceneBoxGeo := by decide

def sceneGeo : List (EntityGeo Int) := [⟨⟨1, 1, 1⟩, [sceneBoxGeo]⟩, ⟨⟨5, 6, 7⟩, []⟩, ⟨⟨1, 2, 3⟩, []⟩]

theorem scene_geo : Geo.run exampleTextures sceneEntities = .ok sceneGeo := by
  unfold Geo.run sceneEntities
  simp only [mapOut_cons, mapOut_nil]
  have h0 : Geo.buildEntity exampleTextures sceneWorld = .ok ⟨⟨1, 1, 1⟩, [sceneBoxGeo]⟩ := by
    unfold Geo.buildEntity
    have : sceneWorld.brushes = [⟨sceneBox⟩] := rfl
    rw [this]
    simp only [mapOut_cons, mapOut_nil, scene_box]
    rfl
  rw [h0]
  rfl

def sceneData : List (Entity Int × EntityGeo Int) := sceneEntities.zip sceneGeo

theorem scene_layers : LayerFilter.run (sceneEntities.zip sceneGeo) =
    .ok (sceneData, [(str! "*water0", []), (str! "*slime0", [])]) := rfl

theorem scene_run (order : List (Str × List (BrushGeo Int)) → List (Str × List (BrushGeo Int))) (depth : Nat) :
    Quarch.run depth order sceneConfig = Scene.run depth sceneConfig.quarchitectGameData
      sceneConfig.forgeGameData sceneConfig.textureBlacklist sceneData
      (order [(str! "*water0", []), (str! "*slime0", [])]) := by
  unfold Quarch.run
  obtain ⟨paths, hp⟩ := scene_parse
  have hm : sceneConfig.mapFile = some sceneMap := rfl
  have ht : sceneConfig.textureInfo = exampleTextures := rfl
  simp only [hm, ht, Platform.bareCR, scene_tokens, Outcome.ok_bind, hp, scene_geo, scene_layers]

mutual
/-- Names, origins and kinds of the nodes of a forest. -/
def outline : Node Int → List (Str × V3 Int × Nat)
  | .actor o a cs => (a.name, o, 0) :: outlines cs
  | .visual o (.mesh ss) => [([], o, 100 + ss.length)]
  | .visual o .none => [([], o, 1)]
  | .collision o (.convex cs) => [([], o, 200 + cs.length)]
  | .collision o _ => [([], o, 2)]
def outlines : List (Node Int) → List (Str × V3 Int × Nat)
  | [] => []
  | n :: ns => outline n ++ outlines ns
end


set_option maxRecDepth 100000 in
theorem scene_visual : (match entityVisual sceneConfig.quarchitectGameData sceneConfig.textureBlacklist sceneWorld
    ⟨⟨1, 1, 1⟩, [sceneBoxGeo]⟩ with
    | .ok (.mesh ss) => ss.map fun s => (s.vertices.length, s.indices.length)
    | _ => []) = [(24, 36)] := by decide

theorem scene_mesh : ∃ s, entityVisual sceneConfig.quarchitectGameData sceneConfig.textureBlacklist sceneWorld
    ⟨⟨1, 1, 1⟩, [sceneBoxGeo]⟩ = .ok (.mesh [s]) ∧ s.vertices.length = 24 := by
  have h := scene_visual
  split at h
  · rename_i ss e
    rw [e]
    rcases ss with _ | ⟨s, _ | ⟨t, ss⟩⟩
    · cases h
    · simp only [List.map_cons, List.map_nil, List.cons.injEq, Prod.mk.injEq] at h
      exact ⟨s, rfl, h.1.1⟩
    · simp only [List.map_cons, List.cons.injEq] at h
      exact absurd h.2 (by simp)
  · cases h

theorem scene_world (depth : Nat) : ∃ s, s.vertices.length = 24 ∧ ∃ c a,
    Scene.buildEntity sceneConfig.quarchitectGameData
      sceneConfig.forgeGameData sceneConfig.textureBlacklist sceneData (depth + 1) V3.zero
      (sceneWorld, ⟨⟨1, 1, 1⟩, [sceneBoxGeo]⟩) =
    .ok (.actor ⟨1, 1, 1⟩ a [.visual ⟨1, 1, 1⟩ (.mesh [s]), .collision ⟨1, 1, 1⟩ (.convex [c])]) ∧
    a.name = str! "worldspawn" := by
  obtain ⟨s, hs, hl⟩ := scene_mesh
  refine ⟨s, hl, ?_⟩
  unfold Scene.buildEntity
  rw [hs, Outcome.ok_bind]
  have hc : entityCollision sceneConfig.quarchitectGameData sceneWorld ⟨⟨1, 1, 1⟩, [sceneBoxGeo]⟩ =
    .ok (convexCollision ⟨⟨1, 1, 1⟩, [sceneBoxGeo]⟩) := rfl
  rw [hc, Outcome.ok_bind]
  have hf : ((sceneData.drop 1).filter fun child => inGroup sceneWorld child.1) = [] := rfl
  rw [hf, mapOut_nil, Outcome.ok_bind]
  exact ⟨_, _, rfl, rfl⟩

/-- The scene of the map: the worldspawn with a mesh of 24 vertices and a collision shape, two layers, and a
group with a door in it. -/
theorem scene_nodes (depth : Nat) : ∃ s, s.vertices.length = 24 ∧ ∃ c a l1 l2 a1 a2,
    Quarch.run (depth + 2) id sceneConfig = .ok
      [.actor ⟨1, 1, 1⟩ a [.visual ⟨1, 1, 1⟩ (.mesh [s]), .collision ⟨1, 1, 1⟩ (.convex [c])],
       .actor ⟨0, 0, 0⟩ l1 [.collision ⟨0, 0, 0⟩ (.convex [])],
       .actor ⟨0, 0, 0⟩ l2 [.collision ⟨0, 0, 0⟩ (.convex [])],
       .actor ⟨5, 6, 7⟩ a1 [.actor ⟨-4, -4, -4⟩ a2 []]] ∧
    a.name = str! "worldspawn" ∧ l1.name = str! "water" ∧ l2.name = str! "slime" ∧ a1.name = str! "group" ∧
    a2.name = str! "door" := by
  obtain ⟨s, hl, c, a, hb, hn⟩ := scene_world (depth + 1)
  refine ⟨s, hl, c, a, ?_⟩
  rw [scene_run]
  unfold Scene.run
  have ht : sceneData.take 1 = [(sceneWorld, ⟨⟨1, 1, 1⟩, [sceneBoxGeo]⟩)] := rfl
  rw [ht, mapOut_cons, hb, Outcome.ok_bind, mapOut_nil, Outcome.ok_bind, Outcome.ok_bind]
  exact ⟨_, _, _, _, rfl, hn, rfl, rfl, rfl, rfl⟩

-- C33, C44, C45, C48, C53: the run succeeds and the scene has a visual node
example : ∃ nodes o v, Quarch.run 2 id sceneConfig = .ok nodes ∧ Occurs (.visual o v) nodes := by
  obtain ⟨s, _, c, a, l1, l2, a1, a2, h, _⟩ := scene_nodes 0
  exact ⟨_, ⟨1, 1, 1⟩, .mesh [s], h, .child (o := ⟨1, 1, 1⟩) (a := a)
    (cs := [.visual ⟨1, 1, 1⟩ (.mesh [s]), .collision ⟨1, 1, 1⟩ (.convex [c])]) (by simp) (.here (by simp))⟩

-- C48: the door is reached at its own origin
example : ∃ nodes a, Quarch.run 2 id sceneConfig = .ok nodes ∧
    ReachedAt nodes ⟨1, 2, 3⟩ (.actor ⟨-4, -4, -4⟩ a []) := by
  obtain ⟨s, _, c, a, l1, l2, a1, a2, h, _⟩ := scene_nodes 0
  refine ⟨_, a2, h, ?_⟩
  have h1 := ReachedAt.top (forest := [
       Node.actor ⟨1, 1, 1⟩ a [.visual ⟨1, 1, 1⟩ (.mesh [s]), .collision ⟨1, 1, 1⟩ (.convex [c])],
       .actor ⟨0, 0, 0⟩ l1 [.collision ⟨0, 0, 0⟩ (.convex [])],
       .actor ⟨0, 0, 0⟩ l2 [.collision ⟨0, 0, 0⟩ (.convex [])],
       .actor ⟨5, 6, 7⟩ a1 [.actor ⟨-4, -4, -4⟩ a2 []]])
    (n := .actor ⟨5, 6, 7⟩ a1 [.actor ⟨-4, -4, -4⟩ a2 []]) (by simp)
  exact ReachedAt.child h1 (n := .actor ⟨-4, -4, -4⟩ a2 []) (by simp)

-- C46, C47: the entities of the map have unique ids and are anchored
example : LoadsAs sceneMap sceneEntities ∧ UniqueIds sceneEntities ∧
    ∀ e ∈ sceneEntities, Anchored sceneEntities e := by
  obtain ⟨paths, hp⟩ := scene_parse
  refine ⟨⟨_, _, scene_tokens, hp⟩, ?_, ?_⟩
  · unfold UniqueIds sceneEntities
    simp only [List.pairwise_cons, List.mem_cons, List.not_mem_nil, or_false, forall_eq_or_imp, forall_eq,
      false_imp_iff, implies_true, List.Pairwise.nil, and_true]
    refine ⟨⟨fun id h => ?_, fun id h => ?_⟩, fun id h => ?_⟩
    · cases h
    · cases h
    · exact fun h' => nomatch h'
  · intro e he
    unfold sceneEntities at he
    simp only [List.mem_cons, List.not_mem_nil, or_false] at he
    rcases he with rfl | rfl | rfl
    · exact .world rfl
    · exact .top rfl
    · refine .under (p := pointEntity Int
        [(str! "classname", str! "group"), (str! "_tb_id", str! "1"), (str! "origin", str! "5 6 7")]) ?_ ?_ (.top rfl)
      · simp [sceneEntities]
      · exact ⟨rfl, rfl⟩

-- C46: the looping map has a loop
example : Loop (loopProps.map (pointEntity Int)) := by
  have hstep : Step (loopProps.map (pointEntity Int))
      (pointEntity Int [(str! "classname", str! "group"), (str! "_tb_id", str! "1"), (str! "_tb_group", str! "1")])
      (pointEntity Int [(str! "classname", str! "group"), (str! "_tb_id", str! "1"), (str! "_tb_group", str! "1")]) := by
    refine ⟨by simp [loopProps], by simp [loopProps], fun h => ?_, rfl, rfl⟩
    revert h
    decide
  refine ⟨_, hstep.1, ?_, .single hstep⟩
  refine .under (p := pointEntity Int [(str! "classname", str! "group"), (str! "_tb_id", str! "1")]) ?_ ⟨rfl, rfl⟩
    (.top rfl)
  simp [loopProps]

-- C53: a first fault, and an ungrouped entity without classname
example : FirstFault Int [.openBrace, .closeBrace, .closeBrace] (.quarch "Close brace in file scope") :=
  ⟨[.openBrace, .closeBrace], .closeBrace, [], rfl, by decide, (fun l h => by simp at h), .inl (by decide)⟩

end Example
end Quarch
