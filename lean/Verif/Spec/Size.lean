import Verif.Spec.Tree
/-
How many nodes, vertices and indices there are, and map texts that double the nodes with every two entities.
-/
namespace Quarch.Spec
section
variable {F : Type}

mutual
/-- Number of nodes in a node, itself included. -/
def nodeCount : Node F → Nat
  | .actor _ _ cs => 1 + nodeCounts cs
  | .visual _ _ => 1
  | .collision _ _ => 1
/-- Number of nodes in a list of nodes, at any depth. -/
def nodeCounts : List (Node F) → Nat
  | [] => 0
  | n :: ns => nodeCount n + nodeCounts ns
end

/-- Vertices of the meshes. -/
def visualVertices : VisualGeometry F → Nat
  | .none => 0
  | .mesh ss => (ss.map fun s => s.vertices.length).sum

/-- Indices of the meshes: three for every triangle. -/
def visualIndices : VisualGeometry F → Nat
  | .none => 0
  | .mesh ss => (ss.map fun s => s.indices.length).sum

/-- Points of the collision shapes. -/
def collisionVertices : CollisionGeometry F → Nat
  | .none => 0
  | .convex cs => (cs.map fun c => c.points.length).sum
  | .concave cs => (cs.map fun c => c.vertices.length).sum

/-- Indices of the collision shapes; convex ones have none. -/
def collisionIndices : CollisionGeometry F → Nat
  | .none => 0
  | .convex _ => 0
  | .concave cs => (cs.map fun c => c.indices.length).sum

mutual
/-- The sum over all visual and collision nodes in a node. -/
def tally (fv : VisualGeometry F → Nat) (fc : CollisionGeometry F → Nat) : Node F → Nat
  | .actor _ _ cs => tallies fv fc cs
  | .visual _ v => fv v
  | .collision _ c => fc c
/-- The sum over all visual and collision nodes in a list of nodes, at any depth. -/
def tallies (fv : VisualGeometry F → Nat) (fc : CollisionGeometry F → Nat) : List (Node F) → Nat
  | [] => 0
  | n :: ns => tally fv fc n + tallies fv fc ns
end

/-- The squares of the numbers of planes of the brushes, added up. -/
def planeSquares (entities : List (Entity F)) : Nat :=
  (entities.map fun e => (e.brushes.map fun b => b.planes.length ^ 2).sum).sum

/-- The cubes of the numbers of planes of the brushes, added up. -/
def planeCubes (entities : List (Entity F)) : Nat :=
  (entities.map fun e => (e.brushes.map fun b => b.planes.length ^ 3).sum).sum

end

/-- The lines of an entity without brushes. -/
def pointLines (props : List (Str × Str)) : List Str :=
  ['{'] :: (props.map (fun p => '"' :: (p.1 ++ '"' :: ([' '] ++ '"' :: (p.2 ++ ['"'])))) ++ [['}']])

/-- The text of a map of entities without brushes, each line ended by `\n`. -/
def pointMap (entities : List (List (Str × Str))) : Str :=
  (entities.flatMap pointLines).flatMap fun l => l ++ ['\n']

/-- `n` digits, all `0`. -/
def zeros (n : Nat) : Str := List.replicate n '0'

/-- A group of level `i`: its id has `i + 1` digits, the id of the group it is in has `i`. -/
def levelProps (i : Nat) : List (Str × Str) :=
  [(str! "classname", str! "g"), (str! "_tb_id", zeros (i + 1))] ++
    (if i = 0 then [] else [(str! "_tb_group", zeros i)])

/-- The worldspawn, then for `k` levels twice the same group. -/
def doubling (k : Nat) : Str :=
  pointMap ([(str! "classname", str! "worldspawn")] :: (List.range k).flatMap fun i => [levelProps i, levelProps i])

end Quarch.Spec
