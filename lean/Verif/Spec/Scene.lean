import Verif.Model.SceneTree
import Verif.Spec.Geo
/-
Meshes, visibility and occurrence in a scene tree, written without the functions of the scene builder.
-/
namespace Quarch.Spec

/-- `cs` lists the triangle corners an index list describes, three per triangle, in order. In particular
every index is valid. -/
def Corners {α : Type} (vs : List α) (is : List Nat) (cs : List α) : Prop :=
  is.map (fun i => vs[i]?) = cs.map some

section
variable {F : Type}

/-- Corners of the triangles of a face, in order. -/
def faceCorners (p : PlaneGeo F) : List (Vertex F) := p.indices.filterMap fun i => p.vertices[i]?

/-- Every face is triangulated as a fan over its vertices (true of all geometry built from a map, C19). -/
def Fanned (brushes : List (BrushGeo F)) : Prop :=
  ∀ b ∈ brushes, ∀ p ∈ b.planes, IsFan p.vertices.length p.indices

/-- A known texture that is on the list. -/
def knownIn (l : List Str) : Option Str → Bool
  | some t => decide (t ∈ l)
  | none => false

/-- All faces of the brush have known textures on the brush blacklist. -/
def Hidden (bl : TextureBlacklist) (b : BrushGeo F) : Prop :=
  ∀ p ∈ b.planes, knownIn bl.brush p.texture = true

instance (bl : TextureBlacklist) (b : BrushGeo F) : Decidable (Hidden bl b) := by
  unfold Hidden; infer_instance

/-- The faces shown in the surface with the given texture, brush by brush. -/
def shownFaces (bl : TextureBlacklist) (texture : Option Str) (brushes : List (BrushGeo F)) :
    List (List (PlaneGeo F)) :=
  (brushes.filter fun b => ¬ Hidden bl b).map fun b => b.planes.filter fun p => p.texture = texture

/-- The texture of every face with a known texture is the texture of some face of the entity. -/
def FromEntity (e : Entity F) (brushes : List (BrushGeo F)) : Prop :=
  ∀ b ∈ brushes, ∀ p ∈ b.planes, ∀ t, p.texture = some t →
    ∃ eb ∈ e.brushes, ∃ ep ∈ eb.planes, ep.texture = t

/-- The arrays of a surface list the attributes of these vertices. -/
structure Arrays (s : MeshSurface F) (vs : List (Vertex F)) : Prop where
  pos : s.vertices = vs.map (·.pos)
  normal : s.normals = vs.map (·.normal)
  tangent : s.tangents = vs.map (·.tangent)
  uv : ∀ l, s.uvs = some l ↔ vs.map (·.uv) = l.map some
  color : ∀ l, s.colors = some l ↔ vs.map (·.color) = l.map some

/-- Well-formedness of a mesh surface as a renderer needs it. -/
structure WellFormed (s : MeshSurface F) : Prop where
  nonempty : s.vertices ≠ []
  normals : s.normals.length = s.vertices.length
  tangents : s.tangents.length = s.vertices.length
  uvs : ∀ l, s.uvs = some l → l.length = s.vertices.length
  colors : ∀ l, s.colors = some l → l.length = s.vertices.length
  indices : ∀ i ∈ s.indices, i < s.vertices.length
  triangles : 3 ∣ s.indices.length

variable [Arith F]

/-- Both missing, or both there and related. -/
def BothOr {α : Type} (R : α → α → Prop) (a b : Option α) : Prop :=
  (a = none ∧ b = none) ∨ ∃ x y, a = some x ∧ b = some y ∧ R x y

/-- All attributes equal in the sense of `==`. -/
structure EqAttrs (a b : Vertex F) : Prop where
  pos : EqV3 a.pos b.pos
  normal : EqV3 a.normal b.normal
  tangent : EqV3 a.tangent.1 b.tangent.1 ∧ Arith.eq a.tangent.2 b.tangent.2 = true
  uv : BothOr (fun s t : V2 F => Arith.eq s.x t.x = true ∧ Arith.eq s.y t.y = true) a.uv b.uv
  color : BothOr (fun s t : Color F => Arith.eq s.r t.r = true ∧ Arith.eq s.g t.g = true ∧ Arith.eq s.b t.b = true)
    a.color b.color

/-- All attributes identical, or all equal in the sense of `==`. -/
def SameAttrs (a b : Vertex F) : Prop := a = b ∨ EqAttrs a b

/-- Surfaces of visual geometry. -/
def surfaces : VisualGeometry F → List (MeshSurface F)
  | .none => []
  | .mesh ss => ss

/-- The node occurs in the forest, at any depth. -/
inductive Occurs (n : Node F) : List (Node F) → Prop
  | here {l : List (Node F)} : n ∈ l → Occurs n l
  | child {l : List (Node F)} {o : V3 F} {a : Actor F} {cs : List (Node F)} :
      Node.actor o a cs ∈ l → Occurs n cs → Occurs n l

/-- `d` is the first definition with the classname. -/
def FirstDef (gd : GameData F) (classname : Str) (d : EntityDef F) : Prop :=
  ∃ pre post, gd.entities = pre ++ d :: post ∧ d.classname = classname ∧ ∀ x ∈ pre, x.classname ≠ classname

end
end Quarch.Spec
