import Verif.Spec.Texturing
import Verif.Spec.Scene
/-
Maps whose faces differ in how their textures are laid out and shaded only (C102). Written without the functions of the
scene builder.
-/
namespace Quarch.Spec

section
variable {F : Type}

/-- The faces have the same three points and the same texture. -/
structure AlikeFace (p p' : BrushPlane F) : Prop where
  v0 : p.v0 = p'.v0
  v1 : p.v1 = p'.v1
  v2 : p.v2 = p'.v2
  texture : p.texture = p'.texture

/-- The entities agree on significant properties and on the points and textures of all faces. -/
structure AlikeFaces (fgd : Forge.GameData F) (e e' : Entity F) : Prop where
  properties : ∀ key, Significant fgd key → e.properties key = e'.properties key
  brushes : List.Forall₂ (fun b b' : Brush F => List.Forall₂ AlikeFace b.planes b'.planes) e.brushes e'.brushes

variable [Arith F]

/-- The same surfaces with the same triangles in the same order. The vertices, normals and texture coordinates that the
triangles are made from may be different ones. -/
def SameTriangles : VisualGeometry F → VisualGeometry F → Prop
  | .none, .none => True
  | .mesh ss, .mesh ss' => List.Forall₂ (fun s s' : MeshSurface F => s'.texture = s.texture ∧
      ∃ cs cs', Corners s.vertices s.indices cs ∧ Corners s'.vertices s'.indices cs' ∧
        List.Forall₂ SamePlace cs cs') ss ss'
  | _, _ => False

mutual
/-- The same node, with visual nodes compared by their triangles. -/
def SameLook : Node F → Node F → Prop
  | .actor o a cs, .actor o' a' cs' => o' = o ∧ a' = a ∧ SameLooks cs cs'
  | .visual o v, .visual o' v' => o' = o ∧ SameTriangles v v'
  | .collision o c, .collision o' c' => o' = o ∧ c' = c
  | _, _ => False
/-- The same for lists of nodes. -/
def SameLooks : List (Node F) → List (Node F) → Prop
  | [], [] => True
  | n :: ns, n' :: ns' => SameLook n n' ∧ SameLooks ns ns'
  | _, _ => False
end

end
end Quarch.Spec
