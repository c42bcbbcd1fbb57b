import Verif.Spec.Moving
/-
Maps that differ only in the order of things, and scenes that do (C104), in exact arithmetic. Written without the
functions of the scene builder.
-/
namespace Quarch.Spec

/-- The second list is the first one in some other order, with `R` between the elements. -/
def Reordered {α β : Type} (R : α → β → Prop) (l : List α) (l' : List β) : Prop :=
  ∃ mid, l.Perm mid ∧ List.Forall₂ R mid l'

/-- Entities with the same properties, and with the same brushes except for the order of the brushes and the order of
the faces in them. -/
structure Shuffled (e e' : Entity ℝ) : Prop where
  properties : e.properties = e'.properties
  brushes : Reordered (fun b b' : Brush ℝ => b.planes.Perm b'.planes) e.brushes e'.brushes

/-- A brush none of whose corners needs the tolerance of the program: where three planes clearly meet is inside the
brush or more than 0.001 outside. -/
def Crisp (planes : List (BrushPlane ℝ)) : Prop :=
  ∀ p ∈ planes, ∀ q ∈ planes, ∀ r ∈ planes, 1 / 1000 ≤ unitDet p q r → ∀ x, OnPlane p x → OnPlane q x →
    OnPlane r x → (∀ s ∈ planes, WithinR (1 / 1000) s x) → ∀ s ∈ planes, WithinR 0 s x

/-- The corners of triangles, one triangle after the other. -/
def flatTriangles {α : Type} (ts : List (α × α × α)) : List α := ts.flatMap fun t => [t.1, t.2.1, t.2.2]

/-- The same triangles (with the same order of the three corners) in some order. -/
def EqualTriangles (vs : List (V3 ℝ)) (is : List Nat) (vs' : List (V3 ℝ)) (is' : List Nat) : Prop :=
  ∃ ts ts', Corners vs is (flatTriangles ts) ∧ Corners vs' is' (flatTriangles ts') ∧ ts.Perm ts'

/-- Surfaces with the same textures and the same triangles, in some order. -/
def SameVisual : VisualGeometry ℝ → VisualGeometry ℝ → Prop
  | .none, .none => True
  | .mesh ss, .mesh ss' => Reordered (fun s s' : MeshSurface ℝ => s.texture = s'.texture ∧
      EqualTriangles s.vertices s.indices s'.vertices s'.indices) ss ss'
  | _, _ => False

/-- Collision shapes with the same centres and the same points or triangles, in some order. -/
def SameCollision : CollisionGeometry ℝ → CollisionGeometry ℝ → Prop
  | .none, .none => True
  | .convex ss, .convex ss' => Reordered (fun s s' : ConvexCollision ℝ => s.center = s'.center ∧ s.points.Perm s'.points) ss ss'
  | .concave ss, .concave ss' => List.Forall₂ (fun s s' : ConcaveCollision ℝ => s.center = s'.center ∧
      s.vertices.Perm s'.vertices ∧ EqualTriangles s.vertices s.indices s'.vertices s'.indices) ss ss'
  | _, _ => False

/-- The same node, except for the order of children, surfaces, triangles, shapes and points. -/
inductive SameNode : Node ℝ → Node ℝ → Prop
  | actor (o : V3 ℝ) (a : Actor ℝ) {cs mid cs' : List (Node ℝ)} : cs.Perm mid → List.Forall₂ SameNode mid cs' →
      SameNode (.actor o a cs) (.actor o a cs')
  | visual (o : V3 ℝ) {v v' : VisualGeometry ℝ} : SameVisual v v' → SameNode (.visual o v) (.visual o v')
  | collision (o : V3 ℝ) {c c' : CollisionGeometry ℝ} : SameCollision c c' → SameNode (.collision o c) (.collision o c')

end Quarch.Spec
