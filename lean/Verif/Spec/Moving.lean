import Verif.Spec.Texturing
import Verif.Spec.Real
/-
Moving a whole map (C101), in exact arithmetic. Written without the functions of the scene builder.
-/
namespace Quarch.Spec

section
variable [RealText]

/-- The text gives the position: three numbers with single spaces between them. -/
def Places (o : Str) (x : V3 ℝ) : Prop :=
  ∃ a b c : Str, ' ' ∉ a ∧ ' ' ∉ b ∧ ' ' ∉ c ∧ o = joinSpace [a, b, c] ∧
    RealText.parse a = some x.x ∧ RealText.parse b = some x.y ∧ RealText.parse c = some x.z

/-- The second entity is the first one, moved by `t`: its faces are, and so is its `origin` if it has one. -/
structure MovedBy (t : V3 ℝ) (e e' : Entity ℝ) : Prop where
  properties : ∀ key, key ≠ str! "origin" → e.properties key = e'.properties key
  origin : (e.properties (str! "origin") = none ∧ e'.properties (str! "origin") = none) ∨
    ∃ o o' x, e.properties (str! "origin") = some o ∧ e'.properties (str! "origin") = some o' ∧ Places o x ∧
      Places o' (addR x t)
  brushes : e'.brushes = e.brushes.map fun b => ⟨b.planes.map (movePlane t)⟩

/-- The entity has an `origin` or a brush, every brush has a face, and every face has a corner. -/
structure Settled (e : Entity ℝ) : Prop where
  place : e.properties (str! "origin") ≠ none ∨ e.brushes ≠ []
  faces : ∀ b ∈ e.brushes, b.planes ≠ []
  corners : ∀ b ∈ e.brushes, ∀ p ∈ b.planes, ∃ x, Found b.planes p x

end

/-- The same actor, except for the property `origin`. -/
structure SameActor (a a' : Actor ℝ) : Prop where
  name : a'.name = a.name
  entityType : a'.entityType = a.entityType
  componentClass : a'.componentClass = a.componentClass
  propertyApplicationType : a'.propertyApplicationType = a.propertyApplicationType
  properties : ∀ key, key ≠ str! "origin" → a'.properties key = a.properties key

/-- The same surfaces with the same triangles in the same order, moved by `t`. -/
def ShiftedVisual (t : V3 ℝ) : VisualGeometry ℝ → VisualGeometry ℝ → Prop
  | .none, .none => True
  | .mesh ss, .mesh ss' => List.Forall₂ (fun s s' : MeshSurface ℝ => s'.texture = s.texture ∧
      ∃ cs, Corners s.vertices s.indices cs ∧ Corners s'.vertices s'.indices (cs.map (addR · t))) ss ss'
  | _, _ => False

/-- The same collision shapes with all points moved by `t`. The centre of a triangle mesh moves by `s`. -/
def ShiftedCollision (t s : V3 ℝ) : CollisionGeometry ℝ → CollisionGeometry ℝ → Prop
  | .none, .none => True
  | .convex ss, .convex ss' =>
    ss' = ss.map fun c => ⟨addR c.center t, c.points.map (addR · t)⟩
  | .concave ss, .concave ss' =>
    ss' = ss.map fun c => ⟨addR c.center s, c.vertices.map (addR · t), c.indices⟩
  | _, _ => False

mutual
/-- The same tree: the geometry is moved by `t`, the origin of an actor by `own`, and the origins of visual and
collision nodes by `leaf`. Actors in it keep their origins, which are relative. -/
def Shifted (t own leaf : V3 ℝ) : Node ℝ → Node ℝ → Prop
  | .actor o a cs, .actor o' a' cs' => o' = addR o own ∧ SameActor a a' ∧ ShiftedAll t leaf cs cs'
  | .visual o v, .visual o' v' => o' = addR o leaf ∧ ShiftedVisual t v v'
  | .collision o c, .collision o' c' => o' = addR o leaf ∧ ShiftedCollision t leaf c c'
  | _, _ => False
/-- The same for the nodes in an actor. -/
def ShiftedAll (t leaf : V3 ℝ) : List (Node ℝ) → List (Node ℝ) → Prop
  | [], [] => True
  | n :: ns, n' :: ns' => Shifted t zeroR leaf n n' ∧ ShiftedAll t leaf ns ns'
  | _, _ => False
end

end Quarch.Spec
