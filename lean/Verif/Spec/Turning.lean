import Verif.Spec.Moving
/-
Turning and moving a whole map (C103), in exact arithmetic. Written without the functions of the scene builder.
-/
namespace Quarch.Spec

/-- A rotation followed by a translation. The rotation takes the coordinate axes to `a`, `b` and `c`. -/
structure Rigid where
  a : V3 ℝ
  b : V3 ℝ
  c : V3 ℝ
  t : V3 ℝ
  unit_a : dotR a a = 1
  unit_b : dotR b b = 1
  ortho : dotR a b = 0
  right : c = crossR a b

/-- The rotation. -/
def Rigid.turn (M : Rigid) (v : V3 ℝ) : V3 ℝ := addR (addR (smulR v.x M.a) (smulR v.y M.b)) (smulR v.z M.c)

/-- The rotation and the translation. -/
def Rigid.move (M : Rigid) (v : V3 ℝ) : V3 ℝ := addR (M.turn v) M.t

/-- The three points of the second face are those of the first one, taken to `f` of their places; it has the same
texture. -/
structure TurnedFace (f : V3 ℝ → V3 ℝ) (p p' : BrushPlane ℝ) : Prop where
  v0 : p'.v0 = f p.v0
  v1 : p'.v1 = f p.v1
  v2 : p'.v2 = f p.v2
  texture : p'.texture = p.texture

/-- The second entity is the first one, taken to `f` of its place: its faces are, and so is its `origin` if it has one. -/
structure TurnedBy [RealText] (f : V3 ℝ → V3 ℝ) (e e' : Entity ℝ) : Prop where
  properties : ∀ key, key ≠ str! "origin" → e.properties key = e'.properties key
  origin : (e.properties (str! "origin") = none ∧ e'.properties (str! "origin") = none) ∨
    ∃ o o' x, e.properties (str! "origin") = some o ∧ e'.properties (str! "origin") = some o' ∧ Places o x ∧
      Places o' (f x)
  brushes : List.Forall₂ (fun b b' : Brush ℝ => List.Forall₂ (TurnedFace f) b.planes b'.planes) e.brushes e'.brushes

/-- The same texture and the same triangles in the same order, each corner taken to `f` of its place. -/
def TakenSurface (f : V3 ℝ → V3 ℝ) (s s' : MeshSurface ℝ) : Prop :=
  s'.texture = s.texture ∧ ∃ cs, Corners s.vertices s.indices cs ∧ Corners s'.vertices s'.indices (cs.map f)

/-- As many surfaces, with `Q` between them in order. -/
def TakenVisual (Q : MeshSurface ℝ → MeshSurface ℝ → Prop) : VisualGeometry ℝ → VisualGeometry ℝ → Prop
  | .none, .none => True
  | .mesh ss, .mesh ss' => List.Forall₂ Q ss ss'
  | _, _ => False

/-- The same collision shapes with all points taken to `f` of their places. The centre of a triangle mesh is taken to
`h` of its place. -/
def TakenCollision (f h : V3 ℝ → V3 ℝ) : CollisionGeometry ℝ → CollisionGeometry ℝ → Prop
  | .none, .none => True
  | .convex ss, .convex ss' => ss' = ss.map fun c => ⟨f c.center, c.points.map f⟩
  | .concave ss, .concave ss' => ss' = ss.map fun c => ⟨h c.center, c.vertices.map f, c.indices⟩
  | _, _ => False

mutual
/-- The same tree: the surfaces are related by `Q`, the collision shapes are taken to `f` of their place, the origin of an actor is taken to `own` of it, and the
origins of visual and collision nodes to `leaf` of them. Origins of actors in it, which are relative, are taken to `g` of
them. -/
def Turned (Q : MeshSurface ℝ → MeshSurface ℝ → Prop) (f g own leaf : V3 ℝ → V3 ℝ) : Node ℝ → Node ℝ → Prop
  | .actor o a cs, .actor o' a' cs' => o' = own o ∧ SameActor a a' ∧ TurnedAll Q f g leaf cs cs'
  | .visual o v, .visual o' v' => o' = leaf o ∧ TakenVisual Q v v'
  | .collision o c, .collision o' c' => o' = leaf o ∧ TakenCollision f leaf c c'
  | _, _ => False
/-- The same for the nodes in an actor. -/
def TurnedAll (Q : MeshSurface ℝ → MeshSurface ℝ → Prop) (f g leaf : V3 ℝ → V3 ℝ) : List (Node ℝ) → List (Node ℝ) → Prop
  | [], [] => True
  | n :: ns, n' :: ns' => Turned Q f g g leaf n n' ∧ TurnedAll Q f g leaf ns ns'
  | _, _ => False
end

end Quarch.Spec
