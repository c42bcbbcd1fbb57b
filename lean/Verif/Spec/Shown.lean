import Verif.Spec.Box
import Verif.Spec.Real
/-
Which faces of a brush are shown, in exact arithmetic and in single precision (C108).
-/
namespace Quarch.Spec

/-- The three points of a face in whole units. -/
abbrev IntFace : Type := V3 Int × V3 Int × V3 Int

/-- The face in exact arithmetic. -/
def RealFace (t : IntFace) (p : BrushPlane ℝ) : Prop :=
  p.v0 = ⟨t.1.x, t.1.y, t.1.z⟩ ∧ p.v1 = ⟨t.2.1.x, t.2.1.y, t.2.1.z⟩ ∧ p.v2 = ⟨t.2.2.x, t.2.2.y, t.2.2.z⟩

/-- The face in single precision, which represents these whole numbers exactly. -/
def SingleFace (t : IntFace) (p : BrushPlane F32) : Prop := GridFace 0 p t.1 t.2.1 t.2.2

/-- In exact arithmetic every face of the brush gets triangles. -/
def ShownExactly (ts : List IntFace) : Prop :=
  ∀ [RealText] [Platform] (textures : TextureInfo) (entity : Entity ℝ) (brush : Brush ℝ) (geo : BrushGeo ℝ),
    List.Forall₂ RealFace ts brush.planes → Geo.buildBrush textures entity brush = .ok geo →
    ∀ face ∈ geo.planes, face.indices ≠ []

/-- In single precision every face of the brush gets triangles. -/
def ShownInSingle (ts : List IntFace) : Prop :=
  ∀ [F32Lib] [Platform] (textures : TextureInfo) (entity : Entity F32) (brush : Brush F32) (geo : BrushGeo F32),
    List.Forall₂ SingleFace ts brush.planes → Geo.buildBrush textures entity brush = .ok geo →
    ∀ face ∈ geo.planes, face.indices ≠ []

/-- A tetrahedron with corners on the 16-unit grid, at most 336 units from the origin. -/
def sliver : List IntFace :=
  let a : V3 Int := ⟨-128, -272, -272⟩
  let b : V3 Int := ⟨272, -176, 0⟩
  let c : V3 Int := ⟨272, 112, -336⟩
  let d : V3 Int := ⟨-128, -224, -304⟩
  [(a, b, c), (a, d, b), (a, c, d), (b, d, c)]

/-- Three points of a side of a box, at most 2048 units apart, which span a parallelogram with an area that is a power
of two. -/
def BoxSide (b : GridBox) (a : Axis) (up : Bool) (t : IntFace) : Prop :=
  a.of t.1 = b.side a up ∧ a.of t.2.1 = b.side a up ∧ a.of t.2.2 = b.side a up ∧
    (∀ c : Axis, (c.of t.2.1 - c.of t.1).natAbs ≤ 2048 ∧ (c.of t.2.2 - c.of t.1).natAbs ≤ 2048) ∧
    ∃ j : Nat, turn a t.1 t.2.2 t.2.1 = if up then 2 ^ j else -2 ^ j

/-- The faces are the sides of a box, in any order, possibly repeated. -/
def BoxFaces (b : GridBox) (ts : List IntFace) : Prop :=
  (∀ t ∈ ts, ∃ a up, BoxSide b a up t) ∧ ∀ a up, ∃ t ∈ ts, BoxSide b a up t

end Quarch.Spec
