import Verif.Spec.Shown
/-
Triangle sides of a brush and whether they pair up, in exact arithmetic and in single precision (C109).
-/
namespace Quarch.Spec

/-- The brush has a triangle with the directed side from `a` to `b`. Corners are compared by position. -/
def TriSide {F : Type} (real : V3 F → V3 ℝ) (geo : BrushGeo F) (a b : V3 ℝ) : Prop :=
  ∃ face ∈ geo.planes, ∃ t s m n v w, s < 3 ∧ face.indices[3 * t + s]? = some m ∧
    face.indices[3 * t + (s + 1) % 3]? = some n ∧ face.vertices[m]? = some v ∧ face.vertices[n]? = some w ∧
    real v.pos = a ∧ real w.pos = b

/-- In exact arithmetic every triangle side is also a side in the opposite direction. -/
def ClosedExactly (ts : List IntFace) : Prop :=
  ∀ [RealText] [Platform] (textures : TextureInfo) (entity : Entity ℝ) (brush : Brush ℝ) (geo : BrushGeo ℝ),
    List.Forall₂ RealFace ts brush.planes → Geo.buildBrush textures entity brush = .ok geo →
    ∀ a b, TriSide id geo a b → TriSide id geo b a

/-- The same in single precision. -/
def ClosedInSingle (ts : List IntFace) : Prop :=
  ∀ [F32Lib] [QuadrantAtan2] [Platform] (textures : TextureInfo) (entity : Entity F32) (brush : Brush F32)
    (geo : BrushGeo F32), List.Forall₂ SingleFace ts brush.planes → Geo.buildBrush textures entity brush = .ok geo →
    ∀ a b, TriSide vec geo a b → TriSide vec geo b a

/-- A tetrahedron with corners on the 16-unit grid, at most 48 units from the origin. -/
def wedge : List IntFace :=
  let a : V3 Int := ⟨48, 0, 0⟩
  let b : V3 Int := ⟨0, 0, 16⟩
  let c : V3 Int := ⟨16, 48, 32⟩
  let d : V3 Int := ⟨0, 48, 0⟩
  [(a, b, c), (a, d, b), (a, c, d), (b, d, c)]

/-- The first two points of the face lie along the axis `d`, a power of two apart. -/
def FirstAlong (d : Axis) (t : IntFace) : Prop :=
  (∀ c : Axis, c ≠ d → c.of t.2.1 = c.of t.1) ∧ ∃ j : Nat, (d.of t.2.1 - d.of t.1).natAbs = 2 ^ j

end Quarch.Spec
