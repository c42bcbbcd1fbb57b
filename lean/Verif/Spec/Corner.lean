import Verif.Spec.Shown
/-
True corners of a brush, and faces small enough that single precision finds them (C116).
-/
namespace Quarch.Spec

/-- The three points of a face. -/
abbrev Tri : Type := V3 ℝ × V3 ℝ × V3 ℝ

namespace Tri

/-- The vector product of the edges, which points out of the brush. -/
def raw (t : Tri) : V3 ℝ := crossR (subR t.2.2 t.1) (subR t.2.1 t.1)

/-- The outward unit normal. -/
noncomputable def normal (t : Tri) : V3 ℝ := smulR (1 / lenR t.raw) t.raw

/-- How far a point is in front of the plane of the face. -/
noncomputable def above (t : Tri) (x : V3 ℝ) : ℝ := dotR t.normal (subR x t.1)

/-- The volume spanned by the normals of three faces: 1 if they are perpendicular to each other, near 0 if they nearly
share a direction. -/
noncomputable def spread (s t r : Tri) : ℝ := dotR (crossR s.normal t.normal) r.normal

end Tri

/-- The points of a face in single precision. -/
noncomputable def triOf (p : BrushPlane F32) : Tri := (vec p.v0, vec p.v1, vec p.v2)

/-- The points of a face in whole units. -/
noncomputable def intTri (t : IntFace) : Tri :=
  (⟨t.1.x, t.1.y, t.1.z⟩, ⟨t.2.1.x, t.2.1.y, t.2.1.z⟩, ⟨t.2.2.x, t.2.2.y, t.2.2.z⟩)

/-- `x` is a corner of the face `t` of the brush with the faces `ts`, exactly: three planes meet there and it is not
outside of any. It is at most `R` away from the origin, and `R` is at most 64 times the volume spanned by the normals. -/
structure TrueCorner (R : ℝ) (ts : List Tri) (t : Tri) (x : V3 ℝ) : Prop where
  dist : lenR x ≤ R
  meet : ∃ t1 ∈ ts, ∃ t2 ∈ ts, t.above x = 0 ∧ t1.above x = 0 ∧ t2.above x = 0 ∧ R ≤ 64 * Tri.spread t t1 t2
  inside : ∀ s ∈ ts, s.above x ≤ 0

/-- Two points differ by more than a thousandth of a unit in some coordinate. -/
def Apart (x y : V3 ℝ) : Prop := 1 / 1000 < |x.x - y.x| ∨ 1 / 1000 < |x.y - y.y| ∨ 1 / 1000 < |x.z - y.z|

/-- All coordinates of two points agree up to `e`. -/
def Close (e : ℝ) (x y : V3 ℝ) : Prop := |x.x - y.x| ≤ e ∧ |x.y - y.y| ≤ e ∧ |x.z - y.z| ≤ e

/-- Three points in steps of a grid which are not on a line and at most 2048 steps apart. -/
def ShortFace (n0 n1 n2 : V3 Int) : Prop :=
  ¬ OnLine n0 n1 n2 ∧ ∀ a : Axis, (a.of n1 - a.of n0).natAbs ≤ 2048 ∧ (a.of n2 - a.of n0).natAbs ≤ 2048

/-- A face with three such points, the first at most `R` away from the origin. -/
def NearFace (g : Nat) (R : ℝ) (p : BrushPlane F32) : Prop :=
  (∃ n0 n1 n2 : V3 Int, GridFace g p n0 n1 n2 ∧ ShortFace n0 n1 n2) ∧ lenR (vec p.v0) ≤ R

/-- Every face of the brush has three true corners apart from each other. -/
def ThreeCorners (R : ℝ) (ts : List IntFace) : Prop :=
  ∀ t ∈ ts, ShortFace t.1 t.2.1 t.2.2 ∧ lenR (intTri t).1 ≤ R ∧
    ∃ x y z, TrueCorner R (ts.map intTri) (intTri t) x ∧ TrueCorner R (ts.map intTri) (intTri t) y ∧
      TrueCorner R (ts.map intTri) (intTri t) z ∧ Apart x y ∧ Apart x z ∧ Apart y z

/-- A ramp: 32 by 32 units, 16 units high at one end. -/
def ramp : List IntFace :=
  [(⟨-16, -16, -8⟩, ⟨-16, 16, -8⟩, ⟨-16, -16, 8⟩), (⟨-16, -16, -8⟩, ⟨-16, -16, 8⟩, ⟨16, -16, -8⟩),
   (⟨-16, 16, -8⟩, ⟨16, 16, -8⟩, ⟨-16, 16, 8⟩), (⟨-16, -16, -8⟩, ⟨16, -16, -8⟩, ⟨-16, 16, -8⟩),
   (⟨-16, -16, 8⟩, ⟨-16, 16, 8⟩, ⟨16, -16, -8⟩)]

end Quarch.Spec
