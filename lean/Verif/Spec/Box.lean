import Verif.Spec.F32
import Verif.Model.GeoBuilder
/-
Boxes with sides along the axes and corners on a grid, in single precision (C90).
-/
namespace Quarch.Spec

/-- The three axes. -/
inductive Axis where
  | x | y | z
deriving DecidableEq, Repr

/-- A coordinate of a vector. -/
def Axis.of {α : Type} : Axis → V3 α → α
  | .x, v => v.x
  | .y, v => v.y
  | .z, v => v.z

/-- A finite number equal to `n` steps of the grid with `2 ^ g` steps per unit. -/
def GridNum (g : Nat) (a : F32) (n : Int) : Prop := F32.isFin a ∧ F32.val a = n / 2 ^ g

/-- A point with grid coordinates `n`, at most `2 ^ 20` steps away from the origin in every direction. -/
structure GridPoint (g : Nat) (v : V3 F32) (n : V3 Int) : Prop where
  x : GridNum g v.x n.x
  y : GridNum g v.y n.y
  z : GridNum g v.z n.z
  small : ∀ a : Axis, (a.of n).natAbs ≤ 2 ^ 20

/-- The component along an axis of the vector product of `v - o` and `w - o`. -/
def turn (a : Axis) (o v w : V3 Int) : Int :=
  match a with
  | .x => (v.y - o.y) * (w.z - o.z) - (v.z - o.z) * (w.y - o.y)
  | .y => (v.z - o.z) * (w.x - o.x) - (v.x - o.x) * (w.z - o.z)
  | .z => (v.x - o.x) * (w.y - o.y) - (v.y - o.y) * (w.x - o.x)

/-- The three points lie on a line (or coincide). -/
def OnLine (n0 n1 n2 : V3 Int) : Prop := ∀ a : Axis, turn a n0 n2 n1 = 0

/-- The points of a face in grid coordinates. -/
structure GridFace (g : Nat) (p : BrushPlane F32) (n0 n1 n2 : V3 Int) : Prop where
  fine : g ≤ 30
  p0 : GridPoint g p.v0 n0
  p1 : GridPoint g p.v1 n1
  p2 : GridPoint g p.v2 n2

/-- The second and third point are less than 4096 steps away from the first in every direction. -/
def Near (n0 n1 n2 : V3 Int) : Prop :=
  ∀ a : Axis, (a.of n1 - a.of n0).natAbs < 4096 ∧ (a.of n2 - a.of n0).natAbs < 4096

/-- Three points of a plane perpendicular to an axis at `c` steps which looks up or down the axis. They are at most
2048 steps apart, and the parallelogram they span has an area that is a power of two (editors which write points one
unit apart give 1), or, if vectors are normalized by dividing by their length, any area below 4096. -/
@[reducible] def SidePoints [F32Lib] (a : Axis) (up : Bool) (c : Int) (n0 n1 n2 : V3 Int) : Prop :=
  a.of n0 = c ∧ a.of n1 = c ∧ a.of n2 = c ∧
    (∀ b : Axis, (b.of n1 - b.of n0).natAbs ≤ 2048 ∧ (b.of n2 - b.of n0).natAbs ≤ 2048) ∧
    ∃ m : Nat, turn a n0 n2 n1 = (if up then (m : Int) else -m) ∧
      ((∃ j, m = 2 ^ j) ∨ (F32Lib.recip = false ∧ 0 < m ∧ m < 4096))

/-- The face `p` has three such points on the grid. -/
def IsSide [F32Lib] (g : Nat) (a : Axis) (up : Bool) (c : Int) (p : BrushPlane F32) : Prop :=
  ∃ n0 n1 n2 : V3 Int, GridPoint g p.v0 n0 ∧ GridPoint g p.v1 n1 ∧ GridPoint g p.v2 n2 ∧ SidePoints a up c n0 n1 n2

/-- A box with corners on the grid with `2 ^ g` steps per unit. -/
structure GridBox where
  g : Nat
  lo : V3 Int
  hi : V3 Int
  fine : g ≤ 30
  lt : ∀ a : Axis, a.of lo < a.of hi
  lo_small : ∀ a : Axis, (a.of lo).natAbs ≤ 2 ^ 20
  hi_small : ∀ a : Axis, (a.of hi).natAbs ≤ 2 ^ 20

namespace GridBox

/-- Where a side is. -/
def side (b : GridBox) (a : Axis) (up : Bool) : Int := if up then a.of b.hi else a.of b.lo

/-- The planes are the six sides of the box, in any order, possibly repeated. -/
def IsBrush [F32Lib] (b : GridBox) (planes : List (BrushPlane F32)) : Prop :=
  (∀ p ∈ planes, ∃ a up, IsSide b.g a up (b.side a up) p) ∧
  ∀ a up, ∃ p ∈ planes, IsSide b.g a up (b.side a up) p

/-- The four corners of a side, in steps. -/
def rect (b : GridBox) (a : Axis) (up : Bool) : List (V3 Int) :=
  match a with
  | .x => [⟨b.side .x up, b.lo.y, b.lo.z⟩, ⟨b.side .x up, b.hi.y, b.lo.z⟩,
           ⟨b.side .x up, b.hi.y, b.hi.z⟩, ⟨b.side .x up, b.lo.y, b.hi.z⟩]
  | .y => [⟨b.lo.x, b.side .y up, b.lo.z⟩, ⟨b.hi.x, b.side .y up, b.lo.z⟩,
           ⟨b.hi.x, b.side .y up, b.hi.z⟩, ⟨b.lo.x, b.side .y up, b.hi.z⟩]
  | .z => [⟨b.lo.x, b.lo.y, b.side .z up⟩, ⟨b.hi.x, b.lo.y, b.side .z up⟩,
           ⟨b.hi.x, b.hi.y, b.side .z up⟩, ⟨b.lo.x, b.hi.y, b.side .z up⟩]

/-- Steps to units. -/
noncomputable def point (b : GridBox) (n : V3 Int) : V3 ℝ := ⟨n.x / 2 ^ b.g, n.y / 2 ^ b.g, n.z / 2 ^ b.g⟩

/-- The middle of the box. -/
noncomputable def middle (b : GridBox) : V3 ℝ :=
  ⟨(b.lo.x + b.hi.x) / 2 / 2 ^ b.g, (b.lo.y + b.hi.y) / 2 / 2 ^ b.g, (b.lo.z + b.hi.z) / 2 / 2 ^ b.g⟩

/-- The middle of a side. -/
noncomputable def sideMiddle (b : GridBox) (a : Axis) (up : Bool) : V3 ℝ :=
  match a with
  | .x => { b.middle with x := b.side .x up / 2 ^ b.g }
  | .y => { b.middle with y := b.side .y up / 2 ^ b.g }
  | .z => { b.middle with z := b.side .z up / 2 ^ b.g }

end GridBox

/-- The outward direction of a side. -/
def outward (a : Axis) (up : Bool) : V3 ℝ :=
  match a with
  | .x => ⟨if up then 1 else -1, 0, 0⟩
  | .y => ⟨0, if up then 1 else -1, 0⟩
  | .z => ⟨0, 0, if up then 1 else -1⟩

/-! ### order of the corners -/

/-- The quadrant of a direction off the axes, counted by increasing angle between -π and π. -/
noncomputable def quadrant (y x : ℝ) : Nat :=
  if 0 < y then (if 0 < x then 2 else 3) else (if 0 < x then 1 else 0)

/-- What is needed of `atan2`: angles in different quadrants compare the right way, unless a direction is so close
to an axis that rounding could put two angles together. -/
class QuadrantAtan2 [F32Lib] : Prop where
  lt : ∀ y x y' x' : F32, F32.isFin y → F32.isFin x → F32.isFin y' → F32.isFin x' →
    0 < |F32.val y| → 0 < |F32.val x| → 0 < |F32.val y'| → 0 < |F32.val x'| →
    |F32.val y| ≤ 2 ^ 22 * |F32.val x| → |F32.val x| ≤ 2 ^ 22 * |F32.val y| →
    |F32.val y'| ≤ 2 ^ 22 * |F32.val x'| → |F32.val x'| ≤ 2 ^ 22 * |F32.val y'| →
    quadrant (F32.val y) (F32.val x) < quadrant (F32.val y') (F32.val x') →
    F32.rel (· < ·) (F32Lib.atan2 y x) (F32Lib.atan2 y' x') = true

/-- The edge runs along an axis; its length is a power of two steps, or, if vectors are normalized by dividing by
their length, below 4096 steps. -/
@[reducible] def EdgePoints [F32Lib] (d : Axis) (n0 n1 : V3 Int) : Prop :=
  (∀ b, b ≠ d → b.of n1 = b.of n0) ∧
    ((∃ j, (d.of n1 - d.of n0).natAbs = 2 ^ j) ∨
      (F32Lib.recip = false ∧ 0 < (d.of n1 - d.of n0).natAbs ∧ (d.of n1 - d.of n0).natAbs < 4096))

/-- The first edge of a face is such an edge. -/
def FirstEdge [F32Lib] (g : Nat) (d : Axis) (p : BrushPlane F32) : Prop :=
  ∃ n0 n1 : V3 Int, GridPoint g p.v0 n0 ∧ GridPoint g p.v1 n1 ∧ EdgePoints d n0 n1

/-- Four points are the corners of a parallelogram one after the other, clockwise when looking at the outside of a
side. -/
def Clockwise (a : Axis) (up : Bool) (n0 n1 n2 n3 : V3 Int) : Prop :=
  (∀ b : Axis, b.of n0 + b.of n2 = b.of n1 + b.of n3) ∧ if up then turn a n0 n1 n2 < 0 else 0 < turn a n0 n1 n2

/-- The real vector. -/
noncomputable def vec (v : V3 F32) : V3 ℝ := ⟨F32.val v.x, F32.val v.y, F32.val v.z⟩

/-- All coordinates are finite. -/
def Finite3 (v : V3 F32) : Prop := F32.isFin v.x ∧ F32.isFin v.y ∧ F32.isFin v.z

/-- The geometry of a side is exactly what it is in real arithmetic: the four corners, the middle, two triangles,
and, unless the entity asks for smooth shading, the outward normal. -/
structure ExactSide [F32Lib] (b : GridBox) (a : Axis) (up : Bool) (entity : Entity F32) (geo : PlaneGeo F32) : Prop where
  corners : (geo.vertices.map fun v => vec v.pos).Perm ((b.rect a up).map b.point)
  center : vec geo.center = b.sideMiddle a up
  triangles : geo.indices = [0, 1, 2, 0, 2, 3]
  finite : Finite3 geo.center ∧ ∀ v ∈ geo.vertices, Finite3 v.pos
  normal : entity.properties (str! "_phong") ≠ some (str! "1") → ∀ v ∈ geo.vertices,
    Finite3 v.normal ∧ vec v.normal = outward a up

end Quarch.Spec
