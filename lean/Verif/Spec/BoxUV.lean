import Verif.Spec.Box
import Verif.Spec.Real
/-
Texture coordinates of boxes on a grid in single precision (C115).
-/
namespace Quarch.Spec

/-- The number is finite, and no finite number of the format is closer to `x`. -/
def Nearest (a : F32) (x : ℝ) : Prop := F32.isFin a ∧ ∀ c : ℝ, Rep |c| → |F32.val a - x| ≤ |c - x|

/-- Turning by an angle of zero changes no value: the matrix and the quaternion of this angle are the identity. -/
class ZeroTurn [F32Lib] : Prop where
  turn2 : ∀ (a : F32) (v : V2 F32), F32.isFin a → F32.val a = 0 → F32.isFin v.x → F32.isFin v.y →
    (F32.isFin (F32Lib.rotate2 a v).x ∧ F32.val (F32Lib.rotate2 a v).x = F32.val v.x) ∧
      F32.isFin (F32Lib.rotate2 a v).y ∧ F32.val (F32Lib.rotate2 a v).y = F32.val v.y
  turn3 : ∀ (n : V3 F32) (a : F32) (v : V3 F32), Finite3 n → F32.isFin a → F32.val a = 0 → Finite3 v →
    Finite3 (F32Lib.rotate n a v) ∧ vec (F32Lib.rotate n a v) = vec v

/-- The number is plus or minus a power of two between `2 ^ -20` and `2 ^ 20`. -/
def PowerScale (s : F32) : Prop := F32.isFin s ∧ ∃ k : Int, -20 ≤ k ∧ k ≤ 20 ∧ |F32.val s| = 2 ^ k

/-- The side length is a power of two up to `2 ^ 20`. -/
def PowerSize (w : Nat) : Prop := ∃ i ≤ 20, w = 2 ^ i

/-- The number is zero or neither tiny nor huge. -/
def Ordinary (o : F32) : Prop := F32.isFin o ∧ (F32.val o = 0 ∨ 2 ^ (-60 : Int) ≤ |F32.val o|) ∧ |F32.val o| ≤ 2 ^ 60

/-- Texture size and scale are powers of two. -/
structure PowerLayout (tx : Texture) (p : BrushPlane F32) : Prop where
  width : PowerSize tx.width
  height : PowerSize tx.height
  x : PowerScale p.scale.x
  y : PowerScale p.scale.y

/-- How a side is laid on its texture if it has no texture axes of its own. -/
def planar (a : Axis) (x : V3 ℝ) : V2 ℝ :=
  match a with
  | .z => ⟨x.x, -x.y⟩
  | .y => ⟨x.x, -x.z⟩
  | .x => ⟨x.y, -x.z⟩

/-- A texture axis which is a direction of the grid. -/
def AxisVec (w : V3 F32) (d : Axis) (s : Bool) : Prop := Finite3 w ∧ vec w = outward d s

/-- The direction in which the first texture coordinate grows (with a positive scale) on such a side. -/
def planarTangent (a : Axis) : V3 ℝ :=
  match a with
  | .z => ⟨1, 0, 0⟩
  | .y => ⟨1, 0, 0⟩
  | .x => ⟨0, 1, 0⟩

/-- The direction in which the second texture coordinate grows. -/
def planarBitangent (a : Axis) : V3 ℝ :=
  match a with
  | .z => ⟨0, -1, 0⟩
  | .y => ⟨0, 0, -1⟩
  | .x => ⟨0, 0, -1⟩

/-- The coordinate in exact arithmetic: the position in texels of the scaled texture and the offset in texels, both
divided by the size of the texture. -/
noncomputable def texel (w : Nat) (s o x : ℝ) : ℝ := x / (w * s) + o / w

/-- The offset is a whole number of steps of the grid in texels, at most `2 ^ 22`. -/
def StepOffset (g : Nat) (s o : F32) : Prop :=
  ∃ m : Int, m.natAbs ≤ 2 ^ 22 ∧ F32.val o * F32.val s * 2 ^ g = m

end Quarch.Spec
