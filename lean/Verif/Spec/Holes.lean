import Verif.Spec.Scene
import Verif.Spec.Real
/-
Sides of the triangles of a scene (C127).
-/
namespace Quarch.Spec

/-- The directed line from `a` to `b` is a side of one of the triangles listed by the indices. Corners are compared by
position. -/
def ListedSide {F : Type} (real : V3 F → V3 ℝ) (vs : List (V3 F)) (is : List Nat) (a b : V3 ℝ) : Prop :=
  ∃ t i j k x y z, is[3 * t]? = some i ∧ is[3 * t + 1]? = some j ∧ is[3 * t + 2]? = some k ∧
    vs[i]? = some x ∧ vs[j]? = some y ∧ vs[k]? = some z ∧
    ((real x = a ∧ real y = b) ∨ (real y = a ∧ real z = b) ∨ (real z = a ∧ real x = b))

/-- A mesh of the scene has a triangle with this side. -/
def DrawnSide {F : Type} (real : V3 F → V3 ℝ) (nodes : List (Node F)) (a b : V3 ℝ) : Prop :=
  ∃ o v s, Occurs (.visual o v) nodes ∧ s ∈ surfaces v ∧ ListedSide real s.vertices s.indices a b

/-- A concave collision shape of the scene has a triangle with this side. -/
def SolidSide {F : Type} (real : V3 F → V3 ℝ) (nodes : List (Node F)) (a b : V3 ℝ) : Prop :=
  ∃ o shapes s, Occurs (.collision o (.concave shapes)) nodes ∧ s ∈ shapes ∧ ListedSide real s.vertices s.indices a b

end Quarch.Spec
