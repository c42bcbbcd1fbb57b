import Verif.Spec.InsideOut
import Verif.Spec.Turning
/-
Mirrored maps.
-/
namespace Quarch.Spec

/-- The mirror image in the plane through the second and the third axis. -/
def mirrorR (v : V3 ℝ) : V3 ℝ := ⟨-v.x, v.y, v.z⟩

/-- The mirror image, turned and moved. Every map of the space onto itself that keeps distances but exchanges left and right
is of this form. -/
def Rigid.reflect (M : Rigid) (v : V3 ℝ) : V3 ℝ := M.move (mirrorR v)

end Quarch.Spec
