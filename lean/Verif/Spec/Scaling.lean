import Verif.Spec.Turning
import Verif.Spec.Reorder
/-
Scaling, turning and moving a whole map (C105), in exact arithmetic. Written without the functions of the scene builder.
-/
namespace Quarch.Spec

/-- A rotation and a scaling, followed by a translation. -/
structure Similar extends Rigid where
  scale : ℝ
  scale_pos : 0 < scale

/-- The rotation and the scaling. -/
def Similar.turn (S : Similar) (v : V3 ℝ) : V3 ℝ := smulR S.scale (S.toRigid.turn v)

/-- The rotation, the scaling and the translation. -/
def Similar.move (S : Similar) (v : V3 ℝ) : V3 ℝ := addR (S.turn v) S.t

end Quarch.Spec
