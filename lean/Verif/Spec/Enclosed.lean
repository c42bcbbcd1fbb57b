import Verif.Spec.Real
/-
The area and the volume of a surface given as list of the corners of its triangles, three by three.
-/
namespace Quarch.Spec

/-- `x` is strictly to the side from which the triangle runs anticlockwise: beneath a triangle of an outer surface. -/
noncomputable def beneath (a b c x : V3 ℝ) : ℝ := dotR (crossR (subR b a) (subR c a)) (subR x a)

/-- Sum of the directed areas (twice) of the triangles. -/
noncomputable def directedArea : List (V3 ℝ) → V3 ℝ
  | a :: b :: c :: rest => addR (crossR (subR b a) (subR c a)) (directedArea rest)
  | _ => zeroR

/-- Six times the volume between the triangles and the point `x`: each triangle contributes the tetrahedron over it
with its top at `x`, with a negative sign if `x` is above it. -/
noncomputable def sixVolume (x : V3 ℝ) : List (V3 ℝ) → ℝ
  | a :: b :: c :: rest => beneath a b c x + sixVolume x rest
  | _ => 0

end Quarch.Spec
