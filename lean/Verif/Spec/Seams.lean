import Verif.Spec.Real
/-
Which faces shading smooths over, and corners of three faces.
-/
namespace Quarch.Spec

/-- Faces with the unit normals `n` and `m` are smoothed over: always without an angle, otherwise if the cosine of the
angle between them exceeds that of the phong angle (plus a hundredth of a degree). -/
def SmoothedOver (angle : Option ℝ) (n m : V3 ℝ) : Prop :=
  match angle with
  | none => True
  | some a => Real.cos ((a + 1 / 100) * (174533 / 10000000)) < dotR n m

/-- Outward direction of a face, with length one. -/
noncomputable def direction (p : BrushPlane ℝ) : V3 ℝ := smulR (1 / lenR (rawNormal p)) (rawNormal p)

/-- At most the faces `f`, `g` and `r` meet at `x`, up to repeated planes. -/
def OnlyThree (planes : List (BrushPlane ℝ)) (f g r : BrushPlane ℝ) (x : V3 ℝ) : Prop :=
  ∀ p ∈ planes, OnPlane p x → direction p = direction f ∨ direction p = direction g ∨ direction p = direction r

end Quarch.Spec
