import Verif.Spec.Real
import Mathlib.MeasureTheory.Measure.Lebesgue.Basic
/-
The volume of a brush as a part of space.
-/
namespace Quarch.Spec

/-- Lebesgue measure of the part of space behind all planes. -/
noncomputable def bodyVolume (planes : List (BrushPlane ℝ)) : ENNReal :=
  MeasureTheory.volume {x : Fin 3 → ℝ | ∀ p ∈ planes, WithinR 0 p ⟨x 0, x 1, x 2⟩}

end Quarch.Spec
