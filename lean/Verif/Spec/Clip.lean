import Verif.Spec.Cut
import Verif.Spec.Twice
/-
Clipping all brushes of a map at one plane (C146).
-/
namespace Quarch.Spec

/-- How far the point is in front of the plane, in multiples of the length of its normal. -/
noncomputable def aheadOf (p : BrushPlane ℝ) (x : V3 ℝ) : ℝ := dotR (rawNormal p) (subR x p.v0)

/-- Of every brush only the part behind the plane `p` is left: brushes that are all in front of it are dropped, brushes that are
all behind it may be kept as they are, and all others get the plane as one more face, with a texture that is already on the brush. -/
inductive ClipInto (p : BrushPlane ℝ) : List (Brush ℝ) → List (Brush ℝ) → Prop
  | nil : ClipInto p [] []
  | keep {br : Brush ℝ} {l l' : List (Brush ℝ)} : (∀ x, (∀ q ∈ br.planes, WithinR 0 q x) → aheadOf p x ≤ 0) → ClipInto p l l' →
      ClipInto p (br :: l) (br :: l')
  | drop {br : Brush ℝ} {l l' : List (Brush ℝ)} : (∀ x, (∀ q ∈ br.planes, WithinR 0 q x) → 0 < aheadOf p x) → ClipInto p l l' →
      ClipInto p (br :: l) l'
  | cut {br : Brush ℝ} {q : BrushPlane ℝ} {l l' : List (Brush ℝ)} : SameCut p q → (∃ r ∈ br.planes, q.texture = r.texture) →
      ClipInto p l l' → ClipInto p (br :: l) (sawn br q :: l')

/-- The same properties, and all brushes clipped. -/
def ClipEntity (p : BrushPlane ℝ) (e e' : Entity ℝ) : Prop :=
  e.properties = e'.properties ∧ ClipInto p e.brushes e'.brushes

end Quarch.Spec
