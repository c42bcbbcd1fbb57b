import Verif.Spec.Sealed
/-
What a map of firm brushes should look like (C123) and be like to touch (C124), exactly.
-/
namespace Quarch.Spec

/-- The point is in the brush or on its border. -/
def InBrush32 (planes : List (BrushPlane F32)) (x : V3 ℝ) : Prop := ∀ q ∈ planes, (triOf q).above x ≤ 0

/-- The point is on the face `p` of the brush. -/
def OnFace32 (planes : List (BrushPlane F32)) (p : BrushPlane F32) (x : V3 ℝ) : Prop :=
  (triOf p).above x = 0 ∧ InBrush32 planes x

/-- The face has three points that are not on one line. -/
def HasArea32 (planes : List (BrushPlane F32)) (p : BrushPlane F32) : Prop :=
  ∃ a b c, OnFace32 planes p a ∧ OnFace32 planes p b ∧ OnFace32 planes p c ∧ crossR (subR b a) (subR c a) ≠ ⟨0, 0, 0⟩

/-- The point is on the border of the brush. -/
def OnBorder32 (planes : List (BrushPlane F32)) (x : V3 ℝ) : Prop := InBrush32 planes x ∧ ∃ p ∈ planes, (triOf p).above x = 0

/-- A firm brush of some grid and size. -/
def IsFirm (planes : List (BrushPlane F32)) : Prop := ∃ g R, FirmBrush g R planes

/-- Every point of one set has a point of the other set nearby, and the other way round: nothing is missing and nothing is
too much by more than `e`. -/
def Agrees (e : ℝ) (A B : V3 ℝ → Prop) : Prop :=
  (∀ x, A x → ∃ y, B y ∧ Close e x y) ∧ ∀ y, B y → ∃ x, A x ∧ Close e x y

end Quarch.Spec
