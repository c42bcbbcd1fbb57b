import Verif.Spec.InsideOut
/-
Cutting brushes in two (C143).
-/
namespace Quarch.Spec

/-- The two sides of a cut through a brush: the same plane, looking one way and the other, with textures that are already on
the brush. -/
structure SawnBy (br : Brush ℝ) (p p' : BrushPlane ℝ) : Prop where
  turned : TurnedRound p p'
  texture : ∃ q ∈ br.planes, p.texture = q.texture
  texture' : ∃ q ∈ br.planes, p'.texture = q.texture

/-- The part of the brush behind one more plane. -/
def sawn (br : Brush ℝ) (p : BrushPlane ℝ) : Brush ℝ := ⟨br.planes ++ [p]⟩

/-- Some brushes are replaced by the two parts on the two sides of a plane, all others are kept. `C` says which brush may be cut
by which plane. -/
inductive CutInto (C : Brush ℝ → BrushPlane ℝ → Prop) : List (Brush ℝ) → List (Brush ℝ) → Prop
  | nil : CutInto C [] []
  | keep {br : Brush ℝ} {l l' : List (Brush ℝ)} : CutInto C l l' → CutInto C (br :: l) (br :: l')
  | cut {br : Brush ℝ} {p p' : BrushPlane ℝ} {l l' : List (Brush ℝ)} : C br p → SawnBy br p p' → CutInto C l l' →
      CutInto C (br :: l) (sawn br p :: sawn br p' :: l')

/-- The same properties, and some brushes cut in two. -/
def CutEntity (C : Brush ℝ → BrushPlane ℝ → Prop) (e e' : Entity ℝ) : Prop :=
  e.properties = e'.properties ∧ CutInto C e.brushes e'.brushes

/-- The point is in a brush and on the plane of a cut through it. -/
def OnCut (C : Brush ℝ → BrushPlane ℝ → Prop) (x : V3 ℝ) : Prop :=
  ∃ br p, C br p ∧ (∀ q ∈ br.planes, WithinR 0 q x) ∧ OnPlane p x

end Quarch.Spec
