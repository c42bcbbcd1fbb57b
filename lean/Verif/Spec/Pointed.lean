import Verif.Spec.Rendered
/-
Brushes with corners where many faces meet (C125).
-/
namespace Quarch.Spec

/-- At the point `x` at most `k` pairs of planes of the brush meet the face. -/
def FewPairs (k : Nat) (planes : List (BrushPlane F32)) (plane : BrushPlane F32) (x : V3 ℝ) : Prop :=
  ∃ prs : List (BrushPlane F32 × BrushPlane F32), prs.length ≤ k ∧ ∀ p1 ∈ planes, ∀ p2 ∈ planes,
    (triOf p1).above x = 0 → (triOf p2).above x = 0 → 1 / 2000 < Tri.spread (triOf plane) (triOf p1) (triOf p2) →
    (p1, p2) ∈ prs

/-- A clear brush with corners where many faces may meet: the more there are, the sharper the corners have to be. -/
structure PointedBrush (g : Nat) (R : ℝ) (planes : List (BrushPlane F32)) : Prop extends ClearBody g R planes where
  corners : ∀ p ∈ planes, ∃ (k : Nat) (xs : List (V3 ℝ)), 1 ≤ k ∧
    (∀ x, x ∈ xs ↔ TrueCorner R (planes.map triOf) (triOf p) x) ∧ k * xs.length ≤ 256 ∧ Sharp ((k + 3) / 128) xs ∧
    ∀ x ∈ xs, FewPairs k planes p x

/-- A pointed brush of some grid and size. -/
def IsPointed (planes : List (BrushPlane F32)) : Prop := ∃ g R, PointedBrush g R planes

/-- The first points have a neighbour among the second within `e`, and the third among the first: the picture is not more
than the second and not less than the third. -/
def Between (e : ℝ) (A B C : V3 ℝ → Prop) : Prop :=
  (∀ x, A x → ∃ y, B y ∧ Close e x y) ∧ ∀ y, C y → ∃ x, A x ∧ Close e x y

/-- A square pyramid, 16 units high, with a base of 32 units. -/
def pyramid : List IntFace :=
  [(⟨-16, -16, -8⟩, ⟨16, -16, -8⟩, ⟨-16, 16, -8⟩), (⟨0, 0, 8⟩, ⟨16, -16, -8⟩, ⟨-16, -16, -8⟩),
   (⟨0, 0, 8⟩, ⟨16, 16, -8⟩, ⟨16, -16, -8⟩), (⟨0, 0, 8⟩, ⟨-16, 16, -8⟩, ⟨16, 16, -8⟩),
   (⟨0, 0, 8⟩, ⟨-16, -16, -8⟩, ⟨-16, 16, -8⟩)]

end Quarch.Spec
