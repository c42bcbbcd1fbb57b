import Verif.Spec.Corner
/-
Faces without doubtful corners (C117).
-/
namespace Quarch.Spec

/-- Wherever the plane of the face meets two other planes of the brush is clear: the planes nearly share a direction, or
the point is a true corner, or it is outside of some plane by at least 1/64 of a unit. The distance `X` from the origin of
a point outside is at most 1000 times the volume spanned by the normals. -/
def ClearFace (R : ℝ) (ts : List Tri) (t : Tri) : Prop :=
  ∀ t1 ∈ ts, ∀ t2 ∈ ts, Tri.spread t t1 t2 ≤ 1 / 2000 ∨
    ∃ x, t.above x = 0 ∧ t1.above x = 0 ∧ t2.above x = 0 ∧
      ((lenR x ≤ R ∧ R ≤ 64 * Tri.spread t t1 t2 ∧ ∀ s ∈ ts, s.above x ≤ 0) ∨
        ∃ X, R ≤ X ∧ lenR x ≤ X ∧ X ≤ 1000 * Tri.spread t t1 t2 ∧ ∃ s ∈ ts, 1 / 64 ≤ s.above x)

/-- At every true corner of the face only one pair of planes of the brush meets it. -/
def SimpleFace (R : ℝ) (planes : List (BrushPlane F32)) (plane : BrushPlane F32) : Prop :=
  ∀ x, TrueCorner R (planes.map triOf) (triOf plane) x → ∀ p1 ∈ planes, ∀ p2 ∈ planes, ∀ q1 ∈ planes, ∀ q2 ∈ planes,
    (triOf p1).above x = 0 → (triOf p2).above x = 0 → (triOf q1).above x = 0 → (triOf q2).above x = 0 →
    1 / 2000 < Tri.spread (triOf plane) (triOf p1) (triOf p2) → 1 / 2000 < Tri.spread (triOf plane) (triOf q1) (triOf q2) →
    p1 = q1 ∧ p2 = q2

/-- A block of 32 units with one vertical edge cut off. -/
def bevel : List IntFace :=
  [(⟨-16, -16, -16⟩, ⟨-16, 16, -16⟩, ⟨-16, -16, 16⟩), (⟨16, -16, -16⟩, ⟨16, -16, 16⟩, ⟨16, 8, -16⟩),
   (⟨-16, -16, -16⟩, ⟨-16, -16, 16⟩, ⟨16, -16, -16⟩), (⟨-16, 16, -16⟩, ⟨8, 16, -16⟩, ⟨-16, 16, 16⟩),
   (⟨-16, -16, -16⟩, ⟨16, -16, -16⟩, ⟨-16, 16, -16⟩), (⟨-16, -16, 16⟩, ⟨-16, 16, 16⟩, ⟨16, -16, 16⟩),
   (⟨16, 8, -16⟩, ⟨16, 8, 16⟩, ⟨8, 16, -16⟩)]

end Quarch.Spec
