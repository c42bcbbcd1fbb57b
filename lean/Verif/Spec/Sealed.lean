import Verif.Spec.Outline
/-
Brushes that are closed in single precision (C119).
-/
namespace Quarch.Spec

/-- A bounded solid brush of small faces (`NearFace`) without doubtful corners (`ClearFace`): three of its planes are either
dependent or far from it. -/
structure ClearBody (g : Nat) (R : ℝ) (planes : List (BrushPlane F32)) : Prop where
  grid : g ≤ 20
  least : 1 ≤ R
  most : R ≤ 64
  near : ∀ p ∈ planes, NearFace g R p
  count : planes.length ≤ 1024
  clear : ∀ p ∈ planes, ClearFace R (planes.map triOf) (triOf p)
  firm : ∀ p ∈ planes, ∀ q ∈ planes, ∀ r ∈ planes, Tri.spread (triOf p) (triOf q) (triOf r) ≤ 0 ∨
    1 / 2000 < Tri.spread (triOf p) (triOf q) (triOf r)
  solid : ∃ y, ∀ p ∈ planes, (triOf p).above y < 0
  bounded : ∃ M : ℝ, ∀ x, (∀ p ∈ planes, (triOf p).above x ≤ 0) → |x.x| ≤ M ∧ |x.y| ≤ M ∧ |x.z| ≤ M

/-- Such a brush with three planes only at each corner (`SimpleFace`): the corners of each face are sharp, and different
corners are more than 1/250 of a unit apart. -/
structure FirmBrush (g : Nat) (R : ℝ) (planes : List (BrushPlane F32)) : Prop extends ClearBody g R planes where
  simple : ∀ p ∈ planes, SimpleFace R planes p
  corners : ∀ p ∈ planes, ∃ xs : List (V3 ℝ), xs.Nodup ∧
    (∀ x, x ∈ xs ↔ TrueCorner R (planes.map triOf) (triOf p) x) ∧ xs.length ≤ 256 ∧ Sharp (1 / 32) xs
  far : ∀ p ∈ planes, ∀ q ∈ planes, ∀ x y, TrueCorner R (planes.map triOf) (triOf p) x →
    TrueCorner R (planes.map triOf) (triOf q) y → Close (1 / 250) x y → x = y

end Quarch.Spec
