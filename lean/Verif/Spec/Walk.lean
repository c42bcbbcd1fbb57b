import Verif.Spec.Real
import Mathlib.Topology.Order.IntermediateValue
import Mathlib.Topology.Algebra.Order.Field
/-
Walks through a scene (C144).
-/
namespace Quarch.Spec

/-- A walk from the time 0 to the time 1 without jumps. -/
structure Walk (γ : ℝ → V3 ℝ) : Prop where
  x : ContinuousOn (fun t => (γ t).x) (Set.Icc 0 1)
  y : ContinuousOn (fun t => (γ t).y) (Set.Icc 0 1)
  z : ContinuousOn (fun t => (γ t).z) (Set.Icc 0 1)

end Quarch.Spec
