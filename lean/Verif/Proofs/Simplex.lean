import Mathlib.MeasureTheory.Measure.Lebesgue.VolumeOfBalls
import Mathlib.MeasureTheory.Measure.Lebesgue.EqHaar
import Mathlib.LinearAlgebra.Matrix.Determinant.Basic
import Mathlib.LinearAlgebra.Matrix.ToLin
import Mathlib.LinearAlgebra.Determinant
/-
Lebesgue measure of tetrahedra.
-/
namespace Quarch.Simplex
open MeasureTheory Set
open scoped Pointwise

abbrev R3 := Fin 3 → ℝ

/-- Changing the sign of a coordinate. -/
def flip (i : Fin 3) (x : R3) : R3 := fun j => if j = i then - x j else x j

theorem flip_preserving (i : Fin 3) : MeasurePreserving (flip i) (volume : Measure R3) volume := by
  have := volume_preserving_pi (f := fun (j : Fin 3) (x : ℝ) => if j = i then -x else x) fun j => by
    by_cases h : j = i
    · simp only [h, if_true]
      exact Measure.measurePreserving_neg _
    · simp only [h, if_false]
      exact MeasurePreserving.id _
  exact this

theorem plane_null (i : Fin 3) : volume {x : R3 | x i = 0} = 0 := by
  rw [volume_pi]
  exact Measure.pi_hyperplane _ i 0

/-- Half of a symmetric set. -/
theorem half {A : Set R3} (hA : MeasurableSet A) (i : Fin 3) (hs : ∀ x, flip i x ∈ A ↔ x ∈ A) :
    volume A = 2 * volume (A ∩ {x | 0 < x i}) ∧ volume A = 2 * volume (A ∩ {x | 0 ≤ x i}) := by
  have hm : MeasurableSet {x : R3 | 0 < x i} := measurableSet_lt measurable_const (measurable_pi_apply i)
  have hm' : MeasurableSet {x : R3 | 0 ≤ x i} := measurableSet_le measurable_const (measurable_pi_apply i)
  have e : volume (A ∩ {x | 0 ≤ x i}) = volume (A ∩ {x | 0 < x i}) := by
    apply le_antisymm
    · calc volume (A ∩ {x : R3 | 0 ≤ x i}) ≤ volume (A ∩ {x | 0 < x i} ∪ {x | x i = 0}) := by
            apply measure_mono
            rintro x ⟨h1, h2⟩
            rcases lt_or_eq_of_le (show 0 ≤ x i from h2) with h | h
            · exact Or.inl ⟨h1, h⟩
            · exact Or.inr h.symm
        _ ≤ volume (A ∩ {x | 0 < x i}) + volume {x : R3 | x i = 0} := measure_union_le _ _
        _ = volume (A ∩ {x | 0 < x i}) := by rw [plane_null, add_zero]
    · exact measure_mono fun x hx => ⟨hx.1, show 0 ≤ x i from le_of_lt (show 0 < x i from hx.2)⟩
  have e2 : volume (A \ {x | 0 ≤ x i}) = volume (A ∩ {x | 0 < x i}) := by
    rw [← (flip_preserving i).measure_preimage (hA.inter hm).nullMeasurableSet]
    congr 1
    ext x
    simp only [mem_sdiff, mem_ofPred_eq, mem_preimage, mem_inter_iff, hs]
    simp [flip]
  have := measure_inter_add_sdiff (μ := (volume : Measure R3)) A hm'
  rw [e, e2] at this
  constructor
  · rw [two_mul, this]
  · rw [e, two_mul, this]

theorem octahedron_open : volume {x : R3 | |x 0| + |x 1| + |x 2| < 1} = ENNReal.ofReal (8 / 6) := by
  have := volume_sum_rpow_lt_one (Fin 3) (p := 1) le_rfl
  simp only [Real.rpow_one, Fin.sum_univ_three, Fintype.card_fin] at this
  rw [this]
  congr 1
  have h1 : Real.Gamma (1 / 1 + 1) = 1 := by
    have := Real.Gamma_nat_eq_factorial 1; norm_num at this ⊢; 
  have h2 : Real.Gamma (((3 : ℕ) : ℝ) / 1 + 1) = 6 := by
    rw [div_one, Real.Gamma_nat_eq_factorial]; norm_num [Nat.factorial]
  rw [h1, h2]; norm_num

theorem octahedron_closed : volume {x : R3 | |x 0| + |x 1| + |x 2| ≤ 1} = ENNReal.ofReal (8 / 6) := by
  have := volume_sum_rpow_le (Fin 3) (p := 1) le_rfl 1
  simp only [Real.rpow_one, Fin.sum_univ_three, Fintype.card_fin, div_one] at this
  rw [this]
  have h1 : Real.Gamma (1 + 1) = 1 := by
    have := Real.Gamma_nat_eq_factorial 1; norm_num at this ⊢; 
  have h2 : Real.Gamma (((3 : ℕ) : ℝ) + 1) = 6 := by
    rw [Real.Gamma_nat_eq_factorial]; norm_num [Nat.factorial]
  rw [h1, h2]; norm_num

/-- The simplex without and with its border. -/
def inner : Set R3 := {w | 0 < w 0 ∧ 0 < w 1 ∧ 0 < w 2 ∧ w 0 + w 1 + w 2 < 1}
def outer : Set R3 := {w | 0 ≤ w 0 ∧ 0 ≤ w 1 ∧ 0 ≤ w 2 ∧ w 0 + w 1 + w 2 ≤ 1}

theorem eighth {a b c d : ENNReal} (h : a = ENNReal.ofReal (8 / 6)) (h1 : a = 2 * b) (h2 : b = 2 * c) (h3 : c = 2 * d) :
    d = ENNReal.ofReal (1 / 6) := by
  have e : 8 * d = 8 * ENNReal.ofReal (1 / 6) := by
    rw [show (8 : ENNReal) = ENNReal.ofReal 8 by norm_num, ← ENNReal.ofReal_mul (by norm_num)]
    rw [show (8 : ℝ) * (1 / 6) = 8 / 6 by norm_num, ← h, h1, h2, h3]
    rw [← mul_assoc, ← mul_assoc]; norm_num
  exact (ENNReal.mul_right_inj (by norm_num) (by norm_num)).1 e

theorem inner_volume : volume inner = ENNReal.ofReal (1 / 6) := by
  have c0 : Continuous fun x : R3 => |x 0| + |x 1| + |x 2| := by fun_prop
  have m0 : MeasurableSet {x : R3 | |x 0| + |x 1| + |x 2| < 1} := (isOpen_lt c0 continuous_const).measurableSet
  have m1 : MeasurableSet ({x : R3 | |x 0| + |x 1| + |x 2| < 1} ∩ {x | 0 < x 0}) :=
    m0.inter (measurableSet_lt measurable_const (measurable_pi_apply 0))
  have m2 : MeasurableSet ({x : R3 | |x 0| + |x 1| + |x 2| < 1} ∩ {x | 0 < x 0} ∩ {x | 0 < x 1}) :=
    m1.inter (measurableSet_lt measurable_const (measurable_pi_apply 1))
  have h1 := (half m0 0 fun x => by simp [flip]).1
  have h2 := (half m1 1 fun x => by simp [flip]).1
  have h3 := (half m2 2 fun x => by simp [flip]).1
  have e : inner = {x : R3 | |x 0| + |x 1| + |x 2| < 1} ∩ {x | 0 < x 0} ∩ {x | 0 < x 1} ∩ {x | 0 < x 2} := by
    ext x
    simp only [inner, mem_inter_iff, mem_ofPred_eq]
    constructor
    · rintro ⟨a, b, c, d⟩
      rw [abs_of_pos a, abs_of_pos b, abs_of_pos c]
      exact ⟨⟨⟨d, a⟩, b⟩, c⟩
    · rintro ⟨⟨⟨d, a⟩, b⟩, c⟩
      rw [abs_of_pos a, abs_of_pos b, abs_of_pos c] at d
      exact ⟨a, b, c, d⟩
  rw [e]
  exact eighth octahedron_open h1 h2 h3

theorem outer_volume : volume outer = ENNReal.ofReal (1 / 6) := by
  have c0 : Continuous fun x : R3 => |x 0| + |x 1| + |x 2| := by fun_prop
  have m0 : MeasurableSet {x : R3 | |x 0| + |x 1| + |x 2| ≤ 1} := (isClosed_le c0 continuous_const).measurableSet
  have m1 : MeasurableSet ({x : R3 | |x 0| + |x 1| + |x 2| ≤ 1} ∩ {x | 0 ≤ x 0}) :=
    m0.inter (measurableSet_le measurable_const (measurable_pi_apply 0))
  have m2 : MeasurableSet ({x : R3 | |x 0| + |x 1| + |x 2| ≤ 1} ∩ {x | 0 ≤ x 0} ∩ {x | 0 ≤ x 1}) :=
    m1.inter (measurableSet_le measurable_const (measurable_pi_apply 1))
  have h1 := (half m0 0 fun x => by simp [flip]).2
  have h2 := (half m1 1 fun x => by simp [flip]).2
  have h3 := (half m2 2 fun x => by simp [flip]).2
  have e : outer = {x : R3 | |x 0| + |x 1| + |x 2| ≤ 1} ∩ {x | 0 ≤ x 0} ∩ {x | 0 ≤ x 1} ∩ {x | 0 ≤ x 2} := by
    ext x
    simp only [outer, mem_inter_iff, mem_ofPred_eq]
    constructor
    · rintro ⟨a, b, c, d⟩
      rw [abs_of_nonneg a, abs_of_nonneg b, abs_of_nonneg c]
      exact ⟨⟨⟨d, a⟩, b⟩, c⟩
    · rintro ⟨⟨⟨d, a⟩, b⟩, c⟩
      rw [abs_of_nonneg a, abs_of_nonneg b, abs_of_nonneg c] at d
      exact ⟨a, b, c, d⟩
  rw [e]
  exact eighth octahedron_closed h1 h2 h3

/-- The tetrahedron with one corner at `y` and three sides from there. -/
def place (y p q r : R3) (w : R3) : R3 := fun i => y i + (w 0 * p i + w 1 * q i + w 2 * r i)

theorem place_image (y p q r : R3) (S : Set R3) :
    volume (place y p q r '' S) = ENNReal.ofReal |Matrix.det !![p 0, q 0, r 0; p 1, q 1, r 1; p 2, q 2, r 2]| * volume S := by
  set f : R3 →ₗ[ℝ] R3 := Matrix.toLin' !![p 0, q 0, r 0; p 1, q 1, r 1; p 2, q 2, r 2] with hf
  have e : place y p q r '' S = y +ᵥ (f '' S) := by
    rw [← image_vadd, image_image]
    congr 1
    funext w
    funext i
    fin_cases i <;> simp [place, hf, Matrix.toLin'_apply, dotProduct, Fin.sum_univ_three] <;> ring
  rw [e, measure_vadd, Measure.addHaar_image_linearMap, hf, LinearMap.det_toLin']

theorem place_measurable (y p q r : R3) (hd : Matrix.det !![p 0, q 0, r 0; p 1, q 1, r 1; p 2, q 2, r 2] ≠ 0) :
    MeasurableSet (place y p q r '' inner) := by
  set f : R3 →ₗ[ℝ] R3 := Matrix.toLin' !![p 0, q 0, r 0; p 1, q 1, r 1; p 2, q 2, r 2] with hf
  have hdf : LinearMap.det f ≠ 0 := by rw [hf, LinearMap.det_toLin']; exact hd
  have hi : Function.Injective f := (f.equivOfDetNeZero hdf).injective
  have e : ∀ w, place y p q r w = y + f w := by
    intro w
    funext i
    fin_cases i <;> simp [place, hf, Matrix.toLin'_apply, dotProduct, Fin.sum_univ_three] <;> ring
  have hm : MeasurableSet inner := by
    have m : ∀ i : Fin 3, MeasurableSet {w : R3 | 0 < w i} := fun i =>
      measurableSet_lt measurable_const (measurable_pi_apply i)
    have m3 : MeasurableSet {w : R3 | w 0 + w 1 + w 2 < 1} :=
      measurableSet_lt (f := fun w : R3 => w 0 + w 1 + w 2) (by fun_prop) measurable_const
    exact (m 0).inter ((m 1).inter ((m 2).inter m3))
  apply hm.image_of_continuousOn_injOn
  · apply Continuous.continuousOn
    unfold place
    fun_prop
  · intro a _ b _ hab
    rw [e, e] at hab
    exact hi (add_left_cancel hab)

/-- Measure of a set that is filled by the tetrahedra of a list. -/
theorem upper {α : Type} (f : α → Set R3) : ∀ l : List α, volume {x | ∃ t ∈ l, x ∈ f t} ≤ (l.map fun t => volume (f t)).sum
  | [] => by simp
  | t :: l => by
    have : {x | ∃ t' ∈ t :: l, x ∈ f t'} = f t ∪ {x | ∃ t ∈ l, x ∈ f t} := by ext x; simp
    rw [this, List.map_cons, List.sum_cons]
    exact (measure_union_le _ _).trans (add_le_add_right (upper f l) _)

theorem lower {α : Type} (f : α → Set R3) : ∀ l : List α, (∀ t ∈ l, MeasurableSet (f t)) →
    (l.Pairwise fun s t => Disjoint (f s) (f t)) → (l.map fun t => volume (f t)).sum ≤ volume {x | ∃ t ∈ l, x ∈ f t}
  | [], _, _ => by simp
  | t :: l, hm, hd => by
    have e : {x | ∃ t' ∈ t :: l, x ∈ f t'} = f t ∪ {x | ∃ t ∈ l, x ∈ f t} := by ext x; simp
    obtain ⟨h1, h2⟩ := List.pairwise_cons.1 hd
    have hdj : Disjoint (f t) {x | ∃ t ∈ l, x ∈ f t} := Set.disjoint_left.2 fun x hx hx' => by
      obtain ⟨s, hs, hxs⟩ := hx'
      exact Set.disjoint_left.1 (h1 s hs) hx hxs
    rw [e, List.map_cons, List.sum_cons, measure_union' hdj (hm t (by simp))]
    exact add_le_add_right (lower f l (fun s hs => hm s (by simp [hs])) h2) _

end Quarch.Simplex
