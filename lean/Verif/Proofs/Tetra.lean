import Verif.Props.Watertight
import Verif.Props.Shown
/-
Tetrahedra in exact arithmetic are proper brushes.
-/
set_option linter.unusedSectionVars false
namespace Quarch
open Quarch.Spec Quarch.Geo

/-- How far a point is in front of a face, times the length of the face's normal. -/
noncomputable def ahead (p : BrushPlane ℝ) (x : V3 ℝ) : ℝ := dotR (rawNormal p) (subR x p.v0)

theorem unitDet_same (p q : BrushPlane ℝ) : unitDet p p q = 0 ∧ unitDet p q p = 0 ∧ unitDet q p p = 0 := by
  refine ⟨?_, ?_, ?_⟩ <;>
  · unfold unitDet
    rw [div_eq_zero_iff]
    left
    simp only [detR, dotR, crossR]
    ring

section
variable {a b c d : V3 ℝ} {p0 p1 p2 p3 : BrushPlane ℝ}

/-- The faces of a tetrahedron. -/
structure TetraFaces (a b c d : V3 ℝ) (p0 p1 p2 p3 : BrushPlane ℝ) : Prop where
  f0 : p0.v0 = a ∧ p0.v1 = b ∧ p0.v2 = c
  f1 : p1.v0 = a ∧ p1.v1 = d ∧ p1.v2 = b
  f2 : p2.v0 = a ∧ p2.v1 = c ∧ p2.v2 = d
  f3 : p3.v0 = b ∧ p3.v1 = d ∧ p3.v2 = c

/-- Six times the volume. -/
noncomputable def volume6 (a b c d : V3 ℝ) : ℝ := detR (subR b a) (subR c a) (subR d a)

theorem ahead_sum (h : TetraFaces a b c d p0 p1 p2 p3) (x : V3 ℝ) :
    ahead p0 x + ahead p1 x + ahead p2 x + ahead p3 x = -volume6 a b c d := by
  obtain ⟨⟨e1, e2, e3⟩, ⟨e4, e5, e6⟩, ⟨e7, e8, e9⟩, e10, e11, e12⟩ := h
  simp only [ahead, rawNormal, e1, e2, e3, e4, e5, e6, e7, e8, e9, e10, e11, e12, volume6, detR, dotR, crossR, subR]
  ring

theorem ahead_point (h : TetraFaces a b c d p0 p1 p2 p3) (x : V3 ℝ) (k : Axis) :
    volume6 a b c d * k.of x =
      -(ahead p0 x * k.of d + ahead p1 x * k.of c + ahead p2 x * k.of b + ahead p3 x * k.of a) := by
  obtain ⟨⟨e1, e2, e3⟩, ⟨e4, e5, e6⟩, ⟨e7, e8, e9⟩, e10, e11, e12⟩ := h
  simp only [ahead, rawNormal, e1, e2, e3, e4, e5, e6, e7, e8, e9, e10, e11, e12, volume6, detR, dotR, crossR, subR]
  cases k <;> simp only [Axis.of] <;> ring

/-- All orders of three faces with a large determinant. -/
theorem unitDet_orders [RealText] {p q r : BrushPlane ℝ} (h : 1 / 1000 ≤ unitDet p q r) :
    1 / 1000 ≤ |unitDet p q r| ∧ 1 / 1000 ≤ |unitDet q r p| ∧ 1 / 1000 ≤ |unitDet r p q| ∧
      1 / 1000 ≤ |unitDet p r q| ∧ 1 / 1000 ≤ |unitDet r q p| ∧ 1 / 1000 ≤ |unitDet q p r| := by
  have e1 := unitDet_rotate p q r
  have e2 := unitDet_rotate q r p
  have e3 := unitDet_swap p q r
  have e4 := unitDet_swap q r p
  have e5 := unitDet_swap r p q
  have h' := h.trans (le_abs_self _)
  refine ⟨h', ?_, ?_, ?_, ?_, ?_⟩
  · rw [e1]; exact h'
  · rw [e2, e1]; exact h'
  · rw [e3, abs_neg]; exact h'
  · rw [e5, abs_neg, e2, e1]; exact h'
  · rw [e4, abs_neg, e1]; exact h'

theorem nonDegenerate_of {p q r : BrushPlane ℝ} (h : 1 / 1000 ≤ unitDet p q r) :
    NonDegenerate p ∧ NonDegenerate q ∧ NonDegenerate r := by
  refine ⟨?_, ?_, ?_⟩ <;>
  · intro e
    unfold unitDet at h
    rw [e] at h
    simp [detR, dotR, crossR, zeroR] at h
    linarith

/-- A claim about three of four faces in all orders. -/
theorem three_of_four {α : Type} {G : α → α → α → Prop} {x0 x1 x2 x3 : α} (hs : ∀ x y, G x x y ∧ G x y x ∧ G y x x)
    (ha : G x0 x1 x2 ∧ G x1 x2 x0 ∧ G x2 x0 x1 ∧ G x0 x2 x1 ∧ G x2 x1 x0 ∧ G x1 x0 x2)
    (hb : G x0 x3 x1 ∧ G x3 x1 x0 ∧ G x1 x0 x3 ∧ G x0 x1 x3 ∧ G x1 x3 x0 ∧ G x3 x0 x1)
    (hc : G x0 x2 x3 ∧ G x2 x3 x0 ∧ G x3 x0 x2 ∧ G x0 x3 x2 ∧ G x3 x2 x0 ∧ G x2 x0 x3)
    (hd : G x1 x3 x2 ∧ G x3 x2 x1 ∧ G x2 x1 x3 ∧ G x1 x2 x3 ∧ G x2 x3 x1 ∧ G x3 x1 x2) :
    ∀ p ∈ [x0, x1, x2, x3], ∀ q ∈ [x0, x1, x2, x3], ∀ r ∈ [x0, x1, x2, x3], G p q r := by
  have s1 := fun x y => (hs x y).1
  have s2 := fun x y => (hs x y).2.1
  have s3 := fun x y => (hs x y).2.2
  simp only [List.mem_cons, List.not_mem_nil, or_false, forall_eq_or_imp, forall_eq]
  simp only [s1, s2, s3, ha, hb, hc, hd, and_self]

theorem last_le {w x y z D : ℝ} (h : w + x + y + z = -D) (hD : 0 < D) (hw : w = 0) (hx : x = 0) (hy : y = 0) :
    w ≤ 0 ∧ x ≤ 0 ∧ y ≤ 0 ∧ z ≤ 0 := by
  subst hw hx hy
  refine ⟨le_rfl, le_rfl, le_rfl, ?_⟩
  linarith

/-- A point on three of four faces is not in front of any. -/
theorem not_ahead {α : Type} {x0 x1 x2 x3 : α} {f : α → ℝ} {D : ℝ} (hD : 0 < D) (h : f x0 + f x1 + f x2 + f x3 = -D)
    {G : α → α → α → Prop} (hs : ∀ x y, ¬ G x x y ∧ ¬ G x y x ∧ ¬ G y x x) :
    ∀ p ∈ [x0, x1, x2, x3], ∀ q ∈ [x0, x1, x2, x3], ∀ r ∈ [x0, x1, x2, x3], G p q r →
      f p = 0 → f q = 0 → f r = 0 → ∀ s ∈ [x0, x1, x2, x3], f s ≤ 0 := by
  have fin : (f x0 ≤ 0 ∧ f x1 ≤ 0 ∧ f x2 ≤ 0 ∧ f x3 ≤ 0) → ∀ s ∈ [x0, x1, x2, x3], f s ≤ 0 := by
    simp only [List.mem_cons, List.not_mem_nil, or_false, forall_eq_or_imp, forall_eq]
    exact id
  have k012 : f x0 = 0 → f x1 = 0 → f x2 = 0 → ∀ s ∈ [x0, x1, x2, x3], f s ≤ 0 := fun a b c => fin (last_le h hD a b c)
  have k031 : f x0 = 0 → f x3 = 0 → f x1 = 0 → ∀ s ∈ [x0, x1, x2, x3], f s ≤ 0 := fun a b c => fin (by
    obtain ⟨h1, h2, h3, h4⟩ := last_le (w := f x0) (x := f x3) (y := f x1) (z := f x2) (by linarith) hD a b c
    exact ⟨h1, h3, h4, h2⟩)
  have k023 : f x0 = 0 → f x2 = 0 → f x3 = 0 → ∀ s ∈ [x0, x1, x2, x3], f s ≤ 0 := fun a b c => fin (by
    obtain ⟨h1, h2, h3, h4⟩ := last_le (w := f x0) (x := f x2) (y := f x3) (z := f x1) (by linarith) hD a b c
    exact ⟨h1, h4, h2, h3⟩)
  have k132 : f x1 = 0 → f x3 = 0 → f x2 = 0 → ∀ s ∈ [x0, x1, x2, x3], f s ≤ 0 := fun a b c => fin (by
    obtain ⟨h1, h2, h3, h4⟩ := last_le (w := f x1) (x := f x3) (y := f x2) (z := f x0) (by linarith) hD a b c
    exact ⟨h4, h1, h3, h2⟩)
  exact three_of_four (G := fun p q r => G p q r → f p = 0 → f q = 0 → f r = 0 → ∀ s ∈ [x0, x1, x2, x3], f s ≤ 0)
    (fun x y => ⟨fun g => absurd g (hs x y).1, fun g => absurd g (hs x y).2.1, fun g => absurd g (hs x y).2.2⟩)
    ⟨fun _ a b c => k012 a b c, fun _ a b c => k012 c a b, fun _ a b c => k012 b c a, fun _ a b c => k012 a c b,
      fun _ a b c => k012 c b a, fun _ a b c => k012 b a c⟩
    ⟨fun _ a b c => k031 a b c, fun _ a b c => k031 c a b, fun _ a b c => k031 b c a, fun _ a b c => k031 a c b,
      fun _ a b c => k031 c b a, fun _ a b c => k031 b a c⟩
    ⟨fun _ a b c => k023 a b c, fun _ a b c => k023 c a b, fun _ a b c => k023 b c a, fun _ a b c => k023 a c b,
      fun _ a b c => k023 c b a, fun _ a b c => k023 b a c⟩
    ⟨fun _ a b c => k132 a b c, fun _ a b c => k132 c a b, fun _ a b c => k132 b c a, fun _ a b c => k132 a c b,
      fun _ a b c => k132 c b a, fun _ a b c => k132 b a c⟩

/-- A tetrahedron with faces that are not nearly parallel is a proper brush. -/
theorem tetra_proper [RealText] (h : TetraFaces a b c d p0 p1 p2 p3) (hv : 0 < volume6 a b c d)
    (h012 : 1 / 1000 ≤ unitDet p0 p1 p2) (h031 : 1 / 1000 ≤ unitDet p0 p3 p1) (h023 : 1 / 1000 ≤ unitDet p0 p2 p3)
    (h132 : 1 / 1000 ≤ unitDet p1 p3 p2) : ProperBrush [p0, p1, p2, p3] := by
  have hsum := ahead_sum h
  obtain ⟨a1, a2, a3, a4, a5, a6⟩ := unitDet_orders h012
  obtain ⟨b1, b2, b3, b4, b5, b6⟩ := unitDet_orders h031
  obtain ⟨c1, c2, c3, c4, c5, c6⟩ := unitDet_orders h023
  obtain ⟨d1, d2, d3, d4, d5, d6⟩ := unitDet_orders h132
  refine ⟨?_, ?_, ?_, ?_, ?_⟩
  · intro p hp
    simp only [List.mem_cons, List.not_mem_nil, or_false] at hp
    rcases hp with rfl | rfl | rfl | rfl
    exacts [(nonDegenerate_of h012).1, (nonDegenerate_of h012).2.1, (nonDegenerate_of h012).2.2,
      (nonDegenerate_of h031).2.1]
  · refine three_of_four (fun x y => ⟨.inl (unitDet_same x y).1, .inl (unitDet_same x y).2.1, .inl (unitDet_same x y).2.2⟩)
      ⟨.inr a1, .inr a2, .inr a3, .inr a4, .inr a5, .inr a6⟩ ⟨.inr b1, .inr b2, .inr b3, .inr b4, .inr b5, .inr b6⟩
      ⟨.inr c1, .inr c2, .inr c3, .inr c4, .inr c5, .inr c6⟩ ⟨.inr d1, .inr d2, .inr d3, .inr d4, .inr d5, .inr d6⟩
  · have key : ∀ s x, ahead s x ≤ 0 → WithinR 0 s x := by
      intro s x h
      unfold WithinR
      rw [zero_mul]
      exact h
    exact fun p hp q hq r hr hne x xp xq xr _ s hs => key s x (not_ahead (f := fun s => ahead s x) hv (hsum x)
      (G := fun p q r => unitDet p q r ≠ 0)
      (fun x y => ⟨not_not.2 (unitDet_same x y).1, not_not.2 (unitDet_same x y).2.1, not_not.2 (unitDet_same x y).2.2⟩)
      p hp q hq r hr hne xp xq xr s hs)
  · refine ⟨⟨(a.x + b.x + c.x + d.x) / 4, (a.y + b.y + c.y + d.y) / 4, (a.z + b.z + c.z + d.z) / 4⟩, ?_⟩
    intro p hp
    obtain ⟨⟨e1, e2, e3⟩, ⟨e4, e5, e6⟩, ⟨e7, e8, e9⟩, e10, e11, e12⟩ := h
    have key : dotR (rawNormal p) (subR ⟨(a.x + b.x + c.x + d.x) / 4, (a.y + b.y + c.y + d.y) / 4,
        (a.z + b.z + c.z + d.z) / 4⟩ p.v0) = -volume6 a b c d / 4 := by
      simp only [List.mem_cons, List.not_mem_nil, or_false] at hp
      rcases hp with rfl | rfl | rfl | rfl <;>
      · simp only [rawNormal, e1, e2, e3, e4, e5, e6, e7, e8, e9, e10, e11, e12, volume6, detR, dotR, crossR, subR]
        ring
    rw [key]
    linarith
  · have bound : ∀ x, (∀ p ∈ [p0, p1, p2, p3], WithinR 0 p x) → ∀ k : Axis,
        |k.of x| ≤ |k.of a| + |k.of b| + |k.of c| + |k.of d| := by
      intro x hx k
      have neg : ∀ p ∈ [p0, p1, p2, p3], ahead p x ≤ 0 := by
        intro p hp
        have := hx p hp
        unfold WithinR at this
        rw [zero_mul] at this
        exact this
      have n0 := neg p0 (by simp)
      have n1 := neg p1 (by simp)
      have n2 := neg p2 (by simp)
      have n3 := neg p3 (by simp)
      have hs := hsum x
      have hk := ahead_point h x k
      have term : ∀ f y : ℝ, f ≤ 0 → -volume6 a b c d ≤ f → |f * y| ≤ volume6 a b c d * |y| := by
        intro f y h1 h2
        rw [abs_mul]
        refine mul_le_mul_of_nonneg_right ?_ (abs_nonneg _)
        rw [abs_le]
        constructor <;> linarith
      have t0 := term _ (k.of d) n0 (by linarith)
      have t1 := term _ (k.of c) n1 (by linarith)
      have t2 := term _ (k.of b) n2 (by linarith)
      have t3 := term _ (k.of a) n3 (by linarith)
      have tot : volume6 a b c d * |k.of x| ≤ volume6 a b c d * (|k.of a| + |k.of b| + |k.of c| + |k.of d|) := by
        have e : volume6 a b c d * |k.of x| = |volume6 a b c d * k.of x| := by rw [abs_mul, abs_of_pos hv]
        rw [e, hk, abs_neg]
        have := abs_add_le (ahead p0 x * k.of d + ahead p1 x * k.of c + ahead p2 x * k.of b) (ahead p3 x * k.of a)
        have := abs_add_le (ahead p0 x * k.of d + ahead p1 x * k.of c) (ahead p2 x * k.of b)
        have := abs_add_le (ahead p0 x * k.of d) (ahead p1 x * k.of c)
        linarith
      exact le_of_mul_le_mul_left tot hv
    refine ⟨(|a.x| + |b.x| + |c.x| + |d.x|) + (|a.y| + |b.y| + |c.y| + |d.y|) + (|a.z| + |b.z| + |c.z| + |d.z|), ?_⟩
    intro x hx
    have hX := bound x hx .x
    have hY := bound x hx .y
    have hZ := bound x hx .z
    simp only [Axis.of] at hX hY hZ
    have n : ∀ r : ℝ, 0 ≤ |r| := abs_nonneg
    have := n a.x; have := n b.x; have := n c.x; have := n d.x
    have := n a.y; have := n b.y; have := n c.y; have := n d.y
    have := n a.z; have := n b.z; have := n c.z; have := n d.z
    refine ⟨?_, ?_, ?_⟩ <;> linarith

end
end Quarch
