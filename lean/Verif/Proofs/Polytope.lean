import Verif.Proofs.Real
import Mathlib.Data.Set.Finite.Lattice
import Mathlib.Data.Set.Finite.List
import Mathlib.Tactic.Linarith
import Mathlib.Tactic.Ring
import Mathlib.Tactic.LinearCombination
/-
Convex solids given by planes: sliding to the boundary, corners as optimal points, edges shared by two faces.
-/
namespace Quarch.Poly
open Spec

/-! ### vectors -/

/-- Height above a plane, not normalised. -/
def ht (p : BrushPlane ℝ) (x : V3 ℝ) : ℝ := dotR (rawNormal p) (subR x p.v0)

/-- Inside all planes. -/
def In (planes : List (BrushPlane ℝ)) (x : V3 ℝ) : Prop := ∀ p ∈ planes, ht p x ≤ 0

/-- The point `x + t d`. -/
def go (x : V3 ℝ) (t : ℝ) (d : V3 ℝ) : V3 ℝ := addR x (smulR t d)

theorem ht_go (p : BrushPlane ℝ) (x d : V3 ℝ) (t : ℝ) : ht p (go x t d) = ht p x + t * dotR (rawNormal p) d := by
  simp only [ht, go, dotR, subR, addR, smulR]; ring

theorem dot_go (w x d : V3 ℝ) (t : ℝ) : dotR w (go x t d) = dotR w x + t * dotR w d := by
  simp only [go, dotR, addR, smulR]; ring

theorem go_zero (x d : V3 ℝ) : go x 0 d = x := by
  apply V3.ext' <;> simp [go, addR, smulR]

/-- Bounded by a box. -/
def Bounded (planes : List (BrushPlane ℝ)) : Prop :=
  ∃ R : ℝ, ∀ x, In planes x → |x.x| ≤ R ∧ |x.y| ≤ R ∧ |x.z| ≤ R

theorem some_facing {planes : List (BrushPlane ℝ)} (hb : Bounded planes) {x d : V3 ℝ} (hx : In planes x)
    (hd : d ≠ zeroR) : ∃ g ∈ planes, 0 < dotR (rawNormal g) d := by
  by_contra hn
  have hn : ∀ g ∈ planes, dotR (rawNormal g) d ≤ 0 := fun g hg => not_lt.1 fun h => hn ⟨g, hg, h⟩
  obtain ⟨R, hR⟩ := hb
  have hall : ∀ t : ℝ, 0 ≤ t → In planes (go x t d) := by
    intro t ht p hp
    rw [ht_go]
    have := mul_nonpos_of_nonneg_of_nonpos ht (hn p hp)
    have := hx p hp
    linarith
  have key : ∀ a b : ℝ, b ≠ 0 → (∀ t : ℝ, 0 ≤ t → |a + t * b| ≤ R) → False := by
    intro a b hb0 hab
    have h0 : 0 ≤ R := (abs_nonneg _).trans (hab 0 le_rfl)
    have hbp := abs_pos.2 hb0
    have h1 := hab ((R + |a| + 1) / |b|) (by positivity)
    have h2 : |(R + |a| + 1) / |b| * b| = R + |a| + 1 := by
      rw [abs_mul, abs_div, abs_abs, abs_of_nonneg (by positivity : 0 ≤ R + |a| + 1)]
      field_simp
    have h3 := abs_sub_abs_le_abs_sub ((R + |a| + 1) / |b| * b) (-a)
    rw [h2, abs_neg, sub_neg_eq_add, add_comm _ a] at h3
    linarith
  apply hd
  apply V3.ext'
  · by_contra h0; exact key x.x d.x h0 fun t ht => (hR _ (hall t ht)).1
  · by_contra h0; exact key x.y d.y h0 fun t ht => (hR _ (hall t ht)).2.1
  · by_contra h0; exact key x.z d.z h0 fun t ht => (hR _ (hall t ht)).2.2

/-- From a point inside one can slide in any direction up to a plane that stops the movement. -/
theorem slide {planes : List (BrushPlane ℝ)} (hb : Bounded planes) {x d : V3 ℝ} (hx : In planes x)
    (hd : d ≠ zeroR) : ∃ t, 0 ≤ t ∧ In planes (go x t d) ∧ ∃ g ∈ planes, 0 < dotR (rawNormal g) d ∧
      ht g (go x t d) = 0 := by
  obtain ⟨g0, hg0, hp0⟩ := some_facing hb hx hd
  have hfin : {g | g ∈ planes ∧ 0 < dotR (rawNormal g) d}.Finite :=
    (List.finite_toSet planes).subset fun g hg => hg.1
  obtain ⟨g, ⟨hg, hgp⟩, hmin⟩ := Set.exists_min_image _ (fun g => -ht g x / dotR (rawNormal g) d) hfin ⟨g0, hg0, hp0⟩
  have ht0 : 0 ≤ -ht g x / dotR (rawNormal g) d := div_nonneg (by have := hx g hg; linarith) hgp.le
  refine ⟨-ht g x / dotR (rawNormal g) d, ht0, ?_, g, hg, hgp, ?_⟩
  · intro p hp
    rw [ht_go]
    by_cases h0 : 0 < dotR (rawNormal p) d
    · have := hmin p ⟨hp, h0⟩
      have h1 := mul_le_mul_of_nonneg_right this h0.le
      rw [div_mul_cancel₀ _ h0.ne'] at h1
      linarith
    · have := mul_nonpos_of_nonneg_of_nonpos ht0 (not_lt.1 h0)
      have := hx p hp
      linarith
  · rw [ht_go, div_mul_cancel₀ _ hgp.ne']; ring

/-- A corner of the face `f`: a point inside in which `f` meets two other planes, the normals being independent. -/
def Corner (planes : List (BrushPlane ℝ)) (f : BrushPlane ℝ) (x : V3 ℝ) : Prop :=
  In planes x ∧ ht f x = 0 ∧ ∃ p ∈ planes, ∃ q ∈ planes, detR (rawNormal f) (rawNormal p) (rawNormal q) ≠ 0 ∧
    ht p x = 0 ∧ ht q x = 0

theorem dot_zero (a : V3 ℝ) : dotR a zeroR = 0 := by simp [dotR, zeroR]

theorem self_ne {a : V3 ℝ} (h : a ≠ zeroR) : 0 < dotR a a := by
  by_contra hn
  apply h
  simp only [dotR] at hn
  apply V3.ext' <;> simp only [zeroR] <;> apply mul_self_eq_zero.1 <;>
    nlinarith [mul_self_nonneg a.x, mul_self_nonneg a.y, mul_self_nonneg a.z]

theorem perp_exists {n : V3 ℝ} (_ : n ≠ zeroR) : ∃ d, d ≠ zeroR ∧ dotR n d = 0 := by
  by_cases hx : n.x = 0
  · refine ⟨⟨1, 0, 0⟩, by simp [zeroR], by simp [dotR, hx]⟩
  · refine ⟨⟨-n.y, n.x, 0⟩, ?_, by simp only [dotR]; ring⟩
    intro e
    exact hx (congrArg V3.y e)

theorem signed (w : V3 ℝ) {d : V3 ℝ} (hd : d ≠ zeroR) :
    ∃ s : ℝ, (s = 1 ∨ s = -1) ∧ smulR s d ≠ zeroR ∧ 0 ≤ dotR w (smulR s d) := by
  have key : ∀ s : ℝ, s ≠ 0 → smulR s d ≠ zeroR := by
    intro s hs e
    apply hd
    apply V3.ext'
    · have := congrArg V3.x e; simp only [smulR, zeroR] at this; exact (mul_eq_zero.1 this).resolve_left hs
    · have := congrArg V3.y e; simp only [smulR, zeroR] at this; exact (mul_eq_zero.1 this).resolve_left hs
    · have := congrArg V3.z e; simp only [smulR, zeroR] at this; exact (mul_eq_zero.1 this).resolve_left hs
  rcases le_total 0 (dotR w d) with h | h
  · exact ⟨1, .inl rfl, key 1 one_ne_zero, by simpa [dotR, smulR] using h⟩
  · refine ⟨-1, .inr rfl, key (-1) (by norm_num), ?_⟩
    have : dotR w (smulR (-1) d) = -dotR w d := by simp only [dotR, smulR]; ring
    rw [this]; linarith

/-- Linear programming on a face: some corner is at least as far in the direction `w` as any given point. -/
theorem corner_beyond {planes : List (BrushPlane ℝ)} (hb : Bounded planes) {f : BrushPlane ℝ} (hn : NonDegenerate f)
    {x : V3 ℝ} (hx : In planes x) (hf : ht f x = 0) (w : V3 ℝ) : ∃ c, Corner planes f c ∧ dotR w x ≤ dotR w c := by
  obtain ⟨d, hd, hperp⟩ := perp_exists hn
  obtain ⟨s, hs, hd1, hw1⟩ := signed w hd
  have hp1 : dotR (rawNormal f) (smulR s d) = 0 := by
    have : dotR (rawNormal f) (smulR s d) = s * dotR (rawNormal f) d := by simp only [dotR, smulR]; ring
    rw [this, hperp, mul_zero]
  generalize smulR s d = d1 at *
  obtain ⟨t1, ht1, hin1, g1, hg1, hgp1, hon1⟩ := slide hb hx hd1
  have hf1 : ht f (go x t1 d1) = 0 := by rw [ht_go, hf, hp1]; ring
  have hw1' : dotR w x ≤ dotR w (go x t1 d1) := by
    rw [dot_go]; have := mul_nonneg ht1 hw1; linarith
  generalize go x t1 d1 = x1 at *
  have hc : crossR (rawNormal f) (rawNormal g1) ≠ zeroR := by
    intro e
    have h1 : dotR (rawNormal f) (rawNormal f) * dotR (rawNormal g1) d1 =
        dotR (rawNormal f) (rawNormal g1) * dotR (rawNormal f) d1 +
          dotR (crossR (crossR (rawNormal f) (rawNormal g1)) (rawNormal f)) d1 := by
      simp only [dotR, crossR]; ring
    have h2 : crossR zeroR (rawNormal f) = zeroR := by apply V3.ext' <;> simp [crossR, zeroR]
    rw [e, h2, hp1] at h1
    have h3 : dotR zeroR d1 = 0 := by simp [dotR, zeroR]
    rw [h3, mul_zero, add_zero] at h1
    have := mul_pos (self_ne hn) hgp1
    linarith
  obtain ⟨s2, hs2, hd2, hw2⟩ := signed w hc
  obtain ⟨t2, ht2, hin2, g2, hg2, hgp2, hon2⟩ := slide hb hin1 hd2
  have e1 : dotR (rawNormal f) (smulR s2 (crossR (rawNormal f) (rawNormal g1))) = 0 := by
    simp only [dotR, smulR, crossR]; ring
  have e2 : dotR (rawNormal g1) (smulR s2 (crossR (rawNormal f) (rawNormal g1))) = 0 := by
    simp only [dotR, smulR, crossR]; ring
  have e3 : dotR (rawNormal g2) (smulR s2 (crossR (rawNormal f) (rawNormal g1))) =
      s2 * detR (rawNormal f) (rawNormal g1) (rawNormal g2) := by
    simp only [detR, dotR, smulR, crossR]; ring
  refine ⟨_, ⟨hin2, ?_, g1, hg1, g2, hg2, ?_, ?_, hon2⟩, ?_⟩
  · rw [ht_go, hf1, e1]; ring
  · intro e; rw [e3, e, mul_zero] at hgp2; exact lt_irrefl _ hgp2
  · rw [ht_go, hon1, e2]; ring
  · rw [dot_go]; have := mul_nonneg ht2 hw2; linarith

/-- A corner of one face is a corner of every face it lies on. -/
theorem corner_of {planes : List (BrushPlane ℝ)} {f g : BrushPlane ℝ} (hf : f ∈ planes) (hg : NonDegenerate g)
    {x : V3 ℝ} (hx : Corner planes f x) (hon : ht g x = 0) : Corner planes g x := by
  obtain ⟨hin, h0, p, hp, q, hq, hd, hp0, hq0⟩ := hx
  refine ⟨hin, hon, ?_⟩
  by_cases h1 : detR (rawNormal g) (rawNormal p) (rawNormal q) = 0
  · by_cases h2 : detR (rawNormal g) (rawNormal q) (rawNormal f) = 0
    · by_cases h3 : detR (rawNormal g) (rawNormal f) (rawNormal p) = 0
      · exfalso
        apply hg
        have key : smulR (detR (rawNormal f) (rawNormal p) (rawNormal q)) (rawNormal g) =
            addR (addR (smulR (detR (rawNormal g) (rawNormal p) (rawNormal q)) (rawNormal f))
              (smulR (detR (rawNormal g) (rawNormal q) (rawNormal f)) (rawNormal p)))
              (smulR (detR (rawNormal g) (rawNormal f) (rawNormal p)) (rawNormal q)) := by
          apply V3.ext' <;> simp only [smulR, addR, detR, dotR, crossR] <;> ring
        rw [h1, h2, h3] at key
        apply V3.ext'
        · have := congrArg V3.x key; simp only [smulR, addR, zeroR, zero_mul, add_zero] at this ⊢
          exact (mul_eq_zero.1 this).resolve_left hd
        · have := congrArg V3.y key; simp only [smulR, addR, zeroR, zero_mul, add_zero] at this ⊢
          exact (mul_eq_zero.1 this).resolve_left hd
        · have := congrArg V3.z key; simp only [smulR, addR, zeroR, zero_mul, add_zero] at this ⊢
          exact (mul_eq_zero.1 this).resolve_left hd
      · exact ⟨f, hf, p, hp, h3, h0, hp0⟩
    · exact ⟨q, hq, f, hf, h2, hq0, h0⟩
  · exact ⟨p, hp, q, hq, h1, hp0, hq0⟩

/-- Twice the signed area, as in `turn`. -/
def tri (n a b c : V3 ℝ) : ℝ := dotR (crossR (subR b a) (subR c a)) n

/-- An edge of the face `f`: two different corners with all corners of the face on one side, not all on the line. -/
structure Edge (planes : List (BrushPlane ℝ)) (f : BrushPlane ℝ) (v w : V3 ℝ) : Prop where
  left : Corner planes f v
  right : Corner planes f w
  ne : v ≠ w
  side : ∀ c, Corner planes f c → tri (rawNormal f) v w c ≤ 0
  third : ∃ c, Corner planes f c ∧ tri (rawNormal f) v w c < 0

/-- Two different corners of the face `f` and a third one to the right of the line from one to the other. -/
structure Chord (planes : List (BrushPlane ℝ)) (f : BrushPlane ℝ) (v w : V3 ℝ) : Prop where
  left : Corner planes f v
  right : Corner planes f w
  ne : v ≠ w
  third : ∃ c, Corner planes f c ∧ tri (rawNormal f) v w c < 0

/-- There is a point strictly inside. -/
def Solid (planes : List (BrushPlane ℝ)) : Prop := ∃ y, ∀ p ∈ planes, ht p y < 0

theorem ht_sub (p : BrushPlane ℝ) (x y : V3 ℝ) : dotR (rawNormal p) (subR x y) = ht p x - ht p y := by
  simp only [ht, dotR, subR]; ring

/-- Two directions perpendicular to `u` have their cross product along `u`. -/
theorem cross_along {n p u : V3 ℝ} (hn : dotR n u = 0) (hp : dotR p u = 0) :
    smulR (dotR u u) (crossR n p) = smulR (dotR u (crossR n p)) u := by
  simp only [dotR] at hn hp
  apply V3.ext' <;> simp only [smulR, dotR, crossR]
  · linear_combination (u.y * p.z - u.z * p.y) * hn - (u.y * n.z - u.z * n.y) * hp
  · linear_combination (u.z * p.x - u.x * p.z) * hn - (u.z * n.x - u.x * n.z) * hp
  · linear_combination (u.x * p.y - u.y * p.x) * hn - (u.x * n.y - u.y * n.x) * hp

/-- A direction perpendicular to `u` in terms of `n` and `n × u`. -/
theorem through {n p u : V3 ℝ} (hn : dotR n u = 0) (hp : dotR p u = 0) (z : V3 ℝ) :
    dotR n n * dotR u u * dotR p z =
      dotR p n * dotR n z * dotR u u + dotR p (crossR n u) * dotR z (crossR n u) := by
  have h1 : dotR n n * dotR p z = dotR p n * dotR n z + dotR (crossR n p) (crossR n z) := by
    simp only [dotR, crossR]; ring
  have h2 : dotR u u * dotR (crossR n p) (crossR n z) = dotR p (crossR n u) * dotR z (crossR n u) := by
    have e : dotR u u * dotR (crossR n p) (crossR n z) = dotR (smulR (dotR u u) (crossR n p)) (crossR n z) := by
      simp only [dotR, smulR]; ring
    rw [e, cross_along hn hp]
    simp only [dotR, smulR, crossR]; ring
  linear_combination dotR u u * h1 + h2

/-- Every edge of a face is, in the opposite direction, an edge of another face. -/
theorem edge_shared {planes : List (BrushPlane ℝ)} (hb : Bounded planes) (hsol : Solid planes)
    (hnd : ∀ p ∈ planes, NonDegenerate p) {f : BrushPlane ℝ} (hf : f ∈ planes) {v w : V3 ℝ} (he : Edge planes f v w) :
    ∃ g ∈ planes, crossR (rawNormal f) (rawNormal g) ≠ zeroR ∧ Edge planes g w v := by
  obtain ⟨hv, hw, hne, hside, c0, hc0, hlt0⟩ := he
  have hn := hnd f hf
  obtain ⟨u, hu⟩ : ∃ u, u = subR w v := ⟨_, rfl⟩
  obtain ⟨k, hk⟩ : ∃ k, k = crossR (rawNormal f) u := ⟨_, rfl⟩
  have hu0 : u ≠ zeroR := by
    rintro rfl
    apply hne
    rw [eq_comm] at hu
    apply V3.ext'
    · have := congrArg V3.x hu; simp only [subR, zeroR] at this; linarith
    · have := congrArg V3.y hu; simp only [subR, zeroR] at this; linarith
    · have := congrArg V3.z hu; simp only [subR, zeroR] at this; linarith
  have hnu : dotR (rawNormal f) u = 0 := by rw [hu, ht_sub, hv.2.1, hw.2.1, sub_self]
  have hkk : 0 < dotR k k := by
    have : dotR k k = dotR (rawNormal f) (rawNormal f) * dotR u u - dotR (rawNormal f) u * dotR (rawNormal f) u := by
      rw [hk]; simp only [dotR, crossR]; ring
    rw [this, hnu]
    have := mul_pos (self_ne hn) (self_ne hu0)
    linarith
  have hk0 : k ≠ zeroR := by
    intro e; rw [e, dot_zero] at hkk; exact lt_irrefl _ hkk
  have hnk : dotR (rawNormal f) k = 0 := by rw [hk]; simp only [dotR, crossR]; ring
  have hku : dotR k u = 0 := by rw [hk]; simp only [dotR, crossR]; ring
  have htri : ∀ c, tri (rawNormal f) v w c = dotR k c - dotR k v := by
    intro c; rw [hk, hu]; simp only [tri, dotR, crossR, subR]; ring
  have hkw : dotR k w = dotR k v := by
    have : dotR k u = dotR k w - dotR k v := by rw [hu]; simp only [dotR, subR]; ring
    linarith
  -- the midpoint
  obtain ⟨m, hm⟩ : ∃ m, m = go v (1 / 2) u := ⟨_, rfl⟩
  have hmp : ∀ p : BrushPlane ℝ, ht p m = (ht p v + ht p w) / 2 := by
    intro p
    rw [hm, ht_go, hu, ht_sub]; ring
  have hmin : In planes m := by
    intro p hp
    rw [hmp]
    have := hv.1 p hp; have := hw.1 p hp
    linarith
  have hmf : ht f m = 0 := by rw [hmp, hv.2.1, hw.2.1]; ring
  have hkm : dotR k m = dotR k v := by rw [hm, dot_go, hku]; ring
  have tight : ∀ p ∈ planes, ht p m = 0 → ht p v = 0 ∧ ht p w = 0 := by
    intro p hp h0
    rw [hmp] at h0
    have := hv.1 p hp; have := hw.1 p hp
    constructor <;> linarith
  -- some plane stops the movement outwards at the midpoint itself
  have hex : ∃ g ∈ planes, 0 < dotR (rawNormal g) k ∧ ht g m = 0 := by
    obtain ⟨t, ht0, hin, g, hg, hgk, hon⟩ := slide hb hmin hk0
    rcases ht0.lt_or_eq with hpos | hz
    · exfalso
      have hfx : ht f (go m t k) = 0 := by rw [ht_go, hmf, hnk]; ring
      obtain ⟨c, hc, hle⟩ := corner_beyond hb hn hin hfx k
      have h1 := hside c hc
      rw [htri] at h1
      rw [dot_go, hkm] at hle
      have := mul_pos hpos hkk
      linarith
    · rw [← hz, go_zero] at hon
      exact ⟨g, hg, hgk, hon⟩
  -- the one that leans inwards most
  have hfin : {g | g ∈ planes ∧ 0 < dotR (rawNormal g) k ∧ ht g m = 0}.Finite :=
    (List.finite_toSet planes).subset fun g hg => hg.1
  obtain ⟨g0, hg0⟩ := hex
  obtain ⟨g, ⟨hg, hgk, hgm⟩, hleast⟩ := Set.exists_min_image _
    (fun g => dotR (rawNormal g) (rawNormal f) / dotR (rawNormal g) k) hfin ⟨g0, hg0⟩
  obtain ⟨hgv, hgw⟩ := tight g hg hgm
  have hgn := hnd g hg
  obtain ⟨s, hs⟩ : ∃ s, s = dotR (rawNormal g) (rawNormal f) / dotR (rawNormal g) k := ⟨_, rfl⟩
  have hgu : dotR (rawNormal g) u = 0 := by rw [hu, ht_sub, hgv, hgw, sub_self]
  have hcross : crossR (rawNormal f) (rawNormal g) ≠ zeroR := by
    intro e
    have : dotR (rawNormal g) k = -dotR (crossR (rawNormal f) (rawNormal g)) u := by
      rw [hk]; simp only [dotR, crossR]; ring
    rw [e] at this
    have h0 : dotR zeroR u = 0 := by simp [dotR, zeroR]
    rw [h0] at this
    linarith
  have huu := self_ne hu0
  have hff := self_ne hn
  -- no plane through the edge leans the other way
  have hnonneg : ∀ p ∈ planes, ht p m = 0 → 0 ≤ dotR (rawNormal p) k := by
    intro p hp h0
    by_contra hlt
    rw [not_le] at hlt
    obtain ⟨hpv, hpw⟩ := tight p hp h0
    have hpu : dotR (rawNormal p) u = 0 := by rw [hu, ht_sub, hpv, hpw, sub_self]
    have h1 := through hnu hpu (subR c0 v)
    rw [← hk, ht_sub, ht_sub, hc0.2.1, hv.2.1, hpv] at h1
    have h2 : dotR (subR c0 v) k = tri (rawNormal f) v w c0 := by
      rw [htri]; simp only [dotR, subR]; ring
    rw [h2] at h1
    have h3 := mul_pos_of_neg_of_neg hlt hlt0
    have h4 := mul_nonpos_of_nonneg_of_nonpos (mul_pos hff huu).le (hc0.1 p hp)
    rw [sub_zero, sub_zero, mul_zero, zero_mul, zero_add] at h1
    linarith
  -- the direction into the face `g`
  obtain ⟨d, hd⟩ : ∃ d, d = subR (smulR s k) (rawNormal f) := ⟨_, rfl⟩
  have hpd : ∀ p : BrushPlane ℝ, dotR (rawNormal p) d = s * dotR (rawNormal p) k - dotR (rawNormal p) (rawNormal f) := by
    intro p; rw [hd]; simp only [dotR, subR, smulR]; ring
  have hfd : dotR (rawNormal f) d = -dotR (rawNormal f) (rawNormal f) := by rw [hpd, hnk]; ring
  have hd0 : d ≠ zeroR := by
    intro e; rw [e, dot_zero] at hfd; linarith
  have hgd : dotR (rawNormal g) d = 0 := by
    rw [hpd, hs, div_mul_cancel₀ _ hgk.ne', sub_self]
  have hdown : ∀ p ∈ planes, ht p m = 0 → dotR (rawNormal p) d ≤ 0 := by
    intro p hp h0
    rcases (hnonneg p hp h0).lt_or_eq with hpos | hz
    · have h1 := hleast p ⟨hp, hpos, h0⟩
      simp only [← hs] at h1
      have h2 := mul_le_mul_of_nonneg_right h1 hpos.le
      rw [div_mul_cancel₀ _ hpos.ne'] at h2
      rw [hpd]; linarith
    · obtain ⟨hpv, hpw⟩ := tight p hp h0
      have hpu : dotR (rawNormal p) u = 0 := by rw [hu, ht_sub, hpv, hpw, sub_self]
      obtain ⟨y, hy⟩ := hsol
      have h1 := through hnu hpu (subR y m)
      rw [← hk, ht_sub, ht_sub, hmf, h0, ← hz] at h1
      rw [hpd, ← hz]
      have hy1 := hy p hp
      have hy2 := hy f hf
      by_contra hneg
      have h2 : dotR (rawNormal p) (rawNormal f) < 0 := by linarith
      have h3 := mul_pos (mul_pos_of_neg_of_neg h2 hy2) huu
      have h4 := mul_neg_of_pos_of_neg (mul_pos hff huu) hy1
      rw [sub_zero, sub_zero, zero_mul, add_zero] at h1
      linarith
  -- a corner of `g` off the edge
  have hthird : ∃ c, Corner planes g c ∧ ht f c < 0 := by
    obtain ⟨t, ht0, hin, g', hg', hgp', hon'⟩ := slide hb hmin hd0
    have htpos : 0 < t := by
      rcases ht0.lt_or_eq with h | h
      · exact h
      · rw [← h, go_zero] at hon'
        have := hdown g' hg' hon'
        linarith
    have hgx : ht g (go m t d) = 0 := by rw [ht_go, hgm, hgd]; ring
    have hfx : ht f (go m t d) < 0 := by
      rw [ht_go, hmf, hfd]
      have := mul_pos htpos hff
      linarith
    obtain ⟨c, hc, hle⟩ := corner_beyond hb hgn hin hgx (smulR (-1) (rawNormal f))
    refine ⟨c, hc, ?_⟩
    have e : ∀ z, dotR (smulR (-1) (rawNormal f)) z = -ht f z - dotR (rawNormal f) f.v0 := by
      intro z; simp only [ht, dotR, smulR, subR]; ring
    rw [e, e] at hle
    linarith
  -- which side corners of `g` are on
  have hswap : dotR (rawNormal f) (crossR (rawNormal g) u) = -dotR (rawNormal g) k := by
    rw [hk]; simp only [dotR, crossR]; ring
  have hgg := self_ne hgn
  have hturn : ∀ c, Corner planes g c → tri (rawNormal g) w v c * dotR (rawNormal g) k =
      dotR (rawNormal g) (rawNormal g) * dotR u u * ht f c := by
    intro c hc
    have h1 := through hgu hnu (subR c w)
    rw [hswap, ht_sub, ht_sub, hc.2.1, hgw, hw.2.1] at h1
    have h2 : tri (rawNormal g) w v c = -dotR (subR c w) (crossR (rawNormal g) u) := by
      rw [hu]; simp only [tri, dotR, crossR, subR]; ring
    rw [h2]
    linear_combination -h1
  refine ⟨g, hg, hcross, corner_of hf hgn hw hgw, corner_of hf hgn hv hgv, hne.symm, ?_, ?_⟩
  · intro c hc
    have h1 := hturn c hc
    have h2 := mul_nonpos_of_nonneg_of_nonpos (mul_pos hgg huu).le (hc.1 f hf)
    by_contra h3
    have := mul_pos (not_le.1 h3) hgk
    linarith
  · obtain ⟨c, hc, hlt⟩ := hthird
    refine ⟨c, hc, ?_⟩
    have h1 := hturn c hc
    have h2 := mul_neg_of_pos_of_neg (mul_pos hgg huu) hlt
    by_contra h3
    have := mul_nonneg (not_lt.1 h3) hgk.le
    linarith

/-- Two faces with a common chord in the same direction lie in the same plane and look the same way. -/
theorem chord_once {planes : List (BrushPlane ℝ)} (hsol : Solid planes) (hnd : ∀ p ∈ planes, NonDegenerate p)
    {f g : BrushPlane ℝ} (hf : f ∈ planes) (hg : g ∈ planes) {v w : V3 ℝ} (he : Chord planes f v w)
    (he' : Chord planes g v w) :
    (∀ x, ht f x = 0 ↔ ht g x = 0) ∧ ∀ x, ht f x < 0 ↔ ht g x < 0 := by
  obtain ⟨u, hu⟩ : ∃ u, u = subR w v := ⟨_, rfl⟩
  have hu0 : u ≠ zeroR := by
    rintro rfl
    apply he.ne
    rw [eq_comm] at hu
    apply V3.ext'
    · have := congrArg V3.x hu; simp only [subR, zeroR] at this; linarith
    · have := congrArg V3.y hu; simp only [subR, zeroR] at this; linarith
    · have := congrArg V3.z hu; simp only [subR, zeroR] at this; linarith
  have huu := self_ne hu0
  have key : ∀ f g : BrushPlane ℝ, g ∈ planes → NonDegenerate f → Chord planes f v w → ht g v = 0 → ht g w = 0 →
      0 ≤ dotR (rawNormal g) (crossR (rawNormal f) u) := by
    intro f g hg hn he hgv hgw
    obtain ⟨c, hc, hlt⟩ := he.third
    have hnu : dotR (rawNormal f) u = 0 := by rw [hu, ht_sub, he.left.2.1, he.right.2.1, sub_self]
    have hgu : dotR (rawNormal g) u = 0 := by rw [hu, ht_sub, hgv, hgw, sub_self]
    have h1 := through hnu hgu (subR c v)
    rw [ht_sub, ht_sub, hc.2.1, he.left.2.1, hgv] at h1
    have h2 : dotR (subR c v) (crossR (rawNormal f) u) = tri (rawNormal f) v w c := by
      rw [hu]; simp only [tri, dotR, crossR, subR]; ring
    rw [h2, sub_zero, sub_zero, mul_zero, zero_mul, zero_add] at h1
    have h4 := mul_nonpos_of_nonneg_of_nonpos (mul_pos (self_ne hn) huu).le (hc.1 g hg)
    by_contra hneg
    have := mul_pos_of_neg_of_neg (not_le.1 hneg) hlt
    linarith
  have k1 := key f g hg (hnd f hf) he he'.left.2.1 he'.right.2.1
  have k2 := key g f hf (hnd g hg) he' he.left.2.1 he.right.2.1
  have hsw : dotR (rawNormal f) (crossR (rawNormal g) u) = -dotR (rawNormal g) (crossR (rawNormal f) u) := by
    simp only [dotR, crossR]; ring
  have hz : dotR (rawNormal g) (crossR (rawNormal f) u) = 0 := by linarith
  have hnu : dotR (rawNormal f) u = 0 := by rw [hu, ht_sub, he.left.2.1, he.right.2.1, sub_self]
  have hgu : dotR (rawNormal g) u = 0 := by rw [hu, ht_sub, he'.left.2.1, he'.right.2.1, sub_self]
  have hrel : ∀ x, dotR (rawNormal f) (rawNormal f) * ht g x = dotR (rawNormal g) (rawNormal f) * ht f x := by
    intro x
    have h1 := through hnu hgu (subR x v)
    rw [ht_sub, ht_sub, he.left.2.1, he'.left.2.1, hz, sub_zero, sub_zero, zero_mul, add_zero] at h1
    exact mul_left_cancel₀ huu.ne' (by linarith)
  have hff := self_ne (hnd f hf)
  obtain ⟨y, hy⟩ := hsol
  have hgf : 0 < dotR (rawNormal g) (rawNormal f) := by
    by_contra hneg
    have h1 := hrel y
    have h2 := mul_nonneg_of_nonpos_of_nonpos (not_lt.1 hneg) (hy f hf).le
    have h3 := mul_neg_of_pos_of_neg hff (hy g hg)
    linarith
  constructor
  · intro x
    have h1 := hrel x
    constructor
    · intro h; rw [h, mul_zero] at h1; exact (mul_eq_zero.1 h1).resolve_left hff.ne'
    · intro h; rw [h, mul_zero] at h1; exact (mul_eq_zero.1 h1.symm).resolve_left hgf.ne'
  · intro x
    have h1 := hrel x
    constructor
    · intro h
      by_contra h2
      have := mul_nonneg hff.le (not_lt.1 h2)
      have := mul_neg_of_pos_of_neg hgf h
      linarith
    · intro h
      by_contra h2
      have := mul_nonneg hgf.le (not_lt.1 h2)
      have := mul_neg_of_pos_of_neg hff h
      linarith

end Quarch.Poly
