import Verif.Proofs.Polytope
/-
Points in triangles, fans that fill a convex polygon, and faces without area.
-/
namespace Quarch
namespace Spec

/-- `x` is in the triangle, the border included. -/
def InTriangle (a b c x : V3 ℝ) : Prop :=
  ∃ r s t : ℝ, 0 ≤ r ∧ 0 ≤ s ∧ 0 ≤ t ∧ r + s + t = 1 ∧ x = addR (smulR r a) (addR (smulR s b) (smulR t c))

/-- `x` is in the triangle but not on its border. -/
def InsideTriangle (a b c x : V3 ℝ) : Prop :=
  ∃ r s t : ℝ, 0 < r ∧ 0 < s ∧ 0 < t ∧ r + s + t = 1 ∧ x = addR (smulR r a) (addR (smulR s b) (smulR t c))

end Spec

namespace Poly
open Spec

/-- The signed areas of the triangles a point makes with the sides add up. -/
theorem tri_sum (n a b c x : V3 ℝ) : tri n b c x + tri n c a x + tri n a b x = tri n a b c := by
  simp only [tri, dotR, crossR, subR]; ring

theorem tri_comb (n a b p q : V3 ℝ) {r s t : ℝ} (h : r + s + t = 1) :
    tri n a b (addR (smulR r a) (addR (smulR s p) (smulR t q))) = s * tri n a b p + t * tri n a b q := by
  have e : r = 1 - s - t := by linarith
  subst e
  simp only [tri, dotR, crossR, subR, addR, smulR]; ring

/-- A point of the plane of a triangle in terms of its corners. -/
theorem barycentric {n a b c x : V3 ℝ} (hn : n ≠ zeroR) (hb : dotR n (subR b a) = 0) (hc : dotR n (subR c a) = 0)
    (hx : dotR n (subR x a) = 0) (hA : tri n a b c ≠ 0) :
    x = addR (smulR (tri n b c x / tri n a b c) a)
      (addR (smulR (tri n c a x / tri n a b c) b) (smulR (tri n a b x / tri n a b c) c)) := by
  -- the three differences lie in a plane
  have hdet : dotR (crossR (subR b a) (subR c a)) (subR x a) = 0 := by
    have h1 : dotR n n * dotR (crossR (subR b a) (subR c a)) (subR x a) =
        dotR n (subR x a) * dotR (crossR (subR b a) (subR c a)) n -
        dotR n (subR b a) * dotR (crossR (subR x a) (subR c a)) n -
        dotR n (subR c a) * dotR (crossR (subR b a) (subR x a)) n := by
      simp only [dotR, crossR, subR]; ring
    rw [hb, hc, hx] at h1
    have := (self_ne hn).ne'
    have h2 : dotR n n * dotR (crossR (subR b a) (subR c a)) (subR x a) = 0 := by rw [h1]; ring
    exact (mul_eq_zero.1 h2).resolve_left this
  have key : smulR (tri n a b c) x = addR (smulR (tri n b c x) a)
      (addR (smulR (tri n c a x) b) (smulR (tri n a b x) c)) := by
    apply V3.ext' <;> simp only [smulR, addR, tri, dotR, crossR, subR] at hdet ⊢
    · linear_combination n.x * hdet
    · linear_combination n.y * hdet
    · linear_combination n.z * hdet
  have kx := congrArg V3.x key
  have ky := congrArg V3.y key
  have kz := congrArg V3.z key
  simp only [smulR, addR] at kx ky kz
  apply V3.ext' <;> simp only [smulR, addR] <;> field_simp <;> linarith

/-- A sequence that starts at most zero and ends at least zero passes zero somewhere. -/
theorem passes_zero (f : Nat → ℝ) {m : Nat} (hm : 1 < m) (h1 : f 1 ≤ 0) (h2 : 0 ≤ f m) :
    ∃ i, 1 ≤ i ∧ i < m ∧ f i ≤ 0 ∧ 0 ≤ f (i + 1) := by
  induction m with
  | zero => omega
  | succ m ih =>
    by_cases hm1 : m = 1
    · subst hm1; exact ⟨1, le_rfl, by omega, h1, h2⟩
    · rcases le_total 0 (f m) with h | h
      · obtain ⟨i, a, b, c⟩ := ih (by omega) h
        exact ⟨i, a, by omega, c⟩
      · exact ⟨m, by omega, by omega, h, h2⟩

/-- A point that is inside along the sides of a fan is in one of its triangles. -/
theorem fan_covers {n : V3 ℝ} (hn : n ≠ zeroR) {p : Nat → V3 ℝ} {m : Nat} (hm : 1 < m) {x : V3 ℝ}
    (hon : ∀ i ≤ m, dotR n (subR (p i) (p 0)) = 0) (hx : dotR n (subR x (p 0)) = 0)
    (hturn : ∀ i, 1 ≤ i → i < m → tri n (p 0) (p i) (p (i + 1)) < 0)
    (hside : ∀ i < m, tri n (p i) (p (i + 1)) x ≤ 0) (hlast : tri n (p m) (p 0) x ≤ 0) :
    ∃ i, 1 ≤ i ∧ i < m ∧ InTriangle (p 0) (p i) (p (i + 1)) x := by
  have flip : ∀ i, tri n (p i) (p 0) x = - tri n (p 0) (p i) x := fun i => by
    simp only [tri, dotR, crossR, subR]; ring
  obtain ⟨i, h1, h2, h3, h4⟩ := passes_zero (fun i => tri n (p 0) (p i) x) hm (hside 0 (by omega)) (by
    have := flip m
    show 0 ≤ tri n (p 0) (p m) x
    linarith)
  refine ⟨i, h1, h2, _, _, _, ?_, ?_, ?_, ?_, barycentric hn (hon i (by omega)) (hon (i + 1) (by omega)) hx
    (hturn i h1 h2).ne⟩
  · exact div_nonneg_of_nonpos (hside i h2) (hturn i h1 h2).le
  · refine div_nonneg_of_nonpos ?_ (hturn i h1 h2).le
    have := flip (i + 1)
    linarith
  · exact div_nonneg_of_nonpos h3 (hturn i h1 h2).le
  · rw [← add_div, ← add_div, tri_sum, div_self (hturn i h1 h2).ne]

/-! ### faces without area -/

/-- Three points of the face that are not on a line. -/
def Wide (planes : List (BrushPlane ℝ)) (f : BrushPlane ℝ) : Prop :=
  ∃ a b c, (In planes a ∧ ht f a = 0) ∧ (In planes b ∧ ht f b = 0) ∧ (In planes c ∧ ht f c = 0) ∧
    tri (rawNormal f) a b c ≠ 0

theorem ht_mix (p : BrushPlane ℝ) (t : ℝ) (a b : V3 ℝ) :
    ht p (addR (smulR (1 - t) a) (smulR t b)) = (1 - t) * ht p a + t * ht p b := by
  simp only [ht, dotR, subR, addR, smulR]; ring

/-- There is room around a point strictly inside. -/
theorem room {planes : List (BrushPlane ℝ)} {y : V3 ℝ} (hy : ∀ p ∈ planes, ht p y < 0) (d : V3 ℝ) :
    ∃ e : ℝ, 0 < e ∧ ∀ p ∈ planes, ht p (go y e d) < 0 := by
  induction planes with
  | nil => exact ⟨1, one_pos, by simp⟩
  | cons q l ih =>
    obtain ⟨e, he, h⟩ := ih fun p hp => hy p (by simp [hp])
    -- every smaller step is fine, too
    have hsm : ∀ e', 0 < e' → e' ≤ e → ∀ p ∈ l, ht p (go y e' d) < 0 := by
      intro e' h0 h1 p hp
      have a1 := h p hp
      have a2 := hy p (by simp [hp])
      rw [ht_go] at a1 ⊢
      rcases le_total 0 (dotR (rawNormal p) d) with hs | hs
      · have := mul_le_mul_of_nonneg_right h1 hs
        linarith
      · have := mul_nonpos_of_nonneg_of_nonpos h0.le hs
        linarith
    have hq := hy q (by simp)
    have hk : 0 < |dotR (rawNormal q) d| + 1 := by positivity
    refine ⟨min e (-ht q y / (|dotR (rawNormal q) d| + 1)), lt_min he (div_pos (by linarith) hk), ?_⟩
    intro p hp
    rcases List.mem_cons.1 hp with rfl | hp
    · rw [ht_go]
      have h1 := min_le_right e (-ht p y / (|dotR (rawNormal p) d| + 1))
      have h2 : 0 < min e (-ht p y / (|dotR (rawNormal p) d| + 1)) := lt_min he (div_pos (by linarith) hk)
      generalize min e (-ht p y / (|dotR (rawNormal p) d| + 1)) = e' at *
      have h3 : e' * (|dotR (rawNormal p) d| + 1) ≤ -ht p y := (le_div_iff₀ hk).1 h1
      have h4 : e' * dotR (rawNormal p) d ≤ e' * |dotR (rawNormal p) d| :=
        mul_le_mul_of_nonneg_left (le_abs_self _) h2.le
      linarith
    · exact hsm _ (lt_min he (div_pos (by linarith) hk)) (min_le_left _ _) p hp

/-- A plane whose face has no area can be left out. -/
theorem leave_out {planes : List (BrushPlane ℝ)} {f : BrushPlane ℝ} (hsol : Solid (f :: planes))
    (hn : NonDegenerate f) (hw : ¬ Wide (f :: planes) f) {z : V3 ℝ} (hz : In planes z) : ht f z ≤ 0 := by
  by_contra hz0
  have hz0 : 0 < ht f z := not_le.1 hz0
  obtain ⟨y, hy⟩ := hsol
  have hfy : ht f y < 0 := hy f (by simp)
  -- two directions in the plane
  obtain ⟨d1, hd1, hp1⟩ := perp_exists hn
  have hp2 : dotR (rawNormal f) (crossR (rawNormal f) d1) = 0 := by simp only [dotR, crossR]; ring
  have harea : dotR (crossR d1 (crossR (rawNormal f) d1)) (rawNormal f) ≠ 0 := by
    have e : dotR (crossR d1 (crossR (rawNormal f) d1)) (rawNormal f) =
        dotR (rawNormal f) (rawNormal f) * dotR d1 d1 - dotR (rawNormal f) d1 * dotR (rawNormal f) d1 := by
      simp only [dotR, crossR]; ring
    rw [e, hp1, mul_zero, sub_zero]
    exact (mul_pos (self_ne hn) (self_ne hd1)).ne'
  generalize crossR (rawNormal f) d1 = d2 at *
  obtain ⟨e1, he1, hr1⟩ := room hy d1
  obtain ⟨e2, he2, hr2⟩ := room hy d2
  -- the points where the segments to `z` pass the plane
  have hpass : ∀ y', (∀ p ∈ f :: planes, ht p y' < 0) → ht f y' = ht f y →
      In (f :: planes) (addR (smulR (1 - ht f y / (ht f y - ht f z)) y') (smulR (ht f y / (ht f y - ht f z)) z)) ∧
      ht f (addR (smulR (1 - ht f y / (ht f y - ht f z)) y') (smulR (ht f y / (ht f y - ht f z)) z)) = 0 := by
    intro y' hy' e
    have hne : ht f y - ht f z ≠ 0 := by linarith
    have h0 : ht f (addR (smulR (1 - ht f y / (ht f y - ht f z)) y') (smulR (ht f y / (ht f y - ht f z)) z)) = 0 := by
      rw [ht_mix, e]; field_simp; ring
    refine ⟨?_, h0⟩
    intro p hp
    rcases List.mem_cons.1 hp with rfl | hp
    · exact h0.le
    · rw [ht_mix]
      have a1 := hy' p (by simp [hp])
      have a2 := hz p hp
      have a3 : 0 ≤ ht f y / (ht f y - ht f z) := div_nonneg_of_nonpos hfy.le (by linarith)
      have a4 : 0 ≤ 1 - ht f y / (ht f y - ht f z) := by
        rw [sub_nonneg, div_le_one_of_neg (by linarith)]; linarith
      have := mul_nonpos_of_nonneg_of_nonpos a4 a1.le
      have := mul_nonpos_of_nonneg_of_nonpos a3 a2
      linarith
  have k1 : ht f (go y e1 d1) = ht f y := by rw [ht_go, hp1]; ring
  have k2 : ht f (go y e2 d2) = ht f y := by rw [ht_go, hp2]; ring
  apply hw
  refine ⟨_, _, _, hpass y hy rfl, hpass _ hr1 k1, hpass _ hr2 k2, ?_⟩
  have hne : ht f y - ht f z ≠ 0 := by linarith
  have a4 : 1 - ht f y / (ht f y - ht f z) ≠ 0 := by
    intro h
    have : ht f y / (ht f y - ht f z) = 1 := by linarith
    rw [div_eq_one_iff_eq hne] at this
    linarith
  generalize ht f y / (ht f y - ht f z) = t at *
  have e : tri (rawNormal f) (addR (smulR (1 - t) y) (smulR t z)) (addR (smulR (1 - t) (go y e1 d1)) (smulR t z))
      (addR (smulR (1 - t) (go y e2 d2)) (smulR t z)) =
      (1 - t) * (1 - t) * (e1 * e2) * dotR (crossR d1 d2) (rawNormal f) := by
    simp only [tri, dotR, crossR, subR, addR, smulR, go]; ring
  rw [e]
  exact mul_ne_zero (mul_ne_zero (mul_ne_zero a4 a4) (mul_ne_zero he1.ne' he2.ne')) harea

/-- The planes with wide faces bound the same body. -/
theorem wide_enough {all : List (BrushPlane ℝ)} (hsol : Solid all) (hnd : ∀ p ∈ all, NonDegenerate p) :
    ∀ (l : List (BrushPlane ℝ)), (∀ p ∈ l, p ∈ all) → (∀ p ∈ all, Wide all p → p ∈ l) →
    ∀ z, In l z → In all z := by
  classical
  -- planes are added one by one; each has either a wide face or can be left out
  have key : ∀ (rest l : List (BrushPlane ℝ)), (∀ p ∈ l, p ∈ all) → (∀ p ∈ rest, p ∈ all ∧ ¬ Wide all p) →
      (∀ z, In (rest ++ l) z → In all z) → ∀ z, In l z → In all z := by
    intro rest
    induction rest with
    | nil => intro l _ _ h z hz; exact h z (by simpa using hz)
    | cons f rest ih =>
      intro l hl hr h z hz
      refine ih l hl (fun p hp => hr p (by simp [hp])) ?_ z hz
      intro z hz
      apply h
      have hsub : ∀ p ∈ f :: (rest ++ l), p ∈ all := by
        intro p hp
        rcases List.mem_cons.1 hp with rfl | hp
        · exact (hr p (by simp)).1
        · rcases List.mem_append.1 hp with hp | hp
          · exact (hr p (by simp [hp])).1
          · exact hl p hp
      obtain ⟨y, hy⟩ := hsol
      have hs : Solid (f :: (rest ++ l)) := ⟨y, fun p hp => hy p (hsub p hp)⟩
      have hnw : ¬ Wide (f :: (rest ++ l)) f := by
        rintro ⟨a, b, c, ⟨a1, a2⟩, ⟨b1, b2⟩, ⟨c1, c2⟩, hA⟩
        exact (hr f (by simp)).2 ⟨a, b, c, ⟨h a a1, a2⟩, ⟨h b b1, b2⟩, ⟨h c c1, c2⟩, hA⟩
      have := leave_out hs (hnd f (hr f (by simp)).1) hnw hz
      intro p hp
      rcases List.mem_cons.1 hp with rfl | hp
      · exact this
      · exact hz p hp
  intro l hl hw
  refine key (all.filter fun p => ¬ Wide all p) l hl ?_ ?_
  · intro p hp
    obtain ⟨h1, h2⟩ := List.mem_filter.1 hp
    exact ⟨h1, by simpa using h2⟩
  · intro z hz p hp
    by_cases h : Wide all p
    · exact hz p (List.mem_append_right _ (hw p hp h))
    · exact hz p (List.mem_append_left _ (List.mem_filter.2 ⟨hp, by simpa using h⟩))

/-- A point of a face is on a face with area. -/
theorem on_wide {planes : List (BrushPlane ℝ)} (hsol : Solid planes) (hnd : ∀ p ∈ planes, NonDegenerate p)
    {f : BrushPlane ℝ} (hf : f ∈ planes) {x : V3 ℝ} (hx : In planes x) (h0 : ht f x = 0) :
    ∃ g ∈ planes, Wide planes g ∧ ht g x = 0 := by
  classical
  by_contra hc
  have hstrict : ∀ p ∈ planes.filter (fun p => Wide planes p), ht p x < 0 := by
    intro p hp
    obtain ⟨h1, h2⟩ := List.mem_filter.1 hp
    exact lt_of_le_of_ne (hx p h1) fun e => hc ⟨p, h1, by simpa using h2, e⟩
  obtain ⟨e, he, hr⟩ := room hstrict (rawNormal f)
  have hin := wide_enough hsol hnd (planes.filter fun p => Wide planes p) (fun p hp => (List.mem_filter.1 hp).1)
    (fun p hp hw => List.mem_filter.2 ⟨hp, by simpa using hw⟩) _ (fun p hp => (hr p hp).le) f hf
  rw [ht_go, h0] at hin
  have := mul_pos he (self_ne (hnd f hf))
  linarith

/-- A face with area has three corners. -/
theorem wide_corners {planes : List (BrushPlane ℝ)} (hb : Bounded planes) {f : BrushPlane ℝ} (hn : NonDegenerate f)
    (hw : Wide planes f) {pts : List (V3 ℝ)} (hpts : ∀ c, Corner planes f c ↔ c ∈ pts) (hnd : pts.Nodup) :
    3 ≤ pts.length := by
  obtain ⟨a, b, c, ⟨a1, a2⟩, ⟨b1, b2⟩, ⟨c1, c2⟩, hA⟩ := hw
  by_contra hlt
  -- all points of the face are as far as the corners in a direction in which these are equally far
  have hlevel : ∀ (w o : V3 ℝ), (∀ p ∈ pts, dotR w p = dotR w o) → ∀ x, In planes x → ht f x = 0 →
      dotR w x = dotR w o := by
    intro w o hw x hx h0
    obtain ⟨p, hp, h1⟩ := corner_beyond hb hn hx h0 w
    obtain ⟨q, hq, h2⟩ := corner_beyond hb hn hx h0 (smulR (-1) w)
    have e : ∀ v, dotR (smulR (-1) w) v = - dotR w v := fun v => by simp only [dotR, smulR]; ring
    rw [e, e] at h2
    have := hw p ((hpts p).1 hp)
    have := hw q ((hpts q).1 hq)
    linarith
  match pts, hlt, hnd with
  | [], _, _ =>
    obtain ⟨p, hp, _⟩ := corner_beyond hb hn a1 a2 zeroR
    exact absurd ((hpts p).1 hp) (by simp)
  | [o], _, _ =>
    have h : ∀ x, In planes x → ht f x = 0 → x = o := fun x h1 h2 => by
      have hx := hlevel ⟨1, 0, 0⟩ o (by simp) x h1 h2
      have hy := hlevel ⟨0, 1, 0⟩ o (by simp) x h1 h2
      have hz := hlevel ⟨0, 0, 1⟩ o (by simp) x h1 h2
      simp [dotR] at hx hy hz
      exact V3.ext' hx hy hz
    apply hA
    rw [h a a1 a2, h b b1 b2]
    simp only [tri, dotR, crossR, subR]; ring
  | [o, o'], _, hnd =>
    have hne : o ≠ o' := by simpa using hnd
    have hd : subR o' o ≠ zeroR := fun e => hne (by
      simp only [subR, zeroR, V3.mk.injEq, sub_eq_zero] at e
      exact (V3.ext' e.1 e.2.1 e.2.2).symm)
    have hon : dotR (rawNormal f) (subR o' o) = 0 := by
      rw [ht_sub, ((hpts o').2 (by simp)).2.1, ((hpts o).2 (by simp)).2.1]; ring
    -- the direction in the plane across the line through the corners
    have hl := hlevel (crossR (rawNormal f) (subR o' o)) o (by
      intro p hp
      rcases List.mem_pair.1 hp with rfl | rfl
      · rfl
      · simp only [dotR, crossR, subR]; ring)
    apply hA
    have l1 := hl a a1 a2
    have l2 := hl b b1 b2
    have l3 := hl c c1 c2
    have m2 : dotR (rawNormal f) (subR b a) = 0 := by rw [ht_sub, a2, b2]; ring
    have m3 : dotR (rawNormal f) (subR c a) = 0 := by rw [ht_sub, a2, c2]; ring
    have n2 : dotR (crossR (rawNormal f) (subR o' o)) (subR b a) = 0 := by
      have : dotR (crossR (rawNormal f) (subR o' o)) (subR b a) =
        dotR (crossR (rawNormal f) (subR o' o)) b - dotR (crossR (rawNormal f) (subR o' o)) a := by
        simp only [dotR, subR]; ring
      rw [this]; linarith
    have n3 : dotR (crossR (rawNormal f) (subR o' o)) (subR c a) = 0 := by
      have : dotR (crossR (rawNormal f) (subR o' o)) (subR c a) =
        dotR (crossR (rawNormal f) (subR o' o)) c - dotR (crossR (rawNormal f) (subR o' o)) a := by
        simp only [dotR, subR]; ring
      rw [this]; linarith
    unfold tri
    generalize subR b a = u at *
    generalize subR c a = v at *
    generalize subR o' o = d at *
    have hn' : rawNormal f ≠ zeroR := hn
    generalize rawNormal f = n at *
    have h1 : dotR n n * dotR d d * dotR (crossR u v) n = 0 := by
      have e : dotR n n * dotR d d * dotR (crossR u v) n =
          dotR n n * (dotR d u * dotR (crossR n d) v - dotR d v * dotR (crossR n d) u) +
          (dotR n d * (dotR n v * dotR (crossR n d) u - dotR n u * dotR (crossR n d) v) +
            dotR n d * dotR n d * dotR (crossR u v) n +
            0) := by
        simp only [dotR, crossR]; ring
      rw [e, n2, n3, hon]; ring
    exact (mul_eq_zero.1 h1).resolve_left (mul_pos (self_ne hn') (self_ne hd)).ne'
  | _ :: _ :: _ :: _, h, _ => simp at h

end Poly
end Quarch
