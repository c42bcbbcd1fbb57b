import Verif.Spec.Pointed
import Verif.Props.Rendered
/-
C125: a map of brushes with corners where many faces meet is drawn right up to 1/2000 of a unit in single precision.
-/
set_option linter.unusedSectionVars false
namespace Quarch
open Quarch.Spec Quarch.Spec.F32 Quarch.Geo Scene

/-! ### repeated corners -/

/-- A point that sticks out from the others, and is not repeated too often, sticks out from their mean. -/
theorem mean_gap_many {l : List (V3 ℝ)} {x w : V3 ℝ} {k : Nat} (hk : ∀ s : List (V3 ℝ), s.Sublist l → (∀ y ∈ s, y = x) → s.length ≤ k)
    (h2 : ∃ a b, a ∈ l ∧ b ∈ l ∧ a ≠ x ∧ b ≠ x ∧ a ≠ b)
    (h : ∀ y ∈ l, y ≠ x → dotR w y + ((k : ℝ) + 3) / 128 ≤ dotR w x) :
    dotR w (smulR (1 / l.length) (sumR l)) + 1 / 64 ≤ dotR w x := by
  classical
  have e1 : dotR w (smulR (1 / l.length) (sumR l)) = 1 / l.length * (l.map (dotR w)).sum := by
    rw [← dotR_sum]; simp only [dotR, smulR]; ring
  obtain ⟨s, hs⟩ : ∃ s, s = l.filter (fun y => decide (y = x)) := ⟨_, rfl⟩
  obtain ⟨t, ht⟩ : ∃ t, t = l.filter (fun y => !decide (y = x)) := ⟨_, rfl⟩
  have pm : (s ++ t).Perm l := by rw [hs, ht]; exact List.filter_append_perm _ _
  have hc : s.length ≤ k := hk s (hs ▸ List.filter_sublist) (fun y hy => by rw [hs] at hy; simpa using (List.mem_filter.1 hy).2)
  have hr : 2 ≤ t.length := by
    obtain ⟨a, b, ha, hb, hax, hbx, hab⟩ := h2
    have hsub : [a, b] ⊆ t := by
      intro y hy
      rw [ht]
      simp only [List.mem_cons, List.not_mem_nil, or_false] at hy
      rcases hy with rfl | rfl
      · exact List.mem_filter.2 ⟨ha, by simpa using hax⟩
      · exact List.mem_filter.2 ⟨hb, by simpa using hbx⟩
    have := (List.subperm_of_subset (by simp [hab] : [a, b].Nodup) hsub).length_le
    simpa using this
  have b1 : (s.map (dotR w)).sum = s.length * dotR w x := by
    have : s.map (dotR w) = s.map fun _ => dotR w x := List.map_congr_left fun y hy => by
      rw [hs] at hy
      have : y = x := by simpa using (List.mem_filter.1 hy).2
      rw [this]
    rw [this]; simp
  have b2 : (t.map (dotR w)).sum ≤ t.length * (dotR w x - ((k : ℝ) + 3) / 128) := by
    have := List.sum_le_card_nsmul (t.map (dotR w)) (dotR w x - ((k : ℝ) + 3) / 128) (by
      intro b hb
      obtain ⟨y, hy, rfl⟩ := List.mem_map.1 hb
      rw [ht] at hy
      have hy' := List.mem_filter.1 hy
      have := h y hy'.1 (by simpa using hy'.2)
      linarith)
    rwa [List.length_map, nsmul_eq_mul] at this
  have hl : (l.length : ℝ) = s.length + t.length := by
    have := pm.length_eq
    rw [List.length_append] at this
    exact_mod_cast this.symm
  have hsum : (l.map (dotR w)).sum = (s.map (dotR w)).sum + (t.map (dotR w)).sum := by
    rw [← (pm.map _).sum_eq, List.map_append, List.sum_append]
  have hr' : (2 : ℝ) ≤ t.length := by exact_mod_cast hr
  have hc' : (s.length : ℝ) ≤ k := by exact_mod_cast hc
  have hc0 : (0 : ℝ) ≤ s.length := by positivity
  rw [e1, hsum, b1, one_div_mul_eq_div]
  have : (s.length * dotR w x + (t.map (dotR w)).sum) / l.length ≤ dotR w x - 1 / 64 := by
    rw [div_le_iff₀ (by linarith), hl]
    nlinarith [mul_nonneg (by linarith : (0 : ℝ) ≤ k) (by linarith : (0 : ℝ) ≤ (t.length : ℝ) - 2)]
  linarith

theorem sharp_apart {m : ℝ} {xs : List (V3 ℝ)} (h : Sharp m xs) {d : ℝ} (hd : 3 * d < m) {x y : V3 ℝ} (hx : x ∈ xs) (hy : y ∈ xs)
    (hc : Close d x y) : x = y := by
  by_contra hne
  obtain ⟨w, hw, ho⟩ := h x hx
  have h1 := ho y hy fun e => hne e.symm
  obtain ⟨c1, c2, c3⟩ := Err.coord_len w
  have hd0 : 0 ≤ d := (abs_nonneg _).trans hc.1
  have e : dotR w x - dotR w y = w.x * (x.x - y.x) + w.y * (x.y - y.y) + w.z * (x.z - y.z) := by
    simp only [dotR]; ring
  have k : ∀ {a b : ℝ}, |a| ≤ lenR w → |b| ≤ d → a * b ≤ d := by
    intro a b ha hb
    calc a * b ≤ |a * b| := le_abs_self _
      _ = |a| * |b| := abs_mul _ _
      _ ≤ 1 * d := mul_le_mul (ha.trans hw) hb (abs_nonneg _) (by norm_num)
      _ = d := one_mul _
  have := k c1 hc.1
  have := k c2 hc.2.1
  have := k c3 hc.2.2
  linarith

open Poly in
/-- A list in which every three different points turn: without the repetitions it is in order, and neighbours in it are
neighbours in the list. -/
theorem turn_repeats {n a : V3 ℝ} {l : List (V3 ℝ)}
    (hT : ∀ (i j k : Nat) (b c d : V3 ℝ), i < j → j < k → (a :: l)[i]? = some b → (a :: l)[j]? = some c →
      (a :: l)[k]? = some d → b ≠ c → b ≠ d → c ≠ d → tri n b c d < 0) :
    ∃ D : List (V3 ℝ), (a :: D).Nodup ∧ (∀ x, x ∈ a :: D ↔ x ∈ a :: l) ∧ Turns n (a :: D) ∧
      ∀ t b c, D[t]? = some b → D[t + 1]? = some c → ∃ i, l[i]? = some b ∧ l[i + 1]? = some c := by
  classical
  obtain ⟨D, hD⟩ : ∃ D, D = (l.filter fun y => !decide (y = a)).dedup := ⟨_, rfl⟩
  have hmem : ∀ x, x ∈ D ↔ x ∈ l ∧ x ≠ a := by
    intro x; rw [hD, List.mem_dedup, List.mem_filter]; simp
  have hnd : (a :: D).Nodup := by
    rw [List.nodup_cons]
    refine ⟨fun h => ((hmem a).1 h).2 rfl, ?_⟩
    rw [hD]; exact List.nodup_dedup _
  have hsub : D.Sublist l := by rw [hD]; exact (List.dedup_sublist _).trans List.filter_sublist
  have hTn : Turns n (a :: D) := by
    obtain ⟨f, hf⟩ := List.sublist_iff_exists_orderEmbedding_getElem?_eq.1 (hsub.cons_cons a)
    intro i j k b c d hij hjk hb hc hd
    have ne : ∀ {i j : Nat} {b c : V3 ℝ}, i < j → (a :: D)[i]? = some b → (a :: D)[j]? = some c → b ≠ c := by
      intro i j b c hij hb hc e
      subst e
      exact absurd ((List.getElem?_inj (List.getElem?_eq_some_iff.1 hb).1 hnd).1 (hb.trans hc.symm)) (by omega)
    exact hT (f i) (f j) (f k) b c d (f.lt_iff_lt.2 hij) (f.lt_iff_lt.2 hjk) (by rw [← hf]; exact hb) (by rw [← hf]; exact hc)
      (by rw [← hf]; exact hd) (ne hij hb hc) (ne (hij.trans hjk) hb hd) (ne hjk hc hd)
  refine ⟨D, hnd, fun x => ?_, hTn, fun t b c hb hc => ?_⟩
  · rw [List.mem_cons, List.mem_cons, hmem]
    by_cases e : x = a <;> simp [e]
  · have hba : b ≠ a := ((hmem b).1 (List.mem_of_getElem? hb)).2
    have hca : c ≠ a := ((hmem c).1 (List.mem_of_getElem? hc)).2
    have hbc : b ≠ c := by
      rintro rfl
      have := (List.getElem?_inj (List.getElem?_eq_some_iff.1 hb).1 (List.nodup_cons.1 hnd).2).1 (hb.trans hc.symm)
      omega
    have swap : ∀ p q r : V3 ℝ, tri n q p r = - tri n p q r := by
      intro p q r; simp only [tri, dotR, crossR, subR]; ring
    have swap' : ∀ p q r : V3 ℝ, tri n p r q = - tri n p q r := by
      intro p q r; simp only [tri, dotR, crossR, subR]; ring
    have key : ∀ m i j : Nat, j - i ≤ m → i < j → l[i]? = some b → l[j]? = some c →
        ∃ i, l[i]? = some b ∧ l[i + 1]? = some c := by
      intro m
      induction m with
      | zero => intro i j h1 h2; omega
      | succ m ih =>
        intro i j h1 h2 hi hj
        by_cases hji : j = i + 1
        · subst hji; exact ⟨i, hi, hj⟩
        · have hl := (List.getElem?_eq_some_iff.1 hj).1
          obtain ⟨d, hd⟩ : ∃ d, l[i + 1]? = some d := ⟨_, List.getElem?_eq_getElem (by omega)⟩
          by_cases hdb : d = b
          · subst hdb; exact ih (i + 1) j (by omega) (by omega) hd hj
          by_cases hdc : d = c
          · subst hdc; exact ⟨i, hi, hd⟩
          exfalso
          have hbdc := hT (i + 1) (i + 2) (j + 1) b d c (by omega) (by omega) (by simpa using hi) (by simpa using hd)
            (by simpa using hj) (Ne.symm hdb) hbc hdc
          by_cases hda : d = a
          · subst hda
            have := hT 0 (i + 1) (j + 1) d b c (by omega) (by omega) (by simp) (by simpa using hi) (by simpa using hj)
              hdb hdc hbc
            rw [swap] at this
            linarith
          · obtain ⟨s, hs⟩ := List.mem_iff_getElem?.1 ((hmem d).2 ⟨List.mem_of_getElem? hd, hda⟩)
            have s1 : s ≠ t := by rintro rfl; rw [hs] at hb; cases hb; exact hdb rfl
            have s2 : s ≠ t + 1 := by rintro rfl; rw [hs] at hc; cases hc; exact hdc rfl
            rcases lt_or_gt_of_ne s1 with h | h
            · have := hTn (s + 1) (t + 1) (t + 2) d b c (by omega) (by omega) (by simpa using hs) (by simpa using hb)
                (by simpa using hc)
              rw [swap] at this
              linarith
            · have := hTn (t + 1) (t + 2) (s + 1) b c d (by omega) (by omega) (by simpa using hb) (by simpa using hc)
                (by simpa using hs)
              rw [swap'] at this
              linarith
    obtain ⟨f, hf⟩ := List.sublist_iff_exists_orderEmbedding_getElem?_eq.1 hsub
    exact key _ (f t) (f (t + 1)) le_rfl (f.lt_iff_lt.2 (by omega)) (by rw [← hf]; exact hb) (by rw [← hf]; exact hc)

section
variable [F32Lib] [Platform] [AccurateAtan2]
open Err

/-- The corners of a built face, each with the true corner it stands for, in order: true corners may be repeated, but every
three different ones turn clockwise, and so do points near them. -/
theorem pointed_outline (textures : TextureInfo) (entity : Entity F32) {planes : List (BrushPlane F32)} {plane : BrushPlane F32}
    {geo : PlaneGeo F32} (h : buildPlane textures entity planes plane = .ok geo) {g : Nat} (hg : g ≤ 20) {R : ℝ} (hR : 1 ≤ R)
    (hR' : R ≤ 64) (hp : ∀ p ∈ planes, NearFace g R p) (hpl : plane ∈ planes) (hn : planes.length ≤ 1024)
    (hc : ClearFace R (planes.map triOf) (triOf plane)) {n : Nat} (hn1 : 1 ≤ n) (xs : List (V3 ℝ))
    (hx : ∀ x, x ∈ xs ↔ TrueCorner R (planes.map triOf) (triOf plane) x) (hl : n * xs.length ≤ 256)
    (hsh : Sharp (((n : ℝ) + 3) / 128) xs) (hfew : ∀ x ∈ xs, FewPairs n planes plane x) :
    ∃ L : List (V3 ℝ), List.Forall₂ (fun v x => Close (1 / 2000) (vec v.pos) x) geo.vertices L ∧ (∀ x, x ∈ L ↔ x ∈ xs) ∧
      ∀ (i j k : Nat) (a b d a' b' d' : V3 ℝ), i < j → j < k → L[i]? = some a → L[j]? = some b → L[k]? = some d →
        a ≠ b → a ≠ d → b ≠ d → Close (1 / 2000) a' a → Close (1 / 2000) b' b → Close (1 / 2000) d' d →
        dotR (crossR (subR b' a') (subR d' a')) (triOf plane).normal < 0 := by
  classical
  have hn1r : (1 : ℝ) ≤ n := by exact_mod_cast hn1
  obtain ⟨pts, rel, hcen, hrel, hpos, hsort, hfound, hdiff, hall⟩ := corners_wound textures entity planes plane geo h
  obtain ⟨hnd, hfin, hw, hlen, hmean⟩ := clear_list hg hR hR' hp hpl hn hc hfound hdiff
  have back : ∀ y ∈ pts, ∃ x, x ∈ xs ∧ Close (7400 * u) (vec y) x ∧ ∃ q : BrushPlane F32 × BrushPlane F32, q.1 ∈ planes ∧
      q.2 ∈ planes ∧ y = meetPoint plane q.1 q.2 ∧ (triOf q.1).above x = 0 ∧ (triOf q.2).above x = 0 ∧
      1 / 2000 < Tri.spread (triOf plane) (triOf q.1) (triOf q.2) := by
    intro y hy
    obtain ⟨x, hxt, -, hc, p1, hp1, p2, hp2, e, h1, h2, h3⟩ := spec_C117_only_true hg hR hR' hp hpl hc (hfound y hy)
    exact ⟨x, (hx x).2 hxt, hc, (p1, p2), hp1, hp2, e, h1, h2, h3⟩
  have : Nonempty (V3 ℝ) := ⟨⟨0, 0, 0⟩⟩
  choose! b hbm hcl pr hpr1 hpr2 hpre hpa1 hpa2 hpsp using back
  have hLb : ∀ x, x ∈ pts.map b ↔ x ∈ xs := by
    intro x
    constructor
    · intro hxm
      obtain ⟨y, hy, rfl⟩ := List.mem_map.1 hxm
      exact hbm y hy
    · intro hxm
      obtain ⟨v, hf, fv, hv⟩ := spec_C116_found hg hR hp hpl ((hx x).1 hxm)
      obtain ⟨y, hy, e⟩ := hall v hf
      have hs : SamePlace y v := e.imp id fun h => eqV3_iff.2 h
      rw [← (samePlace_vec hs fv).2] at hv
      have hcc : Close (14800 * u) (b y) x := by
        have := close_join (close_symm (hcl y hy)) (close_symm hv)
        obtain ⟨k1, k2, k3⟩ := this
        exact ⟨by linarith, by linarith, by linarith⟩
      refine List.mem_map.2 ⟨y, hy, sharp_apart hsh ?_ (hbm y hy) hxm hcc⟩
      unfold u; linarith
  have hmany : ∀ x ∈ xs, ∀ s : List (V3 F32), s.Sublist pts → (∀ y ∈ s, b y = x) → s.length ≤ n := by
    intro x hxm s hs hall
    obtain ⟨prs, hpl', hprs⟩ := hfew x hxm
    have hsub : s ⊆ prs.map fun q => meetPoint plane q.1 q.2 := by
      intro y hy
      have hyp := hs.subset hy
      have e := hall y hy
      refine List.mem_map.2 ⟨pr y hyp, ?_, (hpre y hyp).symm⟩
      exact hprs _ (hpr1 y hyp) _ (hpr2 y hyp) (e ▸ hpa1 y hyp) (e ▸ hpa2 y hyp) (hpsp y hyp)
    have := (List.subperm_of_subset (hnd.sublist hs) hsub).length_le
    rw [List.length_map] at this
    omega
  have hptl : pts.length ≤ 256 := by
    have : ∀ (ys : List (V3 ℝ)), (∀ x ∈ ys, x ∈ xs) → (pts.filter fun y => decide (b y ∈ ys)).length ≤ n * ys.length := by
      intro ys
      induction ys with
      | nil => intro _; simp
      | cons x ys ih =>
        intro hys
        have i1 := ih fun y hy => hys y (by simp [hy])
        have i2 := hmany x (hys x (by simp)) (pts.filter fun y => decide (b y = x)) List.filter_sublist
          (fun y hy => by simpa using (List.mem_filter.1 hy).2)
        have i3 : (pts.filter fun y => decide (b y ∈ x :: ys)).length ≤
            ((pts.filter fun y => decide (b y = x)) ++ (pts.filter fun y => decide (b y ∈ ys))).length := by
          refine (List.subperm_of_subset (hnd.filter _) ?_).length_le
          intro y hy
          obtain ⟨y1, y2⟩ := List.mem_filter.1 hy
          simp only [decide_eq_true_eq, List.mem_cons] at y2
          rw [List.mem_append]
          rcases y2 with y2 | y2
          · exact .inl (List.mem_filter.2 ⟨y1, by simpa using y2⟩)
          · exact .inr (List.mem_filter.2 ⟨y1, by simpa using y2⟩)
        rw [List.length_append] at i3
        rw [List.length_cons, Nat.mul_succ]
        omega
    have h1 := this xs fun _ h => h
    have e : (pts.filter fun y => decide (b y ∈ xs)) = pts := List.filter_eq_self.2 fun y hy => by simpa using hbm y hy
    rw [e] at h1
    omega
  obtain ⟨c, hcdef⟩ : ∃ c, c = geo.center := ⟨_, rfl⟩
  rw [← hcdef] at hcen hrel hpos
  -- the order of the points
  obtain ⟨ps, hx1, hx2⟩ : ∃ ps : List (V3 F32), List.Forall₂ (fun r x => r = V3.sub x c) rel ps ∧ ps.Perm pts := by
    have : List.Forall₂ (fun (r : V3 F32) (x : V3 F32) => r = V3.sub x c) (pts.map fun x => V3.sub x c) pts := by
      rw [List.forall₂_map_left_iff, List.forall₂_same]
      intro _ _; rfl
    exact List.perm_comp_forall₂ hrel this
  have erel : rel = ps.map fun x => V3.sub x c := by
    have : List.Forall₂ (· = ·) rel (ps.map fun x => V3.sub x c) := by
      rw [List.forall₂_map_right_iff]; exact hx1
    exact List.forall₂_eq_eq_eq ▸ this
  have epos : geo.vertices.map (·.pos) = ps.map fun x => recentre c x := by
    rw [hpos, erel, List.map_map]; rfl
  have hm : ∀ x ∈ ps, x ∈ pts := fun x h => hx2.mem_iff.1 h
  have near : ∀ x ∈ pts, Close (1 / 2000) (vec (recentre c x)) (b x) := by
    intro x hxm
    obtain ⟨fc, hcW⟩ := hmean (List.ne_nil_of_mem hxm)
    rw [← hcen] at fc hcW
    have fy := hfin _ hxm
    have wy := hw _ hxm
    have cl := hcl x hxm
    have k : ∀ {a b : F32} {s : ℝ}, isFin a → isFin b → |F32.val a| ≤ 70 → |F32.val b| ≤ 65 → |F32.val b - s| ≤ 7400 * u →
        |F32.val (Arith.add (Arith.sub b a) a) - s| ≤ 1 / 2000 := by
      intro a b s fa fb ha hb hbs
      obtain ⟨f, e⟩ := back_ok (M := 70) (by norm_num) fa fb ha (by linarith)
      have e1 : F32.val (Arith.add (Arith.sub b a) a) - s = (F32.val (Arith.add (Arith.sub b a) a) - F32.val b) +
        (F32.val b - s) := by ring
      rw [e1]
      refine (abs_add_le _ _).trans ?_
      unfold u at *; linarith
    exact ⟨k fc.1 fy.1 hcW.1 wy.1 cl.1, k fc.2.1 fy.2.1 hcW.2.1 wy.2.1 cl.2.1, k fc.2.2 fy.2.2 hcW.2.2 wy.2.2 cl.2.2⟩
  refine ⟨ps.map b, ?_, fun x => by rw [← hLb]; exact (hx2.map b).mem_iff, ?_⟩
  · have h1 : List.Forall₂ (fun (p : V3 F32) (x : V3 ℝ) => Close (1 / 2000) (vec p) x) (geo.vertices.map (·.pos)) (ps.map b) := by
      rw [epos, List.forall₂_map_left_iff, List.forall₂_map_right_iff, List.forall₂_same]
      intro x hxm
      exact near x (hm x hxm)
    rwa [List.forall₂_map_left_iff] at h1
  · intro i j k a' b1 d' a2 b2 d2 hij hjk hi hj hk nab nad nbd na nb nd
    rw [List.getElem?_map] at hi hj hk
    obtain ⟨pi, hi', rfl⟩ := Option.map_eq_some_iff.1 hi
    obtain ⟨pj, hj', rfl⟩ := Option.map_eq_some_iff.1 hj
    obtain ⟨pk, hk', rfl⟩ := Option.map_eq_some_iff.1 hk
    obtain ⟨hi1, rfl⟩ := List.getElem?_eq_some_iff.1 hi'
    obtain ⟨hj1, rfl⟩ := List.getElem?_eq_some_iff.1 hj'
    obtain ⟨hk1, rfl⟩ := List.getElem?_eq_some_iff.1 hk'
    have mi := hm _ (List.getElem_mem hi1)
    have mj := hm _ (List.getElem_mem hj1)
    have mk := hm _ (List.getElem_mem hk1)
    have hne : pts ≠ [] := List.ne_nil_of_mem mi
    obtain ⟨fc, hcW⟩ := hmean hne
    -- every corner has two others
    have htwo : ∀ x : V3 ℝ, ∃ y1 y2, y1 ∈ xs ∧ y2 ∈ xs ∧ y1 ≠ x ∧ y2 ≠ x ∧ y1 ≠ y2 := by
      intro x
      have qi := hbm _ mi
      have qj := hbm _ mj
      have qk := hbm _ mk
      by_cases e1 : b ps[i] = x
      · exact ⟨_, _, qj, qk, fun e => nab (e1.trans e.symm), fun e => nad (e1.trans e.symm), nbd⟩
      · by_cases e2 : b ps[j] = x
        · exact ⟨_, _, qi, qk, e1, fun e => nbd (e2.trans e.symm), nad⟩
        · exact ⟨_, _, qi, qj, e1, e2, nab⟩
    -- the centre
    have hmn : NearMean (24235 * u) (pts.map b) (valV c) := by
      have h1 := mean_near (F := F32) (M := 65) (by norm_num) hlen hne fc hw
      rw [← hcen] at h1
      have h4 := nearMean_shift (l' := pts.map b) (d := 7400 * u) (by simpa using hne) (by
        rw [List.forall₂_map_left_iff, List.forall₂_map_right_iff, List.forall₂_same]
        intro x hxm
        exact hcl x hxm) h1
      refine nearMean_mono ?_ h4
      have : (pts.length : ℝ) ≤ 256 := by exact_mod_cast hptl
      unfold u; linarith
    rw [← hcen] at fc hcW
    have hmg : ∀ x ∈ xs, ∀ w : V3 ℝ, (∀ y ∈ xs, y ≠ x → dotR w y + ((n : ℝ) + 3) / 128 ≤ dotR w x) →
        dotR w (smulR (1 / (pts.map b).length) (sumR (pts.map b))) + 1 / 64 ≤ dotR w x := by
      intro x hxm w hww
      refine mean_gap_many (k := n) ?_ ?_ fun y hy => hww y ((hLb y).1 hy)
      · intro s hs hall
        obtain ⟨s', hs', rfl⟩ := List.sublist_map_iff.1 hs
        rw [List.length_map]
        exact hmany x hxm s' hs' fun y hy => hall _ (List.mem_map_of_mem hy)
      · obtain ⟨y1, y2, h1, h2, h3, h4, h5⟩ := htwo x
        exact ⟨y1, y2, (hLb _).2 h1, (hLb _).2 h2, h3, h4, h5⟩
    -- the frame
    have gd := nearFace_good hg hR hR' (hp plane hpl)
    obtain ⟨U, fU, rU, hU, hnU⟩ := nearFace_axis hg (hp plane hpl)
    obtain ⟨N, hN⟩ : ∃ N, N = unitNormal plane := ⟨_, rfl⟩
    have eN : (triOf plane).normal = N := hN.symm
    rw [eN]
    have gN := gd.near
    have gu := gd.unit
    rw [← hN] at gN gu hnU
    obtain ⟨fV, rV⟩ := cross_rel gd.fin fU gN rU gu hU
    have wU' := unit_within hU
    have wU : Within (135 / 10 * u) (subR (valV (Arith.normalize (V3.sub plane.v1 plane.v0))) U) := by
      have q : ∀ {x y : ℝ}, |x - y| ≤ 51 / 10 * u * |y| + slack → |y| ≤ 1 → |x - y| ≤ 135 / 10 * u := by
        intro x y h1 h2
        unfold slack u at *; linarith
      exact ⟨q rU.1 wU'.1, q rU.2.1 wU'.2.1, q rU.2.2 wU'.2.2⟩
    have hV : dotR (crossR N U) (crossR N U) = 1 := by
      have : dotR (crossR N U) (crossR N U) = dotR N N * dotR U U - dotR N U * dotR N U := by
        simp only [dotR, crossR]; ring
      rw [this, gu, hU, hnU]; ring
    generalize hVd : Arith.cross (faceNormal plane) (Arith.normalize (V3.sub plane.v1 plane.v0)) = va at *
    generalize hUd : Arith.normalize (V3.sub plane.v1 plane.v0) = ua at *
    obtain ⟨V, hVV⟩ : ∃ V, V = crossR N U := ⟨_, rfl⟩
    rw [← hVV] at rV hV
    let z : V3 ℝ → ℂ := fun x => ⟨dotR (subR x (valV c)) U, dotR (subR x (valV c)) V⟩
    let q : V3 F32 → ℂ := fun x => ⟨F32.val (Arith.dot (V3.sub x c) ua), F32.val (Arith.dot (V3.sub x c) va)⟩
    -- computed coordinates
    have hcoord : ∀ y ∈ pts, isFin (Arith.dot (V3.sub y c) ua) ∧ isFin (Arith.dot (V3.sub y c) va) ∧
        ‖q y - z (b y)‖ ≤ 1 / 400 ∧ ‖q y‖ ≤ 480 := by
      intro y hym
      have fy := hfin _ hym
      have wy := hw _ hym
      have cl := hcl y hym
      have dx := ((hx (b y)).1 (hbm y hym)).dist
      obtain ⟨x, hxe⟩ : ∃ x, x = b y := ⟨_, rfl⟩
      rw [← hxe] at cl dx ⊢
      have cx := coord_len x
      have hd : Within 136 (subR x (valV c)) := by
        have k : ∀ {s t : ℝ}, |s| ≤ lenR x → |t| ≤ 70 → |s - t| ≤ 136 := fun h1 h2 => (abs_sub _ _).trans (by linarith)
        exact ⟨k cx.1 hcW.1, k cx.2.1 hcW.2.1, k cx.2.2 hcW.2.2⟩
      have k : ∀ {a b : F32} {s : ℝ}, isFin a → isFin b → |F32.val a| ≤ 70 → |F32.val b| ≤ 65 → |F32.val b - s| ≤ 7400 * u →
          isFin (Arith.sub b a) ∧ |F32.val (Arith.sub b a) - (s - F32.val a)| ≤ 7535 * u := by
        intro a b s fa fb ha hb hbs
        have hab : |F32.val b - F32.val a| ≤ 135 := (abs_sub _ _).trans (by linarith)
        have f1 := Rounding.sub_ok (F := F32) b a fb fa (hab.trans (by rw [large_val]; norm_num))
        have e1 : |F32.val (Arith.sub b a) - (F32.val b - F32.val a)| ≤ u * |F32.val b - F32.val a| :=
          Rounding.sub_val (F := F32) b a f1
        refine ⟨f1, ?_⟩
        have e : F32.val (Arith.sub b a) - (s - F32.val a) = (F32.val (Arith.sub b a) - (F32.val b - F32.val a)) +
          (F32.val b - s) := by ring
        rw [e]
        refine (abs_add_le _ _).trans ?_
        have := mul_le_mul_of_nonneg_left hab u_pos.le
        linarith
      have kx := k fc.1 fy.1 hcW.1 wy.1 cl.1
      have ky := k fc.2.1 fy.2.1 hcW.2.1 wy.2.1 cl.2.1
      have kz := k fc.2.2 fy.2.2 hcW.2.2 wy.2.2 cl.2.2
      have fr : FinV (V3.sub y c) := ⟨kx.1, ky.1, kz.1⟩
      have hr : Within (7535 * u) (subR (valV (V3.sub y c)) (subR x (valV c))) := ⟨kx.2, ky.2, kz.2⟩
      obtain ⟨f1, e1⟩ := along_axis fr fU hr hd hU wU
      obtain ⟨f2, e2⟩ := along_axis fr fV hr hd hV rV
      have d1 := dot_within hU hd
      have d2 := dot_within hV hd
      rw [dotR_comm] at d1 d2
      refine ⟨f1, f2, (Complex.norm_le_abs_re_add_abs_im _).trans ?_, (Complex.norm_le_abs_re_add_abs_im _).trans ?_⟩
      · have e1' : |(q y - z x).re| ≤ 20000 * u := e1
        have e2' : |(q y - z x).im| ≤ 20000 * u := e2
        unfold u at *; linarith
      · have e1' : |(q y).re| ≤ |dotR (subR x (valV c)) U| + 20000 * u := abs_le_of e1
        have e2' : |(q y).im| ≤ |dotR (subR x (valV c)) V| + 20000 * u := abs_le_of e2
        unfold u at *; linarith
    -- on the plane
    have hon : ∀ x ∈ xs, dotR N x = dotR N (valV plane.v0) := by
      intro x hxm
      obtain ⟨_, -, _, -, h0, -⟩ := ((hx x).1 hxm).meet
      have h0' : dotR N (subR x (valV plane.v0)) = 0 := by rw [← eN]; exact h0
      rw [dotR_sub] at h0'
      linarith
    -- sticking out
    have stick : ∀ x ∈ xs, ∀ y ∈ xs, ∀ w ∈ xs, y ≠ x → w ≠ x → ∃ k l : ℝ, Wind.Sticks k l (z x) (z y) (z w) := by
      intro x hxm y hym t htm hyx htx
      obtain ⟨w, hw1, hww⟩ := hsh x hxm
      have hwd : dotR w w ≤ 1 := by
        rw [← len_sq]; exact (mul_le_mul hw1 hw1 (len_nonneg _) (by norm_num)).trans (by norm_num)
      have hk1 : dotR w U * dotR w U + dotR w V * dotR w V ≤ 1 := by
        have e : dotR w w * (dotR N N * dotR U U - dotR N U * dotR N U) = dotR w V * dotR w V +
            dotR w U * dotR w U * dotR N N + dotR w N * dotR w N * dotR U U - 2 * (dotR w U * dotR w N * dotR N U) := by
          rw [hVV]; simp only [dotR, crossR]; ring
        rw [gu, hU, hnU] at e
        have := mul_self_nonneg (dotR w N)
        linarith
      have lin_sub' : ∀ s r : V3 ℝ, s ∈ xs → r ∈ xs →
          Wind.lin (dotR w U) (dotR w V) (z s) - Wind.lin (dotR w U) (dotR w V) (z r) = dotR w s - dotR w r := by
        intro s r hsm hrm
        have := frame_dot gu hU hnU w (subR s r) (by rw [dotR_sub, hon s hsm, hon r hrm, sub_self])
        rw [← hVV, dotR_sub] at this
        rw [this]
        simp only [Wind.lin, z, dotR, subR]
        ring
      obtain ⟨m, hmd⟩ : ∃ m, m = smulR (1 / (pts.map b).length) (sumR (pts.map b)) := ⟨_, rfl⟩
      have hgap := hmg x hxm w hww
      have hNm : dotR N m = dotR N (valV plane.v0) := by
        have e1 : dotR N m = 1 / (pts.map b).length * ((pts.map b).map (dotR N)).sum := by
          rw [hmd, ← dotR_sum]; simp only [dotR, smulR]; ring
        have e2 : ((pts.map b).map (dotR N)) = (pts.map b).map fun _ => dotR N (valV plane.v0) :=
          List.map_congr_left fun x hxm => hon x ((hLb x).1 hxm)
        have hn0 : ((pts.map b).length : ℝ) ≠ 0 := by
          have : (pts.map b).length ≠ 0 := by
            rw [List.length_map]
            exact (List.length_pos_iff.2 hne).ne'
          exact_mod_cast this
        have e3 : ((pts.map b).map fun _ => dotR N (valV plane.v0)).sum = (pts.map b).length * dotR N (valV plane.v0) := by
          rw [List.map_const', List.sum_replicate, nsmul_eq_mul]
        rw [e1, e2, e3]
        field_simp
      have hmn' : Within (24235 * u) (subR (valV c) m) := by rw [hmd]; exact hmn
      rw [← hmd] at hgap
      have hzx : Wind.lin (dotR w U) (dotR w V) (z x) = dotR w x - dotR w m -
          Wind.lin (dotR w U) (dotR w V) ⟨dotR U (subR (valV c) m), dotR V (subR (valV c) m)⟩ := by
        have := frame_dot gu hU hnU w (subR x m) (by rw [dotR_sub, hon x hxm, hNm, sub_self])
        rw [← hVV, dotR_sub] at this
        rw [this]
        simp only [Wind.lin, z, dotR, subR]
        ring
      have hcm := Wind.lin_le hk1 ⟨dotR U (subR (valV c) m), dotR V (subR (valV c) m)⟩
      have hcn : ‖(⟨dotR U (subR (valV c) m), dotR V (subR (valV c) m)⟩ : ℂ)‖ ≤ 1 / 180 := by
        refine (Complex.norm_le_abs_re_add_abs_im _).trans ?_
        have d1 := dot_within hU hmn'
        have d2 := dot_within hV hmn'
        show |dotR U (subR (valV c) m)| + |dotR V (subR (valV c) m)| ≤ _
        unfold u at *; linarith
      refine ⟨dotR w U, dotR w V, hk1, ?_, ?_, ?_⟩
      · rw [hzx]
        have := (abs_le.1 (hcm.trans hcn)).2
        linarith
      · have := lin_sub' x y hxm hym
        have := hww y hym hyx
        linarith
      · have := lin_sub' x t hxm htm
        have := hww t htm htx
        linarith
    -- angles
    have hq0 : ∀ p ∈ pts, F32.val (Arith.dot (V3.sub p c) va) ≠ 0 ∨ F32.val (Arith.dot (V3.sub p c) ua) ≠ 0 := by
      intro p hpm
      have hxm := hbm p hpm
      obtain ⟨y, hym, hyx⟩ : ∃ y ∈ xs, y ≠ b p := by
        obtain ⟨y1, y2, hy1, -, hn1, -⟩ := htwo (b p)
        exact ⟨y1, hy1, hn1⟩
      obtain ⟨k1, l1, hst⟩ := stick (b p) hxm y hym y hym hyx hyx
      by_contra hcon
      push Not at hcon
      have e : q p = 0 := Complex.ext hcon.2 hcon.1
      have h1 := (hcoord p hpm).2.2.1
      have h3 := (Wind.lin_le hst.unit (q p - z (b p))).trans h1
      rw [Wind.lin_sub, e] at h3
      have h4 := (abs_le.1 h3).1
      have : Wind.lin k1 l1 0 = 0 := by simp [Wind.lin]
      have := hst.pos
      linarith
    have hang : ∀ x ∈ pts, isFin (faceAngle plane (V3.sub x c)) ∧
        Wind.Seen (z (b x)) (q x) (F32.val (faceAngle plane (V3.sub x c))) := by
      intro x hxm
      obtain ⟨f1, f2, h1, h3⟩ := hcoord x hxm
      have e : faceAngle plane (V3.sub x c) = F32Lib.atan2 (Arith.dot (V3.sub x c) va) (Arith.dot (V3.sub x c) ua) := by
        unfold faceAngle
        rw [hUd, hVd]
        rfl
      obtain ⟨g1, g2⟩ := AccurateAtan2.accurate _ _ f2 f1 (hq0 x hxm)
      rw [e]
      refine ⟨g1, h1, h3, fun _ => ?_⟩
      rcases g2 with g2 | ⟨g2, g3, g4⟩
      · exact .inl g2
      · exact .inr ⟨g4, Complex.arg_eq_pi_iff.2 ⟨g3, g2⟩⟩
    -- the order
    have hord : ps.Pairwise fun a b' => F32.val (faceAngle plane (V3.sub b' c)) ≤ F32.val (faceAngle plane (V3.sub a c)) := by
      have hfr : ∀ r ∈ rel, isFin (faceAngle plane r) := by
        intro r hr
        rw [erel] at hr
        obtain ⟨x, hxm, rfl⟩ := List.mem_map.1 hr
        exact (hang x (hm x hxm)).1
      obtain ⟨c1, c2⟩ := lt_consistent (faceAngle plane) rel (.inr fun r hr => fin_not_nan ⟨hfr r hr, le_rfl⟩)
      have := hsort c1 c2
      rw [erel, List.pairwise_map] at this
      refine this.imp_of_mem ?_
      intro a b ha hb hab
      exact lt_false_val (hang a (hm a ha)).1 (hang b (hm b hb)).1 hab
    have o1 := List.pairwise_iff_getElem.1 hord i j hi1 hj1 hij
    have o2 := List.pairwise_iff_getElem.1 hord j k hj1 hk1 hjk
    obtain ⟨_, _, s1⟩ := stick _ (hbm _ mi) _ (hbm _ mj) _ (hbm _ mk) nab.symm nad.symm
    obtain ⟨_, _, s2⟩ := stick _ (hbm _ mj) _ (hbm _ mi) _ (hbm _ mk) nab nbd.symm
    obtain ⟨_, _, s3⟩ := stick _ (hbm _ mk) _ (hbm _ mi) _ (hbm _ mj) nad nbd
    have nz : ∀ {x y : V3 ℝ}, Close (1 / 2000) y x → ‖z y - z x‖ ≤ 1 / 500 := by
      intro x y hyx
      refine (Complex.norm_le_abs_re_add_abs_im _).trans ?_
      have e1 : (z y - z x).re = dotR U (subR y x) := by simp only [z, Complex.sub_re, dotR, subR]; ring
      have e2 : (z y - z x).im = dotR V (subR y x) := by simp only [z, Complex.sub_im, dotR, subR]; ring
      rw [e1, e2]
      have d1 := dot_within (v := subR y x) hU hyx
      have d2 := dot_within (v := subR y x) hV hyx
      linarith
    have ht := Wind.sorted_turn (hang _ mi).2 (hang _ mj).2 (hang _ mk).2 s1 s2 s3 o1 o2 (nz na) (nz nb) (nz nd)
    have e : dotR (crossR (subR b2 a2) (subR d2 a2)) N = Wind.area (z a2) (z b2) (z d2) := by
      rw [frame_turn hU hnU, ← hVV]
      simp only [Wind.area, Wind.cr, z, dotR, subR]
      ring
    rw [e]
    exact ht

variable {g : Nat} {R : ℝ} {planes : List (BrushPlane F32)} {brush : Brush F32}

/-- The triangles of a face of a pointed brush: each point near a point of the exact face, and each point of the exact face,
if that has an area, near a point of a triangle. -/
theorem pointed_face (hf : PointedBrush g R planes) {textures : TextureInfo} {entity : Entity F32} {p : BrushPlane F32}
    (hm : p ∈ planes) {face : PlaneGeo F32} (h : buildPlane textures entity planes p = .ok face) :
    Between (1 / 2000)
      (fun x => ∃ u v w, TriangleOf face.vertices face.indices u v w ∧ InTriangle (vec u.pos) (vec v.pos) (vec w.pos) x)
      (fun y => OnFace32 planes p y) (fun y => HasArea32 planes p ∧ OnFace32 planes p y) := by
  have hc := hf.toClearBody
  obtain ⟨n, xs, hn1, hx, hl, hsh, hfew⟩ := hf.corners p hm
  obtain ⟨L, hfa, hmem, htn⟩ := pointed_outline textures entity h hf.grid hf.least hf.most hf.near hm hf.count
    (hf.clear p hm) hn1 xs hx hl hsh hfew
  have hco : ∀ x, x ∈ L ↔ Poly.Corner (planes.map exactPlane) (exactPlane p) x := fun x => by
    rw [hmem, hx, firm_corner hc hm]
  have hn : NonDegenerate (exactPlane p) := firm_points hc _ (List.mem_map_of_mem hm)
  constructor
  · rintro x ⟨u, v, w, hT, hx⟩
    obtain ⟨t, hu, hv, hw⟩ := (fan_triangle h u v w).1 hT
    obtain ⟨a, ha, ca⟩ := forall2_get hfa hu
    obtain ⟨b, hb, cb⟩ := forall2_get hfa hv
    obtain ⟨c, hcc, cc⟩ := forall2_get hfa hw
    obtain ⟨y, hy, cy⟩ := triangle_near ca cb cc hx
    have ka := (hco a).1 (List.mem_of_getElem? ha)
    have kb := (hco b).1 (List.mem_of_getElem? hb)
    have kc := (hco c).1 (List.mem_of_getElem? hcc)
    refine ⟨y, (onFace32_iff hc hm y).2 ?_, cy⟩
    obtain ⟨r, s, q, hr, hs, hq, hsum, rfl⟩ := hy
    constructor
    · intro pl hpl
      rw [ht_weighed _ _ _ _ hsum]
      have := mul_nonpos_of_nonneg_of_nonpos hr (ka.1 pl hpl)
      have := mul_nonpos_of_nonneg_of_nonpos hs (kb.1 pl hpl)
      have := mul_nonpos_of_nonneg_of_nonpos hq (kc.1 pl hpl)
      linarith
    · rw [ht_weighed _ _ _ _ hsum, ka.2.1, kb.2.1, kc.2.1]; ring
  · rintro y ⟨hw, hy⟩
    obtain ⟨hin, h0⟩ := (onFace32_iff hc hm y).1 hy
    have hturn : ∀ (i j k : Nat) (a b d : V3 ℝ), i < j → j < k → L[i]? = some a → L[j]? = some b → L[k]? = some d →
        a ≠ b → a ≠ d → b ≠ d → Poly.tri (rawNormal (exactPlane p)) a b d < 0 := by
      intro i j k a b d hij hjk hi hj hk n1 n2 n3
      have self : ∀ x : V3 ℝ, Close (1 / 2000) x x := fun x => by unfold Close; simp
      have h3 := htn i j k a b d a b d hij hjk hi hj hk n1 n2 n3 (self a) (self b) (self d)
      have e : dotR (crossR (subR b a) (subR d a)) (triOf p).normal =
          1 / lenR (triOf p).raw * Poly.tri (rawNormal (exactPlane p)) a b d := by
        rw [exactPlane_raw]
        simp only [Poly.tri, Tri.normal, dotR, smulR]; ring
      rw [e] at h3
      have hl := firm_len hc hm
      by_contra hcon
      have := mul_nonneg (by positivity : (0 : ℝ) ≤ 1 / lenR (triOf p).raw) (not_lt.1 hcon)
      linarith
    cases L with
    | nil =>
      have := Poly.wide_corners (firm_bounded hc) hn ((hasArea32_iff hc hm).1 hw) (fun c => (hco c).symm) List.nodup_nil
      simp at this
    | cons a l =>
      obtain ⟨D, hnd, hDm, hDt, hDn⟩ := turn_repeats hturn
      have hcoD : ∀ x, x ∈ a :: D ↔ Poly.Corner (planes.map exactPlane) (exactPlane p) x := fun x => (hDm x).trans (hco x)
      have h3 := Poly.wide_corners (firm_bounded hc) hn ((hasArea32_iff hc hm).1 hw) (fun c => (hcoD c).symm) hnd
      obtain ⟨t, a', b, c, ha, hb, hcc, hT⟩ := fan_tiles (firm_bounded hc) hn hcoD hDt h3 h0 hin
      rw [List.getElem?_cons_zero] at ha
      cases ha
      rw [List.getElem?_cons_succ] at hb
      obtain ⟨i, hi1, hi2⟩ := hDn t b c hb (by rw [show t + 2 = (t + 1) + 1 by omega, List.getElem?_cons_succ] at hcc; exact hcc)
      obtain ⟨u, hu, cu⟩ := forall2_get' hfa (i := 0) (b := a) (by simp)
      obtain ⟨v, hv, cv⟩ := forall2_get' hfa (i := i + 1) (b := b) (by simpa using hi1)
      obtain ⟨w, hw', cw⟩ := forall2_get' hfa (i := i + 2) (b := c) (by simpa using hi2)
      obtain ⟨x, hx, cx⟩ := triangle_near (close_symm cu) (close_symm cv) (close_symm cw) hT
      exact ⟨x, ⟨u, v, w, (fan_triangle h u v w).2 ⟨i, hu, hv, hw'⟩, hx⟩, close_symm cx⟩

theorem pointed_corners (hf : PointedBrush g R planes) (f : BrushPlane F32) (hm : f ∈ planes) :
    ∃ xs : List (V3 ℝ), ∀ x, x ∈ xs ↔ TrueCorner R (planes.map triOf) (triOf f) x := by
  obtain ⟨_, xs, -, hx, -⟩ := hf.corners f hm
  exact ⟨xs, hx⟩

/-- Firm brushes are pointed. -/
theorem firm_pointed (hf : FirmBrush g R planes) : PointedBrush g R planes := by
  refine ⟨hf.toClearBody, fun p hp => ?_⟩
  obtain ⟨xs, -, hx, hl, hsh⟩ := hf.corners p hp
  refine ⟨1, xs, le_rfl, hx, by omega, by norm_num at hsh ⊢; exact hsh, fun x hxm => ?_⟩
  by_cases he : ∃ q : BrushPlane F32 × BrushPlane F32, q.1 ∈ planes ∧ q.2 ∈ planes ∧ (triOf q.1).above x = 0 ∧
      (triOf q.2).above x = 0 ∧ 1 / 2000 < Tri.spread (triOf p) (triOf q.1) (triOf q.2)
  · obtain ⟨q, q1, q2, q3, q4, q5⟩ := he
    refine ⟨[q], by simp, fun p1 h1 p2 h2 a1 a2 hs => ?_⟩
    obtain ⟨e1, e2⟩ := hf.simple p hp x ((hx x).1 hxm) p1 h1 p2 h2 q.1 q1 q.2 q2 a1 a2 q3 q4 hs q5
    rw [e1, e2]; simp
  · exact ⟨[], by simp, fun p1 h1 p2 h2 a1 a2 hs => absurd ⟨(p1, p2), h1, h2, a1, a2, hs⟩ he⟩

/-- C125: a triangle of a face of a pointed brush with three different true corners is seen from outside. -/
theorem C125_facing (hf : PointedBrush g R planes) (textures : TextureInfo) (entity : Entity F32) (p : BrushPlane F32)
    (hm : p ∈ planes) (face : PlaneGeo F32) (h : buildPlane textures entity planes p = .ok face) (u v w : Vertex F32)
    (hT : TriangleOf face.vertices face.indices u v w) (a b c : V3 ℝ)
    (ha : TrueCorner R (planes.map triOf) (triOf p) a) (hb : TrueCorner R (planes.map triOf) (triOf p) b)
    (hc : TrueCorner R (planes.map triOf) (triOf p) c) (hua : Close (1 / 2000) (vec u.pos) a)
    (hvb : Close (1 / 2000) (vec v.pos) b) (hwc : Close (1 / 2000) (vec w.pos) c) (hab : a ≠ b) (hac : a ≠ c) (hbc : b ≠ c) :
    dotR (crossR (subR (vec v.pos) (vec u.pos)) (subR (vec w.pos) (vec u.pos))) (triOf p).normal < 0 := by
  obtain ⟨n, xs, hn1, hx, hl, hsh, hfew⟩ := hf.corners p hm
  obtain ⟨L, hfa, hmem, htn⟩ := pointed_outline textures entity h hf.grid hf.least hf.most hf.near hm hf.count
    (hf.clear p hm) hn1 xs hx hl hsh hfew
  have hn1r : (1 : ℝ) ≤ n := by exact_mod_cast hn1
  obtain ⟨t, hu, hv, hw⟩ := (fan_triangle h u v w).1 hT
  have same : ∀ {i : Nat} {z : Vertex F32} {x : V3 ℝ}, face.vertices[i]? = some z →
      TrueCorner R (planes.map triOf) (triOf p) x → Close (1 / 2000) (vec z.pos) x → L[i]? = some x := by
    intro i z x hz hxt hzx
    obtain ⟨y, hy, cy⟩ := forall2_get hfa hz
    have := close_join (close_symm cy) (close_symm hzx)
    rw [hy, sharp_apart hsh (by linarith) ((hmem y).1 (List.mem_of_getElem? hy)) ((hx x).2 hxt) this]
  exact htn 0 (t + 1) (t + 2) a b c _ _ _ (by omega) (by omega) (same hu ha hua) (same hv hb hvb) (same hw hc hwc)
    hab hac hbc hua hvb hwc

/-- C125: every drawn point is within 1/2000 of a unit of a point of a shown face, and every point of a shown face that has
an area is that near to a drawn point. -/
theorem C125_picture (depth : Nat)
    (order : List (Str × List (BrushGeo F32)) → List (Str × List (BrushGeo F32))) (horder : ∀ l, (order l).Perm l)
    (config : Config F32) (nodes : List (Node F32)) (h : Quarch.run depth order config = .ok nodes)
    (text : Str) (ht : config.mapFile = some text) (entities : List (Entity F32)) (hl : LoadsAs text entities)
    (hb : ∀ e ∈ entities, Anchored entities e → ∀ br ∈ e.brushes, IsPointed br.planes) :
    Between (1 / 2000) (Drawn32 nodes)
      (fun y => ∃ e ∈ entities, Anchored entities e ∧ ∃ br ∈ e.brushes, ∃ p ∈ br.planes,
        ShownFace config e br p ∧ OnFace32 br.planes p y)
      (fun y => ∃ e ∈ entities, Anchored entities e ∧ ∃ br ∈ e.brushes, ∃ p ∈ br.planes,
        ShownFace config e br p ∧ HasArea32 br.planes p ∧ OnFace32 br.planes p y) := by
  obtain ⟨h1, h2⟩ := C87_triangles depth order horder config nodes h text ht entities hl
  constructor
  · rintro x ⟨o, v, s, a, b, c, hocc, hs, hT, hx⟩
    obtain ⟨e, he, ha, br, hbr, p, hpm, hsh, face, hface, u, v, w, hT', e1, e2, e3⟩ := h1 o v s a b c hocc hs hT
    obtain ⟨g, R, hf⟩ := hb e he ha br hbr
    have hfin := firm_finite hf.toClearBody hpm hface
    obtain ⟨m1, m2, m3⟩ := triangle_mem hT'
    rw [same_vec (hfin _ m1) e1, same_vec (hfin _ m2) e2, same_vec (hfin _ m3) e3] at hx
    obtain ⟨y, hy, hc⟩ := (pointed_face hf hpm hface).1 x ⟨u, v, w, hT', hx⟩
    exact ⟨y, ⟨e, he, ha, br, hbr, p, hpm, hsh, hy⟩, hc⟩
  · rintro y ⟨e, he, ha, br, hbr, p, hpm, hsh, hy⟩
    obtain ⟨g, R, hf⟩ := hb e he ha br hbr
    obtain ⟨face, hface, hd⟩ := h2 e he ha br hbr p hpm hsh
    have hfin := firm_finite hf.toClearBody hpm hface
    obtain ⟨x, ⟨u, v, w, hT, hx⟩, hc⟩ := (pointed_face hf hpm hface).2 y hy
    obtain ⟨o, vis, s, a, b, c, hocc, hs, hT', e1, e2, e3⟩ := hd u v w hT
    obtain ⟨m1, m2, m3⟩ := triangle_mem hT
    rw [← same_vec (hfin _ m1) e1, ← same_vec (hfin _ m2) e2, ← same_vec (hfin _ m3) e3] at hx
    exact ⟨x, ⟨o, vis, s, a, b, c, hocc, hs, hT', hx⟩, hc⟩

/-- C125: if all faces are to be shown and all entities are reached, the picture agrees with the borders of the brushes. -/
theorem C125_everything (depth : Nat)
    (order : List (Str × List (BrushGeo F32)) → List (Str × List (BrushGeo F32))) (horder : ∀ l, (order l).Perm l)
    (config : Config F32) (nodes : List (Node F32)) (h : Quarch.run depth order config = .ok nodes)
    (text : Str) (ht : config.mapFile = some text) (entities : List (Entity F32)) (hl : LoadsAs text entities)
    (hb : ∀ e ∈ entities, ∀ br ∈ e.brushes, IsPointed br.planes) (ha : ∀ e ∈ entities, Anchored entities e)
    (hs : ∀ e ∈ entities, ∀ br ∈ e.brushes, ∀ p ∈ br.planes, ShownFace config e br p) :
    Agrees (1 / 2000) (Drawn32 nodes) (fun y => ∃ e ∈ entities, ∃ br ∈ e.brushes, OnBorder32 br.planes y) := by
  obtain ⟨h1, h2⟩ := C125_picture depth order horder config nodes h text ht entities hl fun e he _ => hb e he
  constructor
  · intro x hx
    obtain ⟨y, ⟨e, he, -, br, hbr, p, hpm, -, hy⟩, hc⟩ := h1 x hx
    exact ⟨y, ⟨e, he, br, hbr, hy.2, p, hpm, hy.1⟩, hc⟩
  · rintro y ⟨e, he, br, hbr, hy⟩
    obtain ⟨g, R, hf⟩ := hb e he br hbr
    obtain ⟨p, hpm, har, hon⟩ := firm_wide hf.toClearBody hy
    exact h2 y ⟨e, he, ha e he, br, hbr, p, hpm, hs e he br hbr p hpm, har, hon⟩

/-- C125: the convex shapes of the scene agree with the brushes with convex collision up to 1/2000 of a unit. -/
theorem C125_filled (depth : Nat)
    (order : List (Str × List (BrushGeo F32)) → List (Str × List (BrushGeo F32))) (horder : ∀ l, (order l).Perm l)
    (config : Config F32) (nodes : List (Node F32)) (h : Quarch.run depth order config = .ok nodes)
    (text : Str) (ht : config.mapFile = some text) (entities : List (Entity F32)) (hl : LoadsAs text entities)
    (hb : ∀ e ∈ entities, Anchored entities e → ∀ br ∈ e.brushes, IsPointed br.planes) :
    Agrees (1 / 2000) (InSolid32 nodes) (fun y => ∃ e ∈ entities, Anchored entities e ∧ ∃ br ∈ e.brushes,
      SolidAs config e br .convex ∧ InBrush32 br.planes y) := by
  obtain ⟨h1, h2⟩ := C88_convex depth order horder config nodes h text ht entities hl
  constructor
  · rintro x ⟨o, shapes, shape, hs, hocc, hx⟩
    obtain ⟨e, he, ha, br, hbr, hsolid, bg, hbg, -, k1, k2, -⟩ := h1 o shapes shape hocc hs
    obtain ⟨g, R, hf⟩ := hb e he ha br hbr
    obtain ⟨y, hy, hc⟩ := (firm_hull hf.toClearBody hbg k1 k2 (pointed_corners hf)).1 x hx
    exact ⟨y, ⟨e, he, ha, br, hbr, hsolid, hy⟩, hc⟩
  · rintro y ⟨e, he, ha, br, hbr, hsolid, hy⟩
    obtain ⟨g, R, hf⟩ := hb e he ha br hbr
    obtain ⟨bg, hbg, o, shapes, shape, hocc, hs, -, k1, k2, -⟩ := h2 e he ha br hbr (firm_nonempty hf.toClearBody) hsolid
    obtain ⟨x, hx, hc⟩ := (firm_hull hf.toClearBody hbg k1 k2 (pointed_corners hf)).2 y hy
    exact ⟨x, ⟨o, shapes, shape, hs, hocc, hx⟩, hc⟩

/-- C125: the triangles of the concave shapes of the scene agree with the borders of the brushes with concave collision up
to 1/2000 of a unit. -/
theorem C125_covered (depth : Nat)
    (order : List (Str × List (BrushGeo F32)) → List (Str × List (BrushGeo F32))) (horder : ∀ l, (order l).Perm l)
    (config : Config F32) (nodes : List (Node F32)) (h : Quarch.run depth order config = .ok nodes)
    (text : Str) (ht : config.mapFile = some text) (entities : List (Entity F32)) (hl : LoadsAs text entities)
    (hb : ∀ e ∈ entities, Anchored entities e → ∀ br ∈ e.brushes, IsPointed br.planes) :
    Agrees (1 / 2000) (OnSolid32 nodes) (fun y => ∃ e ∈ entities, Anchored entities e ∧ ∃ br ∈ e.brushes,
      SolidAs config e br .concave ∧ OnBorder32 br.planes y) := by
  obtain ⟨h1, h2⟩ := C88_concave depth order horder config nodes h text ht entities hl
  constructor
  · rintro x ⟨o, shapes, s, hs, hocc, a, b, c, hT, hx⟩
    obtain ⟨e, he, ha, br, hbr, hsolid, p, hpm, face, hface, u, v, w, hT', e1, e2, e3⟩ := h1 o shapes s a b c hocc hs hT
    obtain ⟨g, R, hf⟩ := hb e he ha br hbr
    have hfin := firm_finite hf.toClearBody hpm hface
    obtain ⟨m1, m2, m3⟩ := triangle_mem hT'
    rw [same_vec (hfin _ m1) e1, same_vec (hfin _ m2) e2, same_vec (hfin _ m3) e3] at hx
    obtain ⟨y, hy, hc⟩ := (pointed_face hf hpm hface).1 x ⟨u, v, w, hT', hx⟩
    exact ⟨y, ⟨e, he, ha, br, hbr, hsolid, hy.2, p, hpm, hy.1⟩, hc⟩
  · rintro y ⟨e, he, ha, br, hbr, hsolid, hy⟩
    obtain ⟨g, R, hf⟩ := hb e he ha br hbr
    obtain ⟨p, hpm, har, hon⟩ := firm_wide hf.toClearBody hy
    obtain ⟨face, hface, hd⟩ := h2 e he ha br hbr hsolid p hpm
    have hfin := firm_finite hf.toClearBody hpm hface
    obtain ⟨x, ⟨u, v, w, hT, hx⟩, hc⟩ := (pointed_face hf hpm hface).2 y ⟨har, hon⟩
    obtain ⟨o, shapes, s, a, b, c, hocc, hs, hT', e1, e2, e3⟩ := hd u v w hT
    obtain ⟨m1, m2, m3⟩ := triangle_mem hT
    rw [← same_vec (hfin _ m1) e1, ← same_vec (hfin _ m2) e2, ← same_vec (hfin _ m3) e3] at hx
    exact ⟨x, ⟨o, shapes, s, hs, hocc, a, b, c, hT', hx⟩, hc⟩

/-- C125: a map file whose brushes are pointed loads, under the conditions on its entities of C91; if all is to be shown, the
picture agrees with the borders of the brushes. -/
theorem C125_loads (depth : Nat)
    (order : List (Str × List (BrushGeo F32)) → List (Str × List (BrushGeo F32))) (horder : ∀ l, (order l).Perm l)
    (config : Config F32) (text : Str) (ht : config.mapFile = some text) (entities : List (Entity F32))
    (hm : MapIs text entities) (hb : ∀ e ∈ entities, ∀ br ∈ e.brushes, IsPointed br.planes)
    (hworld : ∃ pre w post, entities = pre ++ w :: post ∧ w.properties (str! "classname") = some (str! "worldspawn") ∧
      ∀ e ∈ pre ++ post, e.properties (str! "classname") ≠ some (str! "worldspawn"))
    (hnamed : ∀ e ∈ entities, ∃ name, e.properties (str! "classname") = some name)
    (hids : ∀ e ∈ entities, ∀ k ∈ [str! "_tb_id", str! "_tb_group"], ∀ s, e.properties k = some s → ∃ i, ReadsI32 s i)
    (htree : ¬ Loop entities) (hd : entities.length ≤ depth) :
    ∃ nodes, Quarch.run depth order config = .ok nodes ∧
      ((∀ e ∈ entities, Anchored entities e) →
       (∀ e ∈ entities, ∀ br ∈ e.brushes, ∀ p ∈ br.planes, ShownFace config e br p) →
       Agrees (1 / 2000) (Drawn32 nodes) fun y => ∃ e ∈ entities, ∃ br ∈ e.brushes, OnBorder32 br.planes y) := by
  obtain ⟨nodes, hn⟩ := C92_enough depth order horder config entities
    ⟨⟨text, ht, hm⟩, hworld, (geo_succeeds config.textureInfo entities).1 (body_map _ entities fun e he br hbr => by
        obtain ⟨g, R, hf⟩ := hb e he br hbr
        exact ⟨g, R, hf.toClearBody⟩), fun e he _ => hnamed e he,
      fun e he _ _ => hids e he, htree⟩ hd
  exact ⟨nodes, hn, fun ha hs =>
    C125_everything depth order horder config nodes hn text ht entities ((C92_text text entities).2 hm) hb ha hs⟩

/-- C125: a map file whose brushes are pointed loads, under the conditions on its entities of C91; if all brushes are to have
convex collision it fills the brushes, and if all are to have concave collision it covers their borders. -/
theorem C125_solid_loads (depth : Nat)
    (order : List (Str × List (BrushGeo F32)) → List (Str × List (BrushGeo F32))) (horder : ∀ l, (order l).Perm l)
    (config : Config F32) (text : Str) (ht : config.mapFile = some text) (entities : List (Entity F32))
    (hm : MapIs text entities) (hb : ∀ e ∈ entities, ∀ br ∈ e.brushes, IsPointed br.planes)
    (hworld : ∃ pre w post, entities = pre ++ w :: post ∧ w.properties (str! "classname") = some (str! "worldspawn") ∧
      ∀ e ∈ pre ++ post, e.properties (str! "classname") ≠ some (str! "worldspawn"))
    (hnamed : ∀ e ∈ entities, ∃ name, e.properties (str! "classname") = some name)
    (hids : ∀ e ∈ entities, ∀ k ∈ [str! "_tb_id", str! "_tb_group"], ∀ s, e.properties k = some s → ∃ i, ReadsI32 s i)
    (htree : ¬ Loop entities) (hd : entities.length ≤ depth) :
    ∃ nodes, Quarch.run depth order config = .ok nodes ∧
      ((∀ e ∈ entities, Anchored entities e) →
       ((∀ e ∈ entities, ∀ br ∈ e.brushes, SolidAs config e br .convex) →
        Agrees (1 / 2000) (InSolid32 nodes) fun y => ∃ e ∈ entities, ∃ br ∈ e.brushes, InBrush32 br.planes y) ∧
       ((∀ e ∈ entities, ∀ br ∈ e.brushes, SolidAs config e br .concave) →
        Agrees (1 / 2000) (OnSolid32 nodes) fun y => ∃ e ∈ entities, ∃ br ∈ e.brushes, OnBorder32 br.planes y)) := by
  obtain ⟨nodes, hn, -⟩ := C125_loads depth order horder config text ht entities hm hb hworld hnamed hids htree hd
  have hl := (C92_text text entities).2 hm
  refine ⟨nodes, hn, fun ha => ⟨fun hs => ?_, fun hs => ?_⟩⟩
  · obtain ⟨h1, h2⟩ := C125_filled depth order horder config nodes hn text ht entities hl fun e he _ => hb e he
    refine ⟨fun x hx => ?_, ?_⟩
    · obtain ⟨y, ⟨e, he, -, br, hbr, -, hy⟩, hc⟩ := h1 x hx
      exact ⟨y, ⟨e, he, br, hbr, hy⟩, hc⟩
    · rintro y ⟨e, he, br, hbr, hy⟩
      exact h2 y ⟨e, he, ha e he, br, hbr, hs e he br hbr, hy⟩
  · obtain ⟨h1, h2⟩ := C125_covered depth order horder config nodes hn text ht entities hl fun e he _ => hb e he
    refine ⟨fun x hx => ?_, ?_⟩
    · obtain ⟨y, ⟨e, he, -, br, hbr, -, hy⟩, hc⟩ := h1 x hx
      exact ⟨y, ⟨e, he, br, hbr, hy⟩, hc⟩
    · rintro y ⟨e, he, br, hbr, hy⟩
      exact h2 y ⟨e, he, ha e he, br, hbr, hs e he br hbr, hy⟩

end
end Quarch
