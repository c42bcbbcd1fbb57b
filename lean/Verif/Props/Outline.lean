import Verif.Spec.Outline
import Verif.Proofs.Outline
import Verif.Props.Clear
import Verif.Props.Sorting
import Verif.Props.RealWind
/-
C118: in single precision the corners of a clear face follow its outline clockwise.
-/
set_option linter.unusedSectionVars false
namespace Quarch
open Quarch.Spec Quarch.Spec.F32 Quarch.Geo

section
variable [F32Lib]
open Err

/-- The first axis of such a face. -/
theorem nearFace_axis {g : Nat} (hg : g ≤ 20) {R : ℝ} {p : BrushPlane F32} (h : NearFace g R p) :
    ∃ U : V3 ℝ, FinV (Arith.normalize (V3.sub p.v1 p.v0)) ∧
      Rel (51 / 10 * u) slack (valV (Arith.normalize (V3.sub p.v1 p.v0))) U ∧ dotR U U = 1 ∧ dotR (unitNormal p) U = 0 := by
  obtain ⟨⟨n0, n1, n2, hp, hl, hs⟩, -⟩ := h
  obtain ⟨-, e1⟩ := gridFace_edges hp
  obtain ⟨x1, -⟩ := hs .x
  obtain ⟨y1, -⟩ := hs .y
  obtain ⟨z1, -⟩ := hs .z
  simp only [Axis.of] at x1 y1 z1
  have ev : valV (V3.sub p.v1 p.v0) = subR (valV p.v1) (valV p.v0) := by
    have k : ∀ {a b c : F32} {i j m : Int}, F32.val a = i / 2 ^ g → F32.val b = j / 2 ^ g → IsG (-(g : Int)) c (i - j) →
        F32.val c = F32.val a - F32.val b := by
      intro a b c i j m ha hb hc
      rw [hc.val, ha, hb, zpow_neg, zpow_natCast]
      push_cast
      ring
    show (⟨F32.val _, F32.val _, F32.val _⟩ : V3 ℝ) = ⟨F32.val _ - F32.val _, F32.val _ - F32.val _, F32.val _ - F32.val _⟩
    rw [k (m := 0) hp.p1.x.2 hp.p0.x.2 e1.x, k (m := 0) hp.p1.y.2 hp.p0.y.2 e1.y, k (m := 0) hp.p1.z.2 hp.p0.z.2 e1.z]
  have pl : (1 : ℝ) / 2 ^ 40 ≤ 2 ^ (-(g : Int)) := by
    have : (2 : ℝ) ^ (-40 : Int) ≤ 2 ^ (-(g : Int)) := zpow_le_zpow_right₀ (by norm_num) (by omega)
    refine le_trans (le_of_eq ?_) this
    norm_num
  have pu : (2 : ℝ) ^ (-(g : Int)) ≤ 1 := zpow_le_one_of_nonpos₀ (by norm_num) (by omega)
  have up : ∀ {a : F32} {i : Int}, IsG (-(g : Int)) a i → |F32.val a| ≤ 2 ^ 24 := by
    intro a i ha
    rw [ha.val, abs_mul, abs_of_pos (by positivity : (0 : ℝ) < 2 ^ (-(g : Int)))]
    have hi : |(i : ℝ)| ≤ 2 ^ 24 := by
      have e1 : |(i : ℝ)| = (i.natAbs : ℝ) := by rw [Nat.cast_natAbs, Int.cast_abs]
      rw [e1]
      have := ha.small
      exact_mod_cast this.le
    calc |(i : ℝ)| * 2 ^ (-(g : Int)) ≤ 2 ^ 24 * 1 := mul_le_mul hi pu (by positivity) (by positivity)
      _ = 2 ^ 24 := mul_one _
  have low : ∀ {a : F32} {i : Int}, IsG (-(g : Int)) a i → i ≠ 0 → 1 / 2 ^ 40 ≤ |F32.val a| := by
    intro a i ha hi
    rw [ha.val, abs_mul, abs_of_pos (by positivity : (0 : ℝ) < 2 ^ (-(g : Int)))]
    have h1 : 1 ≤ |(i : ℝ)| := by
      have := Int.one_le_abs hi
      exact_mod_cast this
    exact pl.trans (le_mul_of_one_le_left (by positivity) h1)
  have cl := coord_len (valV (V3.sub p.v1 p.v0))
  have wu : Within (2 ^ 24) (valV (V3.sub p.v1 p.v0)) := ⟨up e1.x, up e1.y, up e1.z⟩
  have l1 : 1 / 2 ^ 40 ≤ lenR (valV (V3.sub p.v1 p.v0)) := by
    by_contra hn
    have zx : n1.x - n0.x = 0 := by by_contra ha; exact hn ((low e1.x ha).trans cl.1)
    have zy : n1.y - n0.y = 0 := by by_contra ha; exact hn ((low e1.y ha).trans cl.2.1)
    have zz : n1.z - n0.z = 0 := by by_contra ha; exact hn ((low e1.z ha).trans cl.2.2)
    refine hl fun a => ?_
    cases a <;> simp only [Spec.turn, zx, zy, zz] <;> ring
  have l2 : lenR (valV (V3.sub p.v1 p.v0)) ≤ 2 ^ 40 := by
    have h5 := dot_le (by norm_num) wu wu
    rw [← len_sq, abs_mul_self] at h5
    by_contra hcn
    nlinarith
  obtain ⟨f, r⟩ := normalize_rel (F := F32) ⟨e1.x.fin, e1.y.fin, e1.z.fin⟩ l1 l2
  refine ⟨_, f, r, unit_sq (lt_of_lt_of_le (by norm_num) l1), ?_⟩
  rw [ev]
  simp only [unitNormal, edgeNormal, smulR, dotR, crossR, subR]
  ring

/-- The computed coordinate along a computed axis. -/
theorem along_axis {r a : V3 F32} {d A : V3 ℝ} (fr : FinV r) (fa : FinV a) (hr : Within (7535 * u) (subR (valV r) d))
    (hd : Within 136 d) (hA : dotR A A = 1) (ha : Within (135 / 10 * u) (subR (valV a) A)) :
    isFin (Arith.dot r a) ∧ |F32.val (Arith.dot r a) - dotR d A| ≤ 20000 * u := by
  have wA := unit_within hA
  have up := u_pos
  have sA := sum_abs hA
  have b1 : ∀ {x y : ℝ}, |x - y| ≤ 7535 * u → |y| ≤ 136 → |x| ≤ 137 := fun h1 h2 => by
    have := abs_le_of h1; unfold u at *; linarith
  have wr : Within 137 (valV r) := ⟨b1 hr.1 hd.1, b1 hr.2.1 hd.2.1, b1 hr.2.2 hd.2.2⟩
  have a1 := abs_le_of ha.1
  have a2 := abs_le_of ha.2.1
  have a3 := abs_le_of ha.2.2
  have b2 : ∀ {x y : ℝ}, |x| ≤ |y| + 135 / 10 * u → |y| ≤ 1 → |x| ≤ 2 := fun h1 h2 => by unfold u at *; linarith
  have wa : Within 2 (valV a) := ⟨b2 a1 wA.1, b2 a2 wA.2.1, b2 a3 wA.2.2⟩
  have hf := dot_ok (F := F32) fr fa (by norm_num) wr wa (by rw [large_val]; norm_num)
  refine ⟨hf, ?_⟩
  have e := (dot_err (F := F32) hf).2.2
  have k : ∀ {x y : ℝ}, |x| ≤ 137 → |x| * |y| ≤ 137 * |y| := fun h => mul_le_mul_of_nonneg_right h (abs_nonneg _)
  have k1 : |Rounding.val r.x| * |Rounding.val a.x| ≤ 137 * |Rounding.val a.x| := k wr.1
  have k2 : |Rounding.val r.y| * |Rounding.val a.y| ≤ 137 * |Rounding.val a.y| := k wr.2.1
  have k3 : |Rounding.val r.z| * |Rounding.val a.z| ≤ 137 * |Rounding.val a.z| := k wr.2.2
  have a1' : |Rounding.val a.x| ≤ |A.x| + 135 / 10 * u := a1
  have a2' : |Rounding.val a.y| ≤ |A.y| + 135 / 10 * u := a2
  have a3' : |Rounding.val a.z| ≤ |A.z| + 135 / 10 * u := a3
  have t1 := dot_within hA hr
  have t2 := dot_le (by positivity) hr ha
  have t3 := dot_le (by norm_num) hd ha
  have tl := tiny_le
  have e1 : F32.val (Arith.dot r a) - dotR d A = (F32.val (Arith.dot r a) - dotR (valV r) (valV a)) +
      dotR A (subR (valV r) d) + dotR (subR (valV r) d) (subR (valV a) A) + dotR d (subR (valV a) A) := by
    simp only [dotR, subR]; ring
  rw [e1]
  have e' : |F32.val (Arith.dot r a) - dotR (valV r) (valV a)| ≤ _ := e
  generalize F32.val (Arith.dot r a) - dotR (valV r) (valV a) = q1 at *
  generalize dotR A (subR (valV r) d) = q2 at *
  generalize dotR (subR (valV r) d) (subR (valV a) A) = q3 at *
  generalize dotR d (subR (valV a) A) = q4 at *
  have m1 := abs_add_le (q1 + q2 + q3) q4
  have m2 := abs_add_le (q1 + q2) q3
  have m3 := abs_add_le q1 q2
  unfold u at *
  linarith

/-- A point that sticks out from all others sticks out from their mean. -/
theorem mean_gap {xs : List (V3 ℝ)} {x w : V3 ℝ} {m : ℝ} (hm : 0 ≤ m) (hx : x ∈ xs) (hnd : xs.Nodup) (h2 : 2 ≤ xs.length)
    (h : ∀ y ∈ xs, y ≠ x → dotR w y + m ≤ dotR w x) : dotR w (smulR (1 / xs.length) (sumR xs)) + m / 2 ≤ dotR w x := by
  have e1 : dotR w (smulR (1 / xs.length) (sumR xs)) = 1 / xs.length * (xs.map (dotR w)).sum := by
    rw [← dotR_sum]; simp only [dotR, smulR]; ring
  have pm := List.perm_cons_erase hx
  have hl : (xs.erase x).length + 1 = xs.length := by rw [pm.length_eq, List.length_cons]
  have hs : (xs.map (dotR w)).sum = dotR w x + ((xs.erase x).map (dotR w)).sum := by
    rw [(pm.map _).sum_eq, List.map_cons, List.sum_cons]
  have hb : ((xs.erase x).map (dotR w)).sum ≤ (xs.erase x).length * (dotR w x - m) := by
    have := List.sum_le_card_nsmul ((xs.erase x).map (dotR w)) (dotR w x - m) (by
      intro b hb
      obtain ⟨y, hy, rfl⟩ := List.mem_map.1 hb
      rw [hnd.mem_erase_iff] at hy
      have := h y hy.2 hy.1
      linarith)
    rwa [List.length_map, nsmul_eq_mul] at this
  have hn : (2 : ℝ) ≤ xs.length := by exact_mod_cast h2
  have hl' : ((xs.erase x).length : ℝ) + 1 = xs.length := by exact_mod_cast hl
  rw [e1, hs, one_div_mul_eq_div]
  have : (dotR w x + ((xs.erase x).map (dotR w)).sum) / xs.length ≤ dotR w x - m / 2 := by
    rw [div_le_iff₀ (by linarith)]
    have : ((xs.erase x).length : ℝ) = xs.length - 1 := by linarith
    rw [this] at hb
    nlinarith
  linarith

theorem lt_false_val {a b : F32} (ha : isFin a) (hb : isFin b) (h : Arith.lt a b = false) : F32.val b ≤ F32.val a := by
  by_contra hn
  have : Arith.lt a b = true := by
    show rel (· < ·) a b = true
    cases a <;> cases b <;> simp_all [rel, ext, isFin, F32.val]
  rw [this] at h
  exact absurd h (by simp)

variable [Platform] [AccurateAtan2]

/-- C118: the corners of a built face without doubtful corners follow the outline of its true corners clockwise, seen from
outside, if the true corners are sharp and few enough. -/
theorem C118_outline (textures : TextureInfo) (entity : Entity F32) {planes : List (BrushPlane F32)} {plane : BrushPlane F32}
    {geo : PlaneGeo F32} (h : buildPlane textures entity planes plane = .ok geo) {g : Nat} (hg : g ≤ 20) {R : ℝ} (hR : 1 ≤ R)
    (hR' : R ≤ 64) (hp : ∀ p ∈ planes, NearFace g R p) (hpl : plane ∈ planes) (hn : planes.length ≤ 1024)
    (hc : ClearFace R (planes.map triOf) (triOf plane)) (hs : SimpleFace R planes plane) (xs : List (V3 ℝ))
    (hx : ∀ x, x ∈ xs ↔ TrueCorner R (planes.map triOf) (triOf plane) x) (ha : xs.Pairwise Apart) (hl : xs.length ≤ 256)
    (hsh : Sharp (1 / 32) xs) :
    ∃ xs' : List (V3 ℝ), xs'.Perm xs ∧ List.Forall₂ (fun v x => Close (1 / 2000) (vec v.pos) x) geo.vertices xs' ∧
      TurnsRight (triOf plane).normal xs' ∧ TurnsRight (triOf plane).normal (geo.vertices.map fun v => vec v.pos) := by
  obtain ⟨pts, rel, hcen, hrel, hpos, hsort, hfound, hdiff, hall⟩ := corners_wound textures entity planes plane geo h
  obtain ⟨hnd, hfin, hw, hlen, hmean⟩ := clear_list hg hR hR' hp hpl hn hc hfound hdiff
  obtain ⟨f, pm, hcl⟩ := exact_points hg hR hR' hp hpl hc hs hfound hnd (fun x hx => by
    obtain ⟨y, hy, e⟩ := hall x hx
    exact ⟨y, hy, e.imp id fun h => eqV3_iff.2 h⟩) xs hx ha
  have hf : ∀ x ∈ xs, f x ∈ pts := fun x h => pm.mem_iff.1 (List.mem_map_of_mem h)
  obtain ⟨c, hcdef⟩ : ∃ c, c = geo.center := ⟨_, rfl⟩
  rw [← hcdef] at hcen hrel hpos
  -- the order of the true corners
  have hrel' : rel.Perm (xs.map fun x => V3.sub (f x) c) := by
    refine hrel.trans ?_
    have := (pm.map fun x => V3.sub x c).symm
    rwa [List.map_map] at this
  obtain ⟨xs', hx1, hx2⟩ : ∃ xs' : List (V3 ℝ), List.Forall₂ (fun r x => r = V3.sub (f x) c) rel xs' ∧ xs'.Perm xs := by
    have : List.Forall₂ (fun (r : V3 F32) (x : V3 ℝ) => r = V3.sub (f x) c) (xs.map fun x => V3.sub (f x) c) xs := by
      rw [List.forall₂_map_left_iff, List.forall₂_same]
      intro _ _; rfl
    exact List.perm_comp_forall₂ hrel' this
  have erel : rel = xs'.map fun x => V3.sub (f x) c := by
    have : List.Forall₂ (· = ·) rel (xs'.map fun x => V3.sub (f x) c) := by
      rw [List.forall₂_map_right_iff]; exact hx1
    exact List.forall₂_eq_eq_eq ▸ this
  have epos : geo.vertices.map (·.pos) = xs'.map fun x => recentre c (f x) := by
    rw [hpos, erel, List.map_map]; rfl
  have hm : ∀ x ∈ xs', x ∈ xs := fun x h => hx2.mem_iff.1 h
  have near : ∀ x ∈ xs, Close (1 / 2000) (vec (recentre c (f x))) x := by
    intro x hxm
    obtain ⟨fc, hcW⟩ := hmean (List.ne_nil_of_mem (hf x hxm))
    rw [← hcen] at fc hcW
    have fy := hfin _ (hf x hxm)
    have wy := hw _ (hf x hxm)
    have cl := hcl x hxm
    have k : ∀ {a b : F32} {s : ℝ}, isFin a → isFin b → |F32.val a| ≤ 70 → |F32.val b| ≤ 65 → |F32.val b - s| ≤ 7400 * u →
        |F32.val (Arith.add (Arith.sub b a) a) - s| ≤ 1 / 2000 := by
      intro a b s fa fb ha hb hbs
      obtain ⟨f, e⟩ := back_ok (M := 70) (by norm_num) fa fb ha (by linarith)
      have e1 : F32.val (Arith.add (Arith.sub b a) a) - s = (F32.val (Arith.add (Arith.sub b a) a) - F32.val b) +
        (F32.val b - s) := by ring
      rw [e1]
      refine (abs_add_le _ _).trans ?_
      unfold u at *; linarith
    exact ⟨k fc.1 fy.1 hcW.1 wy.1 cl.1, k fc.2.1 fy.2.1 hcW.2.1 wy.2.1 cl.2.1, k fc.2.2 fy.2.2 hcW.2.2 wy.2.2 cl.2.2⟩
  have hndx : xs.Nodup := ha.imp fun h e => by
    subst e
    unfold Apart at h
    simp only [sub_self, abs_zero] at h
    rcases h with h | h | h <;> norm_num at h
  have hndx' : xs'.Nodup := hx2.nodup_iff.2 hndx
  -- any points near the true corners
  have key : ∀ (i j k : Nat) (a b d a' b' d' : V3 ℝ), i < j → j < k → xs'[i]? = some a → xs'[j]? = some b → xs'[k]? = some d →
      Close (1 / 2000) a' a → Close (1 / 2000) b' b → Close (1 / 2000) d' d →
      dotR (crossR (subR b' a') (subR d' a')) (triOf plane).normal < 0 := by
    intro i j k a b d a' b' d' hij hjk hi hj hk na nb nd
    obtain ⟨hi1, rfl⟩ := List.getElem?_eq_some_iff.1 hi
    obtain ⟨hj1, rfl⟩ := List.getElem?_eq_some_iff.1 hj
    obtain ⟨hk1, rfl⟩ := List.getElem?_eq_some_iff.1 hk
    have h2 : 2 ≤ xs.length := by rw [← hx2.length_eq]; omega
    have hne : pts ≠ [] := by
      intro e
      have := pm.length_eq
      rw [e, List.length_map, List.length_nil] at this
      omega
    obtain ⟨fc, hcW⟩ := hmean hne
    -- the centre
    have hmn : NearMean (24235 * u) xs (valV c) := by
      have h1 := mean_near (F := F32) (M := 65) (by norm_num) hlen hne fc hw
      rw [← hcen] at h1
      have h3 := nearMean_perm ((pm.symm).map (valV (F := F32))) h1
      have h4 := nearMean_shift (l' := xs) (d := 7400 * u) (by
        intro e
        have := congrArg List.length e
        simp at this
        rw [this] at h2
        simp at h2) (by
        rw [List.map_map, List.forall₂_map_left_iff, List.forall₂_same]
        intro x hxm
        exact hcl x hxm) h3
      refine nearMean_mono ?_ h4
      have : (pts.length : ℝ) ≤ 256 := by
        have : pts.length ≤ 256 := by rw [← pm.length_eq, List.length_map]; exact hl
        exact_mod_cast this
      unfold u; linarith
    rw [← hcen] at fc hcW
    -- the frame
    have gd := nearFace_good hg hR hR' (hp plane hpl)
    obtain ⟨U, fU, rU, hU, hnU⟩ := nearFace_axis hg (hp plane hpl)
    obtain ⟨N, hN⟩ : ∃ N, N = unitNormal plane := ⟨_, rfl⟩
    have eN : (triOf plane).normal = N := hN.symm
    rw [eN]
    have gN := gd.near
    have gu := gd.unit
    rw [← hN] at gN gu hnU
    obtain ⟨fV, rV⟩ := cross_rel gd.fin fU gN rU gu hU
    have wU' := unit_within hU
    have wU : Within (135 / 10 * u) (subR (valV (Arith.normalize (V3.sub plane.v1 plane.v0))) U) := by
      have q : ∀ {x y : ℝ}, |x - y| ≤ 51 / 10 * u * |y| + slack → |y| ≤ 1 → |x - y| ≤ 135 / 10 * u := by
        intro x y h1 h2
        unfold slack u at *; linarith
      exact ⟨q rU.1 wU'.1, q rU.2.1 wU'.2.1, q rU.2.2 wU'.2.2⟩
    have hV : dotR (crossR N U) (crossR N U) = 1 := by
      have : dotR (crossR N U) (crossR N U) = dotR N N * dotR U U - dotR N U * dotR N U := by
        simp only [dotR, crossR]; ring
      rw [this, gu, hU, hnU]; ring
    generalize hVd : Arith.cross (faceNormal plane) (Arith.normalize (V3.sub plane.v1 plane.v0)) = va at *
    generalize hUd : Arith.normalize (V3.sub plane.v1 plane.v0) = ua at *
    obtain ⟨V, hVV⟩ : ∃ V, V = crossR N U := ⟨_, rfl⟩
    rw [← hVV] at rV hV
    let z : V3 ℝ → ℂ := fun x => ⟨dotR (subR x (valV c)) U, dotR (subR x (valV c)) V⟩
    let q : V3 ℝ → ℂ := fun x => ⟨F32.val (Arith.dot (V3.sub (f x) c) ua), F32.val (Arith.dot (V3.sub (f x) c) va)⟩
    -- computed coordinates
    have hcoord : ∀ x ∈ xs, isFin (Arith.dot (V3.sub (f x) c) ua) ∧ isFin (Arith.dot (V3.sub (f x) c) va) ∧
        ‖q x - z x‖ ≤ 1 / 400 ∧ ‖q x‖ ≤ 480 := by
      intro x hxm
      have fy := hfin _ (hf x hxm)
      have wy := hw _ (hf x hxm)
      have cl := hcl x hxm
      have dx := ((hx x).1 hxm).dist
      have cx := coord_len x
      have hd : Within 136 (subR x (valV c)) := by
        have k : ∀ {s t : ℝ}, |s| ≤ lenR x → |t| ≤ 70 → |s - t| ≤ 136 := fun h1 h2 => (abs_sub _ _).trans (by linarith)
        exact ⟨k cx.1 hcW.1, k cx.2.1 hcW.2.1, k cx.2.2 hcW.2.2⟩
      have k : ∀ {a b : F32} {s : ℝ}, isFin a → isFin b → |F32.val a| ≤ 70 → |F32.val b| ≤ 65 → |F32.val b - s| ≤ 7400 * u →
          isFin (Arith.sub b a) ∧ |F32.val (Arith.sub b a) - (s - F32.val a)| ≤ 7535 * u := by
        intro a b s fa fb ha hb hbs
        have hab : |F32.val b - F32.val a| ≤ 135 := (abs_sub _ _).trans (by linarith)
        have f1 := Rounding.sub_ok (F := F32) b a fb fa (hab.trans (by rw [large_val]; norm_num))
        have e1 : |F32.val (Arith.sub b a) - (F32.val b - F32.val a)| ≤ u * |F32.val b - F32.val a| :=
          Rounding.sub_val (F := F32) b a f1
        refine ⟨f1, ?_⟩
        have e : F32.val (Arith.sub b a) - (s - F32.val a) = (F32.val (Arith.sub b a) - (F32.val b - F32.val a)) +
          (F32.val b - s) := by ring
        rw [e]
        refine (abs_add_le _ _).trans ?_
        have := mul_le_mul_of_nonneg_left hab u_pos.le
        linarith
      have kx := k fc.1 fy.1 hcW.1 wy.1 cl.1
      have ky := k fc.2.1 fy.2.1 hcW.2.1 wy.2.1 cl.2.1
      have kz := k fc.2.2 fy.2.2 hcW.2.2 wy.2.2 cl.2.2
      have fr : FinV (V3.sub (f x) c) := ⟨kx.1, ky.1, kz.1⟩
      have hr : Within (7535 * u) (subR (valV (V3.sub (f x) c)) (subR x (valV c))) := ⟨kx.2, ky.2, kz.2⟩
      obtain ⟨f1, e1⟩ := along_axis fr fU hr hd hU wU
      obtain ⟨f2, e2⟩ := along_axis fr fV hr hd hV rV
      have d1 := dot_within hU hd
      have d2 := dot_within hV hd
      rw [dotR_comm] at d1 d2
      refine ⟨f1, f2, (Complex.norm_le_abs_re_add_abs_im _).trans ?_, (Complex.norm_le_abs_re_add_abs_im _).trans ?_⟩
      · have e1' : |(q x - z x).re| ≤ 20000 * u := e1
        have e2' : |(q x - z x).im| ≤ 20000 * u := e2
        unfold u at *; linarith
      · have e1' : |(q x).re| ≤ |dotR (subR x (valV c)) U| + 20000 * u := abs_le_of e1
        have e2' : |(q x).im| ≤ |dotR (subR x (valV c)) V| + 20000 * u := abs_le_of e2
        unfold u at *; linarith
    -- on the plane
    have hon : ∀ x ∈ xs, dotR N x = dotR N (valV plane.v0) := by
      intro x hxm
      obtain ⟨_, -, _, -, h0, -⟩ := ((hx x).1 hxm).meet
      have h0' : dotR N (subR x (valV plane.v0)) = 0 := by rw [← eN]; exact h0
      rw [dotR_sub] at h0'
      linarith
    -- sticking out
    have stick : ∀ x ∈ xs, ∀ y ∈ xs, ∀ w ∈ xs, y ≠ x → w ≠ x → ∃ k l : ℝ, Wind.Sticks k l (z x) (z y) (z w) := by
      intro x hxm y hym t htm hyx htx
      obtain ⟨w, hw1, hww⟩ := hsh x hxm
      have hwd : dotR w w ≤ 1 := by
        rw [← len_sq]; exact (mul_le_mul hw1 hw1 (len_nonneg _) (by norm_num)).trans (by norm_num)
      have hk1 : dotR w U * dotR w U + dotR w V * dotR w V ≤ 1 := by
        have e : dotR w w * (dotR N N * dotR U U - dotR N U * dotR N U) = dotR w V * dotR w V +
            dotR w U * dotR w U * dotR N N + dotR w N * dotR w N * dotR U U - 2 * (dotR w U * dotR w N * dotR N U) := by
          rw [hVV]; simp only [dotR, crossR]; ring
        rw [gu, hU, hnU] at e
        have := mul_self_nonneg (dotR w N)
        linarith
      have lin_sub' : ∀ s r : V3 ℝ, s ∈ xs → r ∈ xs →
          Wind.lin (dotR w U) (dotR w V) (z s) - Wind.lin (dotR w U) (dotR w V) (z r) = dotR w s - dotR w r := by
        intro s r hsm hrm
        have := frame_dot gu hU hnU w (subR s r) (by rw [dotR_sub, hon s hsm, hon r hrm, sub_self])
        rw [← hVV, dotR_sub] at this
        rw [this]
        simp only [Wind.lin, z, dotR, subR]
        ring
      obtain ⟨m, hmd⟩ : ∃ m, m = smulR (1 / xs.length) (sumR xs) := ⟨_, rfl⟩
      have hgap := mean_gap (m := 1 / 32) (by norm_num) hxm hndx h2 hww
      have hNm : dotR N m = dotR N (valV plane.v0) := by
        have e1 : dotR N m = 1 / xs.length * (xs.map (dotR N)).sum := by
          rw [hmd, ← dotR_sum]; simp only [dotR, smulR]; ring
        have e2 : (xs.map (dotR N)) = xs.map fun _ => dotR N (valV plane.v0) := List.map_congr_left hon
        have hn0 : (xs.length : ℝ) ≠ 0 := by
          have : xs.length ≠ 0 := by omega
          exact_mod_cast this
        rw [e1, e2]
        simp
        field_simp
      have hmn' : Within (24235 * u) (subR (valV c) m) := by rw [hmd]; exact hmn
      rw [← hmd] at hgap
      have hzx : Wind.lin (dotR w U) (dotR w V) (z x) = dotR w x - dotR w m -
          Wind.lin (dotR w U) (dotR w V) ⟨dotR U (subR (valV c) m), dotR V (subR (valV c) m)⟩ := by
        have := frame_dot gu hU hnU w (subR x m) (by rw [dotR_sub, hon x hxm, hNm, sub_self])
        rw [← hVV, dotR_sub] at this
        rw [this]
        simp only [Wind.lin, z, dotR, subR]
        ring
      have hcm := Wind.lin_le hk1 ⟨dotR U (subR (valV c) m), dotR V (subR (valV c) m)⟩
      have hcn : ‖(⟨dotR U (subR (valV c) m), dotR V (subR (valV c) m)⟩ : ℂ)‖ ≤ 1 / 180 := by
        refine (Complex.norm_le_abs_re_add_abs_im _).trans ?_
        have d1 := dot_within hU hmn'
        have d2 := dot_within hV hmn'
        show |dotR U (subR (valV c) m)| + |dotR V (subR (valV c) m)| ≤ _
        unfold u at *; linarith
      refine ⟨dotR w U, dotR w V, hk1, ?_, ?_, ?_⟩
      · rw [hzx]
        have := (abs_le.1 (hcm.trans hcn)).2
        linarith
      · have := lin_sub' x y hxm hym
        have := hww y hym hyx
        linarith
      · have := lin_sub' x t hxm htm
        have := hww t htm htx
        linarith
    -- angles
    have hq0 : ∀ x ∈ xs, F32.val (Arith.dot (V3.sub (f x) c) va) ≠ 0 ∨ F32.val (Arith.dot (V3.sub (f x) c) ua) ≠ 0 := by
      intro x hxm
      obtain ⟨y, hym, hyx⟩ : ∃ y ∈ xs, y ≠ x := by
        by_contra hcon
        push Not at hcon
        have := (List.subperm_of_subset hndx (l₂ := [x]) (by
          intro y hy
          rw [hcon y hy]; simp)).length_le
        simp at this
        omega
      obtain ⟨k1, l1, hst⟩ := stick x hxm y hym y hym hyx hyx
      by_contra hcon
      push Not at hcon
      have e : q x = 0 := Complex.ext hcon.2 hcon.1
      have h1 := (hcoord x hxm).2.2.1
      have h3 := (Wind.lin_le hst.unit (q x - z x)).trans h1
      rw [Wind.lin_sub, e] at h3
      have h4 := (abs_le.1 h3).1
      have : Wind.lin k1 l1 0 = 0 := by simp [Wind.lin]
      have := hst.pos
      linarith
    have hang : ∀ x ∈ xs, isFin (faceAngle plane (V3.sub (f x) c)) ∧
        Wind.Seen (z x) (q x) (F32.val (faceAngle plane (V3.sub (f x) c))) := by
      intro x hxm
      obtain ⟨f1, f2, h1, h3⟩ := hcoord x hxm
      have e : faceAngle plane (V3.sub (f x) c) = F32Lib.atan2 (Arith.dot (V3.sub (f x) c) va) (Arith.dot (V3.sub (f x) c) ua) := by
        unfold faceAngle
        rw [hUd, hVd]
        rfl
      obtain ⟨g1, g2⟩ := AccurateAtan2.accurate _ _ f2 f1 (hq0 x hxm)
      rw [e]
      refine ⟨g1, h1, h3, fun _ => ?_⟩
      rcases g2 with g2 | ⟨g2, g3, g4⟩
      · exact .inl g2
      · exact .inr ⟨g4, Complex.arg_eq_pi_iff.2 ⟨g3, g2⟩⟩
    -- the order
    have hord : xs'.Pairwise fun a b => F32.val (faceAngle plane (V3.sub (f b) c)) ≤ F32.val (faceAngle plane (V3.sub (f a) c)) := by
      have hfr : ∀ r ∈ rel, isFin (faceAngle plane r) := by
        intro r hr
        rw [erel] at hr
        obtain ⟨x, hxm, rfl⟩ := List.mem_map.1 hr
        exact (hang x (hm x hxm)).1
      obtain ⟨c1, c2⟩ := lt_consistent (faceAngle plane) rel (.inr fun r hr => fin_not_nan ⟨hfr r hr, le_rfl⟩)
      have := hsort c1 c2
      rw [erel, List.pairwise_map] at this
      refine this.imp_of_mem ?_
      intro a b ha hb hab
      exact lt_false_val (hang a (hm a ha)).1 (hang b (hm b hb)).1 hab
    have o1 := List.pairwise_iff_getElem.1 hord i j hi1 hj1 hij
    have o2 := List.pairwise_iff_getElem.1 hord j k hj1 hk1 hjk
    have mi := hm _ (List.getElem_mem hi1)
    have mj := hm _ (List.getElem_mem hj1)
    have mk := hm _ (List.getElem_mem hk1)
    have neq : ∀ m m' (hm : m < xs'.length) (hm' : m' < xs'.length), m ≠ m' → xs'[m] ≠ xs'[m'] := by
      intro m m' hm hm' hne e
      exact hne ((List.Nodup.getElem_inj_iff hndx').1 e)
    have nij := neq i j hi1 hj1 (by omega)
    have nik := neq i k hi1 hk1 (by omega)
    have njk := neq j k hj1 hk1 (by omega)
    obtain ⟨_, _, s1⟩ := stick _ mi _ mj _ mk nij.symm nik.symm
    obtain ⟨_, _, s2⟩ := stick _ mj _ mi _ mk nij njk.symm
    obtain ⟨_, _, s3⟩ := stick _ mk _ mi _ mj nik njk
    have nz : ∀ {x y : V3 ℝ}, Close (1 / 2000) y x → ‖z y - z x‖ ≤ 1 / 500 := by
      intro x y hyx
      refine (Complex.norm_le_abs_re_add_abs_im _).trans ?_
      have e1 : (z y - z x).re = dotR U (subR y x) := by simp only [z, Complex.sub_re, dotR, subR]; ring
      have e2 : (z y - z x).im = dotR V (subR y x) := by simp only [z, Complex.sub_im, dotR, subR]; ring
      rw [e1, e2]
      have d1 := dot_within (v := subR y x) hU hyx
      have d2 := dot_within (v := subR y x) hV hyx
      linarith
    have ht := Wind.sorted_turn (hang _ mi).2 (hang _ mj).2 (hang _ mk).2 s1 s2 s3 o1 o2 (nz na) (nz nb) (nz nd)
    have e : dotR (crossR (subR b' a') (subR d' a')) N = Wind.area (z a') (z b') (z d') := by
      rw [frame_turn hU hnU, ← hVV]
      simp only [Wind.area, Wind.cr, z, dotR, subR]
      ring
    rw [e]
    exact ht
  have self : ∀ x : V3 ℝ, Close (1 / 2000) x x := fun x => by unfold Close; simp
  refine ⟨xs', hx2, ?_, ?_, ?_⟩
  · have h1 : List.Forall₂ (fun (p : V3 F32) (x : V3 ℝ) => Close (1 / 2000) (vec p) x) (geo.vertices.map (·.pos)) xs' := by
      rw [epos, List.forall₂_map_left_iff, List.forall₂_same]
      intro x hxm
      exact near x (hm x hxm)
    rwa [List.forall₂_map_left_iff] at h1
  · intro i j k a b d hij hjk hi hj hk
    exact key i j k a b d a b d hij hjk hi hj hk (self _) (self _) (self _)
  · intro i j k a b d hij hjk hi hj hk
    have e : (geo.vertices.map fun v => vec v.pos) = xs'.map fun x => vec (recentre c (f x)) := by
      have := congrArg (List.map vec) epos
      rwa [List.map_map, List.map_map] at this
    rw [e, List.getElem?_map] at hi hj hk
    obtain ⟨x, hxi, rfl⟩ := Option.map_eq_some_iff.1 hi
    obtain ⟨y, hyj, rfl⟩ := Option.map_eq_some_iff.1 hj
    obtain ⟨w, hwk, rfl⟩ := Option.map_eq_some_iff.1 hk
    exact key i j k x y w _ _ _ hij hjk hxi hyj hwk (near x (hm x (List.mem_of_getElem? hxi)))
      (near y (hm y (List.mem_of_getElem? hyj))) (near w (hm w (List.mem_of_getElem? hwk)))

/-- C118: then every triangle of the face is seen from outside. -/
theorem C118_facing (textures : TextureInfo) (entity : Entity F32) {planes : List (BrushPlane F32)} {plane : BrushPlane F32}
    {geo : PlaneGeo F32} (h : buildPlane textures entity planes plane = .ok geo) {g : Nat} (hg : g ≤ 20) {R : ℝ} (hR : 1 ≤ R)
    (hR' : R ≤ 64) (hp : ∀ p ∈ planes, NearFace g R p) (hpl : plane ∈ planes) (hn : planes.length ≤ 1024)
    (hc : ClearFace R (planes.map triOf) (triOf plane)) (hs : SimpleFace R planes plane) (xs : List (V3 ℝ))
    (hx : ∀ x, x ∈ xs ↔ TrueCorner R (planes.map triOf) (triOf plane) x) (ha : xs.Pairwise Apart) (hl : xs.length ≤ 256)
    (hsh : Sharp (1 / 32) xs) (t i j k : Nat) (a b c : Vertex F32)
    (hi : geo.indices[3 * t]? = some i) (hj : geo.indices[3 * t + 1]? = some j)
    (hk : geo.indices[3 * t + 2]? = some k) (hva : geo.vertices[i]? = some a) (hvb : geo.vertices[j]? = some b)
    (hvc : geo.vertices[k]? = some c) :
    dotR (crossR (subR (vec b.pos) (vec a.pos)) (subR (vec c.pos) (vec a.pos))) (triOf plane).normal < 0 := by
  obtain ⟨_, -, -, -, ht⟩ := C118_outline textures entity h hg hR hR' hp hpl hn hc hs xs hx ha hl hsh
  have hfan := C19_fan _ _ _ _ _ h
  have htl : t < geo.vertices.length - 2 := by
    have h1 := hfan.1
    have h2 := (List.getElem?_eq_some_iff.1 hk).1
    omega
  obtain ⟨e1, e2, e3⟩ := hfan.2 t htl
  rw [e1] at hi; rw [e2] at hj; rw [e3] at hk
  cases hi; cases hj; cases hk
  exact ht 0 (t + 1) (t + 2) _ _ _ (by omega) (by omega) (by rw [List.getElem?_map, hva]; rfl)
    (by rw [List.getElem?_map, hvb]; rfl) (by rw [List.getElem?_map, hvc]; rfl)

end
/-! ### examples -/

section

/-- A library whose arc tangent is the number nearest to the true angle. -/
@[reducible] noncomputable def arcLib : F32Lib where
  recip := false
  parse _ := none
  disp _ := []
  cos a := a
  atan2 y x := F32.ofReal (Complex.arg ⟨F32.val x, F32.val y⟩)
  rotate _ _ v := v
  rotate2 _ v := v

/-- The requirement on the arc tangent can be met. -/
theorem arcLib_accurate : @AccurateAtan2 arcLib := by
  let _ := arcLib
  refine ⟨fun y x _ _ _ => ?_⟩
  have hpi := Real.pi_lt_d2
  have ha := Complex.abs_arg_le_pi ⟨F32.val x, F32.val y⟩
  show isFin (F32.ofReal (Complex.arg ⟨F32.val x, F32.val y⟩)) ∧ (|F32.val (F32.ofReal (Complex.arg ⟨F32.val x, F32.val y⟩)) -
    Complex.arg ⟨F32.val x, F32.val y⟩| ≤ 1 / 2 ^ 21 ∨ _)
  generalize Complex.arg ⟨F32.val x, F32.val y⟩ = t at *
  have he := rnd_err (abs_nonneg t)
  have tl := Err.tiny_le
  have hr : |rnd (|t|) - (|t|)| ≤ 1 / 2 ^ 21 := by
    refine he.trans ?_
    unfold u at *
    linarith
  have hf : isFin (F32.ofReal t) := by
    refine ofAbs_fin.2 (rep_rnd (abs_nonneg t) ?_)
    have := (abs_le.1 hr).2
    have h128 : (10 : ℝ) < 2 ^ (128 : Int) := by norm_num
    linarith
  exact ⟨hf, .inl (by rw [ofReal_val hf]; exact hr)⟩

/-- The corners of the upper face of the bevelled block. -/
def upper : List (V3 ℝ) := [⟨(-16 : Int), (-16 : Int), (16 : Int)⟩, ⟨(-16 : Int), (16 : Int), (16 : Int)⟩,
  ⟨(16 : Int), (-16 : Int), (16 : Int)⟩, ⟨(16 : Int), (8 : Int), (16 : Int)⟩, ⟨(8 : Int), (16 : Int), (16 : Int)⟩]

theorem upper_sharp : Sharp (1 / 32) upper := by
  have len : ∀ {w : V3 ℝ}, dotR w w ≤ 1 → lenR w ≤ 1 := fun h => Real.sqrt_le_one.2 h
  intro x hx
  simp only [upper, List.mem_cons, List.not_mem_nil, or_false] at hx
  rcases hx with rfl | rfl | rfl | rfl | rfl
  · refine ⟨⟨-1 / 2, -1 / 2, 0⟩, len (by norm_num [dotR]), ?_⟩
    simp only [upper, List.mem_cons, List.not_mem_nil, or_false, forall_eq_or_imp, forall_eq]
    norm_num [dotR]
  · refine ⟨⟨-1 / 2, 1 / 2, 0⟩, len (by norm_num [dotR]), ?_⟩
    simp only [upper, List.mem_cons, List.not_mem_nil, or_false, forall_eq_or_imp, forall_eq]
    norm_num [dotR]
  · refine ⟨⟨1 / 2, -1 / 2, 0⟩, len (by norm_num [dotR]), ?_⟩
    simp only [upper, List.mem_cons, List.not_mem_nil, or_false, forall_eq_or_imp, forall_eq]
    norm_num [dotR]
  · refine ⟨⟨1 / 2, 1 / 4, 0⟩, len (by norm_num [dotR]), ?_⟩
    simp only [upper, List.mem_cons, List.not_mem_nil, or_false, forall_eq_or_imp, forall_eq]
    norm_num [dotR]
  · refine ⟨⟨1 / 4, 1 / 2, 0⟩, len (by norm_num [dotR]), ?_⟩
    simp only [upper, List.mem_cons, List.not_mem_nil, or_false, forall_eq_or_imp, forall_eq]
    norm_num [dotR]

/-- The five corners of the upper face of the bevelled block follow its outline. -/
example [F32Lib] [Platform] [AccurateAtan2] (textures : TextureInfo) (entity : Entity F32) (geo : PlaneGeo F32)
    (h : buildPlane textures entity (bevel.map singleFace) (singleFace (⟨-16, -16, 16⟩, ⟨-16, 16, 16⟩, ⟨16, -16, 16⟩)) = .ok geo) :
    geo.vertices.length = 5 ∧
      TurnsRight (intTri (⟨-16, -16, 16⟩, ⟨-16, 16, 16⟩, ⟨16, -16, 16⟩)).normal (geo.vertices.map fun v => vec v.pos) := by
  have hs : (⟨-16, -16, 16⟩, ⟨-16, 16, 16⟩, ⟨16, -16, 16⟩) ∈ bevel := by simp [bevel]
  have ht : ∀ t ∈ bevel, triOf (singleFace t) = intTri t := fun t h => single_tri (bevel_near.1 t h)
  have hm : (bevel.map singleFace).map triOf = bevel.map intTri := by
    rw [List.map_map]
    exact List.map_congr_left ht
  have he : exactCheck bevel (⟨-16, -16, 16⟩, ⟨-16, 16, 16⟩, ⟨16, -16, 16⟩)
    [⟨-16, -16, 16⟩, ⟨-16, 16, 16⟩, ⟨16, -16, 16⟩, ⟨16, 8, 16⟩, ⟨8, 16, 16⟩] = true := by decide
  have hc := bevel_clear _ hs
  obtain ⟨xs', h1, h2, -, h3⟩ := C118_outline textures entity h (g := 0) (R := ((28 : Int) : ℝ)) (by norm_num) (by norm_num)
    (by norm_num) bevel_near.2 (List.mem_map_of_mem hs) (by simp [bevel])
    (by rw [hm, ht _ hs]; exact clearCheck_true (by norm_num) (X := 60) (by norm_num) hc)
    (exactCheck_simple hc he ht hs) upper (fun x => by rw [hm, ht _ hs]; exact exactCheck_corners (by norm_num) hc he x)
    (by
      simp only [upper, List.pairwise_cons, List.mem_cons, List.not_mem_nil, or_false, forall_eq_or_imp, forall_eq, Apart]
      norm_num [abs_of_pos, abs_of_neg]) (by simp [upper]) upper_sharp
  rw [ht _ hs] at h3
  exact ⟨by rw [h2.length_eq, h1.length_eq]; rfl, h3⟩

end
end Quarch
