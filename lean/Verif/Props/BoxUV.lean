import Verif.Props.BoxWound
import Verif.Spec.BoxUV
/-
C115: texture coordinates and tangents of boxes on a grid.
-/
set_option linter.unusedSectionVars false
namespace Quarch.Spec.F32
open Classical

theorem nearest_best {x : ℝ} (h : 0 ≤ x) (n : Nat) : |(nearest x : ℝ) - x| ≤ |(n : ℝ) - x| := by
  have h1 := Nat.floor_le h
  have h2 := Nat.lt_floor_add_one x
  rcases le_or_gt n ⌊x⌋₊ with hn | hn
  · have hn' : (n : ℝ) ≤ ⌊x⌋₊ := by exact_mod_cast hn
    rw [abs_of_nonpos (show (n : ℝ) - x ≤ 0 by linarith)]
    unfold nearest
    split_ifs
    · rw [abs_of_nonpos (by linarith)]; linarith
    · push_cast; rw [abs_of_nonneg (by linarith)]; linarith
    · rw [abs_of_nonpos (by linarith)]; linarith
    · push_cast; rw [abs_of_nonneg (by linarith)]; linarith
  · have hn' : (⌊x⌋₊ : ℝ) + 1 ≤ n := by exact_mod_cast hn
    rw [abs_of_nonneg (show 0 ≤ (n : ℝ) - x by linarith)]
    unfold nearest
    split_ifs
    · rw [abs_of_nonpos (by linarith)]; linarith
    · push_cast; rw [abs_of_nonneg (by linarith)]; linarith
    · rw [abs_of_nonpos (by linarith)]; linarith
    · push_cast; rw [abs_of_nonneg (by linarith)]; linarith

theorem rnd_step {x : ℝ} (h : 0 ≤ x) (n : Nat) : |rnd x - x| ≤ |n * 2 ^ expo x - x| := by
  have hp : (0 : ℝ) < 2 ^ expo x := by positivity
  have e : ∀ m : ℝ, m * 2 ^ expo x - x = (m - x / 2 ^ expo x) * 2 ^ expo x := by intro m; field_simp
  unfold rnd
  rw [e, e, abs_mul, abs_mul]
  exact mul_le_mul_of_nonneg_right (nearest_best (div_nonneg h hp.le) n) (abs_nonneg _)

/-- Rounding gives a closest number of the format. -/
theorem rnd_nearest {x c : ℝ} (h : 0 ≤ x) (hc : Rep c) : |rnd x - x| ≤ |c - x| := by
  obtain ⟨m, e, hm, he, -, rfl⟩ := hc
  rcases le_or_gt (expo x) e with hle | hlt
  · obtain ⟨k, hk⟩ := Int.eq_ofNat_of_zero_le (show 0 ≤ e - expo x by omega)
    have := rnd_step h (m * 2 ^ k)
    rw [show e = (k : Int) + expo x by omega, zpow_add₀ (by norm_num), zpow_natCast]
    push_cast at this
    rwa [← mul_assoc]
  · have hne : expo x ≠ -149 := by omega
    rcases h.eq_or_lt with rfl | h0
    · rw [rnd_zero, sub_self, abs_zero]; exact abs_nonneg _
    have h1 := pow_expo_le h0 hne
    have h2 : (m : ℝ) * 2 ^ e ≤ 2 ^ (expo x + 23) := by
      have h3 : (2 : ℝ) ^ e ≤ 2 ^ (expo x - 1) := zpow_le_zpow_right₀ (by norm_num) (by omega)
      have h4 : (2 : ℝ) ^ (expo x + 23) = 2 ^ 24 * 2 ^ (expo x - 1) := by
        rw [← zpow_natCast, ← zpow_add₀ (by norm_num)]; congr 1; push_cast; omega
      have h5 : (m : ℝ) ≤ 2 ^ 24 := by exact_mod_cast hm.le
      rw [h4]
      exact mul_le_mul h5 h3 (by positivity) (by positivity)
    have h6 := rnd_step h (2 ^ 23)
    have h7 : ((2 ^ 23 : Nat) : ℝ) * 2 ^ expo x = 2 ^ (expo x + 23) := by
      rw [zpow_add₀ (by norm_num)]; push_cast; norm_num; ring
    rw [h7, abs_of_nonpos (show (2 : ℝ) ^ (expo x + 23) - x ≤ 0 by linarith)] at h6
    rw [abs_of_nonpos (show (m : ℝ) * 2 ^ e - x ≤ 0 by linarith)]
    linarith

theorem ofReal_nearest {x : ℝ} (h : |x| ≤ large) : Nearest (ofReal x) x := by
  have hf : isFin (ofReal x) := ofAbs_fin.2 (rep_of_le (abs_nonneg x) h)
  refine ⟨hf, fun c hc => ?_⟩
  rw [ofReal_val hf]
  exact (rnd_nearest (abs_nonneg x) hc).trans (abs_abs_sub_abs_le_abs_sub c x)

variable [F32Lib]

theorem add_nearest {a b : F32} (ha : isFin a) (hb : isFin b) (h : |F32.val a + F32.val b| ≤ large) :
    Nearest (add a b) (F32.val a + F32.val b) := by
  rcases a with _ | _ | ⟨s, a, ra⟩ <;> rcases b with _ | _ | ⟨t, b, rb⟩ <;> simp only [isFin] at ha hb
  simp only [F32.val, add] at h ⊢
  split_ifs with hz
  · refine ⟨trivial, fun c _ => ?_⟩
    rw [hz]
    cases s <;> cases t <;> simp [F32.val, sv]
  · exact ofReal_nearest h

theorem div_exact {a b : F32} (ha : isFin a) (hb : isFin b) (h0 : F32.val b ≠ 0) (h : Rep |F32.val a / F32.val b|) :
    isFin (div a b) ∧ F32.val (div a b) = F32.val a / F32.val b := by
  rcases a with _ | _ | ⟨s, a, ra⟩ <;> rcases b with _ | _ | ⟨t, b, rb⟩ <;> simp only [isFin] at ha hb
  simp only [F32.val] at h h0 ⊢
  have hb0 : b ≠ 0 := fun h1 => h0 (by rw [h1]; cases t <;> simp [sv])
  rw [sv_div, sv_abs _ (div_nonneg (rep_nonneg ra) (rep_nonneg rb))] at h
  simp only [div, if_neg hb0]
  rw [sv_div]
  exact ofAbs_rep h

theorem nearest_exact {a : F32} {x : ℝ} (h : Nearest a x) (hr : Rep |x|) : F32.val a = x := by
  have := h.2 x hr
  rw [sub_self, abs_zero] at this
  exact sub_eq_zero.1 (abs_eq_zero.1 (le_antisymm this (abs_nonneg _)))

theorem radians_zero {a : F32} (ha : isFin a) (h : F32.val a = 0) :
    isFin (Arith.toRadians a) ∧ F32.val (Arith.toRadians a) = 0 := by
  have hp : isFin (ofReal Real.pi) := ofAbs_fin.2 (rep_of_le (abs_nonneg _) (by
    rw [abs_of_pos Real.pi_pos]
    have := Real.pi_le_four
    unfold large; norm_num; linarith))
  have hn : |F32.val (ofReal Real.pi)| ≤ 8 := by
    have h1 := (ofReal_nearest (x := Real.pi) (by
      rw [abs_of_pos Real.pi_pos]
      have := Real.pi_le_four
      unfold large; norm_num; linarith)).2 0 (by simpa using rep_zero)
    have h2 := Real.pi_le_four
    have h3 := Real.pi_pos
    rw [zero_sub, abs_neg, abs_of_pos h3] at h1
    have := abs_le.1 h1
    rw [abs_le]; constructor <;> linarith
  have hd : Is (ofReal ((180 : Int) : ℝ)) 180 := is_ofReal (by norm_num)
  have h180 : Is (ofReal (180 : ℝ)) 180 := by simpa using hd
  have hdiv : isFin (div (ofReal Real.pi) (ofReal 180)) := by
    obtain ⟨fd, vd, -⟩ := h180
    rcases h1 : ofReal Real.pi with _ | _ | ⟨s, x, rx⟩ <;> rw [h1] at hp hn <;> simp only [isFin] at hp
    rcases h2 : ofReal (180 : ℝ) with _ | _ | ⟨t, y, ry⟩ <;> rw [h2] at fd vd <;> simp only [isFin] at fd
    have hy : |sv t y| = 180 := by
      rw [show sv t y = ((180 : Int) : ℝ) from vd]; norm_num
    rw [sv_abs _ (rep_nonneg ry)] at hy
    have hx : x ≤ 8 := by simpa [F32.val, sv_abs _ (rep_nonneg rx)] using hn
    have hx0 := rep_nonneg rx
    simp only [div, hy, show (180 : ℝ) ≠ 0 by norm_num, if_false]
    refine ofAbs_fin.2 (rep_of_le (by positivity) ?_)
    unfold large
    have : x / 180 ≤ 1 := by rw [div_le_one (by norm_num)]; linarith
    refine this.trans ?_
    norm_num
  show isFin (mul a (div (ofReal Real.pi) (ofReal 180))) ∧ F32.val (mul a (div (ofReal Real.pi) (ofReal 180))) = 0
  generalize div (ofReal Real.pi) (ofReal 180) = c at hdiv
  rcases a with _ | _ | ⟨s, a, ra⟩ <;> rcases c with _ | _ | ⟨t, c, rc⟩ <;> simp only [isFin] at ha hdiv
  have ha0 : a = 0 := by
    have : sv s a = 0 := h
    cases s <;> simpa [sv] using this
  simp only [mul, ha0, zero_mul]
  have := ofAbs_rep (s := xor s t) rep_zero
  refine ⟨this.1, this.2.trans ?_⟩
  cases xor s t <;> simp [sv]

end Quarch.Spec.F32

namespace Quarch
open Quarch.Spec Quarch.Spec.F32 Quarch.Geo Quarch.Spec.Box

section
variable [F32Lib]

theorem size_is {w : Nat} (h : PowerSize w) :
    ∃ i ≤ 20, (w : ℝ) = 2 ^ i ∧ F32.isFin (Arith.ofNat w : F32) ∧ F32.val (Arith.ofNat w : F32) = 2 ^ i := by
  obtain ⟨i, hi, rfl⟩ := h
  have := ofNat_is (k := 2 ^ i) (Nat.pow_lt_pow_right (by norm_num) (by omega))
  refine ⟨i, hi, by push_cast; rfl, this.fin, ?_⟩
  rw [this.val]; simp

theorem rep_pow {n : Int} {e : Int} {x : ℝ} (hx : |x| = |(n : ℝ)| * 2 ^ e) (hn : n.natAbs < 2 ^ 24) (ge : -149 ≤ e)
    (le : e ≤ 104) : Rep |x| := by
  have := rep_grid hn ge le
  rwa [abs_mul, abs_of_pos (show (0 : ℝ) < 2 ^ e by positivity), ← hx] at this

theorem ordinary_div {o : F32} (ho : Ordinary o) {i : Nat} (hi : i ≤ 20) : Rep |F32.val o / 2 ^ i| := by
  obtain ⟨hf, h1, -⟩ := ho
  rcases h1 with h1 | h1
  · rw [h1]; simpa using rep_zero
  rcases o with _ | _ | ⟨s, a, ra⟩ <;> simp only [isFin] at hf
  simp only [F32.val] at h1 ⊢
  rw [sv_abs _ (rep_nonneg ra)] at h1
  obtain ⟨m, e, hm, he, he', ha⟩ := ra
  have hlow : -84 < e := by
    have : (m : ℝ) < 2 ^ 24 := by exact_mod_cast hm
    have h2 : (2 : ℝ) ^ (-60 : Int) < 2 ^ (24 + e) := by
      rw [zpow_add₀ (by norm_num)]
      have hp : (0 : ℝ) < 2 ^ e := by positivity
      refine h1.trans_lt ?_
      rw [ha]
      have e24 : (2 : ℝ) ^ (24 : Int) = 2 ^ 24 := by norm_num
      rw [e24]
      exact mul_lt_mul_of_pos_right this hp
    have := (zpow_lt_zpow_iff_right₀ (show (1 : ℝ) < 2 by norm_num)).1 h2
    omega
  refine rep_pow (n := m) (e := e - i) ?_ (by simpa using hm) (by omega) (by omega)
  rw [abs_div, sv_abs _ (by rw [ha]; positivity), abs_of_pos (show (0 : ℝ) < 2 ^ i by positivity), ha,
    zpow_sub₀ (by norm_num), zpow_natCast]
  simp [mul_div_assoc]

/-- One coordinate: a single rounding. -/
theorem coord_nearest {g : Nat} (hg : g ≤ 30) {c s o : F32} {x : Int} (hc : IsG (-(g : Int)) c x) {w : Nat}
    (hw : PowerSize w) (hs : PowerScale s) (ho : Ordinary o) (hx : x.natAbs ≤ 2 ^ 20) :
    Nearest (F32.add (F32.div (F32.div c (Arith.ofNat w)) s) (F32.div o (Arith.ofNat w)))
      (texel w (F32.val s) (F32.val o) (F32.val c)) := by
  obtain ⟨i, hi, hwi, fw, vw⟩ := size_is hw
  obtain ⟨fs, k, k1, k2, hk⟩ := hs
  have hpi : (2 : ℝ) ^ i ≠ 0 := by positivity
  have hs0 : F32.val s ≠ 0 := by
    intro h; rw [h, abs_zero] at hk
    have : (0 : ℝ) < 2 ^ k := by positivity
    linarith
  have hcs := hc.small
  have hc2 : |F32.val c| = |(x : ℝ)| * 2 ^ (-(g : Int)) := by
    rw [hc.val, abs_mul, abs_of_pos (show (0 : ℝ) < 2 ^ (-(g : Int)) by positivity)]
  have hc1 : |F32.val c / 2 ^ i| = |(x : ℝ)| * 2 ^ (-(g : Int) - i) := by
    rw [abs_div, hc2, abs_of_pos (show (0 : ℝ) < 2 ^ i by positivity), zpow_sub₀ (by norm_num), zpow_natCast,
      mul_div_assoc]
  obtain ⟨f1, v1⟩ := div_exact hc.fin fw (by rw [vw]; exact hpi)
    (by rw [vw]; exact rep_pow hc1 hcs (by omega) (by omega))
  have hc3 : |F32.val (F32.div c (Arith.ofNat w)) / F32.val s| = |(x : ℝ)| * 2 ^ (-(g : Int) - i - k) := by
    rw [v1, vw, abs_div, hc1, hk, zpow_sub₀ (a := (2 : ℝ)) (by norm_num) (-(g : Int) - i) k, mul_div_assoc]
  obtain ⟨f2, v2⟩ := div_exact f1 fs hs0 (rep_pow hc3 hcs (by omega) (by omega))
  obtain ⟨f3, v3⟩ := div_exact ho.1 fw (by rw [vw]; exact hpi) (by rw [vw]; exact ordinary_div ho hi)
  have e : texel w (F32.val s) (F32.val o) (F32.val c) =
      F32.val (F32.div (F32.div c (Arith.ofNat w)) s) + F32.val (F32.div o (Arith.ofNat w)) := by
    rw [v2, v3, v1, vw, texel, hwi, div_div]
  rw [e]
  refine add_nearest f2 f3 ((abs_add_le _ _).trans ?_)
  rw [v2, hc3, v3, vw, abs_div, abs_of_pos (show (0 : ℝ) < 2 ^ i by positivity)]
  have b1 : |(x : ℝ)| ≤ 2 ^ 20 := by
    rw [← Int.cast_abs, ← Int.natCast_natAbs]; exact_mod_cast hx
  have b2 : (2 : ℝ) ^ (-(g : Int) - i - k) ≤ 2 ^ (20 : Int) := zpow_le_zpow_right₀ (by norm_num) (by omega)
  have b3 : |F32.val o| / 2 ^ i ≤ 2 ^ 60 :=
    (div_le_self (abs_nonneg _) (one_le_pow₀ (by norm_num))).trans ho.2.2
  have b4 : |(x : ℝ)| * 2 ^ (-(g : Int) - i - k) ≤ 2 ^ 20 * 2 ^ (20 : Int) :=
    mul_le_mul b1 b2 (by positivity) (by positivity)
  refine (add_le_add b4 b3).trans ?_
  unfold large; norm_num

/-- With offsets on the grid the coordinate is a number of the format. -/
theorem coord_rep {g : Nat} (hg : g ≤ 30) {c s o : F32} {x : Int} (hc : IsG (-(g : Int)) c x) {w : Nat}
    (hw : PowerSize w) (hs : PowerScale s) (ho : StepOffset g s o) (hx : x.natAbs ≤ 2 ^ 20) :
    Rep |texel w (F32.val s) (F32.val o) (F32.val c)| := by
  obtain ⟨i, hi, hwi, -, -⟩ := size_is hw
  obtain ⟨fs, k, k1, k2, hk⟩ := hs
  obtain ⟨m, hm, ho⟩ := ho
  have hs0 : F32.val s ≠ 0 := by
    intro h; rw [h, abs_zero] at hk
    have : (0 : ℝ) < 2 ^ k := by positivity
    linarith
  have e : texel w (F32.val s) (F32.val o) (F32.val c) = ((x + m : Int) : ℝ) / (2 ^ g * 2 ^ i * F32.val s) := by
    have hp : (2 : ℝ) ^ g ≠ 0 := by positivity
    have hq : (2 : ℝ) ^ i ≠ 0 := by positivity
    rw [texel, hwi, hc.val, zpow_neg, zpow_natCast]
    push_cast
    rw [← ho]
    field_simp
  refine rep_pow (n := x + m) (e := -(g : Int) - i - k) ?_ (by omega) (by omega) (by omega)
  rw [e, abs_div, abs_mul, hk, abs_of_pos (show (0 : ℝ) < 2 ^ g * 2 ^ i by positivity), zpow_sub₀ (by norm_num),
    zpow_sub₀ (by norm_num), zpow_neg, zpow_natCast, zpow_natCast]
  field_simp

variable {b : GridBox} {planes : List (BrushPlane F32)} {plane : BrushPlane F32} {a : Axis} {up : Bool}

theorem recentre_rect {x c : V3 F32} {n : V3 Int} (hx : IsGV (-(b.g : Int)) x n) (hn : n ∈ b.rect a up)
    (hc : IsGV (-(b.g : Int) - 1) c (mid b a up)) : vec (recentre c x) = b.point n := by
  have hg := b.fine
  obtain ⟨h1, h2, h3⟩ := rect_bnd hn
  obtain ⟨m1, m2, m3⟩ := mid_bnd b a up
  have hd := isGV_double hx ⟨h1.trans (by norm_num), h2.trans (by norm_num), h3.trans (by norm_num)⟩ (by omega)
  have hs := isGV_sub hd hc (by simp only; omega) (by simp only; omega) (by simp only; omega)
  have ha := isGV_add hs hc (by simp only; omega) (by simp only; omega) (by simp only; omega)
  exact grid_point (by simpa [recentre] using ha)

variable [Platform]

/-- Where the attributes of a corner come from. -/
theorem corner_from (textures : TextureInfo) (entity : Entity F32) (hb : b.IsBrush planes)
    (hp : IsSide b.g a up (b.side a up) plane) :
    ∃ geo, buildPlane textures entity planes plane = .ok geo ∧ ∀ v ∈ geo.vertices, ∃ w n,
      n ∈ b.rect a up ∧ IsGV (-(b.g : Int)) w n ∧ vec v.pos = b.point n ∧ vec w = b.point n ∧
      vertexTangent plane = .ok v.tangent ∧
      ∀ tx, textures plane.texture = some tx → ∃ uv, vertexUV w plane tx = .ok uv ∧ v.uv = some uv := by
  obtain ⟨geo, h, -, hc⟩ := face_grid textures entity hb hp
  refine ⟨geo, h, fun v hv => ?_⟩
  obtain ⟨w, hw, rfl⟩ := buildPlane_vertex h hv
  obtain ⟨p1, m1, p2, m2, hm, -⟩ := hw.src
  obtain ⟨n, hn, hg⟩ := found_rect hb hp ⟨⟨p1, m1, p2, m2, hm⟩, hw.hull⟩
  refine ⟨w.pos, n, hn, hg, recentre_rect hg hn hc, ?_, ?_, ?_⟩
  · rw [grid_val hg, zpow_neg, zpow_natCast]
    simp [GridBox.point, div_eq_mul_inv]
  · simpa using hw.tangent
  · intro tx htx
    obtain ⟨uv, h1, h2⟩ := hw.uv.2 tx htx
    exact ⟨uv, h1, by simpa using h2⟩

theorem grid_abs {e : Int} {c : F32} {z : Int} (h : IsG e c z) : IsG e (Arith.abs c) |z| := by
  refine ⟨(abs_fin c).2 h.fin, (abs_val c).trans ?_, ?_, h.ge, h.le⟩
  · rw [h.val, abs_mul, abs_of_pos (show (0 : ℝ) < 2 ^ e by positivity), Int.cast_abs]
  · rw [Int.natAbs_abs]; exact h.small

theorem grid_le {e : Int} {c d : F32} {z w : Int} (hc : IsG e c z) (hd : IsG e d w) :
    Arith.le c d = true ↔ z ≤ w := by
  have := Rounding.le_val c d hc.fin hd.fin
  rw [this]
  change F32.val c ≤ F32.val d ↔ _
  rw [hc.val, hd.val, mul_le_mul_iff_left₀ (by positivity), Int.cast_le]

theorem grid_signum {e : Int} {c : F32} {z : Int} (h : IsG e c z) (hz : z ≠ 0) :
    IsG 0 (Arith.signum c) (if 0 < z then 1 else -1) := by
  obtain ⟨fc, vc, -, -, -⟩ := h
  rcases c with _ | _ | ⟨s, c, rc⟩ <;> simp only [isFin] at fc
  have hp : (0 : ℝ) < 2 ^ e := by positivity
  have hc := rep_nonneg rc
  have hs : s = decide (¬ 0 < z) := by
    have hv : sv s c = z * 2 ^ e := vc
    rcases lt_or_gt_of_ne hz with h | h
    · have h1 : (z : ℝ) * 2 ^ e < 0 := mul_neg_of_neg_of_pos (by exact_mod_cast h) hp
      cases s
      · simp only [sv, Bool.false_eq_true, if_false] at hv; linarith
      · simp; omega
    · have h1 : 0 < (z : ℝ) * 2 ^ e := mul_pos (by exact_mod_cast h) hp
      cases s
      · simp [h]
      · simp only [sv, if_true] at hv; linarith
  subst hs
  refine ⟨trivial, ?_, by split_ifs <;> simp, by norm_num, by norm_num⟩
  show sv _ (1 : ℝ) = _
  split_ifs with h <;> simp [sv, h]

/-- The three products by which the plane of projection is chosen. -/
theorem side_dots {e c : Int} (h : Face e a up c plane) :
    IsG 0 (Arith.dot plane.normal upVector) (nrm a up).z ∧ IsG 0 (Arith.dot plane.normal rightVector) (nrm a up).y ∧
      IsG 0 (Arith.dot plane.normal forwardVector) (nrm a up).x := by
  have z0 : IsG 0 (Arith.zero : F32) 0 := isG_zero (by norm_num) (by norm_num)
  have o1 : IsG 0 (Arith.one : F32) 1 := isG_of_is is_one
  have hn : IsGV 0 plane.normal (nrm a up) := h.normal
  have key : ∀ (w : V3 F32) (n : V3 Int), IsGV 0 w n → Bnd 1 n →
      IsG 0 (Arith.dot plane.normal w) ((nrm a up).x * n.x + (nrm a up).y * n.y + (nrm a up).z * n.z) :=
    fun w n hw hb => isG_dot hn hw (nrm_bnd _ _) hb (by norm_num) (by norm_num) (by norm_num)
  have h1 := key upVector ⟨0, 0, 1⟩ ⟨z0, z0, o1⟩ (by simp [Bnd])
  have h2 := key rightVector ⟨0, 1, 0⟩ ⟨z0, o1, z0⟩ (by simp [Bnd])
  have h3 := key forwardVector ⟨1, 0, 0⟩ ⟨o1, z0, z0⟩ (by simp [Bnd])
  simp only [mul_zero, mul_one, zero_add, add_zero] at h1 h2 h3
  exact ⟨h1, h2, h3⟩

/-- The projected position. -/
noncomputable def planarF (a : Axis) (x : V3 F32) : V2 F32 :=
  match a with
  | .z => ⟨x.x, Arith.neg x.y⟩
  | .y => ⟨x.x, Arith.neg x.z⟩
  | .x => ⟨x.y, Arith.neg x.z⟩

theorem side_uv {e c : Int} (h : Face e a up c plane) (x : V3 F32) (tx : Texture) (u v : F32) :
    standardUV x plane tx u v = .ok (V2.add (V2.div (V2.div (Arith.rotate2 (Arith.toRadians plane.rotation)
      (planarF a x)) tx.size) plane.scale) (V2.div ⟨u, v⟩ tx.size)) := by
  obtain ⟨h1, h2, h3⟩ := side_dots h
  have a1 := grid_abs h1; have a2 := grid_abs h2; have a3 := grid_abs h3
  unfold standardUV
  simp only [Bool.and_eq_true, grid_le a1 a2, grid_le a1 a3, grid_le a2 a1, grid_le a2 a3, grid_le a3 a1, grid_le a3 a2]
  cases a <;> cases up <;> simp [nrm, sgn, planarF]

theorem side_tangent {e c : Int} (h : Face e a up c plane) (u v : F32) (hq : plane.uv = .quake u v) :
    ∃ s t, IsG 0 s (match a with | .y => -sgn up | _ => sgn up) ∧
      IsGV 0 t (match a with | .x => ⟨0, 1, 0⟩ | _ => ⟨1, 0, 0⟩) ∧
      vertexTangent plane = .ok (Arith.rotate plane.normal (Arith.mul (Arith.neg (Arith.toRadians plane.rotation)) s) t,
        Arith.mul s (Arith.signum plane.scale.y)) := by
  have z0 : IsG 0 (Arith.zero : F32) 0 := isG_zero (by norm_num) (by norm_num)
  have o1 : IsG 0 (Arith.one : F32) 1 := isG_of_is is_one
  obtain ⟨h1, h2, h3⟩ := side_dots h
  have a1 := grid_abs h1; have a2 := grid_abs h2; have a3 := grid_abs h3
  unfold vertexTangent
  rw [hq]
  unfold standardTangent
  simp only [Bool.and_eq_true, grid_le a1 a2, grid_le a1 a3, grid_le a2 a1, grid_le a2 a3, grid_le a3 a1, grid_le a3 a2]
  cases a
  · refine ⟨Arith.signum (Arith.dot plane.normal forwardVector), rightVector, ?_, ⟨z0, o1, z0⟩, ?_⟩
    · have := grid_signum h3 (by cases up <;> simp [nrm, sgn])
      cases up <;> simpa [nrm, sgn] using this
    · cases up <;> simp [nrm, sgn]
  · refine ⟨Arith.neg (Arith.signum (Arith.dot plane.normal rightVector)), forwardVector, ?_, ⟨o1, z0, z0⟩, ?_⟩
    · have := isG_neg (grid_signum h2 (by cases up <;> simp [nrm, sgn]))
      show IsG 0 (F32.neg (Arith.signum (Arith.dot plane.normal rightVector))) _
      cases up <;> simpa [nrm, sgn] using this
    · cases up <;> simp [nrm, sgn]
  · refine ⟨Arith.signum (Arith.dot plane.normal upVector), forwardVector, ?_, ⟨o1, z0, z0⟩, ?_⟩
    · have := grid_signum h1 (by cases up <;> simp [nrm, sgn])
      cases up <;> simpa [nrm, sgn] using this
    · cases up <;> simp [nrm, sgn]

/-- Both coordinates of a corner, given the position on the texture. -/
theorem uv_nearest {tx : Texture} (hl : PowerLayout tx plane) {x : V2 F32} {n m : Int}
    (hx : IsG (-(b.g : Int)) x.x n) (hy : IsG (-(b.g : Int)) x.y m) (hn : n.natAbs ≤ 2 ^ 20) (hm : m.natAbs ≤ 2 ^ 20)
    {u v : F32} (hu : Ordinary u) (hv : Ordinary v) :
    Nearest (V2.add (V2.div (V2.div x tx.size) plane.scale) (V2.div ⟨u, v⟩ tx.size)).x
        (texel tx.width (F32.val plane.scale.x) (F32.val u) (F32.val x.x)) ∧
      Nearest (V2.add (V2.div (V2.div x tx.size) plane.scale) (V2.div ⟨u, v⟩ tx.size)).y
        (texel tx.height (F32.val plane.scale.y) (F32.val v) (F32.val x.y)) ∧
      (StepOffset b.g plane.scale.x u → Rep |texel tx.width (F32.val plane.scale.x) (F32.val u) (F32.val x.x)|) ∧
      (StepOffset b.g plane.scale.y v → Rep |texel tx.height (F32.val plane.scale.y) (F32.val v) (F32.val x.y)|) :=
  ⟨coord_nearest b.fine hx hl.width hl.x hu hn, coord_nearest b.fine hy hl.height hl.y hv hm,
    fun h => coord_rep b.fine hx hl.width hl.x h hn, fun h => coord_rep b.fine hy hl.height hl.y h hm⟩

/-- C115: a side of a box on the grid without texture axes of its own and without rotation. Its texture coordinates
are the exact ones, rounded once; they are exact if the offset is on the grid too. -/
theorem C115_standard [ZeroTurn] (textures : TextureInfo) (entity : Entity F32) (planes : List (BrushPlane F32))
    (plane : BrushPlane F32) (b : GridBox) (hb : b.IsBrush planes) (a : Axis) (up : Bool)
    (hp : IsSide b.g a up (b.side a up) plane) (tx : Texture) (htx : textures plane.texture = some tx)
    (hl : PowerLayout tx plane) (u v : F32) (huv : plane.uv = .quake u v) (hu : Ordinary u) (hv : Ordinary v)
    (hr : F32.isFin plane.rotation ∧ F32.val plane.rotation = 0) :
    ∃ geo, buildPlane textures entity planes plane = .ok geo ∧ ∀ w ∈ geo.vertices, ∃ uv, w.uv = some uv ∧
      Nearest uv.x (texel tx.width (F32.val plane.scale.x) (F32.val u) (planar a (vec w.pos)).x) ∧
      Nearest uv.y (texel tx.height (F32.val plane.scale.y) (F32.val v) (planar a (vec w.pos)).y) ∧
      (StepOffset b.g plane.scale.x u →
        F32.val uv.x = texel tx.width (F32.val plane.scale.x) (F32.val u) (planar a (vec w.pos)).x) ∧
      (StepOffset b.g plane.scale.y v →
        F32.val uv.y = texel tx.height (F32.val plane.scale.y) (F32.val v) (planar a (vec w.pos)).y) := by
  obtain ⟨geo, h, hc⟩ := corner_from textures entity hb hp
  refine ⟨geo, h, fun w hw => ?_⟩
  obtain ⟨x, n, hn, hx, hpos, hxn, -, huvs⟩ := hc w hw
  obtain ⟨uv, h1, h2⟩ := huvs tx htx
  refine ⟨uv, h2, ?_⟩
  unfold vertexUV at h1
  rw [huv] at h1
  simp only at h1
  rw [side_uv (side_face b.fine hp)] at h1
  cases Outcome.ok.inj h1
  obtain ⟨b1, b2, b3⟩ := rect_bnd hn
  have hpl : ∃ i j : Int, IsG (-(b.g : Int)) (planarF a x).x i ∧ IsG (-(b.g : Int)) (planarF a x).y j ∧
      i.natAbs ≤ 2 ^ 20 ∧ j.natAbs ≤ 2 ^ 20 := by
    cases a
    · exact ⟨_, _, hx.y, isG_neg hx.z, b2, by rwa [Int.natAbs_neg]⟩
    · exact ⟨_, _, hx.x, isG_neg hx.z, b1, by rwa [Int.natAbs_neg]⟩
    · exact ⟨_, _, hx.x, isG_neg hx.y, b1, by rwa [Int.natAbs_neg]⟩
  obtain ⟨i, j, hi, hj, bi, bj⟩ := hpl
  obtain ⟨r1, r2⟩ := radians_zero hr.1 hr.2
  obtain ⟨⟨f1, v1⟩, f2, v2⟩ := ZeroTurn.turn2 _ (planarF a x) r1 r2 hi.fin hj.fin
  have hi' : IsG (-(b.g : Int)) (Arith.rotate2 (Arith.toRadians plane.rotation) (planarF a x)).x i :=
    ⟨f1, v1.trans hi.val, hi.small, hi.ge, hi.le⟩
  have hj' : IsG (-(b.g : Int)) (Arith.rotate2 (Arith.toRadians plane.rotation) (planarF a x)).y j :=
    ⟨f2, v2.trans hj.val, hj.small, hj.ge, hj.le⟩
  have e1 : F32.val (Arith.rotate2 (Arith.toRadians plane.rotation) (planarF a x)).x = (planar a (vec w.pos)).x := by
    refine v1.trans ?_
    rw [hpos, ← hxn]
    cases a <;> rfl
  have e2 : F32.val (Arith.rotate2 (Arith.toRadians plane.rotation) (planarF a x)).y = (planar a (vec w.pos)).y := by
    refine v2.trans ?_
    rw [hpos, ← hxn]
    cases a <;> exact neg_val _
  obtain ⟨k1, k2, k3, k4⟩ := uv_nearest hl hi' hj' bi bj hu hv
  rw [e1] at k1 k3
  rw [e2] at k2 k4
  exact ⟨k1, k2, fun h => nearest_exact k1 (k3 h), fun h => nearest_exact k2 (k4 h)⟩

theorem axisVec_isGV {t : V3 F32} {d : Axis} {s : Bool} (h : AxisVec t d s) : IsGV 0 t (nrm d s) := by
  obtain ⟨⟨f1, f2, f3⟩, hv⟩ := h
  have key : ∀ {c : F32} {z : Int}, isFin c → F32.val c = z → z.natAbs ≤ 1 → IsG 0 c z := fun hf hv hz =>
    ⟨hf, by rw [hv]; simp, by omega, by norm_num, by norm_num⟩
  have hb := nrm_bnd d s
  unfold vec at hv
  refine ⟨key f1 ?_ hb.1, key f2 ?_ hb.2.1, key f3 ?_ hb.2.2⟩
  · rw [show F32.val t.x = (outward d s).x by rw [← hv]]; cases d <;> cases s <;> simp [outward, nrm, sgn]
  · rw [show F32.val t.y = (outward d s).y by rw [← hv]]; cases d <;> cases s <;> simp [outward, nrm, sgn]
  · rw [show F32.val t.z = (outward d s).z by rw [← hv]]; cases d <;> cases s <;> simp [outward, nrm, sgn]

theorem axis_dot {t x : V3 F32} {d : Axis} {s : Bool} {n : V3 Int} (h : AxisVec t d s) {g : Nat} (hg : g ≤ 30)
    (hx : IsGV (-(g : Int)) x n) (hn : Bnd (2 ^ 20) n) :
    IsG (-(g : Int)) (Arith.dot t x) (sgn s * d.of n) ∧ F32.val (Arith.dot t x) = dotR (outward d s) (vec x) ∧
      (sgn s * d.of n).natAbs ≤ 2 ^ 20 := by
  have hd := isG_dot (axisVec_isGV h) hx (nrm_bnd _ _) hn (by norm_num) (by omega) (by omega)
  have e := nrm_dot d s n
  unfold idot at e
  rw [e, zero_add] at hd
  refine ⟨hd, ?_, ?_⟩
  · rw [hd.val]
    unfold vec
    rw [hx.x.val, hx.y.val, hx.z.val]
    cases d <;> cases s <;> simp [dotR, outward, sgn, Axis.of]
  · obtain ⟨h1, h2, h3⟩ := hn
    cases d <;> cases s <;> simpa [sgn, Axis.of] using by assumption

/-- C115: a side of a box on the grid with texture axes along the axes of the grid. -/
theorem C115_valve (textures : TextureInfo) (entity : Entity F32) (planes : List (BrushPlane F32))
    (plane : BrushPlane F32) (b : GridBox) (hb : b.IsBrush planes) (a : Axis) (up : Bool)
    (hp : IsSide b.g a up (b.side a up) plane) (tx : Texture) (htx : textures plane.texture = some tx)
    (hl : PowerLayout tx plane) (uAxis vAxis : V3 F32) (u v : F32) (huv : plane.uv = .valve uAxis u vAxis v)
    (du dv : Axis) (su sv : Bool) (hu : AxisVec uAxis du su) (hv : AxisVec vAxis dv sv) (ou : Ordinary u)
    (ov : Ordinary v) :
    ∃ geo, buildPlane textures entity planes plane = .ok geo ∧ ∀ w ∈ geo.vertices, ∃ uv, w.uv = some uv ∧
      Nearest uv.x (texel tx.width (F32.val plane.scale.x) (F32.val u) (dotR (outward du su) (vec w.pos))) ∧
      Nearest uv.y (texel tx.height (F32.val plane.scale.y) (F32.val v) (dotR (outward dv sv) (vec w.pos))) ∧
      (StepOffset b.g plane.scale.x u →
        F32.val uv.x = texel tx.width (F32.val plane.scale.x) (F32.val u) (dotR (outward du su) (vec w.pos))) ∧
      (StepOffset b.g plane.scale.y v →
        F32.val uv.y = texel tx.height (F32.val plane.scale.y) (F32.val v) (dotR (outward dv sv) (vec w.pos))) := by
  obtain ⟨geo, h, hc⟩ := corner_from textures entity hb hp
  refine ⟨geo, h, fun w hw => ?_⟩
  obtain ⟨x, n, hn, hx, hpos, hxn, -, huvs⟩ := hc w hw
  obtain ⟨uv, h1, h2⟩ := huvs tx htx
  refine ⟨uv, h2, ?_⟩
  unfold vertexUV at h1
  rw [huv] at h1
  cases Outcome.ok.inj h1
  have hbn := rect_bnd hn
  obtain ⟨i1, i2, i3⟩ := axis_dot hu b.fine hx hbn
  obtain ⟨j1, j2, j3⟩ := axis_dot hv b.fine hx hbn
  obtain ⟨k1, k2, k3, k4⟩ := uv_nearest (x := ⟨Arith.dot uAxis x, Arith.dot vAxis x⟩) hl i1 j1 i3 j3 ou ov
  simp only [i2, j2, hxn] at k1 k2 k3 k4
  rw [hpos]
  exact ⟨k1, k2, fun h => nearest_exact k1 (k3 h), fun h => nearest_exact k2 (k4 h)⟩

theorem neg_zero_turn {c s : F32} (hc : isFin c) (h0 : F32.val c = 0) {z : Int} (hs : IsG 0 s z) :
    isFin (Arith.mul (Arith.neg c) s) ∧ F32.val (Arith.mul (Arith.neg c) s) = 0 := by
  have hn : IsG 0 (Arith.neg c) 0 :=
    ⟨(neg_fin c).2 hc, (neg_val c).trans (by rw [h0]; simp), by norm_num, by norm_num, by norm_num⟩
  have := isG_mul hn hs (by simp) (by norm_num) (by norm_num)
  exact ⟨this.fin, this.val.trans (by simp)⟩

/-- C115: the tangent of such a side is exact: the direction of the first texture coordinate, and the hand. -/
theorem C115_tangent [ZeroTurn] (textures : TextureInfo) (entity : Entity F32) (planes : List (BrushPlane F32))
    (plane : BrushPlane F32) (b : GridBox) (hb : b.IsBrush planes) (a : Axis) (up : Bool)
    (hp : IsSide b.g a up (b.side a up) plane) (u v : F32) (huv : plane.uv = .quake u v)
    (hs : F32.isFin plane.scale.y ∧ F32.val plane.scale.y ≠ 0)
    (hr : F32.isFin plane.rotation ∧ F32.val plane.rotation = 0) :
    ∃ geo, buildPlane textures entity planes plane = .ok geo ∧ ∀ w ∈ geo.vertices,
      Finite3 w.tangent.1 ∧ vec w.tangent.1 = planarTangent a ∧ F32.isFin w.tangent.2 ∧
        F32.val w.tangent.2 = -detR (outward a up) (planarTangent a) (planarBitangent a) * (if 0 < F32.val plane.scale.y then 1 else -1) := by
  obtain ⟨geo, h, hc⟩ := corner_from textures entity hb hp
  refine ⟨geo, h, fun w hw => ?_⟩
  obtain ⟨-, -, -, -, -, -, ht, -⟩ := hc w hw
  have hf := side_face b.fine hp
  obtain ⟨s, t, hs1, ht1, e⟩ := side_tangent hf u v huv
  rw [e] at ht
  rw [← Outcome.ok.inj ht]
  obtain ⟨r1, r2⟩ := radians_zero hr.1 hr.2
  obtain ⟨q1, q2⟩ := neg_zero_turn r1 r2 hs1
  obtain ⟨t1, t2⟩ := ZeroTurn.turn3 plane.normal _ t (grid_fin hf.normal) q1 q2 (grid_fin ht1)
  have hsig : IsG 0 (Arith.signum plane.scale.y) (if 0 < F32.val plane.scale.y then 1 else -1) := by
    obtain ⟨f, h0⟩ := hs
    generalize plane.scale.y = c at f h0
    rcases c with _ | _ | ⟨s, c, rc⟩ <;> simp only [isFin] at f
    have hc := rep_nonneg rc
    refine ⟨trivial, ?_, by split_ifs <;> simp, by norm_num, by norm_num⟩
    show F32.val (F32.num s 1 rep_one) = _
    cases s
    · have : 0 < F32.val (F32.num false c rc) := by
        simp only [F32.val, sv, Bool.false_eq_true, if_false] at h0 ⊢
        exact lt_of_le_of_ne hc (Ne.symm h0)
      rw [if_pos this]; simp [F32.val, sv]
    · have : ¬ 0 < F32.val (F32.num true c rc) := by simp [F32.val, sv, hc]
      rw [if_neg this]; simp [F32.val, sv]
  have hm := isG_mul hs1 hsig (by cases a <;> cases up <;> split_ifs <;> simp [sgn]) (by norm_num) (by norm_num)
  refine ⟨t1, t2.trans ?_, hm.fin, hm.val.trans ?_⟩
  · rw [grid_val ht1]
    cases a <;> simp [planarTangent]
  · cases a <;> cases up <;> split_ifs <;> simp [detR, dotR, crossR, outward, planarTangent, planarBitangent, sgn]

theorem outward_nrm (a : Axis) (up : Bool) :
    outward a up = ⟨((nrm a up).x : ℝ), ((nrm a up).y : ℝ), ((nrm a up).z : ℝ)⟩ := by
  cases a <;> cases up <;> simp [outward, nrm, sgn]

theorem unit_det (a : Axis) (up : Bool) (d : Axis) (s : Bool) (e : Axis) (t : Bool) :
    idot (icross (nrm a up) (nrm d s)) (nrm e t) = 1 ∨ idot (icross (nrm a up) (nrm d s)) (nrm e t) = -1 ∨
      idot (icross (nrm a up) (nrm d s)) (nrm e t) = 0 := by
  cases a <;> cases up <;> cases d <;> cases s <;> cases e <;> cases t <;> decide

/-- C115: the tangent of a side with texture axes along the grid. -/
theorem C115_valve_tangent (textures : TextureInfo) (entity : Entity F32) (planes : List (BrushPlane F32))
    (plane : BrushPlane F32) (b : GridBox) (hb : b.IsBrush planes) (a : Axis) (up : Bool)
    (hp : IsSide b.g a up (b.side a up) plane) (uAxis vAxis : V3 F32) (u v : F32)
    (huv : plane.uv = .valve uAxis u vAxis v) (du dv : Axis) (su sv : Bool) (hu : AxisVec uAxis du su)
    (hv : AxisVec vAxis dv sv) (hd : detR (outward a up) (outward du su) (outward dv sv) ≠ 0) :
    ∃ geo, buildPlane textures entity planes plane = .ok geo ∧ ∀ w ∈ geo.vertices,
      w.tangent.1 = uAxis ∧ F32.isFin w.tangent.2 ∧
        F32.val w.tangent.2 = -detR (outward a up) (outward du su) (outward dv sv) := by
  obtain ⟨geo, h, hc⟩ := corner_from textures entity hb hp
  refine ⟨geo, h, fun w hw => ?_⟩
  obtain ⟨-, -, -, -, -, -, ht, -⟩ := hc w hw
  unfold vertexTangent at ht
  rw [huv] at ht
  rw [← Outcome.ok.inj ht]
  have hn : IsGV 0 plane.normal (nrm a up) := (side_face b.fine hp).normal
  have hcr := isGV_cross hn (axisVec_isGV hu) (nrm_bnd _ _) (nrm_bnd _ _) (by norm_num) (by norm_num) (by norm_num)
  have hcb : Bnd 1 (icross (nrm a up) (nrm du su)) := by
    unfold Bnd
    cases a <;> cases du <;> cases up <;> cases su <;> decide
  have hg := isG_dot hcr (axisVec_isGV hv) hcb (nrm_bnd _ _) (by norm_num) (by norm_num) (by norm_num)
  have hz : detR (outward a up) (outward du su) (outward dv sv) = (idot (icross (nrm a up) (nrm du su)) (nrm dv sv) : Int) := by
    rw [outward_nrm, outward_nrm, outward_nrm]
    simp [detR, dotR, crossR, idot, icross]
  have hz1 := unit_det a up du su dv sv
  change IsG _ _ (idot (icross (nrm a up) (nrm du su)) (nrm dv sv)) at hg
  rw [hz] at hd ⊢
  generalize idot (icross (nrm a up) (nrm du su)) (nrm dv sv) = z at hg hz1 hd
  have hz2 : z ≠ 0 := fun h => hd (by rw [h]; simp)
  have hsg := isG_neg (grid_signum hg hz2)
  refine ⟨rfl, hsg.fin, ?_⟩
  show F32.val (F32.neg (Arith.signum (Arith.dot (Arith.cross plane.normal uAxis) vAxis))) = _
  rw [hsg.val]
  rcases hz1 with rfl | rfl | rfl
  · simp
  · simp
  · exact absurd rfl hz2

/-- C115: textures continue from box to box. Two sides with the same layout, of the same or different boxes: where one
corner is a whole number of scaled texture widths further along the texture than the other, the first coordinates
differ by exactly this number, and in particular are equal where corners meet. -/
theorem C115_seam [ZeroTurn] (textures : TextureInfo) (e1 e2 : Entity F32) (planes1 planes2 : List (BrushPlane F32))
    (p1 p2 : BrushPlane F32) (b1 b2 : GridBox) (hb1 : b1.IsBrush planes1) (hb2 : b2.IsBrush planes2) (a : Axis)
    (up1 up2 : Bool) (hp1 : IsSide b1.g a up1 (b1.side a up1) p1) (hp2 : IsSide b2.g a up2 (b2.side a up2) p2)
    (tx : Texture) (ht1 : textures p1.texture = some tx) (ht2 : textures p2.texture = some tx)
    (hl : PowerLayout tx p1) (hs : p2.scale = p1.scale) (u v : F32) (hq1 : p1.uv = .quake u v)
    (hq2 : p2.uv = .quake u v) (hu : Ordinary u) (hv : Ordinary v)
    (hr1 : F32.isFin p1.rotation ∧ F32.val p1.rotation = 0) (hr2 : F32.isFin p2.rotation ∧ F32.val p2.rotation = 0)
    (ho1 : StepOffset b1.g p1.scale.x u) (ho2 : StepOffset b2.g p1.scale.x u)
    (geo1 geo2 : PlaneGeo F32) (h1 : buildPlane textures e1 planes1 p1 = .ok geo1)
    (h2 : buildPlane textures e2 planes2 p2 = .ok geo2) (w1 w2 : Vertex F32) (hw1 : w1 ∈ geo1.vertices)
    (hw2 : w2 ∈ geo2.vertices) (k : Int) (hk : (planar a (vec w2.pos)).x =
      (planar a (vec w1.pos)).x + k * (tx.width * F32.val p1.scale.x)) :
    ∃ uv1 uv2, w1.uv = some uv1 ∧ w2.uv = some uv2 ∧ F32.val uv2.x = F32.val uv1.x + k := by
  have hl2 : PowerLayout tx p2 := ⟨hl.width, hl.height, hs ▸ hl.x, hs ▸ hl.y⟩
  obtain ⟨g1, hg1, k1⟩ := C115_standard textures e1 planes1 p1 b1 hb1 a up1 hp1 tx ht1 hl u v hq1 hu hv hr1
  obtain ⟨g2, hg2, k2⟩ := C115_standard textures e2 planes2 p2 b2 hb2 a up2 hp2 tx ht2 hl2 u v hq2 hu hv hr2
  rw [h1] at hg1; cases hg1
  rw [h2] at hg2; cases hg2
  obtain ⟨uv1, q1, -, -, x1, -⟩ := k1 w1 hw1
  obtain ⟨uv2, q2, -, -, x2, -⟩ := k2 w2 hw2
  refine ⟨uv1, uv2, q1, q2, ?_⟩
  rw [x1 ho1, x2 (hs ▸ ho2), hs, hk]
  have hw0 : (tx.width : ℝ) ≠ 0 := by
    obtain ⟨i, -, hi⟩ := hl.width
    rw [hi]; positivity
  have hs0 : F32.val p1.scale.x ≠ 0 := by
    obtain ⟨-, j, -, -, hj⟩ := hl.x
    intro h0
    rw [h0, abs_zero] at hj
    have : (0 : ℝ) < 2 ^ j := by positivity
    linarith
  unfold texel
  field_simp
  ring

end

/-! ### examples -/

/-- The requirement on turning can be met. -/
theorem stepLib_zero : @ZeroTurn stepLib :=
  let _ := stepLib
  ⟨fun _ _ _ _ h1 h2 => ⟨⟨h1, rfl⟩, h2, rfl⟩, fun _ _ _ _ _ _ h => ⟨h, rfl⟩⟩

section
variable [F32Lib] [Platform]

theorem isPlain {p : BrushPlane F32} (h : p ∈ newBox.planes) :
    p.texture = str! "brick" ∧ p.uv = .quake Arith.zero Arith.zero ∧ p.rotation = Arith.zero ∧
      p.scale = ⟨Arith.one, Arith.one⟩ := by
  simp only [newBox, List.mem_cons, List.not_mem_nil, or_false] at h
  rcases h with rfl | rfl | rfl | rfl | rfl | rfl <;> exact ⟨rfl, rfl, rfl, rfl⟩

theorem one_power : PowerScale (Arith.one : F32) :=
  ⟨trivial, 0, by norm_num, by norm_num, by simp [Arith.one, F32.val, F32.sv]⟩

theorem zero_ordinary : Ordinary (Arith.zero : F32) :=
  ⟨trivial, .inl (by simp [Arith.zero, F32.val, F32.sv]), by simp [Arith.zero, F32.val, F32.sv]⟩

theorem zero_offset (g : Nat) (s : F32) : StepOffset g s (Arith.zero : F32) :=
  ⟨0, by norm_num, by simp [Arith.zero, F32.val, F32.sv]⟩

/-- The top of the box of a new map with a texture of 64 by 32 texels: at the corner (64, -64, 16) the coordinates
are exactly 1 and 2. -/
example [ZeroTurn] (entity : Entity F32) :
    ∃ p ∈ newBox.planes, ∃ geo, buildPlane (fun _ => some ⟨64, 32⟩) entity newBox.planes p = .ok geo ∧
      ∃ w ∈ geo.vertices, vec w.pos = ⟨64, -64, 16⟩ ∧ ∃ uv, w.uv = some uv ∧ F32.val uv.x = 1 ∧ F32.val uv.y = 2 := by
  obtain ⟨p, hp, hs⟩ := newBox_top
  obtain ⟨t1, t2, t3, t4⟩ := isPlain hp
  obtain ⟨geo, h, hv⟩ := C115_standard (fun _ => some ⟨64, 32⟩) entity newBox.planes p newGrid newBox_isBrush .z true
    hs.1 ⟨64, 32⟩ rfl ⟨⟨6, by norm_num, rfl⟩, ⟨5, by norm_num, rfl⟩, by rw [t4]; exact one_power,
      by rw [t4]; exact one_power⟩ _ _ t2 zero_ordinary zero_ordinary
    (by rw [t3]; exact ⟨trivial, by simp [Arith.zero, F32.val, F32.sv]⟩)
  obtain ⟨geo', h', he⟩ := C90_face (fun _ => some ⟨64, 32⟩) entity newBox.planes p newGrid newBox_isBrush .z true hs.1
  rw [h] at h'; cases h'
  have hmem : newGrid.point ⟨64, -64, 16⟩ ∈ geo.vertices.map fun v => vec v.pos :=
    he.corners.mem_iff.2 (List.mem_map.2 ⟨_, by simp [GridBox.rect, newGrid, GridBox.side, Axis.of], rfl⟩)
  obtain ⟨w, hw, hpos⟩ := List.mem_map.1 hmem
  obtain ⟨uv, q, -, -, x, y⟩ := hv w hw
  have hpos' : vec w.pos = ⟨64, -64, 16⟩ := by
    rw [show vec w.pos = newGrid.point ⟨64, -64, 16⟩ from hpos]; simp [GridBox.point, newGrid]
  refine ⟨p, hp, geo, h, w, hw, hpos', uv, q, ?_, ?_⟩
  · rw [x (zero_offset _ _), hpos', t4]
    simp [texel, planar, Arith.zero, Arith.one, F32.val, F32.sv]
  · rw [y (zero_offset _ _), hpos', t4]
    simp [texel, planar, Arith.zero, Arith.one, F32.val, F32.sv]
    norm_num

theorem x_axis : AxisVec (⟨Arith.one, Arith.zero, Arith.zero⟩ : V3 F32) .x true :=
  ⟨⟨trivial, trivial, trivial⟩, by simp [vec, outward, Arith.zero, Arith.one, F32.val, F32.sv]⟩

theorem y_axis : AxisVec (⟨Arith.zero, Arith.neg Arith.one, Arith.zero⟩ : V3 F32) .y false :=
  ⟨⟨trivial, trivial, trivial⟩, by simp [vec, outward, Arith.neg, F32.neg, Arith.zero, Arith.one, F32.val, F32.sv]⟩

theorem half_power : PowerScale (F32.num true (1 / 2) ⟨1, -1, by norm_num, by norm_num, by norm_num, by norm_num⟩) :=
  ⟨trivial, -1, by norm_num, by norm_num, by simp [F32.val, F32.sv]⟩

/-- The same side with texture axes, scale -1/2 and 1 and offsets 4 and 5: exactly `-2 x / 64 + 4 / 64` and
`-y / 32 + 5 / 32`; its tangent is the first axis and its hand is 1. -/
example (entity : Entity F32) :
    ∃ p geo, buildPlane (fun _ => some ⟨64, 32⟩) entity newBox.planes p = .ok geo ∧ ∀ w ∈ geo.vertices, ∃ uv,
      w.uv = some uv ∧ F32.val uv.x = -2 * (vec w.pos).x / 64 + 4 / 64 ∧
        F32.val uv.y = -(vec w.pos).y / 32 + 5 / 32 ∧ F32.val w.tangent.2 = 1 := by
  obtain ⟨p, hp, hs⟩ := newBox_top
  have h4 := is_ofReal (z := 4) (by norm_num)
  have h5 := is_ofReal (z := 5) (by norm_num)
  have ord : ∀ {c : F32} {z : Int}, F32.Is c z → 0 < z → z ≤ 5 → Ordinary c := by
    intro c z h h0 h1
    have h0' : (1 : ℝ) ≤ z := by exact_mod_cast h0
    have h1' : (z : ℝ) ≤ 5 := by exact_mod_cast h1
    refine ⟨h.fin, .inr ?_, ?_⟩ <;> rw [h.val, abs_of_pos (by linarith)]
    · norm_num; linarith
    · norm_num; linarith
  let q : BrushPlane F32 := { p with
    uv := .valve ⟨Arith.one, Arith.zero, Arith.zero⟩ (F32.ofReal (4 : Int)) ⟨Arith.zero, Arith.neg Arith.one, Arith.zero⟩
      (F32.ofReal (5 : Int))
    scale := ⟨F32.num true (1 / 2) ⟨1, -1, by norm_num, by norm_num, by norm_num, by norm_num⟩, Arith.one⟩ }
  have hq : IsSide newGrid.g .z true (newGrid.side .z true) q := hs.1
  obtain ⟨geo, h, hv⟩ := C115_valve (fun _ => some ⟨64, 32⟩) entity newBox.planes q newGrid newBox_isBrush .z true
    hq ⟨64, 32⟩ rfl ⟨⟨6, by norm_num, rfl⟩, ⟨5, by norm_num, rfl⟩, half_power, one_power⟩ _ _ _ _ rfl _ _ _ _
    x_axis y_axis (ord h4 (by norm_num) (by norm_num)) (ord h5 (by norm_num) (by norm_num))
  obtain ⟨geo', h', ht⟩ := C115_valve_tangent (fun _ => some ⟨64, 32⟩) entity newBox.planes q newGrid newBox_isBrush
    .z true hq _ _ _ _ rfl _ _ _ _ x_axis y_axis (by simp [detR, dotR, crossR, outward])
  rw [h] at h'; cases h'
  refine ⟨q, geo, h, fun w hw => ?_⟩
  obtain ⟨uv, e, -, -, x, y⟩ := hv w hw
  obtain ⟨-, -, t2⟩ := ht w hw
  have v4 : F32.val (F32.ofReal (4 : Int)) = 4 := by rw [h4.val]; norm_num
  have v5 : F32.val (F32.ofReal (5 : Int)) = 5 := by rw [h5.val]; norm_num
  have s1 : F32.val q.scale.x = -(1 / 2) := by simp [q, F32.val, F32.sv]
  have s2 : F32.val q.scale.y = 1 := by simp [q, Arith.one, F32.val, F32.sv]
  refine ⟨uv, e, ?_, ?_, ?_⟩
  · rw [x ⟨-2, by norm_num, by rw [v4, s1]; simp [newGrid]; norm_num⟩, v4, s1]
    simp [texel, dotR, outward]
    ring
  · rw [y ⟨5, by norm_num, by rw [v5, s2]; simp [newGrid]⟩, v5, s2]
    simp [texel, dotR, outward]
  · rw [t2]
    simp [detR, dotR, crossR, outward]

/-- The top of the box of a new map is 128 units wide: with a texture of 64 texels the first coordinate grows by
exactly 2 from edge to edge. Its tangent points along the x axis. -/
example [ZeroTurn] (entity : Entity F32) :
    ∃ p ∈ newBox.planes, ∃ geo, buildPlane (fun _ => some ⟨64, 32⟩) entity newBox.planes p = .ok geo ∧
      ∃ w1 ∈ geo.vertices, ∃ w2 ∈ geo.vertices, ∃ uv1 uv2, w1.uv = some uv1 ∧ w2.uv = some uv2 ∧
        F32.val uv2.x = F32.val uv1.x + 2 ∧ vec w1.tangent.1 = ⟨1, 0, 0⟩ ∧ F32.val w1.tangent.2 = 1 := by
  obtain ⟨p, hp, hs⟩ := newBox_top
  obtain ⟨t1, t2, t3, t4⟩ := isPlain hp
  have hr : F32.isFin p.rotation ∧ F32.val p.rotation = 0 := by
    rw [t3]; exact ⟨trivial, by simp [Arith.zero, F32.val, F32.sv]⟩
  have hv1 : F32.val (Arith.one : F32) = 1 := by simp [Arith.one, F32.val, F32.sv]
  obtain ⟨geo, h, he⟩ := C90_face (fun _ => some ⟨64, 32⟩) entity newBox.planes p newGrid newBox_isBrush .z true hs.1
  obtain ⟨geo', h', ht⟩ := C115_tangent (fun _ => some ⟨64, 32⟩) entity newBox.planes p newGrid newBox_isBrush .z true
    hs.1 _ _ t2 (by rw [t4]; exact ⟨trivial, by rw [hv1]; norm_num⟩) hr
  rw [h] at h'; cases h'
  have hmem : ∀ x ∈ [(-64 : Int), 64], ∃ w ∈ geo.vertices, vec w.pos = ⟨x, -64, 16⟩ := by
    intro x hx
    have : newGrid.point ⟨x, -64, 16⟩ ∈ geo.vertices.map fun v => vec v.pos := by
      refine he.corners.mem_iff.2 (List.mem_map.2 ⟨_, ?_, rfl⟩)
      simp only [List.mem_cons, List.not_mem_nil, or_false] at hx
      rcases hx with rfl | rfl <;> simp [GridBox.rect, newGrid, GridBox.side, Axis.of]
    obtain ⟨w, hw, hpos⟩ := List.mem_map.1 this
    exact ⟨w, hw, hpos.trans (by simp [GridBox.point, newGrid])⟩
  obtain ⟨w1, hw1, q1⟩ := hmem (-64) (by simp)
  obtain ⟨w2, hw2, q2⟩ := hmem 64 (by simp)
  obtain ⟨uv1, uv2, e1, e2, e3⟩ := C115_seam (fun _ => some ⟨64, 32⟩) entity entity newBox.planes newBox.planes p p
    newGrid newGrid newBox_isBrush newBox_isBrush .z true true hs.1 hs.1 ⟨64, 32⟩ rfl rfl
    ⟨⟨6, by norm_num, rfl⟩, ⟨5, by norm_num, rfl⟩, by rw [t4]; exact one_power, by rw [t4]; exact one_power⟩ rfl _ _ t2 t2
    zero_ordinary zero_ordinary hr hr (zero_offset _ _) (zero_offset _ _) geo geo h h w1 w2 hw1 hw2 2
    (by rw [q1, q2, t4, hv1]; simp [planar]; norm_num)
  obtain ⟨-, f1, -, f2⟩ := ht w1 hw1
  refine ⟨p, hp, geo, h, w1, hw1, w2, hw2, uv1, uv2, e1, e2, by simpa using e3, f1, ?_⟩
  rw [f2, t4, hv1]
  simp [detR, dotR, crossR, outward, planarTangent, planarBitangent]

end
end Quarch
