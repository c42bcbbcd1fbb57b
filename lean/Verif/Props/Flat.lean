import Verif.Props.Box
import Verif.Props.Loads
/-
C96: in single precision, which faces abort a load.
-/
set_option linter.unusedSectionVars false
namespace Quarch
open Spec Geo

section
variable [F32Lib]
open F32

/-! ### the largest component -/

theorem ext_isSome {a : F32} : ext a ≠ none ↔ ¬ isNaN a := by cases a <;> simp [ext, isNaN]

theorem rel_num {r : EReal → EReal → Prop} {a b : F32} (h : rel r a b = true) : ¬ isNaN a ∧ ¬ isNaN b := by
  cases a <;> cases b <;> simp_all [rel, ext, isNaN]

theorem mul_zero_fin {a : F32} : ¬ isNaN (mul a (F32.num false 0 rep_zero)) ↔ isFin a := by
  rcases a with _ | _ | ⟨s, a, ra⟩
  · simp [mul, isNaN, isFin]
  · simp [mul, isNaN, isFin]
  · simp [mul, isFin, ofAbs, rnd_zero, rep_zero, isNaN]

theorem mul_zero_val {a : F32} (h : isFin a) : isFin (mul a (F32.num false 0 rep_zero)) ∧
    val (mul a (F32.num false 0 rep_zero)) = 0 := by
  rcases a with _ | _ | ⟨s, a, ra⟩ <;> simp only [isFin] at h
  cases s <;> simp [mul, isFin, ofAbs, rnd_zero, rep_zero, val, sv]

theorem mul_one_val {a : F32} (h : isFin a) : mul a (F32.num false 1 rep_one) = a := by
  rcases a with _ | _ | ⟨s, a, ra⟩ <;> simp only [isFin] at h
  simp [mul, ofAbs, rnd_rep ra, ra]

theorem add_zero_fin {a b : F32} (ha : isFin a) (hb : isFin b) (h : val a = 0 ∨ val b = 0) :
    isFin (add a b) ∧ val (add a b) = val a + val b := by
  rcases a with _ | _ | ⟨s, a, ra⟩ <;> rcases b with _ | _ | ⟨t, b, rb⟩ <;> simp only [isFin] at ha hb
  simp only [val] at h
  simp only [add]
  split_ifs with h0
  · exact ⟨trivial, by simp only [val]; rw [h0]; cases (s && t) <;> simp [sv]⟩
  · have hr : Rep |sv s a + sv t b| := by
      rcases h with h | h <;> rw [h]
      · rw [zero_add, sv_abs _ (rep_nonneg rb)]; exact rb
      · rw [add_zero, sv_abs _ (rep_nonneg ra)]; exact ra
    exact ofReal_rep hr

theorem add_num {a b : F32} (h : ¬ isNaN (add a b)) : ¬ isNaN a ∧ ¬ isNaN b := by
  cases a <;> cases b <;> simp_all [add, isNaN]

theorem dot_axes {n : V3 F32} :
    (¬ isNaN (Arith.dot n ⟨Arith.zero, Arith.zero, Arith.one⟩) → isFin n.x ∧ isFin n.y) ∧
    (¬ isNaN (Arith.dot n ⟨Arith.zero, Arith.one, Arith.zero⟩) → isFin n.x ∧ isFin n.z) := by
  constructor
  · intro h
    obtain ⟨h1, -⟩ := add_num h
    obtain ⟨h1, h2⟩ := add_num h1
    exact ⟨mul_zero_fin.1 h1, mul_zero_fin.1 h2⟩
  · intro h
    obtain ⟨h1, h3⟩ := add_num h
    obtain ⟨h1, h2⟩ := add_num h1
    exact ⟨mul_zero_fin.1 h1, mul_zero_fin.1 h3⟩

theorem rel_le (a b : F32) (h : Arith.le a b = true) : ¬ isNaN a ∧ ¬ isNaN b := rel_num h

/-- A vector has a largest component exactly if it is finite. -/
theorem hasLargest_iff {n : V3 F32} : HasLargest n ↔ FinV n := by
  constructor
  · intro h
    have key : ¬ isNaN (Arith.dot n ⟨Arith.zero, Arith.zero, Arith.one⟩) ∧
        ¬ isNaN (Arith.dot n ⟨Arith.zero, Arith.one, Arith.zero⟩) := by
      have habs : ∀ a : F32, ¬ isNaN (Arith.abs a) → ¬ isNaN a := by
        intro a; cases a <;> simp [Arith.abs, F32.abs, isNaN]
      rcases h with ⟨h1, h2⟩ | ⟨h1, h2⟩ | ⟨h1, h2⟩
      · exact ⟨habs _ (rel_le _ _ h1).2, habs _ (rel_le _ _ h1).1⟩
      · exact ⟨habs _ (rel_le _ _ h1).1, habs _ (rel_le _ _ h1).2⟩
      · exact ⟨habs _ (rel_le _ _ h1).1, habs _ (rel_le _ _ h2).1⟩
    obtain ⟨h1, h2⟩ := dot_axes.1 key.1
    exact ⟨h1, h2, (dot_axes.2 key.2).2⟩
  · rintro ⟨hx, hy, hz⟩
    obtain ⟨x1, x2⟩ := mul_zero_val hx
    obtain ⟨y1, y2⟩ := mul_zero_val hy
    obtain ⟨z1, z2⟩ := mul_zero_val hz
    refine hasLargest_fin3 ?_ ?_ ?_
    · obtain ⟨s1, s2⟩ := add_zero_fin x1 y1 (.inl x2)
      exact (add_zero_fin s1 ((mul_one_val hz).symm ▸ hz) (.inl (by rw [s2, x2, y2, add_zero]))).1
    · obtain ⟨s1, s2⟩ := add_zero_fin x1 ((mul_one_val hy).symm ▸ hy) (.inl x2)
      exact (add_zero_fin s1 z1 (.inr z2)).1
    · obtain ⟨s1, s2⟩ := add_zero_fin ((mul_one_val hx).symm ▸ hx) y1 (.inr y2)
      exact (add_zero_fin s1 z1 (.inr z2)).1

/-! ### points on a line -/

theorem sv_rnd {s t : Bool} {x y : ℝ} (hx : 0 ≤ x) (hy : 0 ≤ y) (h : sv s x = sv t y) : sv s (rnd x) = sv t (rnd y) := by
  have e : x = y := by
    have := congrArg (fun t : ℝ => |t|) h
    rwa [sv_abs _ hx, sv_abs _ hy] at this
  subst e
  rcases hx.eq_or_lt with rfl | h0
  · rw [rnd_zero]; cases s <;> cases t <;> simp [sv]
  · cases s <;> cases t <;> simp only [sv] at h ⊢
    · simp only [Bool.false_eq_true, if_false, if_true] at h; linarith
    · simp only [Bool.false_eq_true, if_false, if_true] at h; linarith

/-- Equal products are rounded equally. -/
theorem mul_congr {a b c d : F32} (hab : isFin (mul a b)) (hcd : isFin (mul c d)) (h : val a * val b = val c * val d) :
    val (mul a b) = val (mul c d) := by
  obtain ⟨ha, hb⟩ := mul_fin _ _ hab
  obtain ⟨hc, hd⟩ := mul_fin _ _ hcd
  rcases a with _ | _ | ⟨s, a, ra⟩ <;> rcases b with _ | _ | ⟨t, b, rb⟩ <;> simp only [isFin] at ha hb
  rcases c with _ | _ | ⟨s', c, rc⟩ <;> rcases d with _ | _ | ⟨t', d, rd⟩ <;> simp only [isFin] at hc hd
  simp only [mul] at hab hcd ⊢
  rw [ofAbs_val hab, ofAbs_val hcd]
  simp only [val, sv_mul] at h
  exact sv_rnd (mul_nonneg (rep_nonneg ra) (rep_nonneg rb)) (mul_nonneg (rep_nonneg rc) (rep_nonneg rd)) h

theorem sub_zero_of {a b : F32} (ha : isFin a) (hb : isFin b) (h : val a = val b) :
    isFin (F32.sub a b) ∧ val (F32.sub a b) = 0 := by
  rcases a with _ | _ | ⟨s, a, ra⟩ <;> rcases b with _ | _ | ⟨t, b, rb⟩ <;> simp only [isFin] at ha hb
  simp only [val] at h
  have e : sv s a + sv (!t) b = 0 := by
    rw [h]; cases t <;> simp [sv]
  simp only [F32.sub, F32.neg, add, e, if_true]
  exact ⟨trivial, by cases (s && !t) <;> simp [val, sv]⟩

theorem zero_num {a : F32} (h : isFin a) (h0 : val a = 0) : ∃ s, a = F32.num s 0 rep_zero := by
  rcases a with _ | _ | ⟨s, a, ra⟩ <;> simp only [isFin] at h
  have : a = 0 := by
    have := congrArg (fun t : ℝ => |t|) h0
    simp only [val] at this
    rwa [sv_abs _ (rep_nonneg ra), abs_zero] at this
  subst this
  exact ⟨s, rfl⟩

/-- A vector of zeros has no direction. -/
theorem normalize_zeros {a b c : Bool} : Arith.normalize (⟨F32.num a 0 rep_zero, F32.num b 0 rep_zero, F32.num c 0 rep_zero⟩ : V3 F32) =
    ⟨nan, nan, nan⟩ := by
  have em : ∀ s t, mul (F32.num s 0 rep_zero) (F32.num t 0 rep_zero) = F32.num (xor s t) 0 rep_zero := by
    intro s t; simp [mul, ofAbs, rnd_zero, rep_zero]
  have ea : ∀ s t, add (F32.num s 0 rep_zero) (F32.num t 0 rep_zero) = F32.num (s && t) 0 rep_zero := by
    intro s t; simp [add, sv]
  have es : ∀ s, sqrt (F32.num s 0 rep_zero) = F32.num s 0 rep_zero := by intro s; simp [sqrt]
  have ed : ∀ s t, div (F32.num s 0 rep_zero) (F32.num t 0 rep_zero) = nan := by intro s t; simp [div]
  have ei : ∀ t, div (F32.num false 1 rep_one) (F32.num t 0 rep_zero) = inf t := by intro t; simp [div]
  have ez : ∀ s t, mul (F32.num s 0 rep_zero) (inf t) = nan := by intro s t; simp [mul]
  show F32.normalize _ = _
  unfold F32.normalize dot
  simp only [em, ea, es]
  split
  · simp only [ei, ez]
  · simp only [ed]

/-- The computed vector product of the edges. -/
theorem zero_cross_nan {p : BrushPlane F32}
    (h : FinV (Arith.cross (V3.sub p.v2 p.v0) (V3.sub p.v1 p.v0)))
    (h0 : valV (Arith.cross (V3.sub p.v2 p.v0) (V3.sub p.v1 p.v0)) = zeroR) : NoDirection p := by
  obtain ⟨s, hs⟩ := zero_num h.1 (congrArg V3.x h0)
  obtain ⟨t, ht⟩ := zero_num h.2.1 (congrArg V3.y h0)
  obtain ⟨r, hr⟩ := zero_num h.2.2 (congrArg V3.z h0)
  unfold NoDirection
  have e : faceNormal p = ⟨nan, nan, nan⟩ := by
    have e1 : Arith.cross (V3.sub p.v2 p.v0) (V3.sub p.v1 p.v0) =
        (⟨F32.num s 0 rep_zero, F32.num t 0 rep_zero, F32.num r 0 rep_zero⟩ : V3 F32) := by
      rw [← hs, ← ht, ← hr]
    unfold faceNormal
    rw [e1]
    exact normalize_zeros
  rw [e]
  exact ⟨trivial, trivial, trivial⟩

theorem pow_le_one {e : Int} (h : e ≤ 0) : (2 : ℝ) ^ e ≤ 1 := by
  have : (2 : ℝ) ^ e ≤ 2 ^ (0 : Int) := zpow_le_zpow_right₀ (by norm_num) h
  simpa using this

theorem isG_abs {e : Int} {a : F32} {i : Int} {N : Nat} (h : IsG e a i) (he : e ≤ 0) (hi : i.natAbs ≤ N) : |val a| ≤ N := by
  have hp : (0 : ℝ) < 2 ^ e := by positivity
  rw [h.val, abs_mul, abs_of_pos hp]
  have h1 : |(i : ℝ)| ≤ N := by
    have e1 : |(i : ℝ)| = (i.natAbs : ℝ) := by rw [Nat.cast_natAbs, Int.cast_abs]
    rw [e1]; exact_mod_cast hi
  calc |(i : ℝ)| * 2 ^ e ≤ N * 1 := mul_le_mul h1 (pow_le_one he) hp.le (Nat.cast_nonneg _)
    _ = N := mul_one _

/-- A component of the vector product that is exactly zero is computed as zero. -/
theorem comp_zero {e : Int} {a b c d : F32} {i j k l : Int} (ha : IsG e a i) (hb : IsG e b j) (hc : IsG e c k)
    (hd : IsG e d l) (he : e ≤ 0) (hi : i.natAbs ≤ 2 ^ 22) (hj : j.natAbs ≤ 2 ^ 22) (hk : k.natAbs ≤ 2 ^ 22)
    (hl : l.natAbs ≤ 2 ^ 22) (h : i * j - k * l = 0) :
    isFin (F32.sub (mul a b) (mul c d)) ∧ val (F32.sub (mul a b) (mul c d)) = 0 := by
  have ok : ∀ {a b : F32} {i j : Int}, IsG e a i → IsG e b j → i.natAbs ≤ 2 ^ 22 → j.natAbs ≤ 2 ^ 22 →
      isFin (mul a b) := by
    intro a b i j ha hb hi hj
    refine mul_ok _ _ ha.fin hb.fin ?_
    rw [abs_mul]
    have h1 := isG_abs ha he hi
    have h2 := isG_abs hb he hj
    calc |val a| * |val b| ≤ ((2 ^ 22 : Nat) : ℝ) * ((2 ^ 22 : Nat) : ℝ) :=
          mul_le_mul h1 h2 (abs_nonneg _) (Nat.cast_nonneg _)
      _ ≤ large := by unfold large; norm_num
  have f1 := ok ha hb hi hj
  have f2 := ok hc hd hk hl
  refine sub_zero_of f1 f2 (mul_congr f1 f2 ?_)
  rw [ha.val, hb.val, hc.val, hd.val]
  have hz : (i : ℝ) * j = k * l := by exact_mod_cast (show i * j = k * l by omega)
  linear_combination (2 : ℝ) ^ e * 2 ^ e * hz

/-- A component of the vector product of short edges is nearly exact. -/
theorem comp_near {e : Int} {a b c d : F32} {i j k l : Int} (ha : IsG e a i) (hb : IsG e b j) (hc : IsG e c k)
    (hd : IsG e d l) (he : e ≤ 0) (he' : -30 ≤ e) (hi : i.natAbs < 4096) (hj : j.natAbs < 4096) (hk : k.natAbs < 4096)
    (hl : l.natAbs < 4096) :
    isFin (F32.sub (mul a b) (mul c d)) ∧ |val (F32.sub (mul a b) (mul c d))| ≤ 2 ^ 26 ∧
      (i * j - k * l ≠ 0 → 1 / 2 ^ 61 ≤ |val (F32.sub (mul a b) (mul c d))|) := by
  have p1 : (i * j).natAbs ≤ 4095 * 4095 := natAbs_mul_le (by omega) (by omega)
  have p2 : (k * l).natAbs ≤ 4095 * 4095 := natAbs_mul_le (by omega) (by omega)
  have m1 := isG_mul ha hb (by omega) (by omega) (by omega)
  have m2 := isG_mul hc hd (by omega) (by omega) (by omega)
  have hp : (0 : ℝ) < 2 ^ (e + e) := by positivity
  have hle : (2 : ℝ) ^ (e + e) ≤ 1 := pow_le_one (by omega)
  have hge : (1 : ℝ) / 2 ^ 60 ≤ 2 ^ (e + e) := by
    have : (2 : ℝ) ^ (-60 : Int) ≤ 2 ^ (e + e) := zpow_le_zpow_right₀ (by norm_num) (by omega)
    refine le_trans (le_of_eq ?_) this
    norm_num
  have hd' : val (mul a b) - val (mul c d) = ((i * j - k * l : Int) : ℝ) * 2 ^ (e + e) := by
    rw [m1.val, m2.val]; push_cast; ring
  have hm : |((i * j - k * l : Int) : ℝ)| ≤ 2 ^ 25 := by
    have e1 : |((i * j - k * l : Int) : ℝ)| = ((i * j - k * l).natAbs : ℝ) := by rw [Nat.cast_natAbs, Int.cast_abs]
    rw [e1]
    have : (i * j - k * l).natAbs ≤ 2 ^ 25 := by omega
    exact_mod_cast this
  have hx : |val (mul a b) - val (mul c d)| ≤ 2 ^ 25 := by
    rw [hd', abs_mul, abs_of_pos hp]
    calc _ ≤ (2 : ℝ) ^ 25 * 1 := mul_le_mul hm hle hp.le (by positivity)
      _ = 2 ^ 25 := mul_one _
  have hf : isFin (F32.sub (mul a b) (mul c d)) :=
    Rounding.sub_ok (F := F32) _ _ m1.fin m2.fin (le_trans hx (by unfold large; norm_num))
  have hv : |val (F32.sub (mul a b) (mul c d)) - (val (mul a b) - val (mul c d))| ≤
      u * |val (mul a b) - val (mul c d)| := Rounding.sub_val (F := F32) _ _ hf
  refine ⟨hf, ?_, fun h0 => ?_⟩
  · have h1 : |val (F32.sub (mul a b) (mul c d))| ≤ |val (F32.sub (mul a b) (mul c d)) - (val (mul a b) - val (mul c d))| +
        |val (mul a b) - val (mul c d)| := by
      have := abs_add_le (val (F32.sub (mul a b) (mul c d)) - (val (mul a b) - val (mul c d))) (val (mul a b) - val (mul c d))
      simpa using this
    have hu : u ≤ 1 := by unfold u; norm_num
    have : u * |val (mul a b) - val (mul c d)| ≤ 1 * |val (mul a b) - val (mul c d)| :=
      mul_le_mul_of_nonneg_right hu (abs_nonneg _)
    calc _ ≤ _ := h1
      _ ≤ (2 : ℝ) ^ 25 + 2 ^ 25 := by linarith
      _ = 2 ^ 26 := by norm_num
  · have h1 : |val (mul a b) - val (mul c d)| ≤ |val (F32.sub (mul a b) (mul c d)) - (val (mul a b) - val (mul c d))| +
        |val (F32.sub (mul a b) (mul c d))| := by
      have := abs_add_le (-(val (F32.sub (mul a b) (mul c d)) - (val (mul a b) - val (mul c d)))) (val (F32.sub (mul a b) (mul c d)))
      rw [abs_neg] at this
      refine le_trans (le_of_eq ?_) this
      congr 1; ring
    have h2 : (1 : ℝ) / 2 ^ 60 ≤ |val (mul a b) - val (mul c d)| := by
      rw [hd', abs_mul, abs_of_pos hp]
      have : (1 : ℝ) ≤ |((i * j - k * l : Int) : ℝ)| := by
        rw [← Int.cast_abs]; exact_mod_cast Int.one_le_abs h0
      calc (1 : ℝ) / 2 ^ 60 ≤ 1 * 2 ^ (e + e) := by rw [one_mul]; exact hge
        _ ≤ _ := mul_le_mul_of_nonneg_right this hp.le
    have hu : u ≤ 1 / 2 := by unfold u; norm_num
    have : u * |val (mul a b) - val (mul c d)| ≤ 1 / 2 * |val (mul a b) - val (mul c d)| :=
      mul_le_mul_of_nonneg_right hu (abs_nonneg _)
    have e3 : (1 : ℝ) / 2 ^ 61 = 1 / 2 * (1 / 2 ^ 60) := by norm_num
    rw [e3]
    linarith

theorem mul_self_nonneg' (a : F32) : 0 ≤ val (mul a a) := by
  rcases a with _ | s | ⟨s, a, ra⟩
  · simp [mul, val]
  · simp [mul, val]
  · simp only [mul, Bool.xor_self, ofAbs]
    split
    · simp only [val, sv]; exact rnd_nonneg _
    · simp [val]

theorem add_lower {a b : F32} (h : isFin (add a b)) (ha : 0 ≤ val a) (hb : 0 ≤ val b) :
    (val a + val b) / 2 ≤ val (add a b) := by
  have h1 := abs_le.1 (add_val a b h)
  rw [abs_of_nonneg (add_nonneg ha hb)] at h1
  have hu : u ≤ 1 / 2 := by unfold u; norm_num
  nlinarith [add_nonneg ha hb]

/-- A vector of moderate length has a direction. -/
theorem normalize_fin {c : V3 F32} (hf : FinV c) (hw : Within (2 ^ 26) (valV c))
    (h : 1 / 2 ^ 61 ≤ |val c.x| ∨ 1 / 2 ^ 61 ≤ |val c.y| ∨ 1 / 2 ^ 61 ≤ |val c.z|) : FinV (Arith.normalize c) := by
  have hd : isFin (dot c c) := Err.dot_ok hf hf (by norm_num) hw hw (by unfold large; norm_num)
  have hd0 := hd
  unfold dot at hd
  obtain ⟨hxy, hz⟩ := add_fin _ _ hd
  obtain ⟨hx, hy⟩ := add_fin _ _ hxy
  have nx := mul_self_nonneg' c.x
  have ny := mul_self_nonneg' c.y
  have nz := mul_self_nonneg' c.z
  have l1 := add_lower hxy nx ny
  have l2 := add_lower hd (by linarith) nz
  have big : ∀ {a : F32}, isFin (mul a a) → 1 / 2 ^ 61 ≤ |val a| → 1 / 2 ^ 124 ≤ val (mul a a) := by
    intro a ha h1
    have h2 := (abs_le.1 (mul_val a a ha)).1
    have e : |val a * val a| = val a * val a := abs_of_nonneg (mul_self_nonneg _)
    rw [e] at h2
    have h3 : (1 : ℝ) / 2 ^ 61 * (1 / 2 ^ 61) ≤ val a * val a := by
      rw [← abs_mul_abs_self (val a)]
      exact mul_le_mul h1 h1 (by positivity) (abs_nonneg _)
    have hu : u ≤ 1 / 2 := by unfold u; norm_num
    have h4 : u * (val a * val a) ≤ 1 / 2 * (val a * val a) := mul_le_mul_of_nonneg_right hu (mul_self_nonneg _)
    have h5 : (1 : ℝ) / 2 ^ 124 ≤ 1 / 2 * (1 / 2 ^ 61 * (1 / 2 ^ 61)) - tiny := by unfold tiny; norm_num
    linarith
  have low : (1 : ℝ) / 2 ^ 126 ≤ val (dot c c) := by
    have e : (1 : ℝ) / 2 ^ 126 = (1 / 2 ^ 124) / 2 / 2 := by norm_num
    show (1 : ℝ) / 2 ^ 126 ≤ val (add (add (mul c.x c.x) (mul c.y c.y)) (mul c.z c.z))
    rw [e]
    rcases h with h | h | h
    · have := big hx h; linarith
    · have := big hy h; linarith
    · have := big hz h
      have : (0 : ℝ) < 1 / 2 ^ 124 := by positivity
      linarith
  have hpos : 0 ≤ val (dot c c) := le_trans (by positivity) low
  have hs : isFin (sqrt (dot c c)) := (sqrt_fin _).2 ⟨hd0, hpos⟩
  have hsv : (1 : ℝ) / 2 ^ 64 ≤ val (sqrt (dot c c)) := by
    have h1 := (abs_le.1 (sqrt_val _ hs)).1
    have h2 : (1 : ℝ) / 2 ^ 63 ≤ Real.sqrt (val (dot c c)) := by
      apply Real.le_sqrt_of_sq_le
      refine le_trans (le_of_eq ?_) low
      norm_num
    have hu : u ≤ 1 / 2 := by unfold u; norm_num
    have h3 : u * Real.sqrt (val (dot c c)) ≤ 1 / 2 * Real.sqrt (val (dot c c)) :=
      mul_le_mul_of_nonneg_right hu (Real.sqrt_nonneg _)
    have e : (1 : ℝ) / 2 ^ 64 = 1 / 2 * (1 / 2 ^ 63) := by norm_num
    rw [e]; linarith
  have hs0 : 0 < val (sqrt (dot c c)) := lt_of_lt_of_le (by positivity) hsv
  have hq : ∀ x : ℝ, |x| ≤ 2 ^ 26 → |x / val (sqrt (dot c c))| ≤ 2 ^ 90 := by
    intro x hx
    rw [abs_div, abs_of_pos hs0, div_le_iff₀ hs0]
    calc |x| ≤ 2 ^ 26 := hx
      _ = 2 ^ 90 * (1 / 2 ^ 64) := by norm_num
      _ ≤ _ := mul_le_mul_of_nonneg_left hsv (by positivity)
  have hl : (2 : ℝ) ^ 90 ≤ large := by unfold large; norm_num
  obtain ⟨w1, w2, w3⟩ := hw
  obtain ⟨f1, f2, f3⟩ := hf
  show FinV (F32.normalize c)
  unfold F32.normalize
  split
  · have ho : val (F32.num false 1 rep_one) = 1 := by simp [val, sv]
    have hi : isFin (div (F32.num false 1 rep_one) (sqrt (dot c c))) :=
      div_ok _ _ trivial hs hs0.ne' (le_trans (hq _ (by rw [ho]; norm_num)) hl)
    have hiv : |val (div (F32.num false 1 rep_one) (sqrt (dot c c)))| ≤ 2 ^ 66 := by
      have h1 := div_val _ _ hi hs
      rw [ho] at h1
      have h2 : |1 / val (sqrt (dot c c))| ≤ 2 ^ 64 := by
        rw [abs_div, abs_of_pos hs0, div_le_iff₀ hs0, abs_one]
        calc (1 : ℝ) = 2 ^ 64 * (1 / 2 ^ 64) := by norm_num
          _ ≤ _ := mul_le_mul_of_nonneg_left hsv (by positivity)
      have h3 := abs_add_le (val (div (F32.num false 1 rep_one) (sqrt (dot c c))) - 1 / val (sqrt (dot c c))) (1 / val (sqrt (dot c c)))
      rw [sub_add_cancel] at h3
      have hu : u ≤ 1 / 2 := by unfold u; norm_num
      have ht : tiny ≤ 1 := by unfold tiny; norm_num
      have h4 : u * |1 / val (sqrt (dot c c))| ≤ 1 / 2 * |1 / val (sqrt (dot c c))| :=
        mul_le_mul_of_nonneg_right hu (abs_nonneg _)
      have e : (2 : ℝ) ^ 66 = 2 ^ 64 + 2 ^ 64 + 2 ^ 64 + 2 ^ 64 := by norm_num
      have h5 : (1 : ℝ) ≤ 2 ^ 64 := by norm_num
      rw [e]
      linarith
    have hm : ∀ a : F32, isFin a → |val a| ≤ 2 ^ 26 → isFin (mul a (div (F32.num false 1 rep_one) (sqrt (dot c c)))) := by
      intro a ha hw
      refine mul_ok _ _ ha hi ?_
      rw [abs_mul]
      calc _ ≤ (2 : ℝ) ^ 26 * 2 ^ 66 := mul_le_mul hw hiv (abs_nonneg _) (by positivity)
        _ ≤ large := by unfold large; norm_num
    exact ⟨hm _ f1 w1, hm _ f2 w2, hm _ f3 w3⟩
  · have hm : ∀ a : F32, isFin a → |val a| ≤ 2 ^ 26 → isFin (div a (sqrt (dot c c))) :=
      fun a ha hw => div_ok _ _ ha hs hs0.ne' (le_trans (hq _ hw) hl)
    exact ⟨hm _ f1 w1, hm _ f2 w2, hm _ f3 w3⟩

/-! ### faces on a grid -/

variable {g : Nat} {p : BrushPlane F32} {n0 n1 n2 : V3 Int}

theorem gridPoint_small {v : V3 F32} {n : V3 Int} (h : GridPoint g v n) :
    n.x.natAbs ≤ 2 ^ 20 ∧ n.y.natAbs ≤ 2 ^ 20 ∧ n.z.natAbs ≤ 2 ^ 20 :=
  ⟨h.small .x, h.small .y, h.small .z⟩

theorem sub_small {a b : Int} (ha : a.natAbs ≤ 2 ^ 20) (hb : b.natAbs ≤ 2 ^ 20) : (a - b).natAbs ≤ 2 ^ 22 := by omega

theorem gridFace_edges (h : GridFace g p n0 n1 n2) :
    IsGV (-(g : Int)) (V3.sub p.v2 p.v0) ⟨n2.x - n0.x, n2.y - n0.y, n2.z - n0.z⟩ ∧
    IsGV (-(g : Int)) (V3.sub p.v1 p.v0) ⟨n1.x - n0.x, n1.y - n0.y, n1.z - n0.z⟩ := by
  obtain ⟨hg, h0, h1, h2⟩ := h
  have s0 := gridPoint_small h0; have s1 := gridPoint_small h1; have s2 := gridPoint_small h2
  exact ⟨isGV_sub (Spec.Box.gridPoint_isGV h2 hg) (Spec.Box.gridPoint_isGV h0 hg) (by omega) (by omega) (by omega),
    isGV_sub (Spec.Box.gridPoint_isGV h1 hg) (Spec.Box.gridPoint_isGV h0 hg) (by omega) (by omega) (by omega)⟩

/-- C96: the computed normal of a face with its points on a line is not a number. -/
theorem spec_C96_no_direction (h : GridFace g p n0 n1 n2) (hl : OnLine n0 n1 n2) : NoDirection p := by
  obtain ⟨e2, e1⟩ := gridFace_edges h
  obtain ⟨hg, h0, h1, h2⟩ := h
  have s0 := gridPoint_small h0; have s1 := gridPoint_small h1; have s2 := gridPoint_small h2
  have he : -(g : Int) ≤ 0 := by omega
  have b1 : (n1.x - n0.x).natAbs ≤ 2 ^ 22 ∧ (n1.y - n0.y).natAbs ≤ 2 ^ 22 ∧ (n1.z - n0.z).natAbs ≤ 2 ^ 22 :=
    ⟨sub_small s1.1 s0.1, sub_small s1.2.1 s0.2.1, sub_small s1.2.2 s0.2.2⟩
  have b2 : (n2.x - n0.x).natAbs ≤ 2 ^ 22 ∧ (n2.y - n0.y).natAbs ≤ 2 ^ 22 ∧ (n2.z - n0.z).natAbs ≤ 2 ^ 22 :=
    ⟨sub_small s2.1 s0.1, sub_small s2.2.1 s0.2.1, sub_small s2.2.2 s0.2.2⟩
  have lx : (n2.y - n0.y) * (n1.z - n0.z) - (n2.z - n0.z) * (n1.y - n0.y) = 0 := hl .x
  have ly : (n2.z - n0.z) * (n1.x - n0.x) - (n2.x - n0.x) * (n1.z - n0.z) = 0 := hl .y
  have lz : (n2.x - n0.x) * (n1.y - n0.y) - (n2.y - n0.y) * (n1.x - n0.x) = 0 := hl .z
  have cx := comp_zero e2.y e1.z e2.z e1.y he b2.2.1 b1.2.2 b2.2.2 b1.2.1 lx
  have cy := comp_zero e2.z e1.x e2.x e1.z he b2.2.2 b1.1 b2.1 b1.2.2 ly
  have cz := comp_zero e2.x e1.y e2.y e1.x he b2.1 b1.2.1 b2.2.1 b1.1 lz
  refine zero_cross_nan ⟨cx.1, cy.1, cz.1⟩ ?_
  exact congr (congr (congrArg V3.mk cx.2) cy.2) cz.2

/-- C96: the computed normal of a face with short edges and its points not on a line is finite. -/
theorem spec_C96_direction (h : GridFace g p n0 n1 n2) (hn : Near n0 n1 n2) (hl : ¬ OnLine n0 n1 n2) :
    FinV (faceNormal p) := by
  obtain ⟨e2, e1⟩ := gridFace_edges h
  have hg := h.fine
  have he : -(g : Int) ≤ 0 := by omega
  have he' : -30 ≤ -(g : Int) := by omega
  obtain ⟨x1, x2⟩ := hn .x
  obtain ⟨y1, y2⟩ := hn .y
  obtain ⟨z1, z2⟩ := hn .z
  simp only [Axis.of] at x1 x2 y1 y2 z1 z2
  obtain ⟨fx, wx, cx⟩ := comp_near e2.y e1.z e2.z e1.y he he' y2 z1 z2 y1
  obtain ⟨fy, wy, cy⟩ := comp_near e2.z e1.x e2.x e1.z he he' z2 x1 x2 z1
  obtain ⟨fz, wz, cz⟩ := comp_near e2.x e1.y e2.y e1.x he he' x2 y1 y2 x1
  refine normalize_fin (c := Arith.cross (V3.sub p.v2 p.v0) (V3.sub p.v1 p.v0)) ⟨fx, fy, fz⟩ ⟨wx, wy, wz⟩ ?_
  by_contra hc
  push Not at hc
  refine hl fun a => ?_
  by_contra ha
  cases a
  · exact absurd (cx ha) (not_le.2 hc.1)
  · exact absurd (cy ha) (not_le.2 hc.2.1)
  · exact absurd (cz ha) (not_le.2 hc.2.2)

variable [Platform]

/-- C96: in single precision the geometry of a map aborts exactly if a face with plain UVs and any corner at all has a
normal that is not finite. -/
theorem C96_aborts_iff (textures : TextureInfo) (entities : List (Entity F32)) :
    (∃ m, Geo.run textures entities = .panic m) ↔ ∃ e ∈ entities, ∃ b ∈ e.brushes, ∃ p ∈ b.planes,
      (∃ u v, p.uv = .quake u v) ∧ (∃ x, Found b.planes p x) ∧ ¬ FinV (faceNormal p) := by
  rw [(C32_aborts_iff textures entities).1]
  simp only [hasLargest_iff]

/-- C96: a face with plain UVs and its points on a line aborts every map it occurs in. -/
theorem C96_line_aborts (textures : TextureInfo) (entities : List (Entity F32)) (e : Entity F32) (he : e ∈ entities)
    (b : Brush F32) (hb : b ∈ e.brushes) (p : BrushPlane F32) (hp : p ∈ b.planes) (u v : F32) (hq : p.uv = .quake u v)
    (g : Nat) (n0 n1 n2 : V3 Int) (hg : GridFace g p n0 n1 n2) (hl : OnLine n0 n1 n2) :
    ∃ m, Geo.run textures entities = .panic m :=
  C32_no_direction_aborts textures entities e he b hb p hp u v hq (spec_C96_no_direction hg hl)

/-- C96: a map whose faces with plain UVs have points on a grid, less than 4096 steps apart, aborts exactly if the
points of one of them lie on a line. -/
theorem C96_grid_iff (textures : TextureInfo) (entities : List (Entity F32))
    (h : ∀ e ∈ entities, ∀ b ∈ e.brushes, ∀ p ∈ b.planes, (∃ u v, p.uv = .quake u v) →
      ∃ g n0 n1 n2, GridFace g p n0 n1 n2 ∧ Near n0 n1 n2) :
    (∃ m, Geo.run textures entities = .panic m) ↔ ∃ e ∈ entities, ∃ b ∈ e.brushes, ∃ p ∈ b.planes,
      (∃ u v, p.uv = .quake u v) ∧ ∃ g n0 n1 n2, GridFace g p n0 n1 n2 ∧ OnLine n0 n1 n2 := by
  constructor
  · intro hm
    obtain ⟨e, he, b, hb, p, hp, hq, -, hn⟩ := (C96_aborts_iff textures entities).1 hm
    obtain ⟨g, n0, n1, n2, hg, hnear⟩ := h e he b hb p hp hq
    refine ⟨e, he, b, hb, p, hp, hq, g, n0, n1, n2, hg, ?_⟩
    by_contra hl
    exact hn (spec_C96_direction hg hnear hl)
  · rintro ⟨e, he, b, hb, p, hp, ⟨u, v, hq⟩, g, n0, n1, n2, hg, hl⟩
    exact C96_line_aborts textures entities e he b hb p hp u v hq g n0 n1 n2 hg hl

/-- C96: the faces asked for by C92, for maps on a grid. -/
theorem spec_C96_faces_iff (entities : List (Entity F32))
    (h : ∀ e ∈ entities, ∀ b ∈ e.brushes, ∀ p ∈ b.planes, (∃ u v, p.uv = .quake u v) →
      ∃ g n0 n1 n2, GridFace g p n0 n1 n2 ∧ Near n0 n1 n2) :
    (∀ e ∈ entities, ∀ b ∈ e.brushes, ∀ p ∈ b.planes, (∃ u v, p.uv = .quake u v) →
      (∃ x, Found b.planes p x) → HasLargest (faceNormal p)) ↔
    ∀ e ∈ entities, ∀ b ∈ e.brushes, ∀ p ∈ b.planes, (∃ u v, p.uv = .quake u v) → ∀ g n0 n1 n2,
      GridFace g p n0 n1 n2 → ¬ OnLine n0 n1 n2 := by
  have h1 := C96_grid_iff (fun _ => none) entities h
  rw [(C32_aborts_iff _ entities).1] at h1
  constructor
  · intro hf e he b hb p hp hq g n0 n1 n2 hg hl
    obtain ⟨e, he, b, hb, p, hp, hq, hx, hn⟩ := h1.2 ⟨e, he, b, hb, p, hp, hq, g, n0, n1, n2, hg, hl⟩
    exact hn (hf e he b hb p hp hq hx)
  · intro hf e he b hb p hp hq hx
    by_contra hn
    obtain ⟨e, he, b, hb, p, hp, hq, g, n0, n1, n2, hg, hl⟩ := h1.1 ⟨e, he, b, hb, p, hp, hq, hx, hn⟩
    exact hf e he b hb p hp hq g n0 n1 n2 hg hl

/-- C96: which maps on a grid can be loaded. -/
theorem C96_loads_iff (order : List (Str × List (BrushGeo F32)) → List (Str × List (BrushGeo F32)))
    (horder : ∀ l, (order l).Perm l) (config : Config F32) (text : Str) (entities : List (Entity F32))
    (hf : config.mapFile = some text) (hm : MapIs text entities)
    (h : ∀ e ∈ entities, ∀ b ∈ e.brushes, ∀ p ∈ b.planes, (∃ u v, p.uv = .quake u v) →
      ∃ g n0 n1 n2, GridFace g p n0 n1 n2 ∧ Near n0 n1 n2) :
    (∃ depth nodes, Quarch.run depth order config = .ok nodes) ↔
      (∃ pre w post, entities = pre ++ w :: post ∧ w.properties (str! "classname") = some (str! "worldspawn") ∧
        ∀ e ∈ pre ++ post, e.properties (str! "classname") ≠ some (str! "worldspawn")) ∧
      (∀ e ∈ entities, ∀ b ∈ e.brushes, ∀ p ∈ b.planes, (∃ u v, p.uv = .quake u v) → ∀ g n0 n1 n2,
        GridFace g p n0 n1 n2 → ¬ OnLine n0 n1 n2) ∧
      (∀ e ∈ entities, Anchored entities e → ∃ name, e.properties (str! "classname") = some name) ∧
      (∀ e ∈ entities, Anchored entities e → (∃ d, FirstForge config.forgeGameData e d) →
        ∀ k ∈ [str! "_tb_id", str! "_tb_group"], ∀ s, e.properties k = some s → ∃ i, ReadsI32 s i) ∧
      ¬ Loop entities := by
  rw [C92_loads_iff order horder config, ← spec_C96_faces_iff entities h]
  constructor
  · rintro ⟨entities', hl⟩
    obtain ⟨text', hf', hm'⟩ := hl.text
    obtain rfl : text = text' := Option.some.inj (hf.symm.trans hf')
    obtain ⟨tokens, paths, h1, h2⟩ := (C92_text text entities).2 hm
    obtain ⟨tokens', paths', h1', h2'⟩ := (C92_text text entities').2 hm'
    obtain rfl : tokens = tokens' := by rw [h1] at h1'; cases h1'; rfl
    obtain rfl : entities = entities' := by rw [h2] at h2'; cases h2'; rfl
    exact ⟨hl.world, hl.faces, hl.named, hl.ids, hl.tree⟩
  · rintro ⟨hw, hfa, hn, hi, ht⟩
    exact ⟨entities, ⟨text, hf, hm⟩, hw, hfa, hn, hi, ht⟩

/-! ### the limit -/

theorem rnd_thin : rnd 67108863 = 67108864 := by
  have h1 := lt_pow_expo 67108863
  have he : expo 67108863 = 2 := by
    have h2 : (2 : ℝ) ^ (expo 67108863 + 23) ≤ 67108863 := pow_expo_le (by norm_num) (expo_ne (by norm_num))
    have g1 : 25 < expo 67108863 + 24 := by
      by_contra hc
      have : (2 : ℝ) ^ (expo 67108863 + 24) ≤ 2 ^ (25 : Int) := zpow_le_zpow_right₀ (by norm_num) (by omega)
      have e : (2 : ℝ) ^ (25 : Int) = 33554432 := by norm_num
      rw [e] at this
      linarith
    have g2 : expo 67108863 + 23 < 26 := by
      by_contra hc
      have : (2 : ℝ) ^ (26 : Int) ≤ 2 ^ (expo 67108863 + 23) := zpow_le_zpow_right₀ (by norm_num) (by omega)
      have e : (2 : ℝ) ^ (26 : Int) = 67108864 := by norm_num
      rw [e] at this
      linarith
    omega
  unfold rnd
  rw [he]
  have e : (67108863 : ℝ) / 2 ^ (2 : Int) = 67108863 / 4 := by norm_num
  rw [e]
  have hfl : ⌊(67108863 / 4 : ℝ)⌋₊ = 16777215 := by
    rw [Nat.floor_eq_iff (by norm_num)]
    constructor <;> norm_num
  have hn : nearest (67108863 / 4) = 16777216 := by
    unfold nearest
    rw [hfl]
    norm_num
  rw [hn]
  norm_num

/-- A product that is rounded up. -/
theorem thin_product {a b : F32} (ha : Is a 8191) (hb : Is b 8193) : isFin (mul a b) ∧ val (mul a b) = 67108864 := by
  obtain ⟨fa, va, -⟩ := ha
  obtain ⟨fb, vb, -⟩ := hb
  have hf : isFin (mul a b) := mul_ok _ _ fa fb (by rw [va, vb]; unfold large; norm_num)
  refine ⟨hf, ?_⟩
  rcases a with _ | _ | ⟨s, a, ra⟩ <;> rcases b with _ | _ | ⟨t, b, rb⟩ <;> simp only [isFin] at fa fb
  simp only [mul] at hf ⊢
  rw [ofAbs_val hf]
  simp only [val] at va vb
  have hs : sv (xor s t) (a * b) = sv false 67108863 := by
    rw [← sv_mul, va, vb]; simp only [sv]; norm_num
  rw [sv_rnd (mul_nonneg (rep_nonneg ra) (rep_nonneg rb)) (by norm_num) hs, rnd_thin]
  simp [sv]

/-- C96: beyond that distance a face whose points do not lie on a line can abort a load. -/
theorem C96_thin_aborts (textures : TextureInfo) (entities : List (Entity F32)) (e : Entity F32) (he : e ∈ entities)
    (b : Brush F32) (hb : b ∈ e.brushes) (p : BrushPlane F32) (hp : p ∈ b.planes) (u v : F32) (hq : p.uv = .quake u v)
    (hg : GridFace 0 p ⟨0, 0, 0⟩ ⟨8192, 8193, 0⟩ ⟨8191, 8192, 0⟩) :
    ¬ OnLine ⟨0, 0, 0⟩ ⟨8192, 8193, 0⟩ ⟨8191, 8192, 0⟩ ∧ ∃ m, Geo.run textures entities = .panic m := by
  refine ⟨fun h => absurd (h .z) (by decide), ?_⟩
  refine C32_no_direction_aborts textures entities e he b hb p hp u v hq ?_
  obtain ⟨e2, e1⟩ := gridFace_edges hg
  simp only [sub_zero] at e1 e2
  have cx := comp_zero e2.y e1.z e2.z e1.y (by norm_num) (by norm_num) (by norm_num) (by norm_num) (by norm_num)
    (by norm_num)
  have cy := comp_zero e2.z e1.x e2.x e1.z (by norm_num) (by norm_num) (by norm_num) (by norm_num) (by norm_num)
    (by norm_num)
  have i1 := is_of_isG e2.x
  have i2 := is_of_isG e1.y
  obtain ⟨f1, v1⟩ := thin_product i1 i2
  have m2 := isG_mul (isG_pow (z := 1) (j := 13) (e := 0) e2.y (by norm_num)) (isG_pow (z := 1) (j := 13) (e := 0) e1.x (by norm_num))
    (by norm_num) (by norm_num) (by norm_num)
  have cz := sub_zero_of f1 m2.fin (by rw [v1, m2.val]; norm_num)
  exact zero_cross_nan ⟨cx.1, cy.1, cz.1⟩ (congr (congr (congrArg V3.mk cx.2) cy.2) cz.2)

end
end Quarch
