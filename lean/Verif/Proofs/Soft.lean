import Verif.Proofs.F32Exact
import Verif.Proofs.Geo
import Verif.Proofs.Gather
/-
Calculating with concrete single precision numbers: mantissa and exponent as whole numbers, with a proof that the
operations agree with those of `Spec/F32.lean`. Every result is checked to be the correctly rounded one; `bad` stands
for an unknown result (overflow, numbers below the normal range, division by zero, not-a-number).
-/
set_option linter.unusedSectionVars false
namespace Quarch.Spec
open Quarch.Geo

/-- A number `m * 2 ^ e`, or an unknown one. -/
inductive Soft where
  | bad
  | fin (m e : Int)
deriving DecidableEq, Repr

namespace Soft

/-- How far to shift `n / d` to give it 24 binary digits. -/
def shift (n d : Nat) : Int :=
  let s0 : Int := 23 - ((Nat.log2 n : Int) - Nat.log2 d)
  if 2 ^ 23 * (d * 2 ^ (-s0).toNat) ≤ n * 2 ^ s0.toNat then s0 else s0 + 1

/-- `n / d * 2 ^ k` rounded, given the shift. -/
def roundAt (n d : Nat) (k s : Int) : Option (Nat × Int) :=
  let N := n * 2 ^ s.toNat
  let D := d * 2 ^ (-s).toNat
  let e := k - s
  let q := N / D
  let r := N % D
  let m := if 2 * r < D then q else if D < 2 * r then q + 1 else if q % 2 = 0 then q else q + 1
  if 2 ^ 23 * D ≤ N ∧ N < 2 ^ 24 * D ∧ -149 ≤ e ∧ e ≤ 103 then some (m, e) else none

/-- `n / d * 2 ^ k` rounded to 24 binary digits. -/
def roundQ (n d : Nat) (k : Int) : Option (Nat × Int) :=
  if n = 0 then some (0, 0) else roundAt n d k (shift n d)

/-- Newton's iteration for the square root. -/
def newton : Nat → Nat → Nat → Nat
  | 0, _, g => g
  | f + 1, n, g => if (g + n / g) / 2 < g then newton f n ((g + n / g) / 2) else g

/-- The square root of `m * 2 ^ e` rounded, given a shift and the whole part of the root. -/
def sqrtAt (m : Nat) (e : Int) (t g : Nat) : Option (Nat × Int) :=
  let N := m * 2 ^ t
  let f := (e - t) / 2
  if g * g ≤ N ∧ N < (g + 1) * (g + 1) ∧ 2 ^ 23 ≤ g ∧ g < 2 ^ 24 ∧ -149 ≤ f ∧ f ≤ 103 ∧ 2 * f = e - t then
    some (if N ≤ g * g + g then g else g + 1, f) else none

/-- The square root of `m * 2 ^ e` rounded to 24 binary digits. -/
def roundSqrt (m : Nat) (e : Int) : Option (Nat × Int) :=
  if m = 0 then some (0, 0) else
  let t0 := 46 - Nat.log2 m
  let t := if (e - t0) % 2 = 0 then t0 else t0 + 1
  sqrtAt m e t (newton 40 (m * 2 ^ t) (2 ^ 24))

def ofQ (neg : Bool) (n d : Nat) (k : Int) : Soft :=
  match roundQ n d k with
  | some (m, e) => fin (if neg then -(m : Int) else m) e
  | none => bad

def add : Soft → Soft → Soft
  | fin m e, fin m' e' =>
    let e0 := min e e'
    let z := m * 2 ^ (e - e0).toNat + m' * 2 ^ (e' - e0).toNat
    ofQ (decide (z < 0)) z.natAbs 1 e0
  | _, _ => bad

def neg : Soft → Soft
  | fin m e => fin (-m) e
  | bad => bad

def sub (a b : Soft) : Soft := add a (neg b)

def mul : Soft → Soft → Soft
  | fin m e, fin m' e' => ofQ (decide (m * m' < 0)) (m * m').natAbs 1 (e + e')
  | _, _ => bad

def div : Soft → Soft → Soft
  | fin m e, fin m' e' => if m' = 0 then bad else ofQ (decide (m * m' < 0)) m.natAbs m'.natAbs (e - e')
  | _, _ => bad

def sqrt : Soft → Soft
  | fin m e =>
    if m < 0 then bad else
    match roundSqrt m.natAbs e with
    | some (q, e') => fin q e'
    | none => bad
  | bad => bad

/-- `a < b`; nothing if unknown. -/
def lt : Soft → Soft → Option Bool
  | fin m e, fin m' e' =>
    let e0 := min e e'
    some (decide (m * 2 ^ (e - e0).toNat < m' * 2 ^ (e' - e0).toNat))
  | _, _ => none

/-! ### vectors and planes -/

def dot (a b : V3 Soft) : Soft := add (add (mul a.x b.x) (mul a.y b.y)) (mul a.z b.z)

def cross (a b : V3 Soft) : V3 Soft :=
  ⟨sub (mul a.y b.z) (mul a.z b.y), sub (mul a.z b.x) (mul a.x b.z), sub (mul a.x b.y) (mul a.y b.x)⟩

def vsub (a b : V3 Soft) : V3 Soft := ⟨sub a.x b.x, sub a.y b.y, sub a.z b.z⟩
def vadd (a b : V3 Soft) : V3 Soft := ⟨add a.x b.x, add a.y b.y, add a.z b.z⟩
def smul (a : V3 Soft) (s : Soft) : V3 Soft := ⟨mul a.x s, mul a.y s, mul a.z s⟩
def sdiv (a : V3 Soft) (s : Soft) : V3 Soft := ⟨div a.x s, div a.y s, div a.z s⟩

/-- Normalizing, in the way given by `r`. -/
def normalize (r : Bool) (a : V3 Soft) : V3 Soft :=
  let l := sqrt (dot a a)
  if r then smul a (div (fin 1 0) l) else sdiv a l

/-- Normal and distance of a plane. -/
structure Plane where
  n : V3 Soft
  d : Soft

def plane (r : Bool) (v0 v1 v2 : V3 Soft) : Plane :=
  let n := normalize r (cross (vsub v2 v0) (vsub v1 v0))
  ⟨n, dot n v0⟩

def eps : Soft := ofQ false 1 1000 0

/-- The plane excludes the point; nothing if unknown. -/
def outside (v : V3 Soft) (p : Plane) : Option Bool :=
  let proj := dot p.n v
  match lt p.d proj, lt eps (sub proj p.d) with
  | some a, some b => some (a && b)
  | _, _ => none

/-- It is certain that no corner comes from the three planes. -/
def noCorner (ps : List Plane) (a b c : Plane) : Bool :=
  let ab := cross a.n b.n
  let denom := dot ab c.n
  if lt denom eps = some true then true
  else if lt denom eps = some false then
    let v := sdiv (vadd (vadd (smul (cross b.n c.n) a.d) (smul (cross c.n a.n) b.d)) (smul ab c.d)) denom
    ps.any fun p => outside v p == some true
  else false

/-- At most this many corners of the face are found. -/
def atMost (ps : List Plane) (a : Plane) : Nat :=
  (ps.map fun b => ps.countP fun c => !noCorner ps a b c).sum

/-- The number is the one described. -/
def Den : Soft → F32 → Prop
  | bad, _ => True
  | fin m e, a => F32.isFin a ∧ F32.val a = m * (2 : ℝ) ^ e

end Soft

namespace F32
open Soft Classical

theorem expo_eq {x : ℝ} {e : Int} (ge : -149 ≤ e) (lo : (2 : ℝ) ^ (e + 23) ≤ x) (hi : x < 2 ^ (e + 24)) : expo x = e := by
  have hx : 0 < x := lt_of_lt_of_le (by positivity) lo
  have h1 : e + 23 ≤ Int.log 2 x := (Int.zpow_le_iff_le_log (by norm_num) hx).1 (by exact_mod_cast lo)
  have h2 : Int.log 2 x < e + 24 := (Int.lt_zpow_iff_log_lt (by norm_num) hx).1 (by exact_mod_cast hi)
  unfold expo
  omega

theorem rep_round {m : Nat} {e : Int} (hm : m ≤ 2 ^ 24) (ge : -149 ≤ e) (le : e ≤ 103) : Rep (m * (2 : ℝ) ^ e) := by
  rcases Nat.lt_or_ge m (2 ^ 24) with h | h
  · exact ⟨m, e, h, ge, by omega, rfl⟩
  · obtain rfl : m = 2 ^ 24 := le_antisymm hm h
    refine ⟨2 ^ 23, e + 1, by norm_num, by omega, by omega, ?_⟩
    rw [zpow_add₀ (by norm_num)]
    push_cast
    ring

theorem two_split (s : Int) : (2 : ℝ) ^ s * 2 ^ (-s).toNat = 2 ^ s.toNat := by
  rcases le_total 0 s with h | h
  · obtain ⟨n, rfl⟩ := Int.eq_ofNat_of_zero_le h
    simp
  · obtain ⟨n, hn⟩ := Int.eq_ofNat_of_zero_le (show 0 ≤ -s by omega)
    obtain rfl : s = -(n : Int) := by omega
    simp

theorem roundQ_rnd {n d : Nat} {k : Int} {m : Nat} {e : Int} (hd : 0 < d) (h : roundQ n d k = some (m, e)) :
    rnd ((n : ℝ) / d * 2 ^ k) = m * 2 ^ e ∧ Rep (m * (2 : ℝ) ^ e) ∧ (n = 0 → m = 0) := by
  unfold roundQ at h
  by_cases hn : n = 0
  · rw [if_pos hn] at h
    simp only [Option.some.injEq, Prod.mk.injEq] at h
    obtain ⟨rfl, rfl⟩ := h
    subst hn
    simp only [Nat.cast_zero, zero_div, zero_mul]
    exact ⟨rnd_zero, rep_zero, fun _ => trivial⟩
  rw [if_neg hn] at h
  revert h
  generalize shift n d = s
  intro h
  unfold roundAt at h
  simp only at h
  by_cases hc : 2 ^ 23 * (d * 2 ^ (-s).toNat) ≤ n * 2 ^ s.toNat ∧ n * 2 ^ s.toNat < 2 ^ 24 * (d * 2 ^ (-s).toNat) ∧
      -149 ≤ k - s ∧ k - s ≤ 103
  swap
  · rw [if_neg hc] at h; exact absurd h (by simp)
  rw [if_pos hc] at h
  simp only [Option.some.injEq, Prod.mk.injEq] at h
  obtain ⟨hm, rfl⟩ := h
  obtain ⟨lo, hi, ge, le⟩ := hc
  have hD : 0 < d * 2 ^ (-s).toNat := by positivity
  have hx : (n : ℝ) / d * 2 ^ k / 2 ^ (k - s) = ((n * 2 ^ s.toNat : Nat) : ℝ) / ((d * 2 ^ (-s).toNat : Nat) : ℝ) := by
    have hd' : (d : ℝ) ≠ 0 := by exact_mod_cast hd.ne'
    rw [zpow_sub₀ (by norm_num)]
    push_cast
    rw [← two_split s]
    field_simp
  revert hm lo hi hD hx
  generalize n * 2 ^ s.toNat = N
  generalize d * 2 ^ (-s).toNat = D
  intro hm lo hi hD hx
  have hDr : (0 : ℝ) < D := by exact_mod_cast hD
  have hx' : (n : ℝ) / d * 2 ^ k = (N : ℝ) / D * 2 ^ (k - s) := by
    rw [← hx]; field_simp
  have hp : (0 : ℝ) < 2 ^ (k - s) := by positivity
  have he : expo ((n : ℝ) / d * 2 ^ k) = k - s := by
    refine expo_eq ge ?_ ?_
    · rw [hx', add_comm, zpow_add₀ (by norm_num)]
      refine mul_le_mul_of_nonneg_right ?_ hp.le
      rw [le_div_iff₀ hDr]
      exact_mod_cast lo
    · rw [hx', add_comm, zpow_add₀ (by norm_num)]
      refine mul_lt_mul_of_pos_right ?_ hp
      rw [div_lt_iff₀ hDr]
      exact_mod_cast hi
  have hfl : ⌊(N : ℝ) / D⌋₊ = N / D := by
    rw [Nat.floor_eq_iff (by positivity), le_div_iff₀ hDr, div_lt_iff₀ hDr]
    refine ⟨by exact_mod_cast Nat.div_mul_le_self N D, ?_⟩
    have := Nat.lt_mul_of_div_lt (Nat.lt_succ_self (N / D)) hD
    rw [mul_comm (N / D).succ] at this
    rw [mul_comm]
    exact_mod_cast this
  have hq : (N : ℝ) / D - ((N / D : Nat) : ℝ) = ((N % D : Nat) : ℝ) / D := by
    rw [eq_div_iff hDr.ne', sub_mul, div_mul_cancel₀ _ hDr.ne', sub_eq_iff_eq_add]
    have := Nat.mod_add_div N D
    rw [mul_comm] at this
    exact_mod_cast this.symm
  have hnear : nearest ((N : ℝ) / D) = m := by
    unfold nearest
    rw [hfl, hq, ← hm]
    have c1 : (((N % D : Nat) : ℝ) / D < 1 / 2) = (2 * (N % D) < D) := by
      rw [div_lt_div_iff₀ hDr (by norm_num), one_mul]
      refine propext ⟨fun h => ?_, fun h => ?_⟩
      · have : (((N % D) * 2 : Nat) : ℝ) < (D : ℝ) := by push_cast; exact h
        have := Nat.cast_lt.1 this
        omega
      · have : (((2 * (N % D) : Nat)) : ℝ) < (D : ℝ) := by exact_mod_cast h
        push_cast at this; linarith
    have c2 : (1 / 2 < ((N % D : Nat) : ℝ) / D) = (D < 2 * (N % D)) := by
      rw [div_lt_div_iff₀ (by norm_num) hDr, one_mul]
      refine propext ⟨fun h => ?_, fun h => ?_⟩
      · have : (D : ℝ) < (((N % D) * 2 : Nat) : ℝ) := by push_cast; exact h
        have := Nat.cast_lt.1 this
        omega
      · have : (D : ℝ) < (((2 * (N % D) : Nat)) : ℝ) := by exact_mod_cast h
        push_cast at this; linarith
    simp only [c1, c2, Nat.even_iff]
  have hml : m ≤ 2 ^ 24 := by
    have : N / D < 2 ^ 24 := (Nat.div_lt_iff_lt_mul hD).2 hi
    rw [← hm]
    split_ifs <;> omega
  refine ⟨?_, rep_round hml ge le, fun h => absurd h hn⟩
  unfold rnd
  rw [he, hx, hnear]

theorem roundSqrt_rnd {m : Nat} {e : Int} {q : Nat} {e' : Int} (h : roundSqrt m e = some (q, e')) :
    rnd (Real.sqrt (m * 2 ^ e)) = q * 2 ^ e' ∧ Rep (q * (2 : ℝ) ^ e') := by
  unfold roundSqrt at h
  by_cases hn : m = 0
  · rw [if_pos hn] at h
    simp only [Option.some.injEq, Prod.mk.injEq] at h
    obtain ⟨rfl, rfl⟩ := h
    subst hn
    simp [rnd_zero, rep_zero]
  rw [if_neg hn] at h
  revert h
  simp only
  generalize newton 40 _ (2 ^ 24) = g
  generalize (if (e - (46 - Nat.log2 m : Nat)) % 2 = 0 then 46 - Nat.log2 m else 46 - Nat.log2 m + 1) = t
  unfold sqrtAt
  simp only
  generalize (e - t) / 2 = f
  intro h
  by_cases hc : g * g ≤ m * 2 ^ t ∧ m * 2 ^ t < (g + 1) * (g + 1) ∧ 2 ^ 23 ≤ g ∧ g < 2 ^ 24 ∧ -149 ≤ f ∧ f ≤ 103 ∧
      2 * f = e - t
  swap
  · rw [if_neg hc] at h; exact absurd h (by simp)
  rw [if_pos hc] at h
  simp only [Option.some.injEq, Prod.mk.injEq] at h
  obtain ⟨hm, rfl⟩ := h
  obtain ⟨lo, hi, glo, ghi, ge, le, hf⟩ := hc
  have hx : Real.sqrt (m * 2 ^ e) = Real.sqrt ((m * 2 ^ t : Nat) : ℝ) * 2 ^ f := by
    have hp : (0 : ℝ) ≤ 2 ^ f := by positivity
    rw [← Real.sqrt_sq hp, ← Real.sqrt_mul (by positivity)]
    congr 1
    rw [show e = t + (f + f) by omega, zpow_add₀ (by norm_num), zpow_add₀ (by norm_num)]
    push_cast
    rw [zpow_natCast]
    ring
  revert hm lo hi hx
  generalize m * 2 ^ t = N
  intro hm lo hi hx
  have hp : (0 : ℝ) < 2 ^ f := by positivity
  have lo' : (g : ℝ) ≤ Real.sqrt N := Real.le_sqrt_of_sq_le (by rw [pow_two]; exact_mod_cast lo)
  have hi' : Real.sqrt N < (g : ℝ) + 1 := by
    rw [Real.sqrt_lt' (by positivity), pow_two]
    exact_mod_cast hi
  have he : expo (Real.sqrt (m * 2 ^ e)) = f := by
    refine expo_eq ge ?_ ?_
    · rw [hx, add_comm, zpow_add₀ (by norm_num)]
      refine mul_le_mul_of_nonneg_right (le_trans ?_ lo') hp.le
      exact_mod_cast glo
    · rw [hx, add_comm, zpow_add₀ (by norm_num)]
      refine mul_lt_mul_of_pos_right (lt_of_lt_of_le hi' ?_) hp
      exact_mod_cast ghi
  have hfl : ⌊Real.sqrt (N : ℝ)⌋₊ = g := (Nat.floor_eq_iff (Real.sqrt_nonneg _)).2 ⟨lo', hi'⟩
  have hnear : nearest (Real.sqrt N) = q := by
    unfold nearest
    rw [hfl, ← hm]
    have sq : Real.sqrt (N : ℝ) * Real.sqrt N = N := Real.mul_self_sqrt (Nat.cast_nonneg _)
    by_cases hle : N ≤ g * g + g
    · have : (N : ℝ) ≤ g * g + g := by exact_mod_cast hle
      rw [if_pos hle, if_pos]
      by_contra hcon
      push Not at hcon
      have h1 : (g : ℝ) + 1 / 2 ≤ Real.sqrt N := by linarith
      have h2 : ((g : ℝ) + 1 / 2) * (g + 1 / 2) ≤ Real.sqrt N * Real.sqrt N :=
        mul_le_mul h1 h1 (by positivity) (Real.sqrt_nonneg _)
      nlinarith
    · have h3 : g * g + g + 1 ≤ N := by omega
      have : (g : ℝ) * g + g + 1 ≤ N := by exact_mod_cast h3
      have key : (g : ℝ) + 1 / 2 < Real.sqrt N := by
        by_contra hcon
        push Not at hcon
        have h2 : Real.sqrt N * Real.sqrt N ≤ ((g : ℝ) + 1 / 2) * (g + 1 / 2) :=
          mul_le_mul hcon hcon (Real.sqrt_nonneg _) (by positivity)
        nlinarith
      rw [if_neg hle, if_neg (by linarith), if_pos (by linarith)]
  refine ⟨?_, rep_round (by rw [← hm]; split_ifs <;> omega) ge le⟩
  unfold rnd
  rw [he, hx, mul_div_assoc, div_self hp.ne', mul_one, hnear]

theorem den_ofAbs {s b : Bool} {n d : Nat} {k : Int} {x y : ℝ} (hd : 0 < d) (hx : x = (n : ℝ) / d * 2 ^ k)
    (hy : sv s x = y) (hb : b = decide (y < 0)) : Den (ofQ b n d k) (ofAbs s x) := by
  unfold ofQ
  cases h : roundQ n d k with
  | none => exact trivial
  | some me =>
    obtain ⟨m, e⟩ := me
    obtain ⟨h1, h2, h3⟩ := roundQ_rnd hd h
    rw [← hx] at h1
    have hf : isFin (ofAbs s x) := ofAbs_fin.2 (by rw [h1]; exact h2)
    refine ⟨hf, ?_⟩
    rw [ofAbs_val hf, h1]
    have hx0 : 0 ≤ x := by rw [hx]; positivity
    by_cases hn : n = 0
    · rw [h3 hn]; cases s <;> cases b <;> simp [sv]
    · have hxp : 0 < x := by
        have : 0 < n := Nat.pos_of_ne_zero hn
        rw [hx]; positivity
      cases s
      · have : b = false := by rw [hb, ← hy]; simp [sv, hx0]
        rw [this]; simp [sv]
      · have : b = true := by rw [hb, ← hy]; simp [sv, hxp]
        rw [this]; simp [sv]

theorem pow_split {e e0 : Int} (h : e0 ≤ e) : (2 : ℝ) ^ e = 2 ^ (e - e0).toNat * 2 ^ e0 := by
  obtain ⟨n, hn⟩ := Int.eq_ofNat_of_zero_le (show 0 ≤ e - e0 by omega)
  rw [show e = (n : Int) + e0 by omega, zpow_add₀ (by norm_num)]
  simp

theorem natAbs_real (z : Int) (e : Int) : |(z : ℝ) * 2 ^ e| = (z.natAbs : ℝ) / (1 : Nat) * 2 ^ e := by
  rw [abs_mul, abs_of_pos (show (0 : ℝ) < 2 ^ e by positivity), Nat.cast_natAbs, Int.cast_abs]
  simp

theorem sign_real (z : Int) (e : Int) : ((z : ℝ) * 2 ^ e < 0) ↔ z < 0 := by
  have hp : (0 : ℝ) < 2 ^ e := by positivity
  constructor
  · intro h
    have : (z : ℝ) < 0 := by
      by_contra hc
      push Not at hc
      have := mul_nonneg hc hp.le
      linarith
    exact_mod_cast this
  · intro h
    have : (z : ℝ) < 0 := by exact_mod_cast h
    exact mul_neg_of_neg_of_pos this hp

theorem den_add {x y : Soft} {a b : F32} (ha : Den x a) (hb : Den y b) : Den (Soft.add x y) (add a b) := by
  rcases x with _ | ⟨m, e⟩ <;> rcases y with _ | ⟨m', e'⟩ <;> try exact trivial
  obtain ⟨fa, va⟩ := ha
  obtain ⟨fb, vb⟩ := hb
  rcases a with _ | _ | ⟨s, a, ra⟩ <;> rcases b with _ | _ | ⟨t, b, rb⟩ <;> simp only [isFin] at fa fb
  simp only [val] at va vb
  simp only [add, Soft.add]
  have hs : sv s a + sv t b =
      ((m * 2 ^ (e - min e e').toNat + m' * 2 ^ (e' - min e e').toNat : Int) : ℝ) * 2 ^ (min e e') := by
    rw [va, vb, pow_split (min_le_left e e'), pow_split (min_le_right e e')]
    push_cast
    ring
  rw [hs]
  generalize m * 2 ^ (e - min e e').toNat + m' * 2 ^ (e' - min e e').toNat = z
  generalize min e e' = e0
  split_ifs with hz
  · have hp : (0 : ℝ) < 2 ^ e0 := by positivity
    have : (z : ℝ) = 0 := by
      rcases mul_eq_zero.1 hz with h | h
      · exact h
      · exact absurd h hp.ne'
    have hz0 : z = 0 := by exact_mod_cast this
    subst hz0
    refine ⟨trivial, ?_⟩
    cases s <;> cases t <;> simp [val, sv]
  · unfold ofReal
    refine den_ofAbs (y := (z : ℝ) * 2 ^ e0) one_pos (natAbs_real z e0) (ofReal_abs _) ?_
    rw [decide_eq_decide]
    exact (sign_real z e0).symm

theorem den_neg [F32Lib] {x : Soft} {a : F32} (ha : Den x a) : Den (Soft.neg x) (neg a) := by
  rcases x with _ | ⟨m, e⟩
  · exact trivial
  · exact ⟨(neg_fin a).2 ha.1, by rw [neg_val, ha.2]; push_cast; ring⟩

theorem den_sub [F32Lib] {x y : Soft} {a b : F32} (ha : Den x a) (hb : Den y b) : Den (Soft.sub x y) (sub a b) :=
  den_add ha (den_neg hb)

theorem abs_of_sv {s : Bool} {a y : ℝ} (h : 0 ≤ a) (hy : sv s a = y) : a = |y| := by rw [← hy, sv_abs _ h]

theorem den_mul {x y : Soft} {a b : F32} (ha : Den x a) (hb : Den y b) : Den (Soft.mul x y) (mul a b) := by
  rcases x with _ | ⟨m, e⟩ <;> rcases y with _ | ⟨m', e'⟩ <;> try exact trivial
  obtain ⟨fa, va⟩ := ha
  obtain ⟨fb, vb⟩ := hb
  rcases a with _ | _ | ⟨s, a, ra⟩ <;> rcases b with _ | _ | ⟨t, b, rb⟩ <;> simp only [isFin] at fa fb
  simp only [val] at va vb
  simp only [mul, Soft.mul]
  have hs : sv (xor s t) (a * b) = ((m * m' : Int) : ℝ) * 2 ^ (e + e') := by
    rw [← sv_mul, va, vb, zpow_add₀ (by norm_num)]
    push_cast
    ring
  have h0 : 0 ≤ a * b := mul_nonneg (rep_nonneg ra) (rep_nonneg rb)
  refine den_ofAbs one_pos ?_ hs ?_
  · rw [abs_of_sv h0 hs, natAbs_real]
  · rw [decide_eq_decide]
    exact (sign_real _ _).symm

theorem den_div {x y : Soft} {a b : F32} (ha : Den x a) (hb : Den y b) : Den (Soft.div x y) (div a b) := by
  rcases x with _ | ⟨m, e⟩ <;> rcases y with _ | ⟨m', e'⟩ <;> try exact trivial
  simp only [Soft.div]
  split_ifs with hm
  · exact trivial
  obtain ⟨fa, va⟩ := ha
  obtain ⟨fb, vb⟩ := hb
  rcases a with _ | _ | ⟨s, a, ra⟩ <;> rcases b with _ | _ | ⟨t, b, rb⟩ <;> simp only [isFin] at fa fb
  simp only [val] at va vb
  have hpe : (2 : ℝ) ^ e' ≠ 0 := by positivity
  have hmr : (m' : ℝ) ≠ 0 := by exact_mod_cast hm
  have ea := abs_of_sv (rep_nonneg ra) va
  have eb := abs_of_sv (rep_nonneg rb) vb
  have hb0 : b ≠ 0 := by
    rw [eb]; exact abs_ne_zero.2 (mul_ne_zero hmr hpe)
  simp only [div, if_neg hb0]
  refine den_ofAbs (y := sv s a / sv t b) (Int.natAbs_pos.2 hm) ?_ (by rw [sv_div]) ?_
  · rw [ea, eb, natAbs_real, natAbs_real, zpow_sub₀ (by norm_num)]
    have : (m'.natAbs : ℝ) ≠ 0 := by exact_mod_cast (Int.natAbs_pos.2 hm).ne'
    push_cast
    field_simp
  · rw [decide_eq_decide, va, vb, mul_div_mul_comm, ← zpow_sub₀ (by norm_num)]
    have hp : (0 : ℝ) < 2 ^ (e - e') := by positivity
    have h1 : (m : ℝ) / m' * 2 ^ (e - e') < 0 ↔ (m : ℝ) / m' < 0 :=
      ⟨fun h => by by_contra hc; push Not at hc; have := mul_nonneg hc hp.le; linarith, fun h => mul_neg_of_neg_of_pos h hp⟩
    rw [h1, div_neg_iff, mul_neg_iff]
    norm_cast

theorem den_sqrt {x : Soft} {a : F32} (ha : Den x a) : Den (Soft.sqrt x) (sqrt a) := by
  rcases x with _ | ⟨m, e⟩
  · exact trivial
  simp only [Soft.sqrt]
  split_ifs with hm
  · exact trivial
  cases hr : roundSqrt m.natAbs e with
  | none => exact trivial
  | some qe =>
    obtain ⟨q, e'⟩ := qe
    simp only
    obtain ⟨h1, h2⟩ := roundSqrt_rnd hr
    obtain ⟨fa, va⟩ := ha
    rcases a with _ | _ | ⟨s, a, ra⟩ <;> simp only [isFin] at fa
    simp only [val] at va
    have ea := abs_of_sv (rep_nonneg ra) va
    rw [natAbs_real] at ea
    simp only [Nat.cast_one, div_one] at ea
    simp only [sqrt]
    by_cases h0 : a = 0
    · rw [if_pos h0]
      refine ⟨trivial, ?_⟩
      have : q * (2 : ℝ) ^ e' = 0 := by rw [← h1, ← ea, h0, Real.sqrt_zero, rnd_zero]
      simp only [val, h0, Int.cast_natCast, this]
      cases s <;> simp [sv]
    · have hp : (0 : ℝ) < 2 ^ e := by positivity
      have hmr : (0 : ℝ) ≤ m := by exact_mod_cast not_lt.1 hm
      have hs : s = false := by
        cases s
        · rfl
        · exfalso
          simp only [sv, if_true] at va
          have := mul_nonneg hmr hp.le
          have := rep_nonneg ra
          exact h0 (by linarith)
      subst hs
      rw [← ea] at h1
      simp only [if_neg h0, Bool.false_eq_true, if_false]
      have hf : isFin (ofAbs false (Real.sqrt a)) := ofAbs_fin.2 (by rw [h1]; exact h2)
      refine ⟨hf, ?_⟩
      rw [ofAbs_val hf, h1]
      simp [sv]

theorem den_lt [F32Lib] {x y : Soft} {a b : F32} {r : Bool} (ha : Den x a) (hb : Den y b) (h : Soft.lt x y = some r) :
    Arith.lt a b = r := by
  rcases x with _ | ⟨m, e⟩ <;> rcases y with _ | ⟨m', e'⟩ <;> simp only [Soft.lt, reduceCtorEq, Option.some.injEq] at h
  obtain ⟨fa, va⟩ := ha
  obtain ⟨fb, vb⟩ := hb
  have e1 : Arith.lt a b = rel (· < ·) a b := rfl
  rw [← h, e1, Bool.eq_iff_iff, rel_fin _ a b fa fb, decide_eq_true_iff, va, vb, EReal.coe_lt_coe_iff,
    pow_split (min_le_left e e'), pow_split (min_le_right e e')]
  have hp : (0 : ℝ) < 2 ^ (min e e') := by positivity
  rw [← mul_assoc, ← mul_assoc, mul_lt_mul_iff_left₀ hp]
  exact_mod_cast Iff.rfl

/-! ### vectors and planes -/

/-- The vector is the one described. -/
structure DenV (w : V3 Soft) (a : V3 F32) : Prop where
  x : Den w.x a.x
  y : Den w.y a.y
  z : Den w.z a.z

variable [F32Lib] {x y : V3 Soft} {a b : V3 F32} {s : Soft} {c : F32}

theorem den_dot (ha : DenV x a) (hb : DenV y b) : Den (Soft.dot x y) (Arith.dot a b) :=
  den_add (den_add (den_mul ha.x hb.x) (den_mul ha.y hb.y)) (den_mul ha.z hb.z)

theorem denV_cross (ha : DenV x a) (hb : DenV y b) : DenV (Soft.cross x y) (Arith.cross a b) :=
  ⟨den_sub (den_mul ha.y hb.z) (den_mul ha.z hb.y), den_sub (den_mul ha.z hb.x) (den_mul ha.x hb.z),
   den_sub (den_mul ha.x hb.y) (den_mul ha.y hb.x)⟩

theorem denV_sub (ha : DenV x a) (hb : DenV y b) : DenV (vsub x y) (V3.sub a b) :=
  ⟨den_sub ha.x hb.x, den_sub ha.y hb.y, den_sub ha.z hb.z⟩

theorem denV_add (ha : DenV x a) (hb : DenV y b) : DenV (vadd x y) (V3.add a b) :=
  ⟨den_add ha.x hb.x, den_add ha.y hb.y, den_add ha.z hb.z⟩

theorem denV_smul (ha : DenV x a) (hs : Den s c) : DenV (smul x s) (V3.smul a c) :=
  ⟨den_mul ha.x hs, den_mul ha.y hs, den_mul ha.z hs⟩

theorem denV_sdiv (ha : DenV x a) (hs : Den s c) : DenV (sdiv x s) (V3.sdiv a c) :=
  ⟨den_div ha.x hs, den_div ha.y hs, den_div ha.z hs⟩

theorem denV_normalize (ha : DenV x a) : DenV (Soft.normalize F32Lib.recip x) (Arith.normalize a) := by
  have e : Arith.normalize a = normalize a := rfl
  have hl : Den (Soft.sqrt (Soft.dot x x)) (sqrt (dot a a)) := den_sqrt (den_dot ha ha)
  rw [e]
  unfold normalize Soft.normalize
  split_ifs
  · have h1 : Den (fin 1 0) (num false 1 rep_one) := ⟨trivial, by simp [val, sv]⟩
    have := den_div h1 hl
    exact ⟨den_mul ha.x this, den_mul ha.y this, den_mul ha.z this⟩
  · exact ⟨den_div ha.x hl, den_div ha.y hl, den_div ha.z hl⟩

theorem den_eps : Den eps (Arith.cmpEpsilon : F32) := by
  have e : (Arith.cmpEpsilon : F32) = ofReal (1 / 1000) := rfl
  rw [e]
  unfold ofReal
  refine den_ofAbs (y := 1 / 1000) (by norm_num) ?_ (ofReal_abs _) (by norm_num)
  rw [abs_of_pos (by norm_num)]
  norm_num

/-- Normal and distance are the ones described. -/
structure DenP (q : Plane) (p : BrushPlane F32) : Prop where
  n : DenV q.n p.normal
  d : Den q.d p.dist

theorem denP_plane {x0 x1 x2 : V3 Soft} {p : BrushPlane F32} (h0 : DenV x0 p.v0) (h1 : DenV x1 p.v1)
    (h2 : DenV x2 p.v2) : DenP (plane F32Lib.recip x0 x1 x2) p := by
  have hn : DenV (plane F32Lib.recip x0 x1 x2).n p.normal := denV_normalize (denV_cross (denV_sub h2 h0) (denV_sub h1 h0))
  exact ⟨hn, den_dot hn h0⟩

theorem outside_inHull {v : V3 Soft} {w : V3 F32} {q : Plane} {p : BrushPlane F32} (hv : DenV v w) (hp : DenP q p)
    (h : outside v q = some true) : Arith.lt p.dist (Arith.dot p.normal w) = true ∧
      Arith.lt Arith.cmpEpsilon (Arith.sub (Arith.dot p.normal w) p.dist) = true := by
  unfold outside at h
  have hd := den_dot hp.n hv
  cases h1 : Soft.lt q.d (Soft.dot q.n v) <;> cases h2 : Soft.lt eps (Soft.sub (Soft.dot q.n v) q.d) <;>
    simp only [h1, h2, reduceCtorEq, Option.some.injEq, Bool.and_eq_true] at h
  rw [h.1] at h1
  rw [h.2] at h2
  exact ⟨den_lt hp.d hd h1, den_lt den_eps (den_sub hd hp.d) h2⟩

theorem noCorner_none {qs : List Plane} {planes : List (BrushPlane F32)} (hs : List.Forall₂ DenP qs planes)
    {q0 q1 q2 : Plane} {p0 p1 p2 : BrushPlane F32} (h0 : DenP q0 p0) (h1 : DenP q1 p1) (h2 : DenP q2 p2)
    (h : noCorner qs q0 q1 q2 = true) (texture : Option Texture) (entity : Entity F32) :
    buildPlaneVertex texture entity planes p0 p1 p2 = .ok none := by
  have hc := denV_cross h0.n h1.n
  have hd := den_dot hc h2.n
  unfold noCorner at h
  simp only at h
  unfold buildPlaneVertex intersect
  simp only
  by_cases l1 : Soft.lt (Soft.dot (Soft.cross q0.n q1.n) q2.n) eps = some true
  · rw [den_lt hd den_eps l1]
    rfl
  rw [if_neg l1] at h
  by_cases l2 : Soft.lt (Soft.dot (Soft.cross q0.n q1.n) q2.n) eps = some false
  swap
  · rw [if_neg l2] at h; cases h
  rw [if_pos l2] at h
  rw [den_lt hd den_eps l2]
  simp only [Bool.false_eq_true, if_false]
  rw [if_neg]
  have hv := denV_sdiv (denV_add (denV_add (denV_smul (denV_cross h1.n h2.n) h0.d)
    (denV_smul (denV_cross h2.n h0.n) h1.d)) (denV_smul hc h2.d)) hd
  obtain ⟨q, hq, ho⟩ := List.any_eq_true.1 h
  have ho := beq_iff_eq.1 ho
  obtain ⟨p, hp, hqp⟩ := forall₂_left hs hq
  obtain ⟨e1, e2⟩ := outside_inHull hv hqp ho
  intro hall
  have := List.all_eq_true.1 hall p hp
  simp only [e1, e2, Bool.and_self, Bool.not_true, Bool.false_eq_true] at this

theorem filterMap_cons_length {α : Type} (o : Option α) (l : List (Option α)) :
    ((o :: l).filterMap id).length ≤ (l.filterMap id).length + 1 := by
  cases o
  · rw [List.filterMap_cons_none rfl]; omega
  · simp

theorem atMost_vertices {qs : List Plane} {planes : List (BrushPlane F32)} (hs : List.Forall₂ DenP qs planes)
    {q : Plane} {p : BrushPlane F32} (hq : DenP q p) (texture : Option Texture) (entity : Entity F32)
    {vs : List (Vertex F32)} (h : planeVertices texture entity planes p = .ok vs) : vs.length ≤ atMost qs q := by
  unfold planeVertices at h
  obtain ⟨vss, h1, h2⟩ := Outcome.bind_eq_ok.1 h
  cases h2
  rw [mapOut_eq_ok] at h1
  unfold atMost
  have inner : ∀ {qs' planes'} {q1 p1} {os : List (Option (Vertex F32))}, List.Forall₂ DenP qs' planes' → DenP q1 p1 →
      List.Forall₂ (fun p2 o => buildPlaneVertex texture entity planes p p1 p2 = .ok o) planes' os →
      (os.filterMap id).length ≤ qs'.countP fun c => !noCorner qs q q1 c := by
    intro qs' planes' q1 p1 os h1 hq1 h2
    induction h1 generalizing os with
    | nil => cases h2; simp
    | @cons q2 p2 _ _ hd _ ih =>
      cases h2 with
      | cons ho ht =>
        have hi := ih ht
        rw [List.countP_cons]
        by_cases hn : noCorner qs q q1 q2 = true
        · rw [noCorner_none hs hq hq1 hd hn] at ho
          cases ho
          rw [List.filterMap_cons_none rfl]
          omega
        · rw [if_pos (by simpa using hn)]
          refine le_trans (filterMap_cons_length _ _) ?_
          omega
  have outer : ∀ {qs' planes'} {vss : List (List (Vertex F32))}, List.Forall₂ DenP qs' planes' →
      List.Forall₂ (fun p1 vs => ((mapOut (fun p2 => buildPlaneVertex texture entity planes p p1 p2) planes).bind fun vs =>
          Outcome.ok (vs.filterMap id)) = .ok vs) planes' vss →
      vss.flatten.length ≤ (qs'.map fun b => qs.countP fun c => !noCorner qs q b c).sum := by
    intro qs' planes' vss h1 h2
    induction h1 generalizing vss with
    | nil => cases h2; simp
    | cons hd _ ih =>
      cases h2 with
      | cons ho ht =>
        have h3 := ih ht
        obtain ⟨os, e1, e2⟩ := Outcome.bind_eq_ok.1 ho
        cases e2
        rw [mapOut_eq_ok] at e1
        have h4 := inner hs hd e1
        simp only [List.flatten_cons, List.length_append, List.map_cons, List.sum_cons]
        omega
  exact outer hs h1

theorem uniqueVertices_length {F : Type} [Arith F] (phong : Bool) (l : List (Vertex F)) :
    (uniqueVertices phong l).length ≤ l.length := by
  induction l with
  | nil => simp [uniqueVertices]
  | cons v l ih =>
    rw [uniqueVertices, List.length_append, List.length_cons]
    cases uniqueVertex phong v l <;> simp <;> omega

end F32
end Quarch.Spec
