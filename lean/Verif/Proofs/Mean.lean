import Verif.Proofs.Rounding
import Mathlib.Algebra.BigOperators.Group.List.Basic
/-
Error of a mean computed with rounding.
-/
set_option linter.unusedSectionVars false
namespace Quarch
open Spec Rounding

namespace Err
section
variable {F : Type} [Arith F] [Rounding F]

theorem sum_abs_le {l : List ℝ} {M : ℝ} (h : ∀ x ∈ l, |x| ≤ M) : |l.sum| ≤ l.length * M := by
  induction l with
  | nil => simp
  | cons x xs ih =>
    have h1 := h x (by simp)
    have h2 := ih fun y hy => h y (by simp [hy])
    have := abs_add_le x xs.sum
    simp only [List.sum_cons, List.length_cons]
    push_cast
    linarith

theorem vals_le {l : List F} {M : ℝ} (hw : ∀ x ∈ l, |val x| ≤ M) : |(l.map val).sum| ≤ l.length * M := by
  have := sum_abs_le (l := l.map val) (M := M) (by
    intro y hy
    obtain ⟨z, hz, rfl⟩ := List.mem_map.1 hy
    exact hw z hz)
  simpa using this

/-- Adding numbers one by one: `n` numbers of size `M` give an error of at most `n² u M`. -/
theorem fold_err {l : List F} {M : ℝ} (hM : 0 ≤ M) (hl : l.length ≤ 2 ^ 24)
    (hf : Fin (l.foldl Arith.add Arith.zero)) (hw : ∀ x ∈ l, |val x| ≤ M) :
    (∀ x ∈ l, Fin x) ∧
      |val (l.foldl Arith.add Arith.zero) - (l.map val).sum| ≤ (l.length : ℝ) * l.length * u * M := by
  induction l using List.reverseRecOn with
  | nil => exact ⟨by simp, by simp [zero_val]⟩
  | append_singleton l x ih =>
    have hlen : l.length + 1 ≤ 2 ^ 24 := by simpa using hl
    rw [List.foldl_append, List.foldl_cons, List.foldl_nil] at hf ⊢
    obtain ⟨f, fx⟩ := add_fin _ _ hf
    have hw' : ∀ y ∈ l, |val y| ≤ M := fun y hy => hw y (by simp [hy])
    obtain ⟨g, e⟩ := ih (by omega) f hw'
    refine ⟨fun y hy => ?_, ?_⟩
    · rcases List.mem_append.1 hy with h | h
      · exact g y h
      · rw [List.mem_singleton.1 h]; exact fx
    have wx := hw x (by simp)
    have hs := vals_le hw'
    have hn : ((l.length : ℝ) + 1) ≤ 2 ^ 24 := by exact_mod_cast hlen
    have n0 : (0 : ℝ) ≤ l.length := Nat.cast_nonneg _
    have e1 := add_val _ _ hf
    rw [List.map_append, List.sum_append, List.length_append]
    simp only [List.map_cons, List.map_nil, List.sum_cons, List.sum_nil, add_zero, List.length_cons, List.length_nil]
    push_cast
    generalize l.foldl Arith.add Arith.zero = S at *
    generalize (l.map val).sum = s at *
    generalize (l.length : ℝ) = n at *
    have nu : n * u ≤ 1 := by unfold u; linarith
    have q : n * n * u * M ≤ n * M := by
      have : n * u * (n * M) ≤ 1 * (n * M) := mul_le_mul_of_nonneg_right nu (by positivity)
      linarith
    have hS := abs_le_of e
    have b : |val S + val x| ≤ (n + 1) * M + n * n * u * M := (abs_add_le _ _).trans (by linarith)
    have e2 : val (Arith.add S x) - (s + val x) = (val (Arith.add S x) - (val S + val x)) + (val S - s) := by ring
    rw [e2]
    refine (abs_add_le _ _).trans ?_
    have e3 : u * |val S + val x| ≤ u * ((n + 1) * M + n * n * u * M) := mul_le_mul_of_nonneg_left b u_pos.le
    have e4 : u * (n * n * u * M) ≤ u * (n * M) := mul_le_mul_of_nonneg_left q u_pos.le
    linarith

/-- Numbers of moderate size do not overflow when added up. -/
theorem fold_fin {l : List F} {M : ℝ} (hM : 0 ≤ M) (hM' : M ≤ 2 ^ 80) (hl : l.length ≤ 2 ^ 24)
    (hf : ∀ x ∈ l, Fin x) (hw : ∀ x ∈ l, |val x| ≤ M) : Fin (l.foldl Arith.add Arith.zero) := by
  induction l using List.reverseRecOn with
  | nil => exact zero_fin
  | append_singleton l x ih =>
    have hlen : l.length + 1 ≤ 2 ^ 24 := by simpa using hl
    have hw' : ∀ y ∈ l, |val y| ≤ M := fun y hy => hw y (by simp [hy])
    have f := ih (by omega) (fun y hy => hf y (by simp [hy])) hw'
    obtain ⟨-, e⟩ := fold_err hM (by omega) f hw'
    have fx := hf x (by simp)
    have wx := hw x (by simp)
    have hs := vals_le hw'
    have hn : ((l.length : ℝ) + 1) ≤ 2 ^ 24 := by exact_mod_cast hlen
    have n0 : (0 : ℝ) ≤ l.length := Nat.cast_nonneg _
    rw [List.foldl_append, List.foldl_cons, List.foldl_nil]
    generalize l.foldl Arith.add Arith.zero = S at *
    generalize (l.map val).sum = s at *
    generalize (l.length : ℝ) = n at *
    have nu : n * u ≤ 1 := by unfold u; linarith
    have q : n * n * u * M ≤ n * M := by
      have : n * u * (n * M) ≤ 1 * (n * M) := mul_le_mul_of_nonneg_right nu (by positivity)
      linarith
    have hS := abs_le_of e
    have b : |val S + val x| ≤ (n + 1) * M + n * n * u * M := (abs_add_le _ _).trans (by linarith)
    have nM : n * M ≤ 2 ^ 24 * 2 ^ 80 := mul_le_mul (by linarith) hM' hM (by norm_num)
    exact add_ok _ _ f fx (by rw [large_val]; norm_num at *; linarith)

/-- The number of summands, rounded. -/
theorem count_err {n : Nat} (h1 : 1 ≤ n) (hl : n ≤ 2 ^ 20) : Fin (Arith.ofNat n : F) ∧
    |val (Arith.ofNat n : F) - n| ≤ u * n ∧ (n : ℝ) * (1 - u) ≤ val (Arith.ofNat n : F) ∧
    0 < val (Arith.ofNat n : F) := by
  have hn : (n : ℝ) ≤ 2 ^ 20 := by exact_mod_cast hl
  have h1 : (1 : ℝ) ≤ n := by exact_mod_cast h1
  have fn : Fin (Arith.ofNat n : F) := ofNat_fin _ (by rw [large_val]; norm_num at *; linarith)
  have en := ofNat_val _ fn
  have hN : (n : ℝ) * (1 - u) ≤ val (Arith.ofNat n : F) := by have := (abs_le.1 en).1; linarith
  have hu : (99 / 100 : ℝ) ≤ 1 - u := by unfold u; norm_num
  exact ⟨fn, en, hN, by nlinarith⟩

/-- A quotient of a sum with error and a count with error. -/
theorem quot_mean_err {n s S N M : ℝ} (h1 : 1 ≤ n) (hn : n ≤ 2 ^ 20) (hM : 0 ≤ M) (e : |S - s| ≤ n * n * u * M)
    (hs : |s| ≤ n * M) (en : |N - n| ≤ u * n) (hN : n * (1 - u) ≤ N) (nN : 0 < N) :
    |S / N - s / n| ≤ (n + 11 / 10) * u * M ∧ |S / N| ≤ 11 / 10 * M := by
  have up := u_pos
  have n0 : 0 < n := by linarith
  have sn : |s / n| ≤ M := by
    rw [abs_div, abs_of_pos n0, div_le_iff₀ n0]; linarith
  have key : |S / N - s / n| ≤ (n + 11 / 10) * u * M := by
    have e1 : S / N - s / n = ((S - s) - (s / n) * (N - n)) / N := by
      field_simp; ring
    have e2 : |(s / n) * (N - n)| ≤ M * (u * n) := by
      rw [abs_mul]; exact mul_le_mul sn en (abs_nonneg _) hM
    rw [e1, abs_div, abs_of_pos nN, div_le_iff₀ nN]
    have e3 := abs_sub (S - s) ((s / n) * (N - n))
    have e4 : (n + 11 / 10) * u * M * (n * (1 - u)) ≤ (n + 11 / 10) * u * M * N :=
      mul_le_mul_of_nonneg_left hN (by positivity)
    have e5 : n + 1 ≤ (n + 11 / 10) * (1 - u) := by unfold u; norm_num at *; linarith
    have e6 : (n + 1) * (u * M * n) ≤ (n + 11 / 10) * (1 - u) * (u * M * n) :=
      mul_le_mul_of_nonneg_right e5 (by positivity)
    linarith
  refine ⟨key, ?_⟩
  have nu : (n + 11 / 10) * u ≤ 1 / 10 := by unfold u; norm_num at *; linarith
  have nuM : (n + 11 / 10) * u * M ≤ 1 / 10 * M := mul_le_mul_of_nonneg_right nu hM
  have hq := abs_le_of key
  linarith

/-- The mean computed with rounding. -/
theorem mean_err {l : List F} {M : ℝ} (hM : 1 ≤ M) (hl : l.length ≤ 2 ^ 20) (hne : l ≠ [])
    (hf : Fin (Arith.div (l.foldl Arith.add Arith.zero) (Arith.ofNat (max l.length 1)))) (hw : ∀ x ∈ l, |val x| ≤ M) :
    (∀ x ∈ l, Fin x) ∧
      |val (Arith.div (l.foldl Arith.add Arith.zero) (Arith.ofNat (max l.length 1))) - (l.map val).sum / l.length| ≤
        (l.length + 3) * u * M := by
  have hpos : 1 ≤ l.length := List.length_pos_iff.2 hne
  rw [max_eq_left hpos] at hf ⊢
  have hn : (l.length : ℝ) ≤ 2 ^ 20 := by exact_mod_cast hl
  have h1 : (1 : ℝ) ≤ l.length := by exact_mod_cast hpos
  obtain ⟨g, e⟩ := fold_err (by linarith) (by omega) (div_fin _ _ hf) hw
  refine ⟨g, ?_⟩
  have hs := vals_le hw
  obtain ⟨fn, en, hN, nN⟩ := count_err (F := F) hpos hl
  have ed := div_val _ _ hf fn
  obtain ⟨k1, k2⟩ := quot_mean_err h1 hn (by linarith) e hs en hN nN
  generalize val (Arith.div (l.foldl Arith.add Arith.zero) (Arith.ofNat l.length)) = c at *
  generalize val (l.foldl Arith.add Arith.zero) / val (Arith.ofNat l.length : F) = q at *
  generalize (l.map val).sum / (l.length : ℝ) = m at *
  have up := u_pos
  have e2 : c - m = (c - q) + (q - m) := by ring
  rw [e2]
  refine (abs_add_le _ _).trans ?_
  have e3 : u * |q| ≤ u * (11 / 10 * M) := mul_le_mul_of_nonneg_left k2 up.le
  have tl := tiny_le
  have : u * 1 ≤ u * M := mul_le_mul_of_nonneg_left hM up.le
  linarith

/-- The mean of numbers of moderate size is finite. -/
theorem mean_fin {l : List F} {M : ℝ} (hM : 1 ≤ M) (hM' : M ≤ 2 ^ 80) (hl : l.length ≤ 2 ^ 20) (hne : l ≠ [])
    (hf : ∀ x ∈ l, Fin x) (hw : ∀ x ∈ l, |val x| ≤ M) :
    Fin (Arith.div (l.foldl Arith.add Arith.zero) (Arith.ofNat (max l.length 1))) := by
  have hpos : 1 ≤ l.length := List.length_pos_iff.2 hne
  rw [max_eq_left hpos]
  have hn : (l.length : ℝ) ≤ 2 ^ 20 := by exact_mod_cast hl
  have h1 : (1 : ℝ) ≤ l.length := by exact_mod_cast hpos
  have f := fold_fin (by linarith) hM' (by omega) hf hw
  obtain ⟨-, e⟩ := fold_err (by linarith) (by omega) f hw
  obtain ⟨fn, en, hN, nN⟩ := count_err (F := F) hpos hl
  obtain ⟨-, k2⟩ := quot_mean_err h1 hn (by linarith) e (vals_le hw) en hN nN
  exact div_ok _ _ f fn nN.ne' (k2.trans (by rw [large_val]; norm_num at *; linarith))

/-- Moving numbers to their mean and back: the results bound the numbers. -/
theorem spread_le {l : List F} {c : F} {M : ℝ} (hM : 1 ≤ M) (hl : l.length ≤ 2 ^ 20) (hne : l ≠ [])
    (hc : c = Arith.div (l.foldl Arith.add Arith.zero) (Arith.ofNat (max l.length 1)))
    (hf : ∀ x ∈ l, Fin (Arith.add (Arith.sub x c) c)) (hw : ∀ x ∈ l, |val (Arith.add (Arith.sub x c) c)| ≤ M) :
    Fin c ∧ |val c| ≤ 11 / 10 * M := by
  obtain ⟨y0, hy0⟩ := List.exists_mem_of_ne_nil l hne
  have fc : Fin c := (add_fin _ _ (hf y0 hy0)).2
  refine ⟨fc, ?_⟩
  -- the largest of the numbers
  obtain ⟨b, hb, hmax⟩ : ∃ b ∈ l, ∀ x ∈ l, |val x| ≤ |val b| := by
    clear hc hf hw hl hy0
    induction l with
    | nil => exact absurd rfl hne
    | cons a t ih =>
      by_cases ht : t = []
      · subst ht; exact ⟨a, by simp, by simp⟩
      · obtain ⟨b, hb, h⟩ := ih ht
        rcases le_total |val a| |val b| with g | g
        · exact ⟨b, by simp [hb], fun x hx => by
            rcases List.mem_cons.1 hx with rfl | hx
            · exact g
            · exact h x hx⟩
        · exact ⟨a, by simp, fun x hx => by
            rcases List.mem_cons.1 hx with rfl | hx
            · exact le_rfl
            · exact (h x hx).trans g⟩
  have hV : (1 : ℝ) ≤ max 1 |val b| := le_max_left _ _
  have hwV : ∀ x ∈ l, |val x| ≤ max 1 |val b| := fun x hx => (hmax x hx).trans (le_max_right _ _)
  have hn : (l.length : ℝ) ≤ 2 ^ 20 := by exact_mod_cast hl
  have hpos : 1 ≤ l.length := List.length_pos_iff.2 hne
  have h1 : (1 : ℝ) ≤ l.length := by exact_mod_cast hpos
  obtain ⟨-, e⟩ := mean_err hV hl hne (hc ▸ fc) hwV
  rw [← hc] at e
  have hs := vals_le hwV
  have hm : |(l.map val).sum / l.length| ≤ max 1 |val b| := by
    rw [abs_div, abs_of_pos (by linarith : (0 : ℝ) < l.length), div_le_iff₀ (by linarith)]; linarith
  have up := u_pos
  have hcV : |val c| ≤ (107 / 100) * max 1 |val b| := by
    have e1 := abs_le_of e
    have nu : ((l.length : ℝ) + 3) * u ≤ 7 / 100 := by unfold u; linarith
    have := mul_le_mul_of_nonneg_right nu (by linarith : (0 : ℝ) ≤ max 1 |val b|)
    linarith
  -- the largest number is not much larger than its image
  have hfb := hf b hb
  have f1 := add_fin _ _ hfb
  have e1 := add_val _ _ hfb
  have e2 := sub_val _ _ f1.1
  have hwb := hw b hb
  generalize val (Arith.add (Arith.sub b c) c) = p at *
  generalize val (Arith.sub b c) = w at *
  have hbm : |val b| ≤ max 1 |val b| := le_max_right _ _
  have a1 := abs_sub (val b) (val c)
  have a2 := abs_le_of e2
  have a3 := abs_add_le w (val c)
  have a4 : |val b - p| ≤ |p - (w + val c)| + |w - (val b - val c)| := by
    have : val b - p = -((p - (w + val c)) + (w - (val b - val c))) := by ring
    rw [this, abs_neg]; exact abs_add_le _ _
  have a5 := abs_le_of a4
  rcases le_total |val b| 1 with g | g
  · rw [max_eq_left g] at hcV; linarith
  · rw [max_eq_right g] at hcV
    generalize |val b - val c| = A at *
    generalize |w + val c| = B at *
    unfold u at *
    linarith

end
end Err
end Quarch
