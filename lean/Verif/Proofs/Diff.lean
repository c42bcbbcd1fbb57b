import Verif.Model.Tokenizer
import Verif.Proofs.Basic
import Mathlib.Data.List.Basic
/-
The table and the backtracking of `diff_tokens`.
-/
namespace Quarch
open Tokenizer

section
variable {τ : Type} [DecidableEq τ]

/-- Length of a longest common subsequence of the first `x` elements of `a` and the first `y` of `b`. -/
def lcsLen (a b : List τ) : Nat → Nat → Nat
  | 0, _ => 0
  | _ + 1, 0 => 0
  | x + 1, y + 1 =>
    if a[x]? = b[y]? then lcsLen a b x y + 1 else max (lcsLen a b x (y + 1)) (lcsLen a b (x + 1) y)

theorem lcsLen_zero_right (a b : List τ) (x : Nat) : lcsLen a b x 0 = 0 := by
  cases x <;> simp [lcsLen]

omit [DecidableEq τ] in
theorem dropLast_sublist_dropLast {c s : List τ} (h : c.Sublist s) : c.dropLast.Sublist s.dropLast := by
  have h1 := h.reverse.tail
  have h2 := h1.reverse
  rwa [List.tail_reverse, List.tail_reverse, List.reverse_reverse, List.reverse_reverse] at h2

/-- No common subsequence is longer than `lcsLen`. -/
theorem lcsLen_max (a b : List τ) : ∀ (n x y : Nat), x + y = n → x ≤ a.length → y ≤ b.length →
    ∀ c : List τ, c.Sublist (a.take x) → c.Sublist (b.take y) → c.length ≤ lcsLen a b x y := by
  intro n
  induction n using Nat.strongRecOn with
  | _ n ih =>
    intro x y hxy hx hy c h1 h2
    cases x with
    | zero =>
      simp only [List.take_zero, List.sublist_nil] at h1
      simp [h1]
    | succ x =>
      cases y with
      | zero =>
        simp only [List.take_zero, List.sublist_nil] at h2
        simp [h2]
      | succ y =>
        have ea : a.take (x + 1) = a.take x ++ [a[x]] := List.take_succ_eq_append_getElem (by omega)
        have eb : b.take (y + 1) = b.take y ++ [b[y]] := List.take_succ_eq_append_getElem (by omega)
        have ga : a[x]? = some a[x] := List.getElem?_eq_getElem _
        have gb : b[y]? = some b[y] := List.getElem?_eq_getElem _
        simp only [lcsLen, ga, gb, Option.some.injEq]
        split
        · have h1' : c.dropLast.Sublist (a.take x) := by
            have := dropLast_sublist_dropLast h1; rwa [ea, List.dropLast_concat] at this
          have h2' : c.dropLast.Sublist (b.take y) := by
            have := dropLast_sublist_dropLast h2; rwa [eb, List.dropLast_concat] at this
          have := ih (x + y) (by omega) x y rfl (by omega) (by omega) _ h1' h2'
          rw [List.length_dropLast] at this
          omega
        · rename_i hne
          have drop : ∀ (s : List τ) (t : τ), c.Sublist (s ++ [t]) → c.getLast? ≠ some t → c.Sublist s := by
            intro s t h hl
            obtain ⟨c1, c2, rfl, h3, h4⟩ := List.sublist_append_iff.1 h
            cases h4 with
            | cons _ h4 => cases h4; simpa using h3
            | cons_cons _ h4 => cases h4; simp at hl
          by_cases hl : c.getLast? = some a[x]
          · have : c.Sublist (b.take y) := drop _ b[y] (eb ▸ h2) (by rw [hl]; simpa using hne)
            have := ih (x + 1 + y) (by omega) (x + 1) y rfl (by omega) (by omega) c h1 this
            omega
          · have : c.Sublist (a.take x) := drop _ a[x] (ea ▸ h1) hl
            have := ih (x + (y + 1)) (by omega) x (y + 1) rfl (by omega) (by omega) c this h2
            omega

/-! ### The table -/

/-- All rows of the table have the right size. -/
def Shaped (n m : Nat) (l : List (List Nat)) : Prop := l.length = n ∧ ∀ row ∈ l, row.length = m

theorem set2_ok {n m : Nat} {l : List (List Nat)} (h : Shaped n m l) {x y : Nat} (hx : x < n) (hy : y < m)
    (v : Nat) : ∃ l', set2 l x y v = .ok l' ∧ Shaped n m l' ∧ get2 l' x y = .ok v ∧
      ∀ x' y', (x' ≠ x ∨ y' ≠ y) → get2 l' x' y' = get2 l x' y' := by
  obtain ⟨h1, h2⟩ := h
  have hxl : x < l.length := by omega
  have hrow : (l[x]).length = m := h2 _ (List.getElem_mem _)
  refine ⟨l.set x ((l[x]).set y v), ?_, ⟨by simp [h1], ?_⟩, ?_, ?_⟩
  · simp [set2, List.getElem?_eq_getElem hxl, hrow, hy]
  · intro row hr
    rcases List.mem_or_eq_of_mem_set hr with hr | rfl
    · exact h2 row hr
    · simp [hrow]
  · have hy' : y < (l[x]).length := by omega
    simp only [get2, List.getElem?_set_self hxl, List.getElem?_set_self hy']
  · intro x' y' hne
    unfold get2
    by_cases hxx : x' = x
    · subst hxx
      have hyy : y ≠ y' := fun h => by rcases hne with h' | h' <;> simp_all
      simp [List.getElem?_set_self hxl, List.getElem?_eq_getElem hxl, List.getElem?_set_ne hyy]
    · rw [List.getElem?_set_ne (fun h => hxx h.symm)]

theorem foldOut_flatMap {σ α β : Type} (f : σ → β → Outcome σ) (g : α → List β) (s : σ) (l : List α) :
    foldOut f s (l.flatMap g) = foldOut (fun s x => foldOut f s (g x)) s l := by
  induction l generalizing s with
  | nil => rfl
  | cons x xs ih =>
    rw [List.flatMap_cons, foldOut_append, foldOut_cons]
    exact Outcome.bind_congr fun s' _ => ih s'

/-- Rows before `x` and the first `y` entries of row `x` are right. -/
def Filled (a b : List τ) (x y : Nat) (l : List (List Nat)) : Prop :=
  ∀ x' y', y' < b.length → (x' < x ∨ (x' = x ∧ y' < y)) → get2 l x' y' = .ok (lcsLen a b x' y')

theorem tableStep_ok {a b : List τ} {l : List (List Nat)} {x y : Nat}
    (hs : Shaped (a.length + 1) (b.length + 1) l) (hx : x < a.length) (hy : y < b.length)
    (hf : Filled a b x y l) :
    ∃ l', tableStep a b l (x, y) = .ok l' ∧ Shaped (a.length + 1) (b.length + 1) l' ∧
      Filled a b x (y + 1) l' := by
  have fin : ∀ v, v = lcsLen a b x y → ∃ l', set2 l x y v = .ok l' ∧
      Shaped (a.length + 1) (b.length + 1) l' ∧ Filled a b x (y + 1) l' := by
    intro v hv
    obtain ⟨l', h1, h2, h3, h4⟩ := set2_ok hs (show x < a.length + 1 by omega)
      (show y < b.length + 1 by omega) v
    refine ⟨l', h1, h2, ?_⟩
    intro x' y' hy' hlt
    by_cases he : x' = x ∧ y' = y
    · obtain ⟨rfl, rfl⟩ := he
      rw [h3, hv]
    · rw [h4 x' y' (by omega)]
      exact hf x' y' hy' (by omega)
  unfold tableStep
  simp only
  split
  · rename_i h0
    apply fin
    rcases h0 with rfl | rfl
    · simp [lcsLen]
    · rw [lcsLen_zero_right]
  · rename_i h0
    obtain ⟨x, rfl⟩ : ∃ k, x = k + 1 := ⟨x - 1, by omega⟩
    obtain ⟨y, rfl⟩ : ∃ k, y = k + 1 := ⟨y - 1, by omega⟩
    have ga : a[x]? = some a[x] := List.getElem?_eq_getElem _
    have gb : b[y]? = some b[y] := List.getElem?_eq_getElem _
    simp only [Nat.add_sub_cancel, getIdx, ga, gb, Outcome.ok_bind]
    split
    · rename_i he
      rw [hf x y (by omega) (by omega), Outcome.ok_bind]
      apply fin
      simp [lcsLen, ga, gb, he]
    · rename_i he
      rw [hf x (y + 1) (by omega) (by omega), Outcome.ok_bind, hf (x + 1) y (by omega) (by omega),
        Outcome.ok_bind]
      apply fin
      simp [lcsLen, ga, gb, he]

theorem rowLoop {a b : List τ} {x : Nat} (hx : x < a.length) : ∀ (k y : Nat) (l : List (List Nat)),
    y + k = b.length → Shaped (a.length + 1) (b.length + 1) l → Filled a b x y l →
    ∃ l', foldOut (tableStep a b) l ((List.range' y k).map fun y => (x, y)) = .ok l' ∧
      Shaped (a.length + 1) (b.length + 1) l' ∧ Filled a b (x + 1) 0 l' := by
  intro k
  induction k with
  | zero =>
    intro y l hy hs hf
    refine ⟨l, rfl, hs, ?_⟩
    intro x' y' hy' hlt
    exact hf x' y' hy' (by omega)
  | succ k ih =>
    intro y l hy hs hf
    obtain ⟨l1, h1, h2, h3⟩ := tableStep_ok hs hx (show y < b.length by omega) hf
    obtain ⟨l2, h4, h5, h6⟩ := ih (y + 1) l1 (by omega) h2 h3
    refine ⟨l2, ?_, h5, h6⟩
    rw [List.range'_succ, List.map_cons, foldOut_cons, h1]
    exact h4

theorem tableLoop {a b : List τ} : ∀ (k x : Nat) (l : List (List Nat)),
    x + k = a.length → Shaped (a.length + 1) (b.length + 1) l → Filled a b x 0 l →
    ∃ l', foldOut (fun l x => foldOut (tableStep a b) l ((List.range b.length).map fun y => (x, y))) l
        (List.range' x k) = .ok l' ∧ Filled a b a.length 0 l' := by
  intro k
  induction k with
  | zero =>
    intro x l hx hs hf
    have : x = a.length := by omega
    subst this
    exact ⟨l, rfl, hf⟩
  | succ k ih =>
    intro x l hx hs hf
    obtain ⟨l1, h1, h2, h3⟩ := rowLoop (show x < a.length by omega) b.length 0 l (by omega) hs hf
    obtain ⟨l2, h4, h5⟩ := ih (x + 1) l1 (by omega) h2 h3
    refine ⟨l2, ?_, h5⟩
    rw [List.range'_succ, foldOut_cons, List.range_eq_range', h1]
    rw [List.range_eq_range'] at h4
    exact h4

theorem buildTable_ok (a b : List τ) : ∃ l, buildTable a b = .ok l ∧
    ∀ x y, x < a.length → y < b.length → get2 l x y = .ok (lcsLen a b x y) := by
  unfold buildTable
  simp only
  have hs : Shaped (a.length + 1) (b.length + 1)
      (List.replicate (a.length + 1) (List.replicate (b.length + 1) 0)) := by
    refine ⟨by simp, ?_⟩
    intro row hr
    rw [List.eq_of_mem_replicate hr]; simp
  obtain ⟨l, h1, h2⟩ := tableLoop (a := a) (b := b) a.length 0 _ (by omega) hs
    (fun x' y' _ h => by omega)
  refine ⟨l, ?_, fun x y hx hy => h2 x y hy (.inl hx)⟩
  rw [loopPairs, foldOut_flatMap, List.range_eq_range' (n := a.length)]
  exact h1

/-! ### Backtracking -/

theorem backtrack_ok {a b : List τ} {l : List (List Nat)}
    (hl : ∀ x y, x < a.length → y < b.length → get2 l x y = .ok (lcsLen a b x y)) :
    ∀ (n i j : Nat), i + j = n → i < a.length → j < b.length → ∀ lcs : List (Option τ),
      lcsLen a b i j ≤ lcs.length →
      ∃ c : List τ, c.length = lcsLen a b i j ∧ c.Sublist (a.take i) ∧ c.Sublist (b.take j) ∧
        backtrack a b l i j (lcsLen a b i j) lcs = .ok (c.map some ++ lcs.drop (lcsLen a b i j)) := by
  intro n
  induction n using Nat.strongRecOn with
  | _ n ih =>
    intro i j hn hi hj lcs hlen
    rw [backtrack]
    split
    · rename_i h
      obtain ⟨i, rfl⟩ : ∃ k, i = k + 1 := ⟨i - 1, by omega⟩
      obtain ⟨j, rfl⟩ : ∃ k, j = k + 1 := ⟨j - 1, by omega⟩
      have ga : a[i]? = some a[i] := List.getElem?_eq_getElem _
      have gb : b[j]? = some b[j] := List.getElem?_eq_getElem _
      have ea : a.take (i + 1) = a.take i ++ [a[i]] := List.take_succ_eq_append_getElem (by omega)
      have eb : b.take (j + 1) = b.take j ++ [b[j]] := List.take_succ_eq_append_getElem (by omega)
      simp only [Nat.add_sub_cancel, getIdx, ga, gb, Outcome.ok_bind]
      split
      · rename_i he
        have hL : lcsLen a b (i + 1) (j + 1) = lcsLen a b i j + 1 := by simp [lcsLen, ga, gb, he]
        rw [hL] at hlen ⊢
        simp only [subUsize, Nat.le_add_left, if_true, Nat.add_sub_cancel, Outcome.ok_bind]
        rw [if_pos (by omega)]
        obtain ⟨c, h1, h2, h3, h4⟩ := ih (i + j) (by omega) i j rfl (by omega) (by omega)
          (lcs.set (lcsLen a b i j) (some a[i])) (by simp; omega)
        refine ⟨c ++ [a[i]], by simp [h1], ?_, ?_, ?_⟩
        · rw [ea]; exact h2.append (List.Sublist.refl _)
        · rw [eb, ← he]; exact h3.append (List.Sublist.refl _)
        · rw [h4]
          congr 1
          rw [List.drop_eq_getElem_cons (by simp; omega)]
          simp [List.drop_set_of_lt]
      · rename_i he
        have hL : lcsLen a b (i + 1) (j + 1) = max (lcsLen a b i (j + 1)) (lcsLen a b (i + 1) j) := by
          simp [lcsLen, ga, gb, he]
        rw [hl i (j + 1) (by omega) (by omega), Outcome.ok_bind, hl (i + 1) j (by omega) (by omega),
          Outcome.ok_bind]
        split
        · rename_i hgt
          have hL' : lcsLen a b (i + 1) (j + 1) = lcsLen a b i (j + 1) := by omega
          rw [hL'] at hlen ⊢
          obtain ⟨c, h1, h2, h3, h4⟩ := ih (i + (j + 1)) (by omega) i (j + 1) rfl (by omega) (by omega)
            lcs hlen
          exact ⟨c, h1, h2.trans (by rw [ea]; exact List.sublist_append_left _ _), h3, h4⟩
        · rename_i hgt
          have hL' : lcsLen a b (i + 1) (j + 1) = lcsLen a b (i + 1) j := by omega
          rw [hL'] at hlen ⊢
          obtain ⟨c, h1, h2, h3, h4⟩ := ih (i + 1 + j) (by omega) (i + 1) j rfl (by omega) (by omega)
            lcs hlen
          exact ⟨c, h1, h2, h3.trans (by rw [eb]; exact List.sublist_append_left _ _), h4⟩
    · rename_i h
      have : lcsLen a b i j = 0 := by
        rcases Nat.eq_zero_or_pos i with rfl | hi
        · simp [lcsLen]
        · have : j = 0 := by omega
          subst this; exact lcsLen_zero_right a b i
      rw [this]
      exact ⟨[], rfl, by simp, by simp, by simp⟩

/-- The kept part is a longest common subsequence of the two lists without their last elements. -/
theorem lcsTokens_ok {a b : List τ} (ha : a ≠ []) (hb : b ≠ []) :
    ∃ c, lcsTokens a b = .ok c ∧ c.Sublist a.dropLast ∧ c.Sublist b.dropLast ∧
      ∀ c' : List τ, c'.Sublist a.dropLast → c'.Sublist b.dropLast → c'.length ≤ c.length := by
  have hal : 0 < a.length := List.length_pos_iff.2 ha
  have hbl : 0 < b.length := List.length_pos_iff.2 hb
  obtain ⟨l, h1, h2⟩ := buildTable_ok a b
  have hi := h2 (a.length - 1) (b.length - 1) (by omega) (by omega)
  obtain ⟨c, h3, h4, h5, h6⟩ := backtrack_ok h2 _ (a.length - 1) (b.length - 1) rfl (by omega) (by omega)
    (List.replicate (lcsLen a b (a.length - 1) (b.length - 1)) none) (by simp)
  refine ⟨c, ?_, ?_, ?_, ?_⟩
  · unfold lcsTokens
    simp only [h1, Outcome.ok_bind, subUsize, if_pos (show 1 ≤ a.length by omega),
      if_pos (show 1 ≤ b.length by omega), hi, h6]
    rw [List.drop_eq_nil_of_le (by simp), List.append_nil, mapOut_map]
    have := mapOut_pure (fun x : τ => x) c
    simpa using this
  · rw [List.dropLast_eq_take]; exact h4
  · rw [List.dropLast_eq_take]; exact h5
  · intro c' h7 h8
    rw [List.dropLast_eq_take] at h7 h8
    rw [h3]
    exact lcsLen_max a b _ _ _ rfl (by omega) (by omega) c' h7 h8

theorem lcsTokens_empty {a b : List τ} (h : a = [] ∨ b = []) : ∃ m, lcsTokens a b = .panic m := by
  obtain ⟨l, h1, h2⟩ := buildTable_ok a b
  unfold lcsTokens
  rw [h1]
  rcases h with rfl | rfl
  · exact ⟨_, rfl⟩
  · cases a with
    | nil => exact ⟨_, rfl⟩
    | cons x xs => exact ⟨_, by simp [subUsize]; rfl⟩

end
end Quarch
