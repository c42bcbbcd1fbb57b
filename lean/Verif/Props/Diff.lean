import Verif.Proofs.Diff
/-
C13–C16: comparing two maps.
-/
namespace Quarch
open Tokenizer

/-- C13: comparing aborts exactly if one of the files has no lines; otherwise it returns. -/
theorem C13_aborts_iff_empty (a b : List Token) :
    ((∃ m, diffTokens a b = .panic m) ↔ a = [] ∨ b = []) ∧
    ((∃ d, diffTokens a b = .ok d) ↔ a ≠ [] ∧ b ≠ []) := by
  by_cases h : a = [] ∨ b = []
  · obtain ⟨m, hm⟩ := lcsTokens_empty h
    have : diffTokens a b = .panic m := by unfold diffTokens; rw [hm]; rfl
    refine ⟨⟨fun _ => h, fun _ => ⟨m, this⟩⟩, ⟨?_, ?_⟩⟩
    · rintro ⟨d, hd⟩; rw [this] at hd; cases hd
    · rintro ⟨h1, h2⟩; exact absurd h (by simp [h1, h2])
  · obtain ⟨ha, hb⟩ := not_or.1 h
    obtain ⟨c, hc, _⟩ := lcsTokens_ok ha hb
    have : ∃ d, diffTokens a b = .ok d := ⟨_, by unfold diffTokens; rw [hc]; rfl⟩
    obtain ⟨d, hd⟩ := this
    refine ⟨⟨?_, fun h' => absurd h' h⟩, ⟨fun _ => ⟨ha, hb⟩, fun _ => ⟨d, hd⟩⟩⟩
    rintro ⟨m, hm⟩; rw [hd] at hm; cases hm

/-- C15: there is a longest common subsequence of the two files, each without its last line, such that
exactly the lines whose content is not in it are reported, in file order. -/
theorem C15_keeps_longest_common (a b : List Token) (d : Diff Token) (h : diffTokens a b = .ok d) :
    ∃ common : List Token, common.Sublist a.dropLast ∧ common.Sublist b.dropLast ∧
      (∀ c : List Token, c.Sublist a.dropLast → c.Sublist b.dropLast → c.length ≤ common.length) ∧
      d.removed = a.filter (fun t => t ∉ common) ∧ d.added = b.filter (fun t => t ∉ common) := by
  obtain ⟨ha, hb⟩ := (C13_aborts_iff_empty a b).2.1 ⟨d, h⟩
  obtain ⟨c, hc, h1, h2, h3⟩ := lcsTokens_ok ha hb
  refine ⟨c, h1, h2, h3, ?_⟩
  have hmem : ∀ t : Token, (c.find? fun x => x = t).isNone = decide (t ∉ c) := by
    intro t
    cases hf : c.find? fun x => x = t with
    | none =>
      have := List.find?_eq_none.1 hf
      simp only [decide_eq_true_eq] at this
      simp only [Option.isNone_none, Bool.true_eq, decide_eq_true_eq]
      exact fun hm => this t hm rfl
    | some x =>
      have h4 := List.find?_some hf
      have h5 := List.mem_of_find?_eq_some hf
      simp only [decide_eq_true_eq] at h4
      subst h4
      simp [h5]
  unfold diffTokens at h
  rw [hc, Outcome.ok_bind] at h
  cases h
  simp only [hmem, and_self]

/-- C14: every line only in the first file is reported as removed, every line only in the second as
added; reported lines come from the right file, in file order. -/
theorem C14_reports_one_sided_lines (a b : List Token) (d : Diff Token) (h : diffTokens a b = .ok d) :
    (∀ t ∈ a, t ∉ b → t ∈ d.removed) ∧ (∀ t ∈ b, t ∉ a → t ∈ d.added) ∧
    d.removed.Sublist a ∧ d.added.Sublist b := by
  obtain ⟨c, h1, h2, _, h3, h4⟩ := C15_keeps_longest_common a b d h
  have ca : ∀ t ∈ c, t ∈ a := fun t ht => (List.dropLast_sublist a).subset (h1.subset ht)
  have cb : ∀ t ∈ c, t ∈ b := fun t ht => (List.dropLast_sublist b).subset (h2.subset ht)
  rw [h3, h4]
  refine ⟨?_, ?_, List.filter_sublist, List.filter_sublist⟩
  · intro t ht hnb
    simp only [List.mem_filter, decide_eq_true_eq]
    exact ⟨ht, fun hc => hnb (cb t hc)⟩
  · intro t ht hna
    simp only [List.mem_filter, decide_eq_true_eq]
    exact ⟨ht, fun hc => hna (ca t hc)⟩

/-- C14, per occurrence: all occurrences of a line are reported or none is. -/
theorem C14_all_occurrences (a b : List Token) (d : Diff Token) (h : diffTokens a b = .ok d) (t : Token) :
    (d.removed.count t = a.count t ∨ d.removed.count t = 0) ∧
    (d.added.count t = b.count t ∨ d.added.count t = 0) := by
  obtain ⟨c, _, _, _, h3, h4⟩ := C15_keeps_longest_common a b d h
  rw [h3, h4]
  by_cases hc : t ∈ c
  · exact ⟨.inr (List.count_eq_zero.2 (by simp [hc])), .inr (List.count_eq_zero.2 (by simp [hc]))⟩
  · exact ⟨.inl (List.count_filter (by simp [hc])), .inl (List.count_filter (by simp [hc]))⟩

/-- C16 is false as stated: comparing a one-line file with itself reports that line as removed and as
added. -/
theorem C16_self_diff_not_empty :
    ¬ ∀ a : List Token, a ≠ [] → diffTokens a a = .ok ⟨[], []⟩ := by
  intro h
  have h1 := h [.openBrace] (by simp)
  obtain ⟨c, h2, _, _, h3, _⟩ := C15_keeps_longest_common _ _ _ h1
  simp only [List.dropLast_singleton, List.sublist_nil] at h2
  subst h2
  simp at h3

/-- C16, what does hold: comparing a file with itself reports exactly the last line (as removed and as
added) if it does not occur earlier, and nothing otherwise. Missing from the property as stated: the last
line. -/
theorem C16_self_diff_partial (a : List Token) (last : Token) :
    diffTokens (a ++ [last]) (a ++ [last]) =
      .ok (if last ∈ a then ⟨[], []⟩ else ⟨[last], [last]⟩) := by
  obtain ⟨d, hd⟩ := (C13_aborts_iff_empty (a ++ [last]) (a ++ [last])).2.2 (by simp)
  obtain ⟨c, h1, _, h3, h4, h5⟩ := C15_keeps_longest_common _ _ _ hd
  rw [List.dropLast_concat] at h1 h3
  have hc : c = a := h1.eq_of_length_le (h3 a (List.Sublist.refl _) (List.Sublist.refl _))
  subst hc
  have hf : (c ++ [last]).filter (fun t => t ∉ c) = if last ∈ c then [] else [last] := by
    rw [List.filter_append]
    have : c.filter (fun t => t ∉ c) = [] := by
      rw [List.filter_eq_nil_iff]; simp
    rw [this]
    by_cases h : last ∈ c <;> simp [h]
  rw [hf] at h4 h5
  rw [hd]
  obtain ⟨ad, re⟩ := d
  simp only at h4 h5
  subst h4; subst h5
  split <;> rfl

-- non-trivial instances: two different files; the same file twice
example : ∃ d, diffTokens [Token.openBrace, Token.closeBrace, Token.comment (str! "//")] [Token.closeBrace, Token.openBrace] = .ok d :=
  (C13_aborts_iff_empty _ _).2.2 (by simp)

example : diffTokens [Token.openBrace, Token.closeBrace] [Token.openBrace, Token.closeBrace] =
    .ok ⟨[Token.closeBrace], [Token.closeBrace]⟩ := C16_self_diff_partial [Token.openBrace] Token.closeBrace

end Quarch
