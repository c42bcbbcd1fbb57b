import Verif.Spec.Text
import Verif.Proofs.Basic
/-
Lemmas about `splitOn`, `lines` and `tokenOf`.
-/
namespace Quarch
open Spec

theorem splitOn_ne_nil (c : Char) (s : Str) : splitOn c s ≠ [] := by
  cases s with
  | nil => simp [splitOn]
  | cons x xs =>
    unfold splitOn
    split
    · simp
    · split <;> simp

theorem splitOn_of_notMem {c : Char} {s : Str} (h : c ∉ s) : splitOn c s = [s] := by
  induction s with
  | nil => rfl
  | cons x xs ih =>
    simp only [List.mem_cons, not_or] at h
    rw [splitOn, if_neg (Ne.symm h.1), ih h.2]

theorem splitOn_append {c : Char} {a : Str} (h : c ∉ a) (rest : Str) :
    splitOn c (a ++ c :: rest) = a :: splitOn c rest := by
  induction a with
  | nil => simp [splitOn]
  | cons x xs ih =>
    simp only [List.mem_cons, not_or] at h
    rw [List.cons_append, splitOn, if_neg (Ne.symm h.1), ih h.2]

theorem splitOn_length (c : Char) (s : Str) : (splitOn c s).length = s.count c + 1 := by
  induction s with
  | nil => rfl
  | cons x xs ih =>
    unfold splitOn
    by_cases h : x = c
    · simp [h, ih]
    · rw [if_neg h, List.count_cons_of_ne (by simpa using h)]
      split
      · rename_i h' t heq
        rw [heq] at ih
        simpa using ih
      · rename_i heq
        exact absurd heq (splitOn_ne_nil c xs)

theorem stripCR_of_ne {l : Str} (h : l.getLast? ≠ some '\r') : stripCR l = l := by
  simp [stripCR, h]

theorem stripCR_append (l : Str) : stripCR (l ++ ['\r']) = l := by
  simp [stripCR]

/-- The first line of a text. -/
theorem lines_cons {b : Bool} {c : Str} (h : '\n' ∉ c) (t : Str) :
    lines b (c ++ '\n' :: t) = stripCR c :: lines b t := by
  unfold lines
  simp only [splitOn_append h]
  obtain ⟨y, ys, hy⟩ := List.exists_cons_of_ne_nil (splitOn_ne_nil '\n' t)
  rw [hy]
  simp

theorem lines_of_notMem {b : Bool} {s : Str} (h : '\n' ∉ s) : lines b s = unterminated b s := by
  unfold lines unterminated
  simp only [splitOn_of_notMem h, List.getLast?_singleton, Option.getD_some, List.dropLast_singleton,
    List.map_nil, List.nil_append]
  by_cases hs : s = []
  · simp [hs]
  · cases b <;> simp [hs, stripCR]
    split <;> simp_all

theorem lines_line {b : Bool} {l : Line} (h : l.WF) (t : Str) :
    lines b (l.text ++ t) = l.content :: lines b t := by
  obtain ⟨h1, h2⟩ := h
  cases hc : l.crlf with
  | false =>
    have : l.text ++ t = l.content ++ '\n' :: t := by simp [Line.text, hc]
    rw [this, lines_cons h1, stripCR_of_ne (h2 hc)]
  | true =>
    have : l.text ++ t = (l.content ++ ['\r']) ++ '\n' :: t := by simp [Line.text, hc]
    rw [this, lines_cons (by simp [h1]), stripCR_append]

theorem lines_lines {b : Bool} {ls : List Line} (h : ∀ l ∈ ls, l.WF) (t : Str) :
    lines b ((ls.map Line.text).flatten ++ t) = ls.map Line.content ++ lines b t := by
  induction ls with
  | nil => rfl
  | cons l ls ih =>
    simp only [List.map_cons, List.flatten_cons, List.append_assoc, List.cons_append]
    rw [lines_line (h l (by simp)), ih fun l hl => h l (by simp [hl])]

theorem lines_textOf {b : Bool} {ls : List Line} {final : Str} (h : ∀ l ∈ ls, l.WF)
    (hf : '\n' ∉ final) : lines b (textOf ls final) = contents b ls final := by
  rw [textOf, lines_lines h, lines_of_notMem hf, contents]

/-- A line content as a terminated line. -/
theorem exists_line {c : Str} (h : '\n' ∉ c) : ∃ l : Line, l.WF ∧ l.text = c ++ ['\n'] := by
  by_cases hr : c.getLast? = some '\r'
  · refine ⟨⟨c.dropLast, true⟩, ⟨fun hm => h ((List.dropLast_sublist c).subset hm), by simp⟩, ?_⟩
    have := List.dropLast_append_getLast? _ hr
    simp only [Line.text, if_true]
    rw [show (['\r', '\n'] : Str) = ['\r'] ++ ['\n'] from rfl, ← List.append_assoc, this]
  · exact ⟨⟨c, false⟩, ⟨h, fun _ => hr⟩, by simp [Line.text]⟩

/-- Every text is made of lines. -/
theorem exists_lines (text : Str) :
    ∃ ls final, (∀ l ∈ ls, Line.WF l) ∧ '\n' ∉ final ∧ text = textOf ls final := by
  induction hn : text.length using Nat.strongRecOn generalizing text with
  | _ n ih =>
    by_cases h : '\n' ∈ text
    · obtain ⟨a, t, rfl, ha⟩ := List.eq_append_cons_of_mem h
      obtain ⟨ls, final, h1, h2, h3⟩ := ih t.length (by simp at hn; omega) t rfl
      obtain ⟨l, hl, ht⟩ := exists_line ha
      refine ⟨l :: ls, final, ?_, h2, ?_⟩
      · intro l' hl'
        rcases List.mem_cons.1 hl' with rfl | hl'
        · exact hl
        · exact h1 _ hl'
      · subst h3
        simp [textOf, ht]
    · exact ⟨[], text, by simp, h, by simp [textOf]⟩

theorem lines_append (b : Bool) (s t : Str) :
    lines b (s ++ '\n' :: t) = lines b (s ++ ['\n']) ++ lines b t := by
  obtain ⟨ls, final, h1, h2, rfl⟩ := exists_lines s
  obtain ⟨l, hl, ht⟩ := exists_line h2
  have hall : ∀ l' ∈ ls ++ [l], l'.WF := by
    intro l' hl'
    rcases List.mem_append.1 hl' with h | h
    · exact h1 _ h
    · rw [List.mem_singleton.1 h]; exact hl
  have e1 : textOf ls final ++ '\n' :: t = ((ls ++ [l]).map Line.text).flatten ++ t := by
    simp [textOf, ht]
  have e2 : textOf ls final ++ ['\n'] = ((ls ++ [l]).map Line.text).flatten ++ [] := by
    simp [textOf, ht]
  rw [e1, e2, lines_lines hall, lines_lines hall]
  simp [lines, splitOn]

/-- What `tokenOf` does on lines starting with a quote. -/
theorem tokenOf_quote (r : Str) :
    (r.count '"' < 2 ∧ ∃ m, Tokenizer.tokenOf ('"' :: r) = .panic m) ∨
    (∃ key mid value tail, '"' ∉ key ∧ '"' ∉ mid ∧ '"' ∉ value ∧ (tail = [] ∨ ∃ t, tail = '"' :: t) ∧
      r = key ++ '"' :: (mid ++ '"' :: (value ++ tail)) ∧ 2 ≤ r.count '"' ∧
      Tokenizer.tokenOf ('"' :: r) = .ok (.property key value)) := by
  have hs : splitOn '"' ('"' :: r) = [] :: splitOn '"' r := by simp [splitOn]
  by_cases h1 : '"' ∈ r
  · obtain ⟨key, r1, rfl, hk⟩ := List.eq_append_cons_of_mem h1
    by_cases h2 : '"' ∈ r1
    · obtain ⟨mid, r2, rfl, hm⟩ := List.eq_append_cons_of_mem h2
      right
      have hv : ∃ value tail, '"' ∉ value ∧ (tail = [] ∨ ∃ t, tail = '"' :: t) ∧ r2 = value ++ tail ∧
          ∃ more, splitOn '"' r2 = value :: more := by
        by_cases h3 : '"' ∈ r2
        · obtain ⟨value, r3, rfl, hv⟩ := List.eq_append_cons_of_mem h3
          exact ⟨value, '"' :: r3, hv, .inr ⟨r3, rfl⟩, rfl, _, splitOn_append hv r3⟩
        · exact ⟨r2, [], h3, .inl rfl, by simp, [], splitOn_of_notMem h3⟩
      obtain ⟨value, tail, hv, ht, rfl, more, hmore⟩ := hv
      refine ⟨key, mid, value, tail, hk, hm, hv, ht, rfl, ?_, ?_⟩
      · simp only [List.count_append, List.count_cons_self]; omega
      · simp only [Tokenizer.tokenOf, hs, splitOn_append hk, splitOn_append hm, hmore]
        rfl
    · left
      refine ⟨?_, "called `Option::unwrap()` on a `None` value", ?_⟩
      · simp only [List.count_append, List.count_cons_self, List.count_eq_zero_of_not_mem hk,
          List.count_eq_zero_of_not_mem h2]; omega
      · simp only [Tokenizer.tokenOf, hs, splitOn_append hk, splitOn_of_notMem h2]
        rfl
  · left
    refine ⟨?_, "called `Option::unwrap()` on a `None` value", ?_⟩
    · simp [List.count_eq_zero_of_not_mem h1]
    · simp only [Tokenizer.tokenOf, hs, splitOn_of_notMem h1]
      rfl

theorem tokenOf_classifies {line : Str} {t : Token} (h : Tokenizer.tokenOf line = .ok t) :
    Classifies line t := by
  unfold Tokenizer.tokenOf at h
  split at h
  · cases h; exact .comment _
  · rename_i r
    rcases tokenOf_quote r with ⟨_, m, hm⟩ | ⟨key, mid, value, tail, h1, h2, h3, h4, h5, h6, h7⟩
    · have : Tokenizer.tokenOf ('"' :: r) = .ok t := h
      rw [hm] at this; cases this
    · have : Tokenizer.tokenOf ('"' :: r) = .ok t := h
      rw [h7] at this
      cases this
      rw [h5]
      exact .property key mid value tail h1 h2 h3 h4
  · cases h; exact .openBrace _
  · cases h; exact .closeBrace _
  · cases h; exact .face _
  · rename_i h1 h2 h3 h4 h5
    cases h
    refine .other _ ?_
    intro c hc hh
    cases line with
    | nil => simp at hh
    | cons x xs =>
      simp only [List.head?_cons, Option.some.injEq] at hh
      subst hh
      simp only [List.mem_cons, List.not_mem_nil, or_false] at hc
      rcases hc with rfl | rfl | rfl | rfl | rfl
      · exact h1 _ rfl
      · exact h3 _ rfl
      · exact h4 _ rfl
      · exact h5 _ rfl
      · exact h2 _ rfl

/-- `tokenOf` panics exactly on bad property lines and returns otherwise. -/
theorem tokenOf_cases (line : Str) :
    (BadPropertyLine line ∧ ∃ m, Tokenizer.tokenOf line = .panic m) ∨
    (¬ BadPropertyLine line ∧ ∃ t, Tokenizer.tokenOf line = .ok t) := by
  by_cases hq : line.head? = some '"'
  · obtain ⟨r, rfl⟩ : ∃ r, line = '"' :: r := by
      cases line with
      | nil => simp at hq
      | cons x xs => simp at hq; subst hq; exact ⟨xs, rfl⟩
    rcases tokenOf_quote r with ⟨h, m, hm⟩ | ⟨key, mid, value, tail, h1, h2, h3, h4, h5, h6, h7⟩
    · exact .inl ⟨⟨rfl, by rw [List.count_cons_self]; omega⟩, m, hm⟩
    · exact .inr ⟨fun hb => by have := hb.2; rw [List.count_cons_self] at this; omega, _, h7⟩
  · refine .inr ⟨fun hb => hq hb.1, ?_⟩
    unfold Tokenizer.tokenOf
    split
    · exact ⟨_, rfl⟩
    · simp at hq
    all_goals exact ⟨_, rfl⟩

theorem classifies_tokenOf {line : Str} {t : Token} (h : Classifies line t) :
    Tokenizer.tokenOf line = .ok t := by
  cases h with
  | comment rest => rfl
  | openBrace rest => rfl
  | closeBrace rest => rfl
  | face rest => rfl
  | property key mid value tail h1 h2 h3 h4 =>
    have hv : ∃ more, splitOn '"' (value ++ tail) = value :: more := by
      rcases h4 with rfl | ⟨t, rfl⟩
      · exact ⟨[], by simp [splitOn_of_notMem h3]⟩
      · exact ⟨_, splitOn_append h3 t⟩
    obtain ⟨more, hmore⟩ := hv
    have hs : ∀ r, splitOn '"' ('"' :: r) = [] :: splitOn '"' r := by intro r; simp [splitOn]
    simp only [Tokenizer.tokenOf, hs, splitOn_append h1, splitOn_append h2, hmore]
    rfl
  | other hne =>
    rename_i hne
    unfold Tokenizer.tokenOf
    split
    · exact absurd rfl (hne '/' (by simp))
    · exact absurd rfl (hne '"' (by simp))
    · exact absurd rfl (hne '{' (by simp))
    · exact absurd rfl (hne '}' (by simp))
    · exact absurd rfl (hne '(' (by simp))
    · rfl

end Quarch
