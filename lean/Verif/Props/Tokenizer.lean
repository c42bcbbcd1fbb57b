import Verif.Proofs.Text
/-
C01–C03: reading a text into tokens.
-/
namespace Quarch
open Spec

/-- Every text is a sequence of terminated lines followed by an unterminated rest, so the theorems
below cover every text. -/
theorem spec_C01_text_is_lines (text : Str) :
    ∃ ls final, (∀ l ∈ ls, Line.WF l) ∧ '\n' ∉ final ∧ text = textOf ls final :=
  exists_lines text

/-- C01: one token per line, in order, its kind and content decided by that line alone. -/
theorem C01_line_by_line (bareCR : Bool) (ls : List Line) (final : Str) (hls : ∀ l ∈ ls, l.WF)
    (hfinal : '\n' ∉ final) (tokens : List Token) :
    Tokenizer.run bareCR (textOf ls final) = .ok tokens ↔
      List.Forall₂ Classifies (contents bareCR ls final) tokens := by
  unfold Tokenizer.run
  rw [lines_textOf hls hfinal, mapOut_eq_ok]
  constructor
  · exact fun h => h.imp fun _ _ h => tokenOf_classifies h
  · exact fun h => h.imp fun _ _ h => classifies_tokenOf h

example : (∀ l ∈ [Line.mk (str! "// x") true, Line.mk (str! "{") false], l.WF) ∧
    Tokenizer.run false (textOf [⟨str! "// x", true⟩, ⟨str! "{", false⟩] (str! "\"a\" \"b\"")) =
      .ok [.comment (str! "// x"), .openBrace, .property (str! "a") (str! "b")] := by
  refine ⟨?_, by decide⟩
  intro l hl
  simp only [List.mem_cons, List.not_mem_nil, or_false] at hl
  rcases hl with rfl | rfl <;> simp [Line.WF]

/-- C01, consequence: a text cut after any line ending is read as the tokens of both parts. -/
theorem C01_concat (bareCR : Bool) (s t : Str) :
    Tokenizer.run bareCR (s ++ '\n' :: t) =
      (Tokenizer.run bareCR (s ++ ['\n'])).bind fun a =>
      (Tokenizer.run bareCR t).bind fun b => .ok (a ++ b) := by
  unfold Tokenizer.run
  rw [lines_append, mapOut_append]

example : Tokenizer.run true (str! "{\n}") = .ok [.openBrace, .closeBrace] ∧
    Tokenizer.run true (str! "{\n") = .ok [.openBrace] := by decide

/-- C02: reading aborts exactly when some line starts with a quote and has fewer than three quotes;
in all other cases it returns. -/
theorem C02_abort_iff (bareCR : Bool) (ls : List Line) (final : Str) (hls : ∀ l ∈ ls, l.WF)
    (hfinal : '\n' ∉ final) :
    ((∃ m, Tokenizer.run bareCR (textOf ls final) = .panic m) ↔
      ∃ line ∈ contents bareCR ls final, line.head? = some '"' ∧ line.count '"' < 3) ∧
    ((∃ m, Tokenizer.run bareCR (textOf ls final) = .panic m) ∨
      ∃ tokens, Tokenizer.run bareCR (textOf ls final) = .ok tokens) := by
  unfold Tokenizer.run
  rw [lines_textOf hls hfinal]
  generalize contents bareCR ls final = lines
  have key : (∃ m, mapOut Tokenizer.tokenOf lines = .panic m ∧ ∃ l ∈ lines, BadPropertyLine l) ∨
      (∃ r, mapOut Tokenizer.tokenOf lines = .ok r) ∧ ∀ l ∈ lines, ¬ BadPropertyLine l := by
    induction lines with
    | nil => right; exact ⟨⟨[], rfl⟩, by simp⟩
    | cons l ls ih =>
      rcases tokenOf_cases l with ⟨hb, m, hm⟩ | ⟨hb, t, ht⟩
      · left; exact ⟨m, by simp [mapOut_cons, hm], l, by simp, hb⟩
      · rcases ih with ⟨m, hm, l', hl', hb'⟩ | ⟨⟨r, hr⟩, hall⟩
        · left; exact ⟨m, by simp [mapOut_cons, ht, hm], l', by simp [hl'], hb'⟩
        · right
          refine ⟨⟨t :: r, by simp [mapOut_cons, ht, hr]⟩, ?_⟩
          intro l' hl'
          rcases List.mem_cons.1 hl' with rfl | hl'
          · exact hb
          · exact hall _ hl'
  rcases key with ⟨m, hm, l, hl, hb⟩ | ⟨⟨r, hr⟩, hall⟩
  · exact ⟨⟨fun _ => ⟨l, hl, hb⟩, fun _ => ⟨m, hm⟩⟩, .inl ⟨m, hm⟩⟩
  · refine ⟨⟨fun ⟨m, hm⟩ => ?_, fun ⟨l, hl, hb⟩ => absurd hb (hall l hl)⟩, .inr ⟨r, hr⟩⟩
    rw [hr] at hm; cases hm

example : Tokenizer.run false (str! "{\n\"a\"\n") =
      .panic "called `Option::unwrap()` on a `None` value" ∧
    BadPropertyLine (str! "\"a\"") := by decide

/-- The token of one line `"key" "value"`. -/
theorem property_line (bareCR : Bool) (key value trailing : Str)
    (hk : '"' ∉ key) (hk' : '\n' ∉ key) (hv : '"' ∉ value) (hv' : '\n' ∉ value) (ht : '\n' ∉ trailing) :
    Tokenizer.run bareCR (('"' :: key ++ ['"', ' ', '"'] ++ value ++ '"' :: trailing) ++ ['\n']) =
      .ok [.property key value] := by
  have hnl : '\n' ∉ '"' :: key ++ ['"', ' ', '"'] ++ value ++ '"' :: trailing := by
    simp [hk', hv', ht]
  unfold Tokenizer.run
  rw [lines_cons hnl]
  have hl : lines bareCR [] = [] := by simp [lines, splitOn]
  rw [hl, mapOut_cons]
  have hstrip : ∃ tl, stripCR ('"' :: key ++ ['"', ' ', '"'] ++ value ++ '"' :: trailing) =
      '"' :: (key ++ '"' :: ([' '] ++ '"' :: (value ++ '"' :: tl))) := by
    unfold stripCR
    split
    · rename_i hr
      have htr : trailing ≠ [] := by
        rintro rfl
        rw [List.getLast?_append] at hr
        simp at hr
      refine ⟨trailing.dropLast, ?_⟩
      rw [List.dropLast_append_of_ne_nil (by simp), List.dropLast_cons_of_ne_nil htr]
      simp
    · exact ⟨trailing, by simp⟩
  obtain ⟨tl, htl⟩ := hstrip
  rw [htl, classifies_tokenOf (.property key [' '] value ('"' :: tl) hk (by decide) hv (.inr ⟨tl, rfl⟩))]
  rfl

/-- C03: a line `"key" "value"` is read as exactly that key and value, at any place of any text and
whatever follows on the line. -/
theorem C03_property_line (bareCR : Bool) (before key value trailing after : Str)
    (hk : '"' ∉ key) (hk' : '\n' ∉ key) (hv : '"' ∉ value) (hv' : '\n' ∉ value) (ht : '\n' ∉ trailing) :
    Tokenizer.run bareCR (before ++ '\n' ::
        (('"' :: key ++ ['"', ' ', '"'] ++ value ++ '"' :: trailing) ++ '\n' :: after)) =
      (Tokenizer.run bareCR (before ++ ['\n'])).bind fun a =>
      (Tokenizer.run bareCR after).bind fun b => .ok (a ++ .property key value :: b) := by
  rw [C01_concat, C01_concat bareCR ('"' :: key ++ ['"', ' ', '"'] ++ value ++ '"' :: trailing) after]
  rw [property_line bareCR key value trailing hk hk' hv hv' ht]
  simp [Outcome.bind_assoc]

/-- C03: the same for the first line of a text. -/
theorem C03_first_line (bareCR : Bool) (key value trailing after : Str)
    (hk : '"' ∉ key) (hk' : '\n' ∉ key) (hv : '"' ∉ value) (hv' : '\n' ∉ value) (ht : '\n' ∉ trailing) :
    Tokenizer.run bareCR (('"' :: key ++ ['"', ' ', '"'] ++ value ++ '"' :: trailing) ++ '\n' :: after) =
      (Tokenizer.run bareCR after).bind fun b => .ok (.property key value :: b) := by
  rw [C01_concat bareCR ('"' :: key ++ ['"', ' ', '"'] ++ value ++ '"' :: trailing) after,
    property_line bareCR key value trailing hk hk' hv hv' ht]
  simp

example : Tokenizer.run true (str! "{\n\"a {\" \"\" }\r\n}") =
    .ok [.openBrace, .property (str! "a {") [], .closeBrace] := by decide

end Quarch
