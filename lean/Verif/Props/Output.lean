import Verif.Model.Output
import Verif.Spec.Output
import Verif.Props.Diff
import Verif.Props.Files
import Verif.Proofs.Gather
/-
C89: what `run_diff` prints.
-/
set_option linter.unusedSectionVars false
namespace Quarch
open Spec Output

/-! ### quoting -/

theorem hexDigit_value {n : Nat} (h : n < 16) : digitValue (hexDigit n) = some n := by
  revert n; decide

theorem hex_range (n k : Nat) :
    Hex ((List.range k).reverse.map fun i => hexDigit (n / 16 ^ i % 16)) (n % 16 ^ k) := by
  induction k generalizing n with
  | zero => simpa [Nat.mod_one] using Hex.nil
  | succ k ih =>
    have h1 := ih (n / 16)
    have h2 := Hex.snoc h1 (hexDigit_value (n := n % 16) (Nat.mod_lt _ (by norm_num)))
    have e1 : 16 * (n / 16 % 16 ^ k) + n % 16 = n % 16 ^ (k + 1) := by
      rw [pow_succ, Nat.mul_comm (16 ^ k) 16, Nat.mod_mul]; omega
    have e2 : ((List.range k).reverse.map fun i => hexDigit (n / 16 / 16 ^ i % 16)) ++ [hexDigit (n % 16)] =
        (List.range (k + 1)).reverse.map fun i => hexDigit (n / 16 ^ i % 16) := by
      rw [List.range_succ_eq_map]
      simp only [List.reverse_cons, List.map_append, List.map_cons, List.map_nil, pow_zero, Nat.div_one,
        ← List.map_reverse, List.map_map]
      congr 1
      apply List.map_congr_left
      intro i _
      simp only [Function.comp, Nat.div_div_eq_div_mul, pow_succ, Nat.mul_comm]
    rw [e1, e2] at h2
    exact h2

theorem hexDigits_hex (n : Nat) : Hex (hexDigits n) n := by
  have h := hex_range n ((n ||| 1).log2 / 4 + 1)
  rwa [Nat.mod_eq_of_lt] at h
  have h1 : n ≤ n ||| 1 := Nat.left_le_or
  have h2 : n ||| 1 < 2 ^ ((n ||| 1).log2 + 1) := Nat.lt_log2_self
  have h3 : (2 : Nat) ^ ((n ||| 1).log2 + 1) ≤ 2 ^ (4 * ((n ||| 1).log2 / 4 + 1)) :=
    Nat.pow_le_pow_right (by norm_num) (by omega)
  rw [pow_mul] at h3
  exact lt_of_le_of_lt h1 (lt_of_lt_of_le h2 h3)

theorem escape_piece (style : DebugStyle) (c : Char) : Piece c (escapeChar style c) := by
  unfold escapeChar
  split
  · rename_i h; rw [h.1]; exact .nul
  split
  · rename_i h; rw [h]; exact .tab
  split
  · rename_i h; rw [h]; exact .cr
  split
  · rename_i h; rw [h]; exact .nl
  split
  · rename_i h; rw [h]; exact .backslash
  split
  · rename_i h; rw [h]; exact .quote
  split
  · rename_i h; rw [h.1]; exact .single
  split
  · exact .plain c (by simp [*])
  · exact .code c _ (hexDigits_hex _)

theorem debugStr_quoted (style : DebugStyle) (s : Str) : Quoted s (debugStr style s) := by
  refine ⟨s.map (escapeChar style), ?_, ?_⟩
  · rw [List.forall₂_map_right_iff]
    exact List.forall₂_same.2 fun c _ => escape_piece style c
  · simp [debugStr, List.flatMap_def]

theorem digit_not (c : Char) (h : (digitValue c).isSome) : c ≠ '}' ∧ c ≠ '\n' := by
  constructor <;> (rintro rfl; revert h; decide)

theorem hex_chars {h : Str} {n : Nat} (hx : Hex h n) : ∀ c ∈ h, (digitValue c).isSome := by
  induction hx with
  | nil => simp
  | snoc _ hv ih =>
    intro c hc
    rcases List.mem_append.1 hc with hc | hc
    · exact ih c hc
    · simp only [List.mem_singleton] at hc; rw [hc, hv]; rfl

theorem hex_unique {h : Str} {n m : Nat} (hx : Hex h n) (hy : Hex h m) : n = m := by
  induction hx generalizing m with
  | nil =>
    generalize e : ([] : Str) = l at hy
    cases hy with
    | nil => rfl
    | snoc _ _ => simp at e
  | @snoc h n c v _ hv ih =>
    generalize e : h ++ [c] = l at hy
    cases hy with
    | nil => simp at e
    | @snoc h' n' c' v' hx' hv' =>
      obtain ⟨rfl, e2⟩ := List.append_inj' e rfl
      cases e2
      rw [ih hx']
      rw [hv] at hv'; cases hv'; rfl

theorem piece_newline {c : Char} {p : Str} (h : Piece c p) : '\n' ∉ p := by
  cases h with
  | plain _ h => intro hn; simp only [List.mem_singleton] at hn; subst hn; exact h (by simp)
  | code _ h hx =>
    intro hn
    simp only [List.mem_append, List.mem_cons, List.not_mem_nil, or_false] at hn
    rcases hn with (hn | hn) | hn
    · revert hn; decide
    · exact (digit_not _ (hex_chars hx _ hn)).2 rfl
    · revert hn; decide
  | _ => decide

theorem quoted_newline {s q : Str} (h : Quoted s q) : '\n' ∉ q := by
  obtain ⟨ps, h, rfl⟩ := h
  have : '\n' ∉ ps.flatten := by
    intro hn
    obtain ⟨p, hp, hn⟩ := List.mem_flatten.1 hn
    obtain ⟨c, _, hc⟩ := forall₂_right h hp
    exact piece_newline hc hn
  simp [this]

theorem piece_head {c : Char} {p : Str} (h : Piece c p) : ∃ d l, p = d :: l ∧ d ≠ '"' := by
  cases h with
  | plain _ h => exact ⟨c, [], rfl, fun e => h (by simp [e])⟩
  | code _ h hx => exact ⟨_, _, rfl, by decide⟩
  | _ => exact ⟨_, _, rfl, by decide⟩

theorem piece_split {c c' : Char} {p p' x y : Str} (h : Piece c p) (h' : Piece c' p') (e : p ++ x = p' ++ y) :
    c = c' ∧ x = y := by
  cases h with
  | plain _ hc =>
    cases h' with
    | plain _ hc' => exact List.cons.inj e
    | _ => exact absurd (show c ∈ _ by rw [(List.cons.inj e).1]; simp) hc
  | code _ g hg =>
    cases h' with
    | plain _ hc' => exact absurd (show c' ∈ _ by rw [← (List.cons.inj e).1]; simp) hc'
    | code _ g' hg' =>
      simp only [List.cons_append, List.nil_append, List.append_assoc, List.cons.injEq, true_and] at e
      obtain ⟨rfl, e2⟩ := split_first (fun hm => (digit_not _ (hex_chars hg _ hm)).1 rfl)
        (fun hm => (digit_not _ (hex_chars hg' _ hm)).1 rfl) e
      exact ⟨Char.toNat_inj.1 (hex_unique hg hg'), e2⟩
    | _ => simp at e
  | _ =>
    cases h' with
    | plain _ hc' => exact absurd (show c' ∈ _ by rw [← (List.cons.inj e).1]; simp) hc'
    | code _ g' hg' => simp at e
    | _ => simp_all

/-- The text in quotes determines the text. -/
theorem quoted_unique {s s' q : Str} (h : Quoted s q) (h' : Quoted s' q) : s = s' := by
  obtain ⟨ps, h, rfl⟩ := h
  obtain ⟨ps', h', e⟩ := h'
  have e : ps.flatten ++ ['"'] = ps'.flatten ++ ['"'] := by simpa using e
  clear * - h h' e
  induction h generalizing s' ps' with
  | nil =>
    cases h' with
    | nil => rfl
    | cons hp _ =>
      obtain ⟨d, l, rfl, hd⟩ := piece_head hp
      exact absurd (List.cons.inj e).1.symm hd
  | cons hp _ ih =>
    cases h' with
    | nil =>
      obtain ⟨d, l, rfl, hd⟩ := piece_head hp
      exact absurd (List.cons.inj e).1 hd
    | cons hp' hs' =>
      simp only [List.flatten_cons, List.append_assoc] at e
      obtain ⟨rfl, e⟩ := piece_split hp hp' e
      rw [ih _ hs' e]

/-! ### layout -/

theorem unlines_cons (l : Str) (ls : List Str) : unlines (l :: ls) = l ++ '\n' :: unlines ls := by simp [unlines]

theorem unlines_append (a b : List Str) : unlines (a ++ b) = unlines a ++ unlines b := by simp [unlines]

theorem unlines_nil : unlines [] = [] := rfl

theorem pad_line {l : Str} (h : '\n' ∉ l) (s : Str) : pad false (l ++ '\n' :: s) = l ++ '\n' :: pad true s := by
  induction l with
  | nil => simp [pad]
  | cons c l ih =>
    simp only [List.mem_cons, not_or] at h
    have : (c == '\n') = false := by simpa using fun e => h.1 e.symm
    simp only [List.cons_append, pad, this, ih h.2]

theorem pad_line_true {l : Str} (h : '\n' ∉ l) (s : Str) :
    pad true (l ++ '\n' :: s) = str! "    " ++ l ++ '\n' :: pad true s := by
  cases l with
  | nil => simp [pad]
  | cons c l =>
    simp only [List.mem_cons, not_or] at h
    have : (c == '\n') = false := by simpa using fun e => h.1 e.symm
    simp only [List.cons_append, pad, this, pad_line h.2, List.append_assoc]

/-- Padding indents every line. -/
theorem pad_unlines {ls : List Str} (h : ∀ l ∈ ls, '\n' ∉ l) :
    pad true (unlines ls) = unlines (ls.map fun l => str! "    " ++ l) := by
  induction ls with
  | nil => rfl
  | cons l ls ih =>
    rw [unlines_cons, pad_line_true (h l (by simp)), ih fun l hl => h l (by simp [hl]), List.map_cons, unlines_cons]

/-- The lines of a token, before any indentation of the list it is in. -/
def tokenText (style : DebugStyle) : Token → List Str
  | .comment s => [str! "Comment(", str! "    " ++ debugStr style s ++ str! ",", str! "),"]
  | .openBrace => [str! "OpenBrace,"]
  | .closeBrace => [str! "CloseBrace,"]
  | .property key value => [str! "Property(", str! "    Property {", str! "        key: " ++ debugStr style key ++ str! ",",
      str! "        value: " ++ debugStr style value ++ str! ",", str! "    },", str! "),"]
  | .brushPlane s => [str! "BrushPlane(", str! "    " ++ debugStr style s ++ str! ",", str! "),"]
  | .unrecognized s => [str! "Unrecognized(", str! "    " ++ debugStr style s ++ str! ",", str! "),"]

theorem tokenText_newline (style : DebugStyle) (t : Token) : ∀ l ∈ tokenText style t, '\n' ∉ l := by
  have h : ∀ s, '\n' ∉ debugStr style s := fun s => quoted_newline (debugStr_quoted style s)
  cases t <;> simp [tokenText, h]

theorem pad_one {l : Str} (h : '\n' ∉ l) : pad true (l ++ ['\n']) = str! "    " ++ l ++ ['\n'] := by
  have := pad_line_true h []
  simpa [pad] using this

theorem tuple_one (style : DebugStyle) (name s : Str) :
    debugTuple name [debugStr style s] ++ str! ",\n" =
      unlines [name ++ str! "(", str! "    " ++ debugStr style s ++ str! ",", str! "),"] := by
  have h : '\n' ∉ debugStr style s ++ [','] := by
    simp [quoted_newline (debugStr_quoted style s)]
  have := pad_one h
  simp only [List.append_assoc, List.cons_append, List.nil_append] at this
  simp [debugTuple, unlines, this]

theorem token_lines (style : DebugStyle) (t : Token) :
    debugToken style t ++ str! ",\n" = unlines (tokenText style t) := by
  cases t with
  | comment s => exact tuple_one style _ s
  | openBrace => rfl
  | closeBrace => rfl
  | brushPlane s => exact tuple_one style _ s
  | unrecognized s => exact tuple_one style _ s
  | property key value =>
    have h : ∀ s, '\n' ∉ debugStr style s := fun s => quoted_newline (debugStr_quoted style s)
    have hs : debugStruct (str! "Property") [(str! "key", debugStr style key), (str! "value", debugStr style value)] ++
        str! ",\n" = unlines [str! "Property {", str! "    key: " ++ debugStr style key ++ str! ",",
          str! "    value: " ++ debugStr style value ++ str! ",", str! "},"] := by
      have h1 := pad_one (l := str! "key: " ++ debugStr style key ++ [',']) (by simp [h])
      have h2 := pad_one (l := str! "value: " ++ debugStr style value ++ [',']) (by simp [h])
      simp only [List.append_assoc, List.cons_append, List.nil_append] at h1 h2
      simp [debugStruct, unlines, h1, h2]
    show debugTuple _ [_] ++ _ = _
    unfold debugTuple
    simp only [List.map_cons, List.map_nil, List.flatten_cons, List.flatten_nil, List.append_nil, hs]
    rw [pad_unlines (by simp [h])]
    simp [tokenText, unlines]

theorem list_lines (style : DebugStyle) (name : Str) (hn : '\n' ∉ name) (ts : List Token) (hts : ts ≠ []) :
    pad true (name ++ str! ": " ++ debugList (ts.map (debugToken style)) ++ str! ",\n") =
      unlines ((str! "    " ++ name ++ str! ": [") ::
        ((ts.map fun t => (tokenText style t).map fun l => str! "        " ++ l).flatten ++ [str! "    ],"])) := by
  have h1 : debugList (ts.map (debugToken style)) ++ str! ",\n" =
      str! "[\n" ++ unlines ((ts.map fun t => (tokenText style t).map fun l => str! "    " ++ l).flatten) ++
        str! "],\n" := by
    unfold debugList
    have he : (ts.map (debugToken style)).isEmpty = false := by
      cases ts with
      | nil => exact absurd rfl hts
      | cons _ _ => rfl
    rw [he]
    simp only [Bool.false_eq_true, if_false, List.map_map]
    have : ∀ ts : List Token, (ts.map ((fun e => pad true (e ++ str! ",\n")) ∘ debugToken style)).flatten =
        unlines ((ts.map fun t => (tokenText style t).map fun l => str! "    " ++ l).flatten) := by
      intro ts
      induction ts with
      | nil => rfl
      | cons t ts ih =>
        simp only [List.map_cons, List.flatten_cons, unlines_append]
        rw [← ih]
        simp only [Function.comp, token_lines]
        rw [pad_unlines (tokenText_newline style t)]
    rw [this]
    simp
  have h2 : name ++ str! ": " ++ debugList (ts.map (debugToken style)) ++ str! ",\n" =
      unlines ((name ++ str! ": [") ::
        ((ts.map fun t => (tokenText style t).map fun l => str! "    " ++ l).flatten ++ [str! "],"])) := by
    rw [List.append_assoc, h1, unlines_cons, unlines_append]
    simp [unlines]
  rw [h2, pad_unlines]
  · simp only [List.map_cons, List.map_append, List.map_nil, List.map_flatten, List.map_map]
    have : ts.map ((List.map fun l => str! "    " ++ l) ∘ fun t => (tokenText style t).map fun l => str! "    " ++ l) =
        ts.map fun t => (tokenText style t).map fun l => str! "        " ++ l := by
      apply List.map_congr_left
      intro t _
      simp [Function.comp]
    rw [this]
    simp
  · intro l hl
    simp only [List.mem_cons, List.mem_append, List.mem_flatten, List.mem_map, List.not_mem_nil, or_false] at hl
    rcases hl with rfl | ⟨_, ⟨t, ht, rfl⟩, hl⟩ | rfl
    · simp [hn]
    · obtain ⟨l', hl', rfl⟩ := List.mem_map.1 hl
      simp [tokenText_newline style t l' hl']
    · decide

theorem tokenText_spec (style : DebugStyle) (t : Token) :
    TokenLines t ((tokenText style t).map fun l => str! "        " ++ l) := by
  cases t with
  | comment s => exact .comment s _ (debugStr_quoted style s)
  | openBrace => exact .openBrace
  | closeBrace => exact .closeBrace
  | brushPlane s => exact .brushPlane s _ (debugStr_quoted style s)
  | unrecognized s => exact .unrecognized s _ (debugStr_quoted style s)
  | property k v => exact .property k v _ _ (debugStr_quoted style k) (debugStr_quoted style v)

theorem half_lines (style : DebugStyle) (name : Str) (hn : '\n' ∉ name) (ts : List Token) :
    ∃ ls, HalfLines name ts ls ∧
      pad true (name ++ str! ": " ++ debugList (ts.map (debugToken style)) ++ str! ",\n") = unlines ls := by
  by_cases h : ts = []
  · subst h
    refine ⟨_, .none, ?_⟩
    have := pad_one (l := name ++ str! ": [],") (by simp [hn])
    simp only [List.append_assoc, List.cons_append, List.nil_append] at this
    simp [debugList, unlines, this]
  · refine ⟨_, .some ts _ h ?_, list_lines style name hn ts h⟩
    rw [List.forall₂_map_right_iff]
    exact List.forall₂_same.2 fun t _ => tokenText_spec style t

/-- The report, line by line. -/
theorem report_lines (style : DebugStyle) (d : Tokenizer.Diff Token) :
    ∃ ls, ReportLines d.added d.removed ls ∧ debugDiff style d ++ ['\n'] = unlines ls := by
  obtain ⟨a, ha, ea⟩ := half_lines style (str! "added") (by decide) d.added
  obtain ⟨r, hr, er⟩ := half_lines style (str! "removed") (by decide) d.removed
  refine ⟨_, ⟨a, r, ha, hr, rfl⟩, ?_⟩
  unfold debugDiff debugStruct
  simp only [List.map_cons, List.map_nil, List.flatten_cons, List.flatten_nil, ea, er, unlines_cons, unlines_append,
    unlines_nil]
  simp

/-! ### reading the report -/

theorem unlines_inj {ls ls' : List Str} (h : ∀ l ∈ ls, '\n' ∉ l) (h' : ∀ l ∈ ls', '\n' ∉ l)
    (e : unlines ls = unlines ls') : ls = ls' := by
  induction ls generalizing ls' with
  | nil =>
    cases ls' with
    | nil => rfl
    | cons l ls' => rw [unlines_cons, unlines_nil] at e; simp at e
  | cons l ls ih =>
    cases ls' with
    | nil => rw [unlines_cons, unlines_nil] at e; simp at e
    | cons l' ls' =>
      rw [unlines_cons, unlines_cons] at e
      obtain ⟨e1, e2⟩ := split_first (h l (by simp)) (h' l' (by simp)) e
      rw [e1, ih (fun l hl => h l (by simp [hl])) (fun l hl => h' l (by simp [hl])) e2]

theorem tokenLines_newline {t : Token} {ls : List Str} (h : TokenLines t ls) : ∀ l ∈ ls, '\n' ∉ l := by
  cases h with
  | comment s q hq => have := quoted_newline hq; simp [this]
  | brushPlane s q hq => have := quoted_newline hq; simp [this]
  | unrecognized s q hq => have := quoted_newline hq; simp [this]
  | property k v a b ha hb => have := quoted_newline ha; have := quoted_newline hb; simp [*]
  | _ => simp

theorem halfLines_newline {name : Str} (hn : '\n' ∉ name) {ts : List Token} {ls : List Str} (h : HalfLines name ts ls) :
    ∀ l ∈ ls, '\n' ∉ l := by
  cases h with
  | none => simp [hn]
  | some _ blocks _ hb =>
    intro l hl
    simp only [List.mem_cons, List.mem_append, List.mem_flatten, List.not_mem_nil, or_false] at hl
    rcases hl with rfl | ⟨b, hbm, hl⟩ | rfl
    · simp [hn]
    · obtain ⟨t, _, ht⟩ := forall₂_right hb hbm
      exact tokenLines_newline ht l hl
    · decide

theorem report_newline {a r : List Token} {ls : List Str} (h : ReportLines a r ls) : ∀ l ∈ ls, '\n' ∉ l := by
  obtain ⟨x, y, hx, hy, rfl⟩ := h
  intro l hl
  simp only [List.mem_cons, List.mem_append, List.not_mem_nil, or_false] at hl
  rcases hl with rfl | (hl | hl) | rfl
  · decide
  · exact halfLines_newline (by decide) hx l hl
  · exact halfLines_newline (by decide) hy l hl
  · decide

theorem tokenLines_split {t t' : Token} {b b' x y : List Str} (h : TokenLines t b) (h' : TokenLines t' b')
    (e : b ++ x = b' ++ y) : t = t' ∧ x = y := by
  cases h <;> cases h' <;>
    simp only [List.cons_append, List.nil_append, List.cons.injEq, List.append_cancel_right_eq, reduceCtorEq, false_and,
      and_false, true_and, Char.reduceEq, and_true] at e
  · rename_i h1 _ _ h2
    obtain ⟨rfl, rfl⟩ := e
    exact ⟨by rw [quoted_unique h1 h2], rfl⟩
  · exact ⟨rfl, e⟩
  · exact ⟨rfl, e⟩
  · rename_i h1 h2 _ _ _ _ h3 h4
    obtain ⟨rfl, rfl, rfl⟩ := e
    exact ⟨by rw [quoted_unique h1 h3, quoted_unique h2 h4], rfl⟩
  · rename_i h1 _ _ h2
    obtain ⟨rfl, rfl⟩ := e
    exact ⟨by rw [quoted_unique h1 h2], rfl⟩
  · rename_i h1 _ _ h2
    obtain ⟨rfl, rfl⟩ := e
    exact ⟨by rw [quoted_unique h1 h2], rfl⟩

theorem tokenLines_head {t : Token} {b : List Str} (h : TokenLines t b) (x y : List Str) (z : Str) :
    b ++ x ≠ (str! "    ]" ++ z) :: y := by
  cases h <;> simp

theorem blocks_split {ts ts' : List Token} {bs bs' : List (List Str)} {x y : List Str}
    (h : List.Forall₂ TokenLines ts bs) (h' : List.Forall₂ TokenLines ts' bs')
    (e : bs.flatten ++ str! "    ]," :: x = bs'.flatten ++ str! "    ]," :: y) : ts = ts' ∧ x = y := by
  induction h generalizing ts' bs' with
  | nil =>
    cases h' with
    | nil => exact ⟨rfl, (List.cons.inj e).2⟩
    | cons hp _ =>
      simp only [List.flatten_cons, List.append_assoc] at e
      exact absurd e.symm (tokenLines_head hp _ _ [','])
  | cons hp _ ih =>
    cases h' with
    | nil =>
      simp only [List.flatten_cons, List.append_assoc] at e
      exact absurd e (tokenLines_head hp _ _ [','])
    | cons hp' hs' =>
      simp only [List.flatten_cons, List.append_assoc] at e
      obtain ⟨rfl, e⟩ := tokenLines_split hp hp' e
      obtain ⟨rfl, e⟩ := ih hs' e
      exact ⟨rfl, e⟩

theorem half_split {name : Str} {ts ts' : List Token} {a a' x y : List Str} (h : HalfLines name ts a)
    (h' : HalfLines name ts' a') (e : a ++ x = a' ++ y) : ts = ts' ∧ x = y := by
  cases h with
  | none =>
    cases h' with
    | none => exact ⟨rfl, (List.cons.inj e).2⟩
    | some _ bs' _ hb' =>
      have := (List.cons.inj e).1
      simp at this
  | some _ bs _ hb =>
    cases h' with
    | none =>
      have := (List.cons.inj e).1
      simp at this
    | some _ bs' _ hb' =>
      have e := (List.cons.inj e).2
      exact blocks_split hb hb' (by simpa using e)

/-- C89: the text of a report determines what is reported. -/
theorem spec_C89_report_unambiguous (a r a' r' : List Token) (ls ls' : List Str) (h : ReportLines a r ls)
    (h' : ReportLines a' r' ls') (e : unlines ls = unlines ls') : a = a' ∧ r = r' := by
  have e := unlines_inj (report_newline h) (report_newline h') e
  obtain ⟨x, y, hx, hy, rfl⟩ := h
  obtain ⟨x', y', hx', hy', e'⟩ := h'
  rw [e'] at e
  have e := (List.cons.inj e).2
  rw [List.append_assoc, List.append_assoc] at e
  obtain ⟨rfl, e⟩ := half_split hx hx' e
  obtain ⟨rfl, e⟩ := half_split hy hy' e
  exact ⟨rfl, rfl⟩

/-! ### the whole run -/
section
variable [Platform]

/-- C89: if the comparison ends normally, both files are text whose lines are, in order, classified one by one, both
have lines, and the output is two fixed lines and the report: added are the lines of the second file, removed those of
the first, that are not in a longest common subsequence of the two files without their last lines. -/
theorem C89_report (style : DebugStyle) (lsA lsB : List Line) (finA finB : Str) (hA : ∀ l ∈ lsA, l.WF)
    (hB : ∀ l ∈ lsB, l.WF) (hfA : '\n' ∉ finA) (hfB : '\n' ∉ finB) (out : Str)
    (h : runDiffPrints style (some (utf8Bytes (textOf lsA finA))) (some (utf8Bytes (textOf lsB finB))) = (out, .ok ())) :
    ∃ ta tb common lines, List.Forall₂ Classifies (contents Platform.bareCR lsA finA) ta ∧
      List.Forall₂ Classifies (contents Platform.bareCR lsB finB) tb ∧
      LongestCommon common ta.dropLast tb.dropLast ∧
      ReportLines (tb.filter fun t => t ∉ common) (ta.filter fun t => t ∉ common) lines ∧
      out = unlines ([str! "TODO-3: Rewrite with nom", str! "TODO-3: Rewrite with nom"] ++ lines) := by
  unfold runDiffPrints at h
  rw [C76_read_what_was_written, C76_read_what_was_written] at h
  simp only at h
  split at h
  · cases h
  · cases h
  · cases h
  rename_i ta hta
  split at h
  · cases h
  · cases h
  · cases h
  rename_i tb htb
  split at h
  · cases h
  · cases h
  · cases h
  rename_i d hd
  obtain ⟨c, h1, h2, h3, h4, h5⟩ := C15_keeps_longest_common ta tb d hd
  obtain ⟨ls, h6, h7⟩ := report_lines style d
  rw [h5, h4] at h6
  refine ⟨ta, tb, c, ls, (C01_line_by_line _ _ _ hA hfA _).1 hta, (C01_line_by_line _ _ _ hB hfB _).1 htb,
    ⟨h1, h2, h3⟩, h6, ?_⟩
  have := (Prod.mk.inj h).1
  rw [← this, unlines_append, ← h7]
  simp [unlines, banner]

/-- C89: an error exactly if one of the files is not text; then nothing is printed. -/
theorem C89_error_iff (style : DebugStyle) (fileA fileB : Option (List UInt8)) :
    ((∃ e, (runDiffPrints style fileA fileB).2 = .err e) ↔
      (∀ s, fileA ≠ some (utf8Bytes s)) ∨ ∀ s, fileB ≠ some (utf8Bytes s)) ∧
    ((∃ e, (runDiffPrints style fileA fileB).2 = .err e) → (runDiffPrints style fileA fileB).1 = []) := by
  have none_iff : ∀ file : Option (List UInt8), readToString file = none ↔ ∀ s, file ≠ some (utf8Bytes s) := by
    intro file
    constructor
    · intro h s e
      rw [(C76_utf8_only file s).2 e] at h; cases h
    · intro h
      cases e : readToString file with
      | none => rfl
      | some s => exact absurd ((C76_utf8_only file s).1 e) (h s)
  rw [← none_iff, ← none_iff]
  have no_err : ∀ s e, Tokenizer.run Platform.bareCR s ≠ .err e := by
    intro s e he
    obtain ⟨ls, fin, h1, h2, rfl⟩ := spec_C01_text_is_lines s
    rcases (C02_abort_iff Platform.bareCR ls fin h1 h2).2 with ⟨m, hm⟩ | ⟨m, hm⟩ <;> rw [hm] at he <;> cases he
  have no_err' : ∀ a b e, Tokenizer.diffTokens (τ := Token) a b ≠ .err e := by
    intro a b e he
    obtain ⟨h1, h2⟩ := C13_aborts_iff_empty a b
    by_cases h : a = [] ∨ b = []
    · obtain ⟨m, hm⟩ := h1.2 h
      rw [hm] at he; cases he
    · obtain ⟨m, hm⟩ := h2.2 (not_or.1 h)
      rw [hm] at he; cases he
  unfold runDiffPrints
  cases hA : readToString fileA with
  | none => simp
  | some a =>
    cases hB : readToString fileB with
    | none => simp
    | some b =>
      simp only [reduceCtorEq, or_self, iff_false, not_exists]
      suffices ∀ e, _ ≠ _ from ⟨this, fun ⟨e, he⟩ => absurd he (this e)⟩
      intro e he
      split at he
      · rename_i e' he'; exact no_err _ _ he'
      · cases he
      · cases he
      · split at he
        · rename_i e' he'; exact no_err _ _ he'
        · cases he
        · cases he
        · split at he
          · rename_i e' he'; exact no_err' _ _ _ he'
          · cases he
          · cases he
          · cases he

/-- C89: on two texts the comparison aborts exactly if a text has no lines, or a line that begins with a quote and has
fewer than three; otherwise it ends normally. -/
theorem C89_abort_iff (style : DebugStyle) (lsA lsB : List Line) (finA finB : Str) (hA : ∀ l ∈ lsA, l.WF)
    (hB : ∀ l ∈ lsB, l.WF) (hfA : '\n' ∉ finA) (hfB : '\n' ∉ finB) :
    let ends := (runDiffPrints style (some (utf8Bytes (textOf lsA finA))) (some (utf8Bytes (textOf lsB finB)))).2
    let la := contents Platform.bareCR lsA finA
    let lb := contents Platform.bareCR lsB finB
    ((∃ m, ends = .panic m) ↔ la = [] ∨ lb = [] ∨ ∃ line ∈ la ++ lb, line.head? = some '"' ∧ line.count '"' < 3) ∧
    ((∃ m, ends = .panic m) ∨ ends = .ok ()) := by
  intro ends la lb
  obtain ⟨a1, a2⟩ := C02_abort_iff Platform.bareCR lsA finA hA hfA
  obtain ⟨b1, b2⟩ := C02_abort_iff Platform.bareCR lsB finB hB hfB
  have hends : ends = (runDiffPrints style (some (utf8Bytes (textOf lsA finA)))
    (some (utf8Bytes (textOf lsB finB)))).2 := rfl
  unfold runDiffPrints at hends
  rw [C76_read_what_was_written, C76_read_what_was_written] at hends
  simp only at hends
  have hmem : ∀ p : Str → Prop, (∃ line ∈ la ++ lb, p line) ↔ (∃ line ∈ la, p line) ∨ ∃ line ∈ lb, p line := by
    intro p
    simp only [List.mem_append, or_and_right, exists_or]
  rw [hmem, ← a1, ← b1]
  rcases a2 with ⟨m, hm⟩ | ⟨ta, hta⟩
  · rw [hm] at hends
    refine ⟨⟨fun _ => .inr (.inr (.inl ⟨m, hm⟩)), fun _ => ⟨m, hends⟩⟩, .inl ⟨m, hends⟩⟩
  rcases b2 with ⟨m, hm⟩ | ⟨tb, htb⟩
  · rw [hta, hm] at hends
    refine ⟨⟨fun _ => .inr (.inr (.inr ⟨m, hm⟩)), fun _ => ⟨m, hends⟩⟩, .inl ⟨m, hends⟩⟩
  rw [hta, htb] at hends
  simp only at hends
  have ea : la = [] ↔ ta = [] := by
    have := ((C01_line_by_line _ _ _ hA hfA _).1 hta).length_eq
    rw [← List.length_eq_zero_iff, ← List.length_eq_zero_iff, ← this]
  have eb : lb = [] ↔ tb = [] := by
    have := ((C01_line_by_line _ _ _ hB hfB _).1 htb).length_eq
    rw [← List.length_eq_zero_iff, ← List.length_eq_zero_iff, ← this]
  obtain ⟨d1, d2⟩ := C13_aborts_iff_empty ta tb
  rw [ea, eb]
  by_cases h : ta = [] ∨ tb = []
  · obtain ⟨m, hm⟩ := d1.2 h
    rw [hm] at hends
    exact ⟨⟨fun _ => h.imp_right .inl, fun _ => ⟨m, hends⟩⟩, .inl ⟨m, hends⟩⟩
  · obtain ⟨d, hd⟩ := d2.2 (not_or.1 h)
    rw [hd] at hends
    refine ⟨⟨?_, ?_⟩, .inr hends⟩
    · rintro ⟨m, hm⟩
      rw [hends] at hm; cases hm
    · rintro (h' | h' | ⟨m, hm⟩ | ⟨m, hm⟩)
      · exact absurd (.inl h') h
      · exact absurd (.inr h') h
      · rw [hta] at hm; cases hm
      · rw [htb] at hm; cases hm

/-- C89: the value printed is that of `runDiffFiles`. -/
theorem C89_same_result (style : DebugStyle) (fileA fileB : Option (List UInt8)) :
    (runDiffFiles fileA fileB).bind (fun _ => .ok ()) = (runDiffPrints style fileA fileB).2 ∧
    ∀ d, runDiffFiles fileA fileB = .ok d →
      ∃ ls, ReportLines d.added d.removed ls ∧ (runDiffPrints style fileA fileB).1 =
        unlines ([str! "TODO-3: Rewrite with nom", str! "TODO-3: Rewrite with nom"] ++ ls) := by
  unfold runDiffFiles runDiff runDiffPrints
  cases readToString fileA with
  | none => exact ⟨rfl, fun d h => by cases h⟩
  | some a =>
    cases readToString fileB with
    | none => exact ⟨rfl, fun d h => by cases h⟩
    | some b =>
      simp only
      cases Tokenizer.run Platform.bareCR a with
      | err e => exact ⟨rfl, fun d h => by cases h⟩
      | panic m => exact ⟨rfl, fun d h => by cases h⟩
      | overflow => exact ⟨rfl, fun d h => by cases h⟩
      | ok ta =>
        cases Tokenizer.run Platform.bareCR b with
        | err e => exact ⟨rfl, fun d h => by cases h⟩
        | panic m => exact ⟨rfl, fun d h => by cases h⟩
        | overflow => exact ⟨rfl, fun d h => by cases h⟩
        | ok tb =>
          simp only [Outcome.ok_bind]
          cases Tokenizer.diffTokens ta tb with
          | err e => exact ⟨rfl, fun d h => by cases h⟩
          | panic m => exact ⟨rfl, fun d h => by cases h⟩
          | overflow => exact ⟨rfl, fun d h => by cases h⟩
          | ok d =>
            refine ⟨rfl, fun d' h => ?_⟩
            cases h
            obtain ⟨ls, h1, h2⟩ := report_lines style d
            refine ⟨ls, h1, ?_⟩
            rw [unlines_append, ← h2]
            simp [unlines, banner]

end

section
attribute [local instance] refPlatform

/-- A style: everything but control characters is shown. -/
def plainStyle : DebugStyle := ⟨fun c => 32 ≤ c.toNat, true, false⟩

set_option maxRecDepth 20000 in
/-- The report on the addition of a property with a tabulator in its value. -/
example : debugDiff plainStyle ⟨[.property (str! "a") (str! "b\tc"), .openBrace], []⟩ =
    str! "Diff {\n    added: [\n        Property(\n            Property {\n                key: \"a\",\n                value: \"b\\tc\",\n            },\n        ),\n        OpenBrace,\n    ],\n    removed: [],\n}" := by
  decide

/-- C89: readable text is in quotes as it is. -/
theorem C89_plain_text (style : DebugStyle) (s : Str)
    (h : ∀ c ∈ s, style.shown c = true ∧ c ∉ ['\x00', '\t', '\r', '\n', '\\', '"', '\'']) :
    debugStr style s = str! "\"" ++ s ++ str! "\"" := by
  have key : ∀ c ∈ s, escapeChar style c = [c] := by
    intro c hc
    obtain ⟨h1, h2⟩ := h c hc
    simp only [List.mem_cons, List.not_mem_nil, or_false, not_or] at h2
    unfold escapeChar
    rw [if_neg (fun h => h2.1 h.1), if_neg h2.2.1, if_neg h2.2.2.1, if_neg h2.2.2.2.1, if_neg h2.2.2.2.2.1,
      if_neg h2.2.2.2.2.2.1, if_neg (fun h => h2.2.2.2.2.2.2 h.1), if_pos h1]
  have : s.flatMap (escapeChar style) = s := by
    rw [List.flatMap_congr key]
    simp
  simp [debugStr, this]

theorem hexDigit_mem : ∀ n < 16, hexDigit n ∈ str! "0123456789abcdef" := by decide

/-- C89: the characters of quoted text are shown ones and those that escapes are written with. -/
theorem C89_hidden (style : DebugStyle) (s : Str) (c : Char) (hc : c ∈ debugStr style s) :
    style.shown c = true ∨ c ∈ str! "0123456789abcdefnrtu{}\\\"'" := by
  have key : ∀ d, c ∈ escapeChar style d → style.shown c = true ∨ c ∈ str! "0123456789abcdefnrtu{}\\\"'" := by
    intro d hd
    unfold escapeChar at hd
    have hx : ∀ l : Str, c ∈ l → (∀ x ∈ l, x ∈ str! "0123456789abcdefnrtu{}\\\"'") →
        style.shown c = true ∨ c ∈ str! "0123456789abcdefnrtu{}\\\"'" := fun l h1 h2 => .inr (h2 c h1)
    split at hd
    · exact hx _ hd (by decide)
    split at hd
    · exact hx _ hd (by decide)
    split at hd
    · exact hx _ hd (by decide)
    split at hd
    · exact hx _ hd (by decide)
    split at hd
    · exact hx _ hd (by decide)
    split at hd
    · exact hx _ hd (by decide)
    split at hd
    · exact hx _ hd (by decide)
    split at hd
    · rename_i h
      rw [List.mem_singleton.1 hd]
      exact .inl h
    · rcases List.mem_append.1 hd with hd | hd
      · rcases List.mem_append.1 hd with hd | hd
        · exact hx _ hd (by decide)
        · obtain ⟨i, _, rfl⟩ := List.mem_map.1 hd
          have := hexDigit_mem (d.toNat / 16 ^ i % 16) (Nat.mod_lt _ (by norm_num))
          refine .inr ?_
          revert this
          generalize hexDigit _ = y
          intro this
          have hsub : ∀ y ∈ str! "0123456789abcdef", y ∈ str! "0123456789abcdefnrtu{}\\\"'" := by decide
          exact hsub y this
      · exact hx _ hd (by decide)
  rcases List.mem_cons.1 hc with rfl | hc
  · exact .inr (by decide)
  rcases List.mem_append.1 hc with hc | hc
  · obtain ⟨d, _, hd⟩ := List.mem_flatMap.1 hc
    exact key d hd
  · rw [List.mem_singleton.1 hc]
    exact .inr (by decide)

/-- C89: readable text. -/
example : debugStr plainStyle (str! "( 0 0 0 ) brick") = str! "\"( 0 0 0 ) brick\"" :=
  C89_plain_text plainStyle _ (by decide)

/-- C89: the escape character itself is not written. -/
example : '\x1b' ∉ debugStr plainStyle ['\x1b', 'x'] := fun h => by
  rcases C89_hidden _ _ _ h with h | h <;> exact absurd h (by decide)

/-- A character that is not shown. -/
example : debugStr plainStyle ['\x1b', 'x'] = str! "\"\\u{1b}x\"" := by decide

theorem two_texts : Tokenizer.diffTokens [Token.openBrace, .closeBrace]
    [Token.openBrace, .comment (str! "// x"), .closeBrace] =
    .ok ⟨[.comment (str! "// x"), .closeBrace], [.closeBrace]⟩ := by
  obtain ⟨d, hd⟩ := (C13_aborts_iff_empty [Token.openBrace, .closeBrace]
    [Token.openBrace, .comment (str! "// x"), .closeBrace]).2.2 (by simp)
  obtain ⟨c, h1, _, h3, h4, h5⟩ := C15_keeps_longest_common _ _ _ hd
  have hc : c = [Token.openBrace] := h1.eq_of_length_le (h3 [Token.openBrace] (by decide) (by decide))
  subst hc
  obtain ⟨a, r⟩ := d
  simp only at h4 h5
  rw [hd, h4, h5]
  decide

set_option maxRecDepth 20000 in
/-- The comparison of two texts: the hypotheses of `C89_report` are met. -/
example : runDiffPrints plainStyle (some (utf8Bytes (textOf [⟨str! "{", false⟩, ⟨str! "}", false⟩] [])))
    (some (utf8Bytes (textOf [⟨str! "{", false⟩, ⟨str! "// x", false⟩, ⟨str! "}", false⟩] []))) =
    (str! "TODO-3: Rewrite with nom\nTODO-3: Rewrite with nom\nDiff {\n    added: [\n        Comment(\n            \"// x\",\n        ),\n        CloseBrace,\n    ],\n    removed: [\n        CloseBrace,\n    ],\n}\n", .ok ()) := by
  unfold runDiffPrints
  rw [C76_read_what_was_written, C76_read_what_was_written]
  have h1 : Tokenizer.run Platform.bareCR (textOf [⟨str! "{", false⟩, ⟨str! "}", false⟩] []) =
      .ok [.openBrace, .closeBrace] := by decide
  have h2 : Tokenizer.run Platform.bareCR (textOf [⟨str! "{", false⟩, ⟨str! "// x", false⟩, ⟨str! "}", false⟩] []) =
      .ok [.openBrace, .comment (str! "// x"), .closeBrace] := by decide
  simp only [h1, h2, two_texts]
  decide

/-- A file that is not there: an error, and nothing is printed. -/
example : runDiffPrints plainStyle none (some []) = ([], .err .io) := rfl

end
end Quarch
