import Verif.Proofs.Cut
import Verif.Spec.Instances
import Verif.Props.Tokenizer
/-
C05–C09: tokens to entities.
-/
namespace Quarch
open Spec

/-! ### Depth -/

theorem depth_append (a b : List Token) : depth (a ++ b) = depth a + depth b := by
  simp only [depth, List.count_append]; omega

theorem depth_filter (a : List Token) : depth (a.filter fun t => !isJunk t) = depth a := by
  unfold depth
  rw [List.count_filter rfl, List.count_filter rfl]

theorem depth_faces (faces : List Str) : depth (faces.map .brushPlane) = 0 := by
  induction faces with
  | nil => rfl
  | cons f fs ih =>
    rw [List.map_cons, show Token.brushPlane f :: fs.map .brushPlane =
      [Token.brushPlane f] ++ fs.map .brushPlane from rfl, depth_append, ih]
    rfl

theorem depth_open (l : List Token) : depth (.openBrace :: l) = 1 + depth l := by
  rw [show Token.openBrace :: l = [Token.openBrace] ++ l from rfl, depth_append]; rfl

theorem depth_items (items : List Item) : depth (items.flatMap Item.toks) = 0 := by
  induction items with
  | nil => rfl
  | cons it items ih =>
    rw [List.flatMap_cons, depth_append, ih]
    cases it with
    | prop k v => rfl
    | brush faces =>
      simp only [Item.toks, depth_open, depth_append, depth_faces]
      rfl

theorem depth_blocks (bs : List (List Item)) : depth (bs.flatMap blockToks) = 0 := by
  induction bs with
  | nil => rfl
  | cons b bs ih =>
    rw [List.flatMap_cons, depth_append, ih]
    simp only [blockToks, depth_open, depth_append, depth_items]
    rfl

theorem depth_file (f : MapFile) : depth f.toks =
    match f.tail with | .none => 0 | .inEntity _ => 1 | .inBrush _ _ => 2 := by
  obtain ⟨c, tail⟩ := f
  simp only [MapFile.toks, depth_append, depth_blocks]
  cases tail with
  | none => rfl
  | inEntity items => simp [Tail.toks, depth_open, depth_items]
  | inBrush items faces => simp [Tail.toks, depth_open, depth_append, depth_items, depth_faces]

theorem legalList_snoc {p : List Token} {t : Token} :
    LegalList (p ++ [t]) ↔ LegalList p ∧ Legal (depth p) t := by
  constructor
  · intro h
    refine ⟨fun a x b e => h a x (b ++ [t]) (by simp [e]), h p t [] rfl⟩
  · rintro ⟨h1, h2⟩ a x b e
    rcases List.eq_nil_or_concat' b with rfl | ⟨b', y, rfl⟩
    · have := List.append_inj' e rfl
      obtain ⟨rfl, h⟩ := this
      injection h with h
      rw [← h]; exact h2
    · have e' : p ++ [t] = (a ++ x :: b') ++ [y] := by simpa using e
      obtain ⟨rfl, _⟩ := List.append_inj' e' rfl
      exact h1 a x b' rfl

section
variable {F : Type} [Arith F] [Platform]

/-- What one step does, by legality. -/
theorem step_cases {f : MapFile} {s : Parser.State F} (hI : Inv f s) (t : Token) :
    (¬ Legal (depth f.toks) t ∧ Parser.step s t = .err (.quarch (structMsg (depth f.toks) t))) ∨
    (Legal (depth f.toks) t ∧ (∀ line, t ≠ .brushPlane line) ∧ ∃ s', Parser.step s t = .ok s') ∨
    (∃ line, t = .brushPlane line ∧ Legal (depth f.toks) t ∧
      ∃ mk : BrushPlane F → Parser.State F,
        Parser.step s t = (BrushPlane.new line).bind (fun p => .ok (mk p))) := by
  rw [depth_file]
  obtain ⟨c, tail⟩ := f
  cases t with
  | comment m => exact .inr (.inl ⟨trivial, by simp, _, rfl⟩)
  | unrecognized m => exact .inr (.inl ⟨trivial, by simp, _, rfl⟩)
  | openBrace =>
    cases tail with
    | none =>
      obtain ⟨s', h, _⟩ := step_open_file hI
      exact .inr (.inl ⟨by simp [Legal], by simp, s', h⟩)
    | inEntity items =>
      obtain ⟨s', h, _⟩ := step_open_entity hI
      exact .inr (.inl ⟨by simp [Legal], by simp, s', h⟩)
    | inBrush items faces =>
      obtain ⟨⟨e, b, hs⟩, hd⟩ := hI
      exact .inl ⟨by simp [Legal], by simp [Parser.step, hs, structMsg]⟩
  | closeBrace =>
    cases tail with
    | none =>
      obtain ⟨hs, hd⟩ := hI
      change s.scope = _ at hs
      exact .inl ⟨by simp [Legal], by simp [Parser.step, hs, structMsg]⟩
    | inEntity items =>
      obtain ⟨s', h, _⟩ := step_close_entity hI
      exact .inr (.inl ⟨by simp [Legal], by simp, s', h⟩)
    | inBrush items faces =>
      obtain ⟨s', h, _⟩ := step_close_brush hI
      exact .inr (.inl ⟨by simp [Legal], by simp, s', h⟩)
  | property k v =>
    cases tail with
    | none =>
      obtain ⟨hs, hd⟩ := hI
      change s.scope = _ at hs
      exact .inl ⟨by simp [Legal], by simp [Parser.step, hs, structMsg]⟩
    | inEntity items =>
      obtain ⟨s', h, _⟩ := step_prop hI k v
      exact .inr (.inl ⟨by simp [Legal], by simp, s', h⟩)
    | inBrush items faces =>
      obtain ⟨⟨e, b, hs⟩, hd⟩ := hI
      exact .inl ⟨by simp [Legal], by simp [Parser.step, hs, structMsg]⟩
  | brushPlane line =>
    cases tail with
    | none =>
      obtain ⟨hs, hd⟩ := hI
      change s.scope = _ at hs
      exact .inl ⟨by simp [Legal], by simp [Parser.step, hs, structMsg]⟩
    | inEntity items =>
      obtain ⟨⟨e, hs⟩, hd⟩ := hI
      exact .inl ⟨by simp [Legal], by simp [Parser.step, hs, structMsg]⟩
    | inBrush items faces =>
      obtain ⟨mk, h, _⟩ := step_face hI line
      exact .inr (.inr ⟨line, rfl, by simp [Legal], mk, h⟩)

/-- Legal tokens with readable faces are read, up to a state described by the grammar. -/
theorem fold_legal (pre : List Token) (h : LegalList pre) (hf : FacesOk F pre) :
    ∃ (s : Parser.State F) (f : MapFile), foldOut Parser.step Parser.init pre = .ok s ∧ Inv f s ∧
      depth f.toks = depth pre := by
  induction hn : pre.length generalizing pre with
  | zero =>
    obtain rfl := List.length_eq_zero_iff.1 hn
    exact ⟨_, _, rfl, init_inv, rfl⟩
  | succ n ih =>
    rcases List.eq_nil_or_concat' pre with rfl | ⟨p, t, rfl⟩
    · simp at hn
    · obtain ⟨h1, h2⟩ := legalList_snoc.1 h
      obtain ⟨s, f, h3, h4, h5⟩ := ih p h1 hf.left (by simpa using hn)
      have hstep : ∃ s', Parser.step s t = .ok s' := by
        rcases step_cases h4 t with ⟨hl, _⟩ | ⟨_, _, h⟩ | ⟨line, rfl, _, mk, hmk⟩
        · exact absurd (h5 ▸ h2) hl
        · exact h
        · obtain ⟨q, hq⟩ := hf line (by simp)
          exact ⟨mk q, by rw [hmk, (faceText_iff line q).2 hq]; rfl⟩
      obtain ⟨s', hs'⟩ := hstep
      have hfold : foldOut Parser.step Parser.init (p ++ [t]) = .ok s' := by
        rw [foldOut_append, h3]
        simp [foldOut_cons, hs']
      obtain ⟨f', hf', hI'⟩ := fold_inv init_inv hfold
      refine ⟨s', f', hfold, hI', ?_⟩
      rw [hf', show MapFile.toks ⟨[], .none⟩ = [] from rfl, List.nil_append, depth_filter]

/-- C05 (accept): a token sequence in which every token is legal where it stands and every face line can
be read is loaded. -/
theorem C05_legal_loads (tokens : List Token) (h : LegalList tokens) (hf : FacesOk F tokens) :
    ∃ r, Parser.run (F := F) tokens = .ok r := by
  obtain ⟨s, _, h1, _⟩ := fold_legal tokens h hf
  exact ⟨_, by unfold Parser.run; rw [h1]; rfl⟩

/-- C05 (reject): the first illegal token makes loading return the error for that token, provided the
face lines before it can be read. -/
theorem C05_first_illegal_token (pre post : List Token) (t : Token) (h : LegalList pre)
    (hf : FacesOk F pre) (ht : ¬ Legal (depth pre) t) :
    Parser.run (F := F) (pre ++ t :: post) = .err (.quarch (structMsg (depth pre) t)) := by
  obtain ⟨s, f, h1, h2, h3⟩ := fold_legal (F := F) pre h hf
  unfold Parser.run
  rw [foldOut_append, h1, Outcome.ok_bind, foldOut_cons]
  rcases step_cases h2 t with ⟨_, he⟩ | ⟨hl, _⟩ | ⟨_, _, hl, _⟩
  · rw [he, h3]; rfl
  · exact absurd (h3 ▸ hl) ht
  · exact absurd (h3 ▸ hl) ht

/-- C05 (face): the first token that is a legally placed but unreadable face line decides the outcome. -/
theorem C05_first_bad_face (pre post : List Token) (line : Str) (h : LegalList pre)
    (hf : FacesOk F pre) (ht : depth pre = 2) :
    (∀ msg, FaceFault F line msg →
      Parser.run (F := F) (pre ++ .brushPlane line :: post) = .err (.quarch msg)) ∧
    (FaceAborts F line → ∃ m, Parser.run (F := F) (pre ++ .brushPlane line :: post) = .panic m) := by
  obtain ⟨s, f, h1, h2, h3⟩ := fold_legal (F := F) pre h hf
  unfold Parser.run
  rw [foldOut_append, h1, Outcome.ok_bind, foldOut_cons]
  rcases step_cases h2 (.brushPlane line) with ⟨hl, _⟩ | ⟨_, hne, _⟩ | ⟨l, hl, _, mk, hmk⟩
  · exact absurd (show Legal _ _ by rw [h3]; exact ht) hl
  · exact absurd rfl (hne line)
  · cases hl
    rw [hmk]
    constructor
    · intro msg h; rw [(faceFault_iff line msg).2 h]; rfl
    · intro h
      obtain ⟨m, h⟩ := (faceAborts_iff line).2 h
      exact ⟨m, by rw [h]; rfl⟩

/-- C05 (exhaustive): the three cases above cover every token sequence. -/
theorem spec_C05_cases (tokens : List Token) :
    (LegalList tokens ∧ FacesOk F tokens) ∨
    ∃ pre t post, tokens = pre ++ t :: post ∧ LegalList pre ∧ FacesOk F pre ∧
      (¬ Legal (depth pre) t ∨
       ∃ line, t = .brushPlane line ∧ depth pre = 2 ∧ ((∃ msg, FaceFault F line msg) ∨ FaceAborts F line)) := by
  induction hn : tokens.length generalizing tokens with
  | zero =>
    obtain rfl := List.length_eq_zero_iff.1 hn
    exact .inl ⟨fun p t q e => by simp at e, fun l hl => by simp at hl⟩
  | succ n ih =>
    rcases List.eq_nil_or_concat' tokens with rfl | ⟨p, t, rfl⟩
    · simp at hn
    · rcases ih p (by simpa using hn) with ⟨h1, h2⟩ | ⟨pre, x, post, rfl, h1, h2, h3⟩
      · by_cases hl : Legal (depth p) t
        · by_cases hb : ∃ line, t = .brushPlane line ∧ ((∃ msg, FaceFault F line msg) ∨ FaceAborts F line)
          · obtain ⟨line, rfl, hb⟩ := hb
            exact .inr ⟨p, _, [], by simp, h1, h2, .inr ⟨line, rfl, hl, hb⟩⟩
          · left
            refine ⟨legalList_snoc.2 ⟨h1, hl⟩, fun line hm => ?_⟩
            rcases List.mem_append.1 hm with hm | hm
            · exact h2 line hm
            · by_contra hno
              refine hb ⟨line, (List.mem_singleton.1 hm).symm, ?_⟩
              rcases face_outcomes (F := F) line with ⟨q, h⟩ | ⟨msg, h⟩ | h
              · exact absurd ⟨q, (faceText_iff line q).1 h⟩ hno
              · exact .inl ⟨msg, (faceFault_iff line msg).1 h⟩
              · exact .inr ((faceAborts_iff line).1 h)
        · exact .inr ⟨p, t, [], by simp, h1, h2, .inl hl⟩
      · exact .inr ⟨pre, x, post ++ [t], by simp, h1, h2, h3⟩

/-- C05 (never aborts because of structure): if all face lines can be read, loading returns entities or
one of the structural errors. -/
theorem C05_structure_never_aborts (tokens : List Token) (hf : FacesOk F tokens) :
    (∃ r, Parser.run (F := F) tokens = .ok r) ∨
    ∃ pre t post, tokens = pre ++ t :: post ∧ ¬ Legal (depth pre) t ∧
      Parser.run (F := F) tokens = .err (.quarch (structMsg (depth pre) t)) := by
  rcases spec_C05_cases (F := F) tokens with ⟨h1, h2⟩ | ⟨pre, t, post, rfl, h1, h2, h3 | ⟨line, rfl, _, hb⟩⟩
  · exact .inl (C05_legal_loads tokens h1 h2)
  · exact .inr ⟨pre, t, post, rfl, h3, C05_first_illegal_token pre post t h1 h2 h3⟩
  · obtain ⟨p, hp⟩ := hf line (by simp)
    rw [← faceText_iff] at hp
    rcases hb with ⟨msg, hb⟩ | hb
    · rw [← faceFault_iff, hp] at hb; cases hb
    · rw [← faceAborts_iff, hp] at hb; obtain ⟨m, hb⟩ := hb; cases hb

/-- C06: comment and unrecognised tokens have no effect on the result, whatever it is. -/
theorem C06_junk_has_no_effect (tokens tokens' : List Token)
    (h : tokens.filter (fun t => !isJunk t) = tokens'.filter (fun t => !isJunk t)) :
    Parser.run (F := F) tokens = Parser.run tokens' := by
  unfold Parser.run
  rw [fold_filter, fold_filter _ tokens', h]

omit [Platform] in
/-- A line that is a comment or not recognised gives one token without effect. -/
theorem junk_line (bareCR : Bool) (line : Str) (hnl : '\n' ∉ line)
    (hc : ∀ c ∈ ['{', '}', '(', '"'], line.head? ≠ some c) :
    ∃ t, isJunk t = true ∧ Tokenizer.run bareCR (line ++ ['\n']) = .ok [t] := by
  have hlines : lines bareCR (line ++ ['\n']) = [stripCR line] := by
    rw [lines_cons hnl]; simp [lines, splitOn]
  unfold Tokenizer.run
  rw [hlines, mapOut_cons]
  have hhead : ∀ c, (stripCR line).head? = some c → line.head? = some c := by
    intro c h
    unfold stripCR at h
    split at h
    · cases line with
      | nil => simp at h
      | cons x xs =>
        cases xs with
        | nil => simp at h
        | cons y ys => simpa using h
    · exact h
  by_cases hs : (stripCR line).head? = some '/'
  · obtain ⟨r, hr⟩ : ∃ r, stripCR line = '/' :: r := by
      cases h : stripCR line with
      | nil => simp [h] at hs
      | cons x xs => rw [h] at hs; simp at hs; exact ⟨xs, by rw [hs]⟩
    exact ⟨.comment ('/' :: r), rfl, by rw [hr]; rfl⟩
  · refine ⟨.unrecognized (stripCR line), rfl, ?_⟩
    rw [classifies_tokenOf (.other _ ?_)]
    · rfl
    · intro c hcm h
      rcases List.mem_cons.1 hcm with rfl | hcm
      · exact hs h
      · exact hc c hcm (hhead c h)
/-- C06 on text: inserting a comment or unrecognised line between two lines does not change what is
loaded, nor whether loading fails. -/
theorem C06_text (bareCR : Bool) (before line after : Str) (hnl : '\n' ∉ line)
    (hc : ∀ c ∈ ['{', '}', '(', '"'], line.head? ≠ some c) :
    ((Tokenizer.run bareCR (before ++ '\n' :: (line ++ '\n' :: after))).bind fun ts =>
        Parser.run (F := F) ts) =
      (Tokenizer.run bareCR (before ++ '\n' :: after)).bind fun ts => Parser.run ts := by
  rw [C01_concat, C01_concat bareCR line after, C01_concat bareCR before after]
  obtain ⟨t, hj, ht⟩ := junk_line bareCR line hnl hc
  rw [ht]
  simp only [Outcome.bind_assoc, Outcome.ok_bind]
  refine Outcome.bind_congr fun a _ => Outcome.bind_congr fun b _ => ?_
  exact C06_junk_has_no_effect _ _ (by simp [List.filter_append, hj])

/-- C06 on text: the same for a line inserted before the first line or after the last. -/
theorem C06_text_ends (bareCR : Bool) (line text : Str) (hnl : '\n' ∉ line)
    (hc : ∀ c ∈ ['{', '}', '(', '"'], line.head? ≠ some c) :
    ((Tokenizer.run bareCR (line ++ '\n' :: text)).bind fun ts => Parser.run (F := F) ts) =
      ((Tokenizer.run bareCR text).bind fun ts => Parser.run ts) ∧
    ((Tokenizer.run bareCR (text ++ '\n' :: (line ++ ['\n']))).bind fun ts => Parser.run (F := F) ts) =
      (Tokenizer.run bareCR (text ++ ['\n'])).bind fun ts => Parser.run ts := by
  obtain ⟨t, hj, ht⟩ := junk_line bareCR line hnl hc
  rw [C01_concat bareCR line text, C01_concat bareCR text, ht]
  simp only [Outcome.bind_assoc, Outcome.ok_bind]
  constructor
  · exact Outcome.bind_congr fun b _ => C06_junk_has_no_effect _ _ (by simp [hj])
  · exact Outcome.bind_congr fun b _ => C06_junk_has_no_effect _ _ (by simp [hj])

/-- C09: loading returns exactly what the grammar says: the tokens (comments aside) form entity blocks,
the e-th entity is what the e-th block denotes — last value of each key, one brush per inner block holding
exactly its faces in order. Every sequence that is of this form loads. -/
theorem C09_loads_iff_grammar (tokens : List Token) (entities : List (Entity F)) :
    (∃ paths, Parser.run tokens = .ok (paths, entities)) ↔
      ∃ f : MapFile, f.toks = tokens.filter (fun t => !isJunk t) ∧
        List.Forall₂ Denotes f.blocks entities :=
  run_iff_grammar tokens entities

/-- C09, count: the number of entities is the number of opening braces at depth 0. -/
theorem C09_entity_count (tokens : List Token) (paths) (entities : List (Entity F))
    (h : Parser.run tokens = .ok (paths, entities)) :
    entities.length = (tokens.zipIdx.filter fun p =>
      p.1 == .openBrace && depth (tokens.take p.2) == 0).length := by
  -- induction from the right over the tokens
  unfold Parser.run at h
  obtain ⟨s, h1, h2⟩ := Outcome.bind_eq_ok.1 h
  cases h2
  clear h
  induction hn : tokens.length generalizing tokens s with
  | zero =>
    obtain rfl := List.length_eq_zero_iff.1 hn
    cases h1; rfl
  | succ n ih =>
    rcases List.eq_nil_or_concat' tokens with rfl | ⟨p, t, rfl⟩
    · simp at hn
    · rw [foldOut_append] at h1
      obtain ⟨s1, h2, h3⟩ := Outcome.bind_eq_ok.1 h1
      have ihp := ih p s1 h2 (by simpa using hn)
      obtain ⟨f, hf, hI⟩ := fold_inv init_inv h2
      have hdepth : depth f.toks = depth p := by
        rw [hf, show MapFile.toks ⟨[], .none⟩ = [] from rfl, List.nil_append, depth_filter]
      have hcount : ((p ++ [t]).zipIdx.filter fun q =>
            q.1 == .openBrace && depth ((p ++ [t]).take q.2) == 0).length =
          (p.zipIdx.filter fun q => q.1 == .openBrace && depth (p.take q.2) == 0).length +
            (if t = .openBrace ∧ depth p = 0 then 1 else 0) := by
        rw [List.zipIdx_append, List.filter_append, List.length_append]
        congr 1
        · congr 1
          apply List.filter_congr
          intro q hq
          have hlt : q.2 < p.length := by
            have := List.mem_zipIdx hq
            omega
          rw [List.take_append_of_le_length (by omega)]
        · simp only [List.zipIdx_singleton, Nat.zero_add, List.filter_cons, List.filter_nil]
          simp only [List.take_left]
          by_cases h1 : t = .openBrace <;> by_cases h2 : depth p = 0 <;> simp [h1, h2]
      rw [hcount, ← ihp]
      simp only [foldOut_cons, foldOut_nil, Outcome.bind_ok] at h3
      rw [← hdepth]
      rw [depth_file]
      obtain ⟨c, tail⟩ := f
      cases t with
      | comment m => cases h3; simp
      | unrecognized m => cases h3; simp
      | openBrace =>
        cases tail with
        | none =>
          obtain ⟨s', h, hI'⟩ := step_open_file hI
          rw [h3] at h; cases h
          have e1 := hI.2.length_eq
          have e2 := hI'.2.length_eq
          simp [MapFile.blocks, Tail.blocks] at e1 e2 ⊢
          omega
        | inEntity items =>
          obtain ⟨s', h, hI'⟩ := step_open_entity hI
          rw [h3] at h; cases h
          have e1 := hI.2.length_eq
          have e2 := hI'.2.length_eq
          simp [MapFile.blocks, Tail.blocks] at e1 e2 ⊢
          omega
        | inBrush items faces =>
          obtain ⟨⟨e, b, hs⟩, hd⟩ := hI
          simp [Parser.step, hs] at h3
      | closeBrace =>
        cases hs : s1.scope <;> simp [Parser.step, hs] at h3 <;> subst h3 <;> simp
      | property k v =>
        cases tail with
        | inEntity items =>
          obtain ⟨s', h, hI'⟩ := step_prop hI k v
          rw [h3] at h; cases h
          have e1 := hI.2.length_eq
          have e2 := hI'.2.length_eq
          simp [MapFile.blocks, Tail.blocks] at e1 e2 ⊢
          omega
        | none =>
          obtain ⟨hs, hd⟩ := hI
          change s1.scope = _ at hs
          simp [Parser.step, hs] at h3
        | inBrush items faces =>
          obtain ⟨⟨e, b, hs⟩, hd⟩ := hI
          simp [Parser.step, hs] at h3
      | brushPlane line =>
        cases tail with
        | inBrush items faces =>
          obtain ⟨mk, h, hI'⟩ := step_face hI line
          rw [h] at h3
          obtain ⟨q, hq, h3⟩ := Outcome.bind_eq_ok.1 h3
          cases h3
          have e1 := hI.2.length_eq
          have e2 := (hI' q hq).2.length_eq
          simp [MapFile.blocks, Tail.blocks] at e1 e2 ⊢
          omega
        | none =>
          obtain ⟨hs, hd⟩ := hI
          change s1.scope = _ at hs
          simp [Parser.step, hs] at h3
        | inEntity items =>
          obtain ⟨⟨e, hs⟩, hd⟩ := hI
          simp [Parser.step, hs] at h3

/-- C07: of several values given to a key inside one entity the last one counts, and keys not given are
absent. `items` are the lines of the e-th entity block. -/
theorem C07_last_value_wins (f : MapFile) (tokens : List Token)
    (hf : f.toks = tokens.filter (fun t => !isJunk t)) (paths) (entities : List (Entity F))
    (h : Parser.run tokens = .ok (paths, entities)) (e : Nat) (ent : Entity F)
    (he : entities[e]? = some ent) :
    ∃ items, f.blocks[e]? = some items ∧
      ∀ key, ent.properties key = (items.filterMap (Item.valueOf key)).getLast? := by
  -- loading the file `f` gives the same entities
  have hfaces : List.Forall₂ Denotes f.blocks entities := by
    unfold Parser.run at h
    obtain ⟨s, h1, h2⟩ := Outcome.bind_eq_ok.1 h
    cases h2
    rw [fold_filter, ← hf] at h1
    -- faces of an accepted file are readable
    obtain ⟨f', hf', hI'⟩ := fold_inv init_inv h1
    have hok : FacesOk F f'.toks := facesOk_of_denotes hI'.2
    have hfj : f.toks.filter (fun t => !isJunk t) = f.toks := by
      rw [hf, List.filter_filter]; simp
    have hff : f'.toks = f.toks := by
      rw [hf', hfj]; rfl
    rw [hff] at hok
    obtain ⟨s2, h3, h4⟩ := fold_file f hok
    rw [h1] at h3
    cases h3
    exact h4.2
  have hlen := hfaces.length_eq
  have he' : e < entities.length := by
    by_contra hno
    rw [List.getElem?_eq_none (by omega)] at he
    cases he
  have hb : e < f.blocks.length := by omega
  refine ⟨f.blocks[e], List.getElem?_eq_getElem hb, ?_⟩
  have hd := List.forall₂_iff_get.1 hfaces |>.2 e hb he'
  rw [List.getElem?_eq_getElem he'] at he
  cases he
  exact hd.1

/-- C08: a loadable token sequence cut anywhere also loads, and its entities are those of the whole,
cut: a prefix in which the last entity may lack trailing brushes, faces or properties. -/
theorem C08_truncated_loads (tokens more : List Token) (paths) (entities : List (Entity F))
    (h : Parser.run (tokens ++ more) = .ok (paths, entities)) :
    ∃ paths' entities', Parser.run tokens = .ok (paths', entities') ∧
      CutOf EntityCut entities' entities := by
  unfold Parser.run at h ⊢
  obtain ⟨s, h1, h2⟩ := Outcome.bind_eq_ok.1 h
  cases h2
  rw [foldOut_append] at h1
  obtain ⟨s1, h3, h4⟩ := Outcome.bind_eq_ok.1 h1
  rw [h3]
  exact ⟨_, _, rfl, cutOf_iff.2 (fold_cut h4)⟩

/-- C08: a cut between two entities loses nothing of the entities before it. -/
theorem C08_cut_between_entities (tokens more : List Token) (paths) (entities : List (Entity F))
    (h : Parser.run (tokens ++ more) = .ok (paths, entities)) (hd : depth tokens = 0) :
    ∃ paths' entities', Parser.run tokens = .ok (paths', entities') ∧ entities' <+: entities := by
  unfold Parser.run at h ⊢
  obtain ⟨s, h1, h2⟩ := Outcome.bind_eq_ok.1 h
  cases h2
  rw [foldOut_append] at h1
  obtain ⟨s1, h3, h4⟩ := Outcome.bind_eq_ok.1 h1
  obtain ⟨f, hf, hI⟩ := fold_inv init_inv h3
  have hdepth : depth f.toks = 0 := by
    rw [hf, show MapFile.toks ⟨[], .none⟩ = [] from rfl, List.nil_append, depth_filter, hd]
  have hs : s1.scope = .file := by
    rw [depth_file] at hdepth
    obtain ⟨c, tail⟩ := f
    cases tail with
    | none => exact hI.1
    | inEntity items => simp at hdepth
    | inBrush items faces => simp at hdepth
  rw [h3]
  exact ⟨_, _, rfl, fold_prefix hs h4⟩

end

/-! ### Concrete cases -/

section Examples
attribute [local instance] refPlatform intArith

instance (d : Int) (t : Token) : Decidable (Legal d t) := by
  cases t <;> unfold Legal <;> infer_instance

instance (ts : List Token) : Decidable (LegalList ts) :=
  decidable_of_iff (∀ i : Fin ts.length, Legal (depth (ts.take i)) ts[i]) <| by
    constructor
    · intro h p t q e
      subst e
      have := h ⟨p.length, by simp⟩
      simpa using this
    · intro h i
      exact h _ _ (ts.drop (i + 1)) (by simp)

/-- A small map used in the examples. -/
def exampleFace : Str := str! "( 0 0 0 ) ( 0 1 0 ) ( 1 0 0 ) Brick 0 0 0 1 1"

def exampleTokens : List Token :=
  [.comment (str! "// x"), .openBrace, .property (str! "k") (str! "a"), .openBrace,
   .brushPlane exampleFace, .closeBrace, .property (str! "k") (str! "b"), .closeBrace,
   .openBrace, .property (str! "k") (str! "c"), .closeBrace]

/-- The entities of an outcome, with the values of key `k` and the face counts. -/
def summary (o : Outcome (Map Token Parser.TokenPath × List (Entity Int))) :
    Outcome (List (Option Str × List Nat)) :=
  o.bind fun r => .ok (r.2.map fun e => (e.getProperty (str! "k"), e.brushes.map fun b => b.planes.length))

-- the example map loads; last value of `k` wins (C07, C09); cut after 6 tokens it loads as well (C08)
example : summary (Parser.run exampleTokens) =
      .ok [(some (str! "b"), [1]), (some (str! "c"), [])] ∧
    summary (Parser.run (exampleTokens.take 6)) = .ok [(some (str! "a"), [1])] := by decide

-- hypotheses of the C05 theorems
example : LegalList exampleTokens := by decide

example : FacesOk Int exampleTokens := by
  intro line h
  simp only [exampleTokens, List.mem_cons, reduceCtorEq, Token.brushPlane.injEq, List.not_mem_nil,
    or_false, false_or] at h
  subst h
  exact ⟨_, (faceText_iff _ _).1 rfl⟩

example : Parser.run (F := Int) [.openBrace, .openBrace, .openBrace] =
      .err (.quarch "Open brace in brush scope") ∧
    ¬ Legal (depth [.openBrace, .openBrace]) .openBrace ∧
    depth [.openBrace, .openBrace] = 2 := by
  refine ⟨rfl, by decide, by decide⟩

-- a readable file in the grammar (C07, C09)
example : (MapFile.mk [[.prop (str! "k") (str! "a"), .brush [exampleFace], .prop (str! "k") (str! "b")],
      [.prop (str! "k") (str! "c")]] .none).toks = exampleTokens.filter (fun t => !isJunk t) := by decide

example : depth (exampleTokens.take 8) = 0 := by decide

-- C06: a junk line between two lines
example : (∀ c ∈ ['{', '}', '(', '"'], (str! "// note").head? ≠ some c) ∧ '\n' ∉ str! "// note" := by decide

end Examples
end Quarch
