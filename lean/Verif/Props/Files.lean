import Verif.Model.Files
import Verif.Props.Parser
import Verif.Props.ForgeText
import Verif.Props.RoundTrip
/-
C76 (files are read as UTF-8), C77 (byte order marks).
-/
set_option linter.unusedSectionVars false
namespace Quarch
open Spec

theorem toNat_ofNat8 {n : Nat} (h : n < 256) : (UInt8.ofNat n).toNat = n := by
  simp [UInt8.toNat_ofNat', Nat.mod_eq_of_lt h]

theorem char_range (c : Char) : c.toNat < 0xD800 ∨ (0xDFFF < c.toNat ∧ c.toNat < 0x110000) := c.valid

theorem char_ofNat_toNat (c : Char) : Char.ofNat c.toNat = c := Char.ofNat_toNat c

theorem char_toNat_ofNat {n : Nat} (h : n < 0xD800 ∨ (0xDFFF < n ∧ n < 0x110000)) : (Char.ofNat n).toNat = n := by
  have hv : n.isValidChar := h
  rw [Char.ofNat, dif_pos hv]
  rfl

theorem ofNat_eq_self (b : UInt8) {n : Nat} (h : n = b.toNat) : UInt8.ofNat n = b := by
  subst h; simp

/-- The first character of encoded text. -/
theorem utf8First_char (c : Char) (rest : List UInt8) : utf8First (utf8Char c ++ rest) = some (c, rest) := by
  have hr := char_range c
  have hc := char_ofNat_toNat c
  unfold utf8Char
  generalize c.toNat = n at *
  simp only []
  split
  · rename_i h
    simp [utf8First, toNat_ofNat8 (show n < 256 by omega), h, hc]
  · split
    · rename_i h1 h2
      have e1 : (0xC0 + n / 64) < 256 := by omega
      have e2 : (0x80 + n % 64) < 256 := by omega
      have e3 : (192 + n / 64) % 32 * 64 + (128 + n % 64) % 64 = n := by omega
      simp only [utf8First, List.cons_append, List.nil_append, toNat_ofNat8 e1, toNat_ofNat8 e2, isCont, low6, e3, hc]
      rw [if_neg (by omega), if_pos (by simp; omega), if_pos (by simp; omega)]
    · split
      · rename_i h1 h2 h3
        have e1 : (0xE0 + n / 4096) < 256 := by omega
        have e2 : (0x80 + n / 64 % 64) < 256 := by omega
        have e3 : (0x80 + n % 64) < 256 := by omega
        have e4 : (224 + n / 4096) % 16 * 4096 + (128 + n / 64 % 64) % 64 * 64 + (128 + n % 64) % 64 = n := by omega
        simp only [utf8First, List.cons_append, List.nil_append, toNat_ofNat8 e1, toNat_ofNat8 e2, toNat_ofNat8 e3,
          isCont, low6, e4, hc]
        rw [if_neg (by omega), if_neg (by simp; omega), if_pos (by simp; omega), if_pos]
        simp only [Bool.and_eq_true, decide_eq_true_eq, Bool.or_eq_true, bne_iff_ne, ne_eq]
        omega
      · rename_i h1 h2 h3
        have e1 : (0xF0 + n / 262144) < 256 := by omega
        have e2 : (0x80 + n / 4096 % 64) < 256 := by omega
        have e3 : (0x80 + n / 64 % 64) < 256 := by omega
        have e4 : (0x80 + n % 64) < 256 := by omega
        have e5 : (240 + n / 262144) % 8 * 262144 + (128 + n / 4096 % 64) % 64 * 4096 +
          (128 + n / 64 % 64) % 64 * 64 + (128 + n % 64) % 64 = n := by omega
        simp only [utf8First, List.cons_append, List.nil_append, toNat_ofNat8 e1, toNat_ofNat8 e2, toNat_ofNat8 e3,
          toNat_ofNat8 e4, isCont, low6, e5, hc]
        rw [if_neg (by omega), if_neg (by simp; omega), if_neg (by simp; omega), if_pos (by simp; omega), if_pos]
        simp only [Bool.and_eq_true, decide_eq_true_eq, Bool.or_eq_true, bne_iff_ne, ne_eq]
        omega

/-- Whatever is decoded was encoded. -/
theorem utf8First_some {bytes : List UInt8} {c : Char} {rest : List UInt8}
    (h : utf8First bytes = some (c, rest)) : bytes = utf8Char c ++ rest := by
  unfold utf8First at h
  split at h
  · cases h
  · rename_i a l
    have ha := a.toNat_lt
    split at h
    · rename_i h1
      cases h
      have hn := char_toNat_ofNat (n := a.toNat) (by omega)
      simp only [utf8Char, hn, if_pos h1]
      simp
    · split at h
      · rename_i h1 h2
        simp only [Bool.and_eq_true, decide_eq_true_eq] at h2
        split at h
        · rename_i b l
          have hb := b.toNat_lt
          split at h
          · rename_i h3
            simp only [isCont, Bool.and_eq_true, decide_eq_true_eq] at h3
            cases h
            simp only [low6]
            have hn := char_toNat_ofNat (n := a.toNat % 32 * 64 + b.toNat % 64) (by omega)
            simp only [utf8Char, hn]
            rw [if_neg (by omega), if_pos (by omega)]
            rw [ofNat_eq_self a (by omega), ofNat_eq_self b (by omega)]
            rfl
          · cases h
        · cases h
      · split at h
        · rename_i h1 h2 h2'
          simp only [Bool.and_eq_true, decide_eq_true_eq] at h2 h2'
          split at h
          · rename_i b d l
            have hb := b.toNat_lt
            have hd := d.toNat_lt
            split at h
            · rename_i h3
              simp only [isCont, Bool.and_eq_true, decide_eq_true_eq, Bool.or_eq_true, bne_iff_ne, ne_eq] at h3
              cases h
              simp only [low6]
              have hn := char_toNat_ofNat (n := a.toNat % 16 * 4096 + b.toNat % 64 * 64 + d.toNat % 64) (by omega)
              simp only [utf8Char, hn]
              rw [if_neg (by omega), if_neg (by omega), if_pos (by omega)]
              rw [ofNat_eq_self a (by omega), ofNat_eq_self b (by omega), ofNat_eq_self d (by omega)]
              rfl
            · cases h
          · cases h
        · split at h
          · rename_i h1 h2 h2' h2''
            simp only [Bool.and_eq_true, decide_eq_true_eq] at h2 h2' h2''
            split at h
            · rename_i b d e l
              have hb := b.toNat_lt
              have hd := d.toNat_lt
              have he := e.toNat_lt
              split at h
              · rename_i h3
                simp only [isCont, Bool.and_eq_true, decide_eq_true_eq, Bool.or_eq_true, bne_iff_ne, ne_eq] at h3
                cases h
                simp only [low6]
                have hn := char_toNat_ofNat (n := a.toNat % 8 * 262144 + b.toNat % 64 * 4096 + d.toNat % 64 * 64 +
                  e.toNat % 64) (by omega)
                simp only [utf8Char, hn]
                rw [if_neg (by omega), if_neg (by omega), if_neg (by omega)]
                rw [ofNat_eq_self a (by omega), ofNat_eq_self b (by omega), ofNat_eq_self d (by omega),
                  ofNat_eq_self e (by omega)]
                rfl
              · cases h
            · cases h
          · cases h

theorem utf8Char_ne_nil (c : Char) : utf8Char c ≠ [] := by
  unfold utf8Char; simp only []; split; · simp
  split; · simp
  split <;> simp

/-- The encoder of the model against the one of the Lean standard library. -/
theorem utf8Char_eq (c : Char) : utf8Char c = String.utf8EncodeChar c := by
  have hr := char_range c
  have h1 : c.val.toNat = c.toNat := rfl
  unfold utf8Char String.utf8EncodeChar
  simp only [h1]
  generalize c.toNat = n at *
  have e1 (a b : Nat) (h : n / a < b) : n / a % b = n / a := Nat.mod_eq_of_lt h
  split_ifs <;> first
    | omega
    | rfl
    | (rw [e1 64 0x20 (by omega), Nat.add_comm, Nat.add_comm 0x80])
    | (rw [e1 4096 0x10 (by omega), Nat.add_comm, Nat.add_comm 0x80, Nat.add_comm 0x80])
    | (rw [e1 262144 8 (by omega), Nat.add_comm, Nat.add_comm 0x80, Nat.add_comm 0x80, Nat.add_comm 0x80])

/-- C76: `utf8Bytes` is the UTF-8 encoding: the bytes of the string in Lean's standard library. -/
theorem C76_encoding (s : Str) : (utf8Bytes s).toByteArray = (String.ofList s).toByteArray := by
  have : utf8Bytes s = s.flatMap String.utf8EncodeChar := by
    unfold utf8Bytes
    exact congrArg (fun f => s.flatMap f) (funext utf8Char_eq)
  rw [this]
  rfl

/-- C76: text written as UTF-8 is read back. -/
theorem C76_read_what_was_written (s : Str) : readToString (some (utf8Bytes s)) = some s := by
  show utf8Decode (utf8Bytes s) = some s
  induction s with
  | nil => unfold utf8Bytes; simp [utf8Decode]
  | cons c s ih =>
    have hf := utf8First_char c (utf8Bytes s)
    have e : utf8Bytes (c :: s) = utf8Char c ++ utf8Bytes s := rfl
    rw [← e] at hf
    obtain ⟨a, l, hal⟩ := List.exists_cons_of_ne_nil (show utf8Bytes (c :: s) ≠ [] by
      rw [e]; simp [utf8Char_ne_nil])
    rw [hal] at hf ⊢
    rw [utf8Decode]
    split
    · rename_i h; rw [hf] at h; cases h
    · rename_i c' rest h
      rw [hf] at h; cases h
      rw [ih]; rfl

/-- C76: a file is read as text exactly if its bytes are the UTF-8 encoding of that text. -/
theorem C76_utf8_only (file : Option (List UInt8)) (s : Str) :
    readToString file = some s ↔ file = some (utf8Bytes s) := by
  constructor
  · intro h
    unfold readToString at h
    cases file with
    | none => cases h
    | some bytes =>
      congr 1
      change utf8Decode bytes = some s at h
      induction hn : bytes.length using Nat.strongRecOn generalizing bytes s with
      | ind n ih =>
        cases bytes with
        | nil => rw [utf8Decode] at h; cases h; rfl
        | cons a l =>
          rw [utf8Decode] at h
          split at h
          · cases h
          · rename_i c rest hf
            obtain ⟨s', h1, rfl⟩ := Option.map_eq_some_iff.1 h
            have := ih rest.length (by rw [← hn]; exact utf8First_shorter hf) s' rest h1 rfl
            rw [utf8First_some hf, this]
            rfl
  · rintro rfl
    exact C76_read_what_was_written s

section
variable {F : Type} [Arith F] [Platform]

/-- C76: a map file that is missing or not UTF-8 is an error, never an abort. -/
theorem C76_not_text_is_an_error (depth : Nat) (order) (file : Option (List UInt8)) (config : Config F)
    (h : ∀ s, file ≠ some (utf8Bytes s)) : runFile depth order file config = .err .io := by
  have : readToString file = none := by
    cases e : readToString file with
    | none => rfl
    | some s => exact absurd ((C76_utf8_only file s).1 e) (h s)
  unfold runFile
  rw [this]
  rfl

/-- C76: a map file with the encoding of a text is loaded as that text. -/
theorem C76_text_file (depth : Nat) (order) (s : Str) (config : Config F) :
    runFile depth order (some (utf8Bytes s)) config = run depth order { config with mapFile := some s } := by
  unfold runFile
  rw [C76_read_what_was_written]

/-- C76: a saved game definition file reads back as the text of the definitions. -/
theorem C76_save_then_read (checks : Bool) (g : Forge.GameData F) (file : List UInt8)
    (h : g.save checks true = .ok file) : ∃ s, g.toStr checks = .ok s ∧ readToString (some file) = some s := by
  unfold Forge.GameData.save at h
  obtain ⟨s, h1, h2⟩ := Outcome.bind_eq_ok.1 h
  rw [if_pos rfl] at h2
  cases h2
  exact ⟨s, h1, C76_read_what_was_written s⟩

/-- C76: saving fails with an error exactly if the file cannot be written, provided the text can be made. -/
theorem C76_save_fails (checks writable : Bool) (g : Forge.GameData F) (s : Str) (h : g.toStr checks = .ok s) :
    (∃ e, g.save checks writable = .err e) ↔ writable = false := by
  unfold Forge.GameData.save
  rw [h, Outcome.ok_bind]
  cases writable <;> simp

theorem tokenise_junk_line (bareCR : Bool) (line : Str) (hnl : '\n' ∉ line)
    (hc : ∀ c ∈ ['{', '}', '(', '"'], line.head? ≠ some c) :
    ∃ t, isJunk t = true ∧ Tokenizer.run bareCR (line ++ ['\n']) = .ok [t] := by
  have hlines : lines bareCR (line ++ ['\n']) = [stripCR line] := by
    rw [lines_cons hnl]; simp [lines, splitOn]
  unfold Tokenizer.run
  rw [hlines, mapOut_cons]
  have hhead : ∀ c, (stripCR line).head? = some c → line.head? = some c := by
    intro c h
    unfold stripCR at h
    split at h
    · cases line with
      | nil => simp at h
      | cons x xs =>
        cases xs with
        | nil => simp at h
        | cons y ys => simpa using h
    · exact h
  by_cases hs : (stripCR line).head? = some '/'
  · obtain ⟨r, hr⟩ : ∃ r, stripCR line = '/' :: r := by
      cases h : stripCR line with
      | nil => simp [h] at hs
      | cons x xs => rw [h] at hs; simp at hs; exact ⟨xs, by rw [hs]⟩
    exact ⟨.comment ('/' :: r), rfl, by rw [hr]; rfl⟩
  · refine ⟨.unrecognized (stripCR line), rfl, ?_⟩
    rw [classifies_tokenOf (.other _ ?_)]
    · rfl
    · intro c hcm h
      rcases List.mem_cons.1 hcm with rfl | hcm
      · exact hs h
      · exact hc c hcm (hhead c h)

/-- A first line that is not recognised can be left out. -/
theorem run_junk_first (depth : Nat) (order) (config : Config F) (line rest : Str) (hnl : '\n' ∉ line)
    (hc : ∀ c ∈ ['{', '}', '(', '"'], line.head? ≠ some c) :
    run depth order { config with mapFile := some (line ++ '\n' :: rest) } =
      run depth order { config with mapFile := some rest } := by
  obtain ⟨t, hj, ht⟩ := tokenise_junk_line Platform.bareCR line hnl hc
  unfold run
  simp only []
  rw [C01_concat, ht]
  simp only [Outcome.bind_assoc, Outcome.ok_bind]
  refine Outcome.bind_congr fun ts _ => ?_
  rw [C06_junk_has_no_effect ([t] ++ ts) ts (by simp [hj])]

/-- C77: a byte order mark in front of a map file has the effect of leaving out the first line. -/
theorem C77_byte_order_mark (depth : Nat) (order) (config : Config F) (line rest : Str) (hnl : '\n' ∉ line) :
    runFile depth order (some ([0xEF, 0xBB, 0xBF] ++ utf8Bytes (line ++ '\n' :: rest))) config =
      runFile depth order (some (utf8Bytes rest)) config := by
  have e : ([0xEF, 0xBB, 0xBF] : List UInt8) ++ utf8Bytes (line ++ '\n' :: rest) =
      utf8Bytes (('\uFEFF' :: line) ++ '\n' :: rest) := rfl
  rw [e, C76_text_file, C76_text_file]
  refine run_junk_first depth order config _ rest (by simp [hnl]) ?_
  intro c hc
  simp only [List.mem_cons, List.not_mem_nil, or_false] at hc
  rcases hc with rfl | rfl | rfl | rfl <;> simp

/-- A line that is not recognised can be left out anywhere. -/
theorem run_junk_line (depth : Nat) (order) (config : Config F) (before line rest : Str) (hnl : '\n' ∉ line)
    (hc : ∀ c ∈ ['{', '}', '(', '"'], line.head? ≠ some c) :
    run depth order { config with mapFile := some (before ++ '\n' :: (line ++ '\n' :: rest)) } =
      run depth order { config with mapFile := some (before ++ '\n' :: rest) } := by
  obtain ⟨t, hj, ht⟩ := tokenise_junk_line Platform.bareCR line hnl hc
  unfold run
  simp only []
  rw [C01_concat _ before (line ++ '\n' :: rest), C01_concat _ before rest, C01_concat _ line rest, ht]
  simp only [Outcome.bind_assoc, Outcome.ok_bind]
  refine Outcome.bind_congr fun as _ => ?_
  refine Outcome.bind_congr fun ts _ => ?_
  rw [C06_junk_has_no_effect (as ++ ([t] ++ ts)) (as ++ ts) (by simp [List.filter_append, hj])]

/-- C77: a leading blank or tab has the effect of leaving out the line, for the first line and any other. -/
theorem C77_indented_line (depth : Nat) (order) (config : Config F) (before line rest : Str) (hnl : '\n' ∉ line)
    (hbefore : before = [] ∨ ∃ b, before = b ++ ['\n']) (blank : Char) (hb : blank = ' ' ∨ blank = '\t') :
    run depth order { config with mapFile := some (before ++ (blank :: line ++ '\n' :: rest)) } =
      run depth order { config with mapFile := some (before ++ rest) } := by
  have h1 : '\n' ∉ blank :: line := by rcases hb with rfl | rfl <;> simp [hnl]
  have h2 : ∀ c ∈ ['{', '}', '(', '"'], (blank :: line).head? ≠ some c := by
    intro c hc
    simp only [List.mem_cons, List.not_mem_nil, or_false] at hc
    rcases hb with rfl | rfl <;> rcases hc with rfl | rfl | rfl | rfl <;> simp
  rcases hbefore with rfl | ⟨b, rfl⟩
  · exact run_junk_first depth order config (blank :: line) rest h1 h2
  · simpa using run_junk_line depth order config b (blank :: line) rest h1 h2

/-- C77: so a map that starts with an opening brace and a property is refused with a byte order mark. -/
theorem C77_marked_map_refused (depth : Nat) (order) (config : Config F) (rest : Str) (k v : Str)
    (ts : List Token) (h : Tokenizer.run Platform.bareCR rest = .ok (.property k v :: ts)) :
    runFile depth order (some ([0xEF, 0xBB, 0xBF] ++ utf8Bytes ('{' :: '\n' :: rest))) config =
      .err (.quarch "Property in file scope") := by
  rw [show '{' :: '\n' :: rest = ['{'] ++ '\n' :: rest from rfl,
    C77_byte_order_mark depth order config ['{'] rest (by simp), C76_text_file]
  unfold run
  simp only []
  rw [h, Outcome.ok_bind]
  rfl

end

/-! ### concrete cases -/

section
attribute [local instance] refPlatform intArith

-- an umlaut, an emoji and a byte sequence that is not UTF-8 (an encoded surrogate)
example : utf8Bytes (str! "ü🙂") = [0xC3, 0xBC, 0xF0, 0x9F, 0x99, 0x82] ∧
    readToString (some [0xC3, 0xBC, 0xF0, 0x9F, 0x99, 0x82]) = some (str! "ü🙂") ∧
    readToString (some [0x41, 0xED, 0xA0, 0x80]) = none ∧ readToString (some [0xFF, 0xFE]) = none := by
  refine ⟨by decide, (C76_utf8_only _ _).2 (by decide), ?_, ?_⟩ <;> simp [readToString, utf8Decode, utf8First]

-- hypotheses of C77_marked_map_refused
example : Tokenizer.run true (str! "\"classname\" \"worldspawn\"\n}") =
    .ok [.property (str! "classname") (str! "worldspawn"), .closeBrace] := by decide

-- an indented line in the middle of a map
example : (str! "{\n") = [] ∨ ∃ b, str! "{\n" = b ++ ['\n'] := .inr ⟨['{'], by decide⟩

-- a definition file
example : ∃ file, Forge.GameData.save (F := Int) true true ⟨str! "G", [str! "b.fgd"], []⟩ = .ok file ∧
    readToString (some file) = some (str! "// G\n\n@include \"b.fgd\"\n\n") := by
  refine ⟨_, rfl, ?_⟩
  exact (C76_utf8_only _ _).2 (by decide)

end
end Quarch
