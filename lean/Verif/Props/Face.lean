import Verif.Proofs.FaceText
import Verif.Proofs.Cut
import Verif.Spec.Instances
/-
C10–C12: face lines.
-/
namespace Quarch
open Spec

/-- Every line is a sequence of words separated by whitespace, so the theorems below, stated for
`spaced lead ws`, cover every line. -/
theorem spec_C11_every_line (line : Str) :
    ∃ lead ws, line = spaced lead ws ∧ (∀ c ∈ lead, isBlank c = true) ∧ SpacedOk ws :=
  exists_spaced line

section
variable {F : Type} [Arith F] [Platform]

/-- C10: a face written in any of the supported layouts (standard or Valve 220 UVs; no, Hexen II,
Quake II or Daikatana trailing values), with any words that denote its numbers, any letter case of the
texture and any whitespace, is read back exactly. -/
theorem C10_face_round_trip (hb : Arith.parse (F := F) (str! "[") = none) (p : BrushPlane F) (line : Str)
    (h : FaceLine p line) : BrushPlane.new line = .ok p := by
  obtain ⟨lead, ws, rfl, h1, h2, h3⟩ := h
  unfold BrushPlane.new
  rw [splitWhitespace_spaced h1 h2, ofWords_ok_iff]
  exact faceWords_is hb h3

/-- C10/C11: a face line is read as `p` exactly when its words, position by position, describe `p`. -/
theorem C11_succeeds_iff (lead : Str) (ws : List (Str × Str)) (hl : ∀ c ∈ lead, isBlank c = true)
    (hws : SpacedOk ws) (p : BrushPlane F) :
    BrushPlane.new (spaced lead ws) = .ok p ↔ FaceIs (ws.map Prod.fst) p :=
  face_reads_iff lead ws hl hws p

/-- C11: an error is returned exactly when all numbers before the trailing words are readable and the
trailing words are wrong in number or unreadable; the first unreadable one decides the message. -/
theorem C11_error_iff (lead : Str) (ws : List (Str × Str)) (hl : ∀ c ∈ lead, isBlank c = true)
    (hws : SpacedOk ws) (e : Err) :
    BrushPlane.new (F := F) (spaced lead ws) = .err e ↔
      ∃ msg, e = .quarch msg ∧ HeadOk F (ws.map Prod.fst) ∧
        ExtraError F (extraWords F (ws.map Prod.fst)) msg :=
  face_err_iff lead ws hl hws e

/-- C11: reading aborts exactly when a number before the trailing words is missing or unreadable, or the
single trailing (Hexen II) value is unreadable. -/
theorem C11_abort_iff (lead : Str) (ws : List (Str × Str)) (hl : ∀ c ∈ lead, isBlank c = true)
    (hws : SpacedOk ws) :
    (∃ m, BrushPlane.new (F := F) (spaced lead ws) = .panic m) ↔
      ¬ HeadOk F (ws.map Prod.fst) ∨
      ((extraWords F (ws.map Prod.fst)).length = 1 ∧
        numAt (F := F) (extraWords F (ws.map Prod.fst)) 0 = none) :=
  face_abort_iff lead ws hl hws

/-- C11: reading a face line has no other outcome (it never runs out of stack). -/
theorem C11_outcomes (line : Str) :
    (∃ p : BrushPlane F, BrushPlane.new line = .ok p) ∨
    (∃ msg, BrushPlane.new (F := F) line = .err (.quarch msg)) ∨
    (∃ m, BrushPlane.new (F := F) line = .panic m) := by
  unfold BrushPlane.new
  rcases ofWords_cases (F := F) (splitWhitespace line) with ⟨q, h1, _⟩ | ⟨msg, h1, _⟩ | ⟨⟨m, h1⟩, _⟩
  · exact .inl ⟨q, h1⟩
  · exact .inr (.inl ⟨msg, h1⟩)
  · exact .inr (.inr ⟨m, h1⟩)

/-! ### Texture case -/

/-- Two face lines with the same words except for the texture, whose lower-case forms agree. -/
def SameFace (line line' : Str) : Prop :=
  ∃ lead ws lead' ws' pre tex tex' post, line = spaced lead ws ∧ line' = spaced lead' ws' ∧
    (∀ c ∈ lead, isBlank c = true) ∧ (∀ c ∈ lead', isBlank c = true) ∧
    SpacedOk ws ∧ SpacedOk ws' ∧
    ws.map Prod.fst = pre ++ tex :: post ∧ ws'.map Prod.fst = pre ++ tex' :: post ∧
    pre.length = 15 ∧ Platform.lowercase tex = Platform.lowercase tex'

theorem ofWords_texture (pre post : List Str) (tex tex' : Str) (hp : pre.length = 15)
    (ht : Platform.lowercase tex = Platform.lowercase tex') :
    BrushPlane.ofWords (F := F) (pre ++ tex :: post) = BrushPlane.ofWords (pre ++ tex' :: post) := by
  have key : ∀ t : Str, BrushPlane.ofWords (F := F) (pre ++ t :: post) =
      (numRead pre 1).bind fun x0 => (numRead pre 2).bind fun y0 => (numRead pre 3).bind fun z0 =>
      (numRead pre 6).bind fun x1 => (numRead pre 7).bind fun y1 => (numRead pre 8).bind fun z1 =>
      (numRead pre 11).bind fun x2 => (numRead pre 12).bind fun y2 => (numRead pre 13).bind fun z2 =>
      (parseUV post).bind fun r =>
      (nextF r.2).bind fun r1 => (nextF r1.2).bind fun r2 => (nextF r2.2).bind fun r3 =>
      (parseExtra r3.2).bind fun extra =>
      .ok ⟨⟨x0, y0, z0⟩, ⟨x1, y1, z1⟩, ⟨x2, y2, z2⟩, Platform.lowercase t, r.1, r1.1, ⟨r2.1, r3.1⟩,
        extra⟩ := by
    intro t
    have hd : (pre ++ t :: post).drop 16 = post := by
      rw [show 16 = pre.length + 1 by omega, List.drop_append]
      simp
    have h15 : (pre ++ t :: post)[15]? = some t := by
      rw [List.getElem?_append_right (by omega), hp]; rfl
    have hn : ∀ i < 15, numRead (F := F) (pre ++ t :: post) i = numRead pre i := by
      intro i hi
      unfold numRead
      rw [List.getElem?_append_left (by omega)]
    unfold BrushPlane.ofWords
    conv_lhs => rw [show pre ++ t :: post = (pre ++ t :: post).drop 0 from rfl]
    simp only [parsePoint_drop, Outcome.bind_assoc, Outcome.ok_bind, List.head?_drop, List.tail_drop]
    simp only [Nat.zero_add, Nat.reduceAdd, hd, h15, Outcome.unwrap_some, Outcome.ok_bind,
      hn 1 (by omega), hn 2 (by omega), hn 3 (by omega), hn 6 (by omega), hn 7 (by omega),
      hn 8 (by omega), hn 11 (by omega), hn 12 (by omega), hn 13 (by omega)]
  rw [key tex, key tex', ht]

/-- C12, one line: letter case of the texture does not matter, whatever the outcome. -/
theorem C12_face_case_insensitive (line line' : Str) (h : SameFace line line') :
    BrushPlane.new (F := F) line = BrushPlane.new line' := by
  obtain ⟨lead, ws, lead', ws', pre, tex, tex', post, rfl, rfl, h1, h2, h3, h4, h5, h6, h7, h8⟩ := h
  unfold BrushPlane.new
  rw [splitWhitespace_spaced h1 h3, splitWhitespace_spaced h2 h4, h5, h6]
  exact ofWords_texture pre post tex tex' h7 h8

/-- Tokens that are equal up to the letter case of a texture. -/
inductive SameToken : Token → Token → Prop
  | same (t : Token) : SameToken t t
  | face {line line' : Str} : SameFace line line' → SameToken (.brushPlane line) (.brushPlane line')

/-- C12: two maps that differ only in the letter case of face textures load the same entities, or fail
the same way. -/
theorem C12_maps_case_insensitive (ts ts' : List Token) (h : List.Forall₂ SameToken ts ts') :
    ((Parser.run (F := F) ts).bind fun r => .ok r.2) = (Parser.run ts').bind fun r => .ok r.2 := by
  have key : ∀ (s s' : Parser.State F), s.scope = s'.scope → s.entities = s'.entities →
      ((foldOut Parser.step s ts).bind fun r => .ok r.entities) =
        (foldOut Parser.step s' ts').bind fun r => .ok r.entities := by
    induction h with
    | nil => intro s s' _ h; simp [h]
    | cons ht _ ih =>
      intro s s' h1 h2
      obtain ⟨sc, tp, es⟩ := s
      obtain ⟨sc', tp', es'⟩ := s'
      simp only at h1 h2
      subst h1; subst h2
      simp only [foldOut_cons, Outcome.bind_assoc]
      cases ht with
      | same =>
        rename_i tk l1 l2 hh
        cases tk with
        | comment m => exact ih _ _ rfl rfl
        | unrecognized m => exact ih _ _ rfl rfl
        | closeBrace =>
          cases sc with
          | file => rfl
          | entity e => exact ih _ _ rfl rfl
          | brush e b => exact ih _ _ rfl rfl
        | openBrace =>
          cases sc with
          | file => exact ih _ _ rfl rfl
          | entity e =>
            simp only [Parser.step, Outcome.bind_assoc]
            exact Outcome.bind_congr fun a _ => ih _ _ rfl rfl
          | brush e b => rfl
        | property k v =>
          cases sc with
          | file => rfl
          | entity e =>
            simp only [Parser.step, Outcome.bind_assoc]
            exact Outcome.bind_congr fun a _ => ih _ _ rfl rfl
          | brush e b => rfl
        | brushPlane line =>
          cases sc with
          | file => rfl
          | entity e => rfl
          | brush e b =>
            simp only [Parser.step, Outcome.bind_assoc]
            exact Outcome.bind_congr fun a _ => ih _ _ rfl rfl
      | face hf =>
        cases sc with
        | file => rfl
        | entity e => rfl
        | brush e b =>
          simp only [Parser.step, Outcome.bind_assoc, C12_face_case_insensitive (F := F) _ _ hf]
          exact Outcome.bind_congr fun a _ => ih _ _ rfl rfl
  have := key Parser.init Parser.init rfl rfl
  unfold Parser.run
  simpa only [Outcome.bind_assoc, Outcome.ok_bind] using this

end

/-! ### Concrete cases -/

section Examples
attribute [local instance] refPlatform intArith

set_option maxRecDepth 10000 in
-- Valve 220 UVs with Daikatana trailing values: a non-trivial instance of C10
example : FaceLine (F := Int)
    ⟨⟨0, 0, 0⟩, ⟨0, 1, 0⟩, ⟨1, 0, 0⟩, str! "brick", .valve ⟨1, 0, 0⟩ 4 ⟨0, 1, 0⟩ 5, 6, ⟨7, 8⟩,
      .daikatana ⟨1, 2, 3⟩ ⟨4, 5, 6⟩⟩
    (str! "( 0 0 0 )  ( 0 1 0 ) ( 1 0 0 )\tBRICK [ 1 0 0 4 ] [ 0 1 0 5 ] 6 7 8 1 2 3 4 5 6 ") := by
  refine ⟨[], ([str! "(", str! "0", str! "0", str! "0", str! ")"].map (·, [' '])).dropLast ++
    [(str! ")", [' ', ' '])] ++
    [str! "(", str! "0", str! "1", str! "0", str! ")", str! "(", str! "1", str! "0", str! "0"].map (·, [' ']) ++
    [(str! ")", ['\t'])] ++
    [str! "BRICK", str! "[", str! "1", str! "0", str! "0", str! "4", str! "]",
     str! "[", str! "0", str! "1", str! "0", str! "5", str! "]", str! "6", str! "7", str! "8",
     str! "1", str! "2", str! "3", str! "4", str! "5", str! "6"].map (·, [' ']), by decide, by simp, ?_, ?_⟩
  · decide
  · exact ⟨[str! "(", str! "0", str! "0", str! "0", str! ")"], [str! "(", str! "0", str! "1", str! "0", str! ")"],
      [str! "(", str! "1", str! "0", str! "0", str! ")"], str! "BRICK",
      [str! "[", str! "1", str! "0", str! "0", str! "4", str! "]",
       str! "[", str! "0", str! "1", str! "0", str! "5", str! "]"], str! "6", str! "7", str! "8",
      [str! "1", str! "2", str! "3", str! "4", str! "5", str! "6"], rfl,
      ⟨_, _, _, rfl, by decide, by decide, by decide⟩, ⟨_, _, _, rfl, by decide, by decide, by decide⟩,
      ⟨_, _, _, rfl, by decide, by decide, by decide⟩, by decide,
      ⟨_, _, _, _, _, _, _, _, rfl, by decide, by decide, by decide, by decide, by decide, by decide,
        by decide, by decide⟩, by decide, by decide, by decide, parseI32_iff.1 (by decide), parseI32_iff.1 (by decide), by decide, by decide,
      by decide, by decide⟩

example : Arith.parse (F := Int) (str! "[") = none := by decide

-- C11: each kind of outcome occurs
example : BrushPlane.new (F := Int) (str! "( 0 0 0 ) ( 0 1 0 ) ( 1 0 0 ) B 0 0 0 1 1 1 2") =
      .err (.quarch "Unrecognized extra data") ∧
    BrushPlane.new (F := Int) (str! "( 0 0 0 ) ( 0 1 0 ) ( 1 0 0 ) B 0 0 0 1 1 1 x y") =
      .err (.quarch "Failed to parse surface flags") ∧
    (BrushPlane.new (F := Int) (str! "( 0 0 0 ) ( 0 1 0 ) ( 1 0 0 ) B 0 0 0 1 1 x")).isPanic = true ∧
    (BrushPlane.new (F := Int) (str! "( 0 0 0 ) ( 0 1 0 ) ( 1 0 0 ) B 0 0 0 1")).isPanic = true := by
  decide

-- C12: a pair of lines that differ in case
example : SameFace (str! "( 0 0 0 ) ( 0 1 0 ) ( 1 0 0 ) Brick 0 0 0 1 1 ")
    (str! "( 0 0 0 ) ( 0 1 0 ) ( 1 0 0 ) bRICK 0 0 0 1 1 ") := by
  refine ⟨[], [str! "(", str! "0", str! "0", str! "0", str! ")", str! "(", str! "0", str! "1", str! "0", str! ")",
      str! "(", str! "1", str! "0", str! "0", str! ")", str! "Brick", str! "0", str! "0", str! "0",
      str! "1", str! "1"].map (·, [' ']), [],
    [str! "(", str! "0", str! "0", str! "0", str! ")", str! "(", str! "0", str! "1", str! "0", str! ")",
      str! "(", str! "1", str! "0", str! "0", str! ")", str! "bRICK", str! "0", str! "0", str! "0",
      str! "1", str! "1"].map (·, [' ']),
    [str! "(", str! "0", str! "0", str! "0", str! ")", str! "(", str! "0", str! "1", str! "0", str! ")",
      str! "(", str! "1", str! "0", str! "0", str! ")"], str! "Brick", str! "bRICK",
    [str! "0", str! "0", str! "0", str! "1", str! "1"], by decide, by decide, by simp, by simp, ?_, ?_,
    rfl, rfl, rfl, by decide⟩
  · decide
  · decide

end Examples
end Quarch
