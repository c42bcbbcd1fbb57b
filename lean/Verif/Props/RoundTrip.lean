import Verif.Spec.Print
import Verif.Proofs.Num
import Verif.Props.Face
import Verif.Props.Tokenizer
/-
C04: printed maps load back.
-/
set_option linter.unusedSectionVars false

namespace Quarch
open Spec

theorem junkLine_classifies {line : Str} (h : JunkLine line) :
    ∃ t, Classifies line t ∧ isJunk t = true := by
  by_cases hs : line.head? = some '/'
  · cases line with
    | nil => simp at hs
    | cons c r =>
      simp only [List.head?_cons, Option.some.injEq] at hs
      subst hs
      exact ⟨_, .comment r, rfl⟩
  · refine ⟨_, .other line ?_, rfl⟩
    intro c hc
    rcases List.mem_cons.1 hc with rfl | hc
    · exact hs
    · exact h c hc

/-- Tokens without comments. -/
def noJunk (ts : List Token) : List Token := ts.filter fun t => !isJunk t

theorem noJunk_junk {t : Token} (h : isJunk t = true) (ts : List Token) : noJunk (t :: ts) = noJunk ts := by
  simp [noJunk, h]

theorem noJunk_keep {t : Token} (h : isJunk t = false) (ts : List Token) :
    noJunk (t :: ts) = t :: noJunk ts := by
  simp [noJunk, h]

theorem noJunk_append (a b : List Token) : noJunk (a ++ b) = noJunk a ++ noJunk b := by
  simp [noJunk]

section
variable {F : Type} [Arith F] [Platform]

theorem faceLines_tokens (hb : Arith.parse (F := F) (str! "[") = none) {ps : List (BrushPlane F)}
    {ls : List Str} (h : FaceLines ps ls) :
    ∃ ts faces, List.Forall₂ Classifies ls ts ∧ noJunk ts = faces.map .brushPlane ∧
      BrushOf faces (⟨ps⟩ : Brush F) := by
  induction h with
  | nil => exact ⟨[], [], .nil, rfl, .nil⟩
  | junk hj _ ih =>
    obtain ⟨t, h1, h2⟩ := junkLine_classifies hj
    obtain ⟨ts, faces, h3, h4, h5⟩ := ih
    exact ⟨t :: ts, faces, .cons h1 h3, by rw [noJunk_junk h2, h4], h5⟩
  | face hf hh _ ih =>
    obtain ⟨ts, faces, h3, h4, h5⟩ := ih
    rename_i p ps line ls _
    obtain ⟨r, hr⟩ : ∃ r, line = '(' :: r := by
      cases line with
      | nil => simp at hh
      | cons c r => simp only [List.head?_cons, Option.some.injEq] at hh; exact ⟨r, by rw [hh]⟩
    refine ⟨.brushPlane line :: ts, line :: faces, .cons ?_ h3, by rw [noJunk_keep rfl, h4]; rfl, ?_⟩
    · rw [hr]; exact .face r
    · exact .cons ((faceText_iff line p).1 (C10_face_round_trip hb p line hf)) h5

theorem itemLines_tokens (hb : Arith.parse (F := F) (str! "[") = none) {is : List (SrcItem F)}
    {ls : List Str} (h : ItemLines is ls) :
    ∃ (ts : List Token) (items : List Item), List.Forall₂ Classifies ls ts ∧ noJunk ts = items.flatMap Item.toks ∧
      (∀ key, items.filterMap (Item.valueOf key) = is.filterMap (SrcItem.valueOf key)) ∧
      List.Forall₂ BrushOf (items.filterMap Item.faces?) (is.filterMap SrcItem.brush?) := by
  induction h with
  | nil => exact ⟨[], [], .nil, rfl, fun _ => rfl, .nil⟩
  | junk hj _ ih =>
    obtain ⟨t, h1, h2⟩ := junkLine_classifies hj
    obtain ⟨ts, items, h3, h4, h5, h6⟩ := ih
    exact ⟨t :: ts, items, .cons h1 h3, by rw [noJunk_junk h2, h4], h5, h6⟩
  | prop mid rest hk hv hm _ ih =>
    obtain ⟨ts, items, h3, h4, h5, h6⟩ := ih
    rename_i is ls key value _
    refine ⟨.property key value :: ts, .prop key value :: items,
      .cons (.property key mid value _ hk hm hv (.inr ⟨rest, rfl⟩)) h3,
      by rw [noJunk_keep rfl, h4]; rfl, fun k => ?_, ?_⟩
    · simp only [List.filterMap_cons, Item.valueOf, SrcItem.valueOf]
      split <;> simp [h5 k]
    · simpa [List.filterMap_cons, Item.faces?, SrcItem.brush?] using h6
  | brush r r' hf _ ih =>
    obtain ⟨ts, items, h3, h4, h5, h6⟩ := ih
    obtain ⟨fts, faces, h7, h8, h9⟩ := faceLines_tokens hb hf
    refine ⟨.openBrace :: (fts ++ .closeBrace :: ts), .brush faces :: items,
      .cons (.openBrace r) ?_, ?_, fun k => ?_, ?_⟩
    · exact List.rel_append h7 (.cons (.closeBrace r') h3)
    · rw [noJunk_keep rfl, noJunk_append, noJunk_keep rfl, h8, h4]
      simp [Item.toks]
    · simp [List.filterMap_cons, Item.valueOf, SrcItem.valueOf, h5 k]
    · simpa [List.filterMap_cons, Item.faces?, SrcItem.brush?] using ⟨h9, h6⟩

theorem mapLines_tokens (hb : Arith.parse (F := F) (str! "[") = none) {es : List (List (SrcItem F))}
    {ls : List Str} (h : MapLines es ls) :
    ∃ (ts : List Token) (blocks : List (List Item)), List.Forall₂ Classifies ls ts ∧ noJunk ts = blocks.flatMap blockToks ∧
      List.Forall₂ Denotes blocks (es.map entityOf) := by
  induction h with
  | nil => exact ⟨[], [], .nil, rfl, .nil⟩
  | junk hj _ ih =>
    obtain ⟨t, h1, h2⟩ := junkLine_classifies hj
    obtain ⟨ts, blocks, h3, h4, h5⟩ := ih
    exact ⟨t :: ts, blocks, .cons h1 h3, by rw [noJunk_junk h2, h4], h5⟩
  | entity r r' hi _ ih =>
    obtain ⟨ts, blocks, h3, h4, h5⟩ := ih
    obtain ⟨its, items, h6, h7, h8, h9⟩ := itemLines_tokens hb hi
    refine ⟨.openBrace :: (its ++ .closeBrace :: ts), items :: blocks, .cons (.openBrace r) ?_, ?_, ?_⟩
    · exact List.rel_append h6 (.cons (.closeBrace r') h3)
    · rw [noJunk_keep rfl, noJunk_append, noJunk_keep rfl, h7, h4]
      simp [blockToks]
    · refine .cons ⟨fun k => ?_, h9⟩ h5
      simp [entityOf, lastValue, h8 k]

/-- C04: any text whose lines are a printed form of the entities `es` — any supported face layout, any
words denoting the numbers, any spacing, `\n` or `\r\n`, comment and blank lines anywhere — loads as
exactly these entities. -/
theorem C04_round_trip (hb : Arith.parse (F := F) (str! "[") = none) (ls : List Line) (final : Str)
    (hls : ∀ l ∈ ls, l.WF) (hfinal : '\n' ∉ final) (es : List (List (SrcItem F)))
    (h : MapLines es (contents Platform.bareCR ls final)) :
    ∃ tokens paths, Tokenizer.run Platform.bareCR (textOf ls final) = .ok tokens ∧
      Parser.run tokens = .ok (paths, es.map entityOf) := by
  obtain ⟨ts, blocks, h1, h2, h3⟩ := mapLines_tokens hb h
  have ht := (C01_line_by_line Platform.bareCR ls final hls hfinal ts).2 h1
  obtain ⟨paths, hp⟩ := (run_iff_grammar ts (es.map entityOf)).2
    ⟨⟨blocks, .none⟩, by simpa [MapFile.toks, Tail.toks, noJunk] using h2.symm,
      by simpa [MapFile.blocks, Tail.blocks] using h3⟩
  exact ⟨ts, paths, ht, hp⟩

/-! ### The concrete printer -/

theorem printWords_spaced (ws : List Str) (h : ∀ w ∈ ws, w ≠ [] ∧ ∀ c ∈ w, isBlank c = false) :
    ∃ sp, spaced [] sp = ws.flatMap (fun w => w ++ [' ']) ∧ SpacedOk sp ∧ sp.map Prod.fst = ws := by
  have key : ∀ (lead : Str) (ws : List Str), (∀ w ∈ ws, w ≠ [] ∧ ∀ c ∈ w, isBlank c = false) →
      spaced lead (ws.map (·, [' '])) = lead ++ ws.flatMap (fun w => w ++ [' ']) ∧
      SpacedOk (ws.map (·, [' '])) := by
    intro lead ws
    induction ws generalizing lead with
    | nil => intro _; simp [spaced, SpacedOk]
    | cons w ws ih =>
      intro h
      obtain ⟨h1, h2⟩ := ih [' '] fun w hw => h w (by simp [hw])
      refine ⟨?_, ?_⟩
      · rw [List.map_cons, spaced, h1]; simp
      · exact ⟨(h w (by simp)).1, (h w (by simp)).2, by simp; decide, by simp, h2⟩
  obtain ⟨h1, h2⟩ := key [] ws h
  exact ⟨_, by simpa using h1, h2, by simp [Function.comp_def]⟩

/-- A word: non-empty, without whitespace. -/
def IsWord (w : Str) : Prop := w ≠ [] ∧ ∀ c ∈ w, isBlank c = false

theorem Spec.NumOk.word {x : F} (h : NumOk x) : IsWord (Arith.disp x) := h.2

theorem showInt_isWord (i : Int) : IsWord (showInt i) := ⟨showInt_ne_nil i, showInt_blank i⟩

theorem isWord_mk {w : Str} (h : w ≠ [] ∧ w.all (fun c => !isBlank c) = true) : IsWord w :=
  ⟨h.1, by simpa using h.2⟩

theorem printPoint_words {v : V3 F} (h : NumOk v.x ∧ NumOk v.y ∧ NumOk v.z) :
    (∀ w ∈ printPoint v, IsWord w) ∧ PointWords v (printPoint v) := by
  refine ⟨?_, _, _, _, rfl, h.1.1, h.2.1.1, h.2.2.1⟩
  intro w hw
  simp only [printPoint, List.mem_cons, List.not_mem_nil, or_false] at hw
  rcases hw with rfl | rfl | rfl | rfl | rfl
  · exact isWord_mk (by decide)
  · exact h.1.word
  · exact h.2.1.word
  · exact h.2.2.word
  · exact isWord_mk (by decide)

theorem printFace_line {p : BrushPlane F} (h : FaceOk p) :
    FaceLine p (printFace p) ∧ (printFace p).head? = some '(' ∧ '\n' ∉ printFace p := by
  obtain ⟨h0, h1, h2, ht, huv, ⟨hr, hsx, hsy⟩, hex⟩ := h
  have huvw : (∀ w ∈ printUV p.uv, IsWord w) ∧ UVWords p.uv (printUV p.uv) := by
    cases hc : p.uv with
    | quake u v =>
      rw [hc] at huv
      refine ⟨?_, _, _, rfl, huv.1.1, huv.2.1⟩
      intro w hw
      simp only [printUV, List.mem_cons, List.not_mem_nil, or_false] at hw
      rcases hw with rfl | rfl
      · exact huv.1.word
      · exact huv.2.word
    | valve ua uo va vo =>
      rw [hc] at huv
      obtain ⟨⟨a1, a2, a3, a4⟩, a5, a6, a7, a8⟩ := huv
      refine ⟨?_, _, _, _, _, _, _, _, _, rfl, a1.1, a2.1, a3.1, a4.1, a5.1, a6.1, a7.1, a8.1⟩
      intro w hw
      simp only [printUV, List.mem_cons, List.not_mem_nil, or_false] at hw
      rcases hw with rfl | rfl | rfl | rfl | rfl | rfl | rfl | rfl | rfl | rfl | rfl | rfl
      · exact isWord_mk (by decide)
      · exact a1.word
      · exact a2.word
      · exact a3.word
      · exact a4.word
      · exact isWord_mk (by decide)
      · exact isWord_mk (by decide)
      · exact a5.word
      · exact a6.word
      · exact a7.word
      · exact a8.word
      · exact isWord_mk (by decide)
  have hexw : (∀ w ∈ printExtra p.extra, IsWord w) ∧ ExtraIs (printExtra p.extra) p.extra := by
    cases hc : p.extra with
    | none => exact ⟨by simp [printExtra], trivial⟩
    | hexen2 x =>
      rw [hc] at hex
      refine ⟨?_, hex.1⟩
      intro w hw
      simp only [printExtra, List.mem_singleton] at hw
      subst hw; exact hex.word
    | quake2 s =>
      rw [hc] at hex
      obtain ⟨a1, a2, a3⟩ := hex
      refine ⟨?_, parseI32_iff.1 (parseI32_showInt a1), parseI32_iff.1 (parseI32_showInt a2), a3.1⟩
      intro w hw
      simp only [printExtra, List.mem_cons, List.not_mem_nil, or_false] at hw
      rcases hw with rfl | rfl | rfl
      · exact showInt_isWord _
      · exact showInt_isWord _
      · exact a3.word
    | daikatana s c =>
      rw [hc] at hex
      obtain ⟨⟨a1, a2, a3⟩, a4, a5, a6⟩ := hex
      refine ⟨?_, parseI32_iff.1 (parseI32_showInt a1), parseI32_iff.1 (parseI32_showInt a2), a3.1, a4.1, a5.1, a6.1⟩
      intro w hw
      simp only [printExtra, List.mem_cons, List.not_mem_nil, or_false] at hw
      rcases hw with rfl | rfl | rfl | rfl | rfl | rfl
      · exact showInt_isWord _
      · exact showInt_isWord _
      · exact a3.word
      · exact a4.word
      · exact a5.word
      · exact a6.word
  obtain ⟨w0, p0⟩ := printPoint_words h0
  obtain ⟨w1, p1⟩ := printPoint_words h1
  obtain ⟨w2, p2⟩ := printPoint_words h2
  have hwords : ∀ w ∈ printFaceWords p, IsWord w := by
    intro w hw
    simp only [printFaceWords, List.mem_append, List.mem_cons, List.not_mem_nil, or_false] at hw
    rcases hw with (((((hw | hw) | hw) | rfl) | hw) | hw) | hw
    · exact w0 w hw
    · exact w1 w hw
    · exact w2 w hw
    · exact ⟨ht.1, ht.2.1⟩
    · exact huvw.1 w hw
    · rcases hw with rfl | rfl | rfl
      · exact hr.word
      · exact hsx.word
      · exact hsy.word
    · exact hexw.1 w hw
  refine ⟨?_, rfl, ?_⟩
  · obtain ⟨sp, h1, h2, h3⟩ := printWords_spaced (printFaceWords p) hwords
    refine ⟨[], sp, h1.symm, by simp, h2, ?_⟩
    rw [h3]
    exact ⟨_, _, _, _, _, _, _, _, _, rfl, p0, p1, p2, ht.2.2, huvw.2, hr.1, hsx.1, hsy.1, hexw.2⟩
  · intro hn
    obtain ⟨w, hw, hn⟩ := List.mem_flatMap.1 hn
    rcases List.mem_append.1 hn with hn | hn
    · have := (hwords w hw).2 _ hn
      revert this; decide
    · simp at hn

theorem printItems_lines {items : List (SrcItem F)} (h : ∀ i ∈ items, i.Ok) :
    ItemLines items (items.flatMap printItem) ∧
      ∀ l ∈ items.flatMap printItem, '\n' ∉ l ∧ l.getLast? ≠ some '\r' := by
  induction items with
  | nil => exact ⟨.nil, by simp⟩
  | cons i items ih =>
    obtain ⟨h1, h2⟩ := ih fun j hj => h j (by simp [hj])
    have hi := h i (by simp)
    cases i with
    | prop k v =>
      obtain ⟨a1, a2, a3, a4⟩ := hi
      refine ⟨?_, ?_⟩
      · have := ItemLines.prop (F := F) (key := k) (value := v) [' '] [] a1 a3 (by decide) h1
        simpa [printItem] using this
      · intro l hl
        rw [List.flatMap_cons] at hl
        rcases List.mem_append.1 hl with hl | hl
        · simp only [printItem, List.mem_singleton] at hl
          subst hl
          refine ⟨by simp [a2, a4], ?_⟩
          rw [List.getLast?_append]; simp
        · exact h2 l hl
    | brush faces =>
      have hf : FaceLines faces (faces.map printFace) ∧
          ∀ l ∈ faces.map printFace, '\n' ∉ l ∧ l.getLast? ≠ some '\r' := by
        have hi' : ∀ p ∈ faces, FaceOk p := hi
        clear hi h
        induction faces with
        | nil => exact ⟨.nil, by simp⟩
        | cons p ps ihf =>
          obtain ⟨h3, h4, h5⟩ := printFace_line (hi' p (by simp))
          obtain ⟨h6, h7⟩ := ihf fun q hq => hi' q (by simp [hq])
          refine ⟨.face h3 h4 h6, ?_⟩
          intro l hl
          rcases List.mem_cons.1 hl with rfl | hl
          · refine ⟨h5, ?_⟩
            intro hr
            have : printFaceWords p ≠ [] := by simp [printFaceWords, printPoint]
            obtain ⟨ws, w, hw⟩ := (List.eq_nil_or_concat' (printFaceWords p)).resolve_left this
            simp [printFace, hw] at hr
          · exact h7 l hl
      refine ⟨?_, ?_⟩
      · have := ItemLines.brush [] [] hf.1 h1
        simpa [printItem] using this
      · intro l hl
        rw [List.flatMap_cons] at hl
        rcases List.mem_append.1 hl with hl | hl
        · simp only [printItem, List.mem_append, List.mem_singleton] at hl
          rcases hl with (rfl | hl) | rfl
          · simp
          · exact hf.2 l hl
          · simp
        · exact h2 l hl

/-- C04 for the concrete printer: printing any writable entities and loading the text gives them back. -/
theorem C04_print_then_load (hb : Arith.parse (F := F) (str! "[") = none) (es : List (List (SrcItem F)))
    (h : ∀ items ∈ es, ∀ i ∈ items, i.Ok) :
    ∃ tokens paths, Tokenizer.run Platform.bareCR (printMap es) = .ok tokens ∧
      Parser.run tokens = .ok (paths, es.map entityOf) := by
  have hlines : MapLines es (es.flatMap printEntity) ∧
      ∀ l ∈ es.flatMap printEntity, '\n' ∉ l ∧ l.getLast? ≠ some '\r' := by
    induction es with
    | nil => exact ⟨.nil, by simp⟩
    | cons items es ih =>
      obtain ⟨h1, h2⟩ := ih fun j hj => h j (by simp [hj])
      obtain ⟨h3, h4⟩ := printItems_lines (h items (by simp))
      refine ⟨?_, ?_⟩
      · have := MapLines.entity [] [] h3 h1
        simpa [printEntity] using this
      · intro l hl
        rw [List.flatMap_cons] at hl
        rcases List.mem_append.1 hl with hl | hl
        · simp only [printEntity, List.mem_append, List.mem_singleton] at hl
          rcases hl with (rfl | hl) | rfl
          · simp
          · exact h4 l hl
          · simp
        · exact h2 l hl
  obtain ⟨h1, h2⟩ := hlines
  have ht : printMap es = textOf ((es.flatMap printEntity).map (Line.mk · false)) [] := by
    simp only [printMap, textOf, List.append_nil, List.map_map, ← List.flatMap_def]
    rfl
  rw [ht]
  refine C04_round_trip hb _ [] ?_ (by simp) es ?_
  · intro l hl
    obtain ⟨c, hc, rfl⟩ := List.mem_map.1 hl
    exact ⟨(h2 c hc).1, fun _ => (h2 c hc).2⟩
  · simpa [contents, unterminated, Function.comp_def] using h1

end

/-! ### Concrete cases -/

section Examples
attribute [local instance] refPlatform intArith

theorem intArith_numOk {i : Int} (h : I32 i) : NumOk (F := Int) i :=
  ⟨parseI32_showInt h, showInt_ne_nil i, showInt_blank i⟩

-- a writable map: two entities, a repeated key, a brush with a Quake II face
example : ∀ items ∈ ([[.prop (str! "classname") (str! "a {b"), .brush [⟨⟨0, 0, 0⟩, ⟨0, -1, 0⟩, ⟨1, 0, 0⟩,
      str! "brick", .quake 0 0, 0, ⟨1, 1⟩, .quake2 ⟨1, 2, 3⟩⟩], .prop (str! "classname") []], []] :
      List (List (SrcItem Int))), ∀ i ∈ items, i.Ok := by
  intro items hi i h
  simp only [List.mem_cons, List.not_mem_nil, or_false] at hi
  rcases hi with rfl | rfl
  · simp only [List.mem_cons, List.not_mem_nil, or_false] at h
    rcases h with rfl | rfl | rfl
    · exact ⟨by decide, by decide, by decide, by decide⟩
    · intro p hp
      rw [List.mem_singleton.1 hp]
      have n : ∀ i : Int, I32 i → NumOk i := fun i h => intArith_numOk h
      exact ⟨⟨n _ (by decide), n _ (by decide), n _ (by decide)⟩,
        ⟨n _ (by decide), n _ (by decide), n _ (by decide)⟩,
        ⟨n _ (by decide), n _ (by decide), n _ (by decide)⟩, by decide,
        ⟨n _ (by decide), n _ (by decide)⟩, ⟨n _ (by decide), n _ (by decide), n _ (by decide)⟩,
        by decide, by decide, n _ (by decide)⟩
    · exact ⟨by decide, by decide, by decide, by decide⟩
  · simp at h

end Examples
end Quarch
