import Verif.Spec.Grammar
import Verif.Proofs.FaceText
import Verif.Proofs.Basic
/-
The parser's state machine against the grammar.
-/
namespace Quarch
open Spec Quarch.Parser

theorem forall₂_snoc {α β : Type*} {R : α → β → Prop} {xs : List α} {x : α} {ys : List β} :
    List.Forall₂ R (xs ++ [x]) ys ↔ ∃ ys0 y, ys = ys0 ++ [y] ∧ List.Forall₂ R xs ys0 ∧ R x y := by
  induction xs generalizing ys with
  | nil =>
    simp only [List.nil_append, List.forall₂_nil_left_iff]
    constructor
    · intro h
      cases h with
      | cons h1 h2 => cases h2; exact ⟨[], _, rfl, rfl, h1⟩
    · rintro ⟨ys0, y, rfl, rfl, h⟩
      exact .cons h .nil
  | cons a as ih =>
    constructor
    · intro h
      cases h with
      | cons h1 h2 =>
        obtain ⟨ys0, y, rfl, h3, h4⟩ := ih.1 h2
        exact ⟨_ :: ys0, y, rfl, .cons h1 h3, h4⟩
    · rintro ⟨ys0, y, rfl, h1, h2⟩
      cases h1 with
      | cons h3 h4 => exact .cons h3 (ih.2 ⟨_, y, rfl, h4, h2⟩)

theorem forall₂_snoc' {α β : Type*} {R : α → β → Prop} {xs : List α} {x : α} {ys : List β} {y : β}
    (h : List.Forall₂ R xs ys) (h' : R x y) : List.Forall₂ R (xs ++ [x]) (ys ++ [y]) :=
  forall₂_snoc.2 ⟨ys, y, rfl, h, h'⟩

theorem withLast_snoc {α β : Type} (l : List α) (x : α) (f : α → Outcome (α × β)) :
    withLast (l ++ [x]) f = (f x).bind fun p => .ok (l ++ [p.1], p.2) := by
  simp [withLast]

theorem withLast_nil {α β : Type} (f : α → Outcome (α × β)) :
    ∃ m, withLast [] f = .panic m := ⟨_, rfl⟩

theorem forall₂_unique {α β : Type*} {R : α → β → Prop} (hR : ∀ a b b', R a b → R a b' → b = b')
    {xs : List α} {ys ys' : List β} (h : List.Forall₂ R xs ys) (h' : List.Forall₂ R xs ys') : ys = ys' := by
  induction h generalizing ys' with
  | nil => cases h'; rfl
  | cons h1 h2 ih =>
    cases h' with
    | cons h3 h4 => rw [hR _ _ _ h1 h3, ih h4]

section
variable {F : Type} [Arith F] [Platform]

/-! ### Denotation -/

theorem denotes_nil : Denotes (F := F) [] Entity.new := ⟨fun _ => rfl, .nil⟩

theorem denotes_prop {items : List Item} {e : Entity F} (h : Denotes items e) (k v : Str) :
    Denotes (items ++ [.prop k v]) { e with properties := e.properties.insert k v } := by
  refine ⟨fun key => ?_, ?_⟩
  · simp only [Map.insert, lastValue, List.filterMap_append]
    by_cases hk : key = k
    · simp [hk, Item.valueOf]
    · have : k ≠ key := fun h => hk h.symm
      simp [hk, Item.valueOf, this, h.1 key, lastValue]
  · have : (items ++ [Item.prop k v]).filterMap Item.faces? = items.filterMap Item.faces? := by
      simp [List.filterMap_append, List.filterMap_cons, Item.faces?]
    rw [this]; exact h.2

theorem denotes_brush {items : List Item} {e : Entity F} (h : Denotes items e) {faces : List Str}
    {b : Brush F} (hb : BrushOf faces b) :
    Denotes (items ++ [.brush faces]) { e with brushes := e.brushes ++ [b] } := by
  refine ⟨fun key => ?_, ?_⟩
  · simp [lastValue, List.filterMap_append, Item.valueOf, h.1 key]
  · simp only [List.filterMap_append]
    exact forall₂_snoc' h.2 hb

theorem denotes_brush_inv {items : List Item} {faces : List Str} {e : Entity F}
    (h : Denotes (items ++ [.brush faces]) e) :
    ∃ bs b, e.brushes = bs ++ [b] ∧ BrushOf faces b ∧ Denotes items { e with brushes := bs } := by
  obtain ⟨h1, h2⟩ := h
  have : (items ++ [Item.brush faces]).filterMap Item.faces? = items.filterMap Item.faces? ++ [faces] := by
    simp [List.filterMap_append, Item.faces?]
  rw [this] at h2
  obtain ⟨bs, b, hb, h3, h4⟩ := forall₂_snoc.1 h2
  refine ⟨bs, b, hb, h4, fun key => ?_, h3⟩
  have := h1 key
  simpa [lastValue, List.filterMap_append, Item.valueOf] using this

theorem brushOf_unique {faces : List Str} {b b' : Brush F} (h : BrushOf faces b) (h' : BrushOf faces b') :
    b = b' := by
  cases b with | mk p => cases b' with | mk p' =>
  have : p = p' := forall₂_unique (fun a b b' h h' => by
    rw [← faceText_iff] at h h'; rw [h] at h'; injection h') h h'
  rw [this]

theorem denotes_unique {items : List Item} {e e' : Entity F} (h : Denotes items e) (h' : Denotes items e') :
    e = e' := by
  cases e with | mk p b => cases e' with | mk p' b' =>
  obtain ⟨h1, h2⟩ := h
  obtain ⟨h3, h4⟩ := h'
  have e1 : p = p' := by funext k; exact (h1 k).trans (h3 k).symm
  have e2 : b = b' := forall₂_unique (R := BrushOf) (fun _ _ _ => brushOf_unique) h2 h4
  rw [e1, e2]

/-! ### The loop follows the grammar -/

/-- Scope of the parser after reading the tokens of `f`. -/
def ScopeOf (f : MapFile) (s : Scope) : Prop :=
  match f.tail with
  | .none => s = .file
  | .inEntity _ => ∃ e, s = .entity e
  | .inBrush _ _ => ∃ e b, s = .brush e b

/-- The state after reading the tokens of `f`. -/
def Inv (f : MapFile) (s : State F) : Prop :=
  ScopeOf f s.scope ∧ List.Forall₂ Denotes f.blocks s.entities

theorem step_open_file {c : List (List Item)} {s : State F} (hI : Inv ⟨c, .none⟩ s) :
    ∃ s', step s .openBrace = .ok s' ∧ Inv ⟨c, .inEntity []⟩ s' := by
  obtain ⟨hs, hd⟩ := hI
  change s.scope = _ at hs
  simp only [step, hs]
  refine ⟨_, rfl, ⟨_, rfl⟩, ?_⟩
  simp only [MapFile.blocks, Tail.blocks, List.append_nil] at hd ⊢
  exact forall₂_snoc' hd denotes_nil

theorem step_open_entity {c : List (List Item)} {items : List Item} {s : State F}
    (hI : Inv ⟨c, .inEntity items⟩ s) :
    ∃ s', step s .openBrace = .ok s' ∧ Inv ⟨c, .inBrush items []⟩ s' := by
  obtain ⟨⟨e, hs⟩, hd⟩ := hI
  obtain ⟨es, ent, he, h1, h2⟩ := forall₂_snoc.1 hd
  simp only [step, hs, he, withLast_snoc, Outcome.ok_bind]
  exact ⟨_, rfl, ⟨_, _, rfl⟩, forall₂_snoc' h1 (denotes_brush h2 .nil)⟩

theorem step_close_entity {c : List (List Item)} {items : List Item} {s : State F}
    (hI : Inv ⟨c, .inEntity items⟩ s) :
    ∃ s', step s .closeBrace = .ok s' ∧ Inv ⟨c ++ [items], .none⟩ s' := by
  obtain ⟨⟨e, hs⟩, hd⟩ := hI
  simp only [step, hs]
  refine ⟨_, rfl, rfl, ?_⟩
  simpa [MapFile.blocks, Tail.blocks] using hd

theorem step_close_brush {c : List (List Item)} {items : List Item} {faces : List Str} {s : State F}
    (hI : Inv ⟨c, .inBrush items faces⟩ s) :
    ∃ s', step s .closeBrace = .ok s' ∧ Inv ⟨c, .inEntity (items ++ [.brush faces])⟩ s' := by
  obtain ⟨⟨e, b, hs⟩, hd⟩ := hI
  simp only [step, hs]
  exact ⟨_, rfl, ⟨_, rfl⟩, by simpa [MapFile.blocks, Tail.blocks] using hd⟩

theorem step_prop {c : List (List Item)} {items : List Item} {s : State F}
    (hI : Inv ⟨c, .inEntity items⟩ s) (k v : Str) :
    ∃ s', step s (.property k v) = .ok s' ∧ Inv ⟨c, .inEntity (items ++ [.prop k v])⟩ s' := by
  obtain ⟨⟨e, hs⟩, hd⟩ := hI
  obtain ⟨es, ent, he, h1, h2⟩ := forall₂_snoc.1 hd
  simp only [step, hs, he, withLast_snoc, Outcome.ok_bind]
  exact ⟨_, rfl, ⟨_, rfl⟩, forall₂_snoc' h1 (denotes_prop h2 k v)⟩

/-- A face line inside a brush: the outcome is decided by reading the face. -/
theorem step_face {c : List (List Item)} {items : List Item} {faces : List Str} {s : State F}
    (hI : Inv ⟨c, .inBrush items faces⟩ s) (line : Str) :
    ∃ mk : BrushPlane F → State F,
      step s (.brushPlane line) = (BrushPlane.new line).bind (fun p => .ok (mk p)) ∧
      ∀ p, BrushPlane.new line = .ok p → Inv ⟨c, .inBrush items (faces ++ [line])⟩ (mk p) := by
  obtain ⟨⟨e, b, hs⟩, hd⟩ := hI
  obtain ⟨es, ent, he, h1, h2⟩ := forall₂_snoc.1 hd
  obtain ⟨bs, br, hbs, hbr, h3⟩ := denotes_brush_inv h2
  refine ⟨fun plane => ⟨.brush e b,
      s.tokenPaths.insert (.brushPlane line) (.brushPlane e b br.planes.length),
      es ++ [{ ent with brushes := bs ++ [⟨br.planes ++ [plane]⟩] }]⟩, ?_, ?_⟩
  · simp only [step, hs, he, withLast_snoc, hbs, Outcome.bind_assoc, Outcome.ok_bind]
  · intro p hp
    exact ⟨⟨_, _, rfl⟩, forall₂_snoc' h1 (denotes_brush h3 (forall₂_snoc' hbr ((faceText_iff _ _).1 hp)))⟩

/-- One accepted token extends the file. -/
theorem step_inv {f : MapFile} {s s' : State F} {t : Token} (hI : Inv f s) (h : step s t = .ok s') :
    ∃ f', f'.toks = f.toks ++ [t].filter (fun t => !isJunk t) ∧ Inv f' s' := by
  obtain ⟨closed, tail⟩ := f
  cases t with
  | comment c => cases h; exact ⟨⟨closed, tail⟩, by simp [isJunk], hI⟩
  | unrecognized c => cases h; exact ⟨⟨closed, tail⟩, by simp [isJunk], hI⟩
  | openBrace =>
    cases tail with
    | none =>
      obtain ⟨s1, h1, h2⟩ := step_open_file hI
      rw [h] at h1; cases h1
      exact ⟨_, by simp [MapFile.toks, Tail.toks, isJunk], h2⟩
    | inEntity items =>
      obtain ⟨s1, h1, h2⟩ := step_open_entity hI
      rw [h] at h1; cases h1
      exact ⟨_, by simp [MapFile.toks, Tail.toks, isJunk], h2⟩
    | inBrush items faces =>
      obtain ⟨⟨e, b, hs⟩, hd⟩ := hI
      simp [step, hs] at h
  | closeBrace =>
    cases tail with
    | none =>
      obtain ⟨hs, hd⟩ := hI
      change s.scope = _ at hs
      simp [step, hs] at h
    | inEntity items =>
      obtain ⟨s1, h1, h2⟩ := step_close_entity hI
      rw [h] at h1; cases h1
      exact ⟨_, by simp [MapFile.toks, Tail.toks, isJunk, blockToks], h2⟩
    | inBrush items faces =>
      obtain ⟨s1, h1, h2⟩ := step_close_brush hI
      rw [h] at h1; cases h1
      exact ⟨_, by simp [MapFile.toks, Tail.toks, isJunk, Item.toks], h2⟩
  | property k v =>
    cases tail with
    | none =>
      obtain ⟨hs, hd⟩ := hI
      change s.scope = _ at hs
      simp [step, hs] at h
    | inEntity items =>
      obtain ⟨s1, h1, h2⟩ := step_prop hI k v
      rw [h] at h1; cases h1
      exact ⟨_, by simp [MapFile.toks, Tail.toks, isJunk, Item.toks], h2⟩
    | inBrush items faces =>
      obtain ⟨⟨e, b, hs⟩, hd⟩ := hI
      simp [step, hs] at h
  | brushPlane line =>
    cases tail with
    | none =>
      obtain ⟨hs, hd⟩ := hI
      change s.scope = _ at hs
      simp [step, hs] at h
    | inEntity items =>
      obtain ⟨⟨e, hs⟩, hd⟩ := hI
      simp [step, hs] at h
    | inBrush items faces =>
      obtain ⟨mk, h1, h2⟩ := step_face hI line
      rw [h1] at h
      obtain ⟨p, hp, h⟩ := Outcome.bind_eq_ok.1 h
      cases h
      exact ⟨_, by simp [MapFile.toks, Tail.toks, isJunk], h2 p hp⟩

theorem fold_inv {f : MapFile} {s s' : State F} {ts : List Token} (hI : Inv f s)
    (h : foldOut step s ts = .ok s') :
    ∃ f', f'.toks = f.toks ++ ts.filter (fun t => !isJunk t) ∧ Inv f' s' := by
  induction ts generalizing f s with
  | nil => cases h; exact ⟨f, by simp, hI⟩
  | cons t ts ih =>
    obtain ⟨s1, h1, h2⟩ := Outcome.bind_eq_ok.1 h
    obtain ⟨f1, hf1, hI1⟩ := step_inv hI h1
    obtain ⟨f2, hf2, hI2⟩ := ih hI1 h2
    refine ⟨f2, ?_, hI2⟩
    rw [hf2, hf1, List.append_assoc, ← List.filter_append]
    rfl

theorem init_inv : Inv (F := F) ⟨[], .none⟩ init := ⟨rfl, .nil⟩

/-- Junk tokens do nothing. -/
theorem fold_filter (s : State F) (ts : List Token) :
    foldOut step s ts = foldOut step s (ts.filter fun t => !isJunk t) := by
  induction ts generalizing s with
  | nil => rfl
  | cons t ts ih =>
    cases hj : isJunk t with
    | true =>
      have : step s t = .ok s := by cases t <;> simp_all [isJunk, step]
      rw [foldOut_cons, this, Outcome.ok_bind, ih]
      simp [hj]
    | false =>
      simp only [List.filter_cons, hj, Bool.not_false, if_true, foldOut_cons]
      exact Outcome.bind_congr fun s1 _ => ih s1

/-! ### Files of the grammar load -/

theorem Spec.FacesOk.left {a b : List Token} (h : FacesOk F (a ++ b)) : FacesOk F a :=
  fun l hl => h l (by simp [hl])
theorem Spec.FacesOk.right {a b : List Token} (h : FacesOk F (a ++ b)) : FacesOk F b :=
  fun l hl => h l (by simp [hl])
theorem Spec.FacesOk.tail {a : Token} {b : List Token} (h : FacesOk F (a :: b)) : FacesOk F b :=
  fun l hl => h l (by simp [hl])

theorem fold_faces {c : List (List Item)} {items : List Item} {faces : List Str} {s : State F}
    (hI : Inv ⟨c, .inBrush items faces⟩ s) {more : List Str}
    (hf : FacesOk F (more.map .brushPlane)) :
    ∃ s', foldOut step s (more.map .brushPlane) = .ok s' ∧ Inv ⟨c, .inBrush items (faces ++ more)⟩ s' := by
  induction more generalizing s faces with
  | nil => exact ⟨s, rfl, by simpa using hI⟩
  | cons line more ih =>
    obtain ⟨p, hp⟩ := hf line (by simp)
    rw [← faceText_iff] at hp
    obtain ⟨mk, h1, h2⟩ := step_face hI line
    obtain ⟨s', h3, h4⟩ := ih (h2 p hp) (FacesOk.tail hf)
    refine ⟨s', ?_, by simpa using h4⟩
    rw [List.map_cons, foldOut_cons, h1, hp]
    exact h3

theorem fold_items {c : List (List Item)} {items : List Item} {s : State F}
    (hI : Inv ⟨c, .inEntity items⟩ s) {more : List Item} (hf : FacesOk F (more.flatMap Item.toks)) :
    ∃ s', foldOut step s (more.flatMap Item.toks) = .ok s' ∧ Inv ⟨c, .inEntity (items ++ more)⟩ s' := by
  induction more generalizing s items with
  | nil => exact ⟨s, rfl, by simpa using hI⟩
  | cons it more ih =>
    rw [List.flatMap_cons] at hf
    have hit : ∃ s1, foldOut step s it.toks = .ok s1 ∧ Inv ⟨c, .inEntity (items ++ [it])⟩ s1 := by
      cases it with
      | prop k v =>
        obtain ⟨s1, h1, h2⟩ := step_prop hI k v
        exact ⟨s1, by simp [Item.toks, foldOut_cons, h1], h2⟩
      | brush faces =>
        have hf1 := hf.left
        simp only [Item.toks] at hf1
        obtain ⟨s1, h1, h2⟩ := step_open_entity hI
        obtain ⟨s2, h3, h4⟩ := fold_faces h2 (hf1.tail.left)
        obtain ⟨s3, h5, h6⟩ := step_close_brush h4
        refine ⟨s3, ?_, by simpa using h6⟩
        simp [Item.toks, foldOut_cons, h1, foldOut_append, h3, h5]
    obtain ⟨s1, h1, h2⟩ := hit
    obtain ⟨s2, h3, h4⟩ := ih h2 hf.right
    refine ⟨s2, ?_, by simpa using h4⟩
    rw [List.flatMap_cons, foldOut_append, h1]
    exact h3

theorem fold_blocks {c : List (List Item)} {s : State F} (hI : Inv ⟨c, .none⟩ s)
    {more : List (List Item)} (hf : FacesOk F (more.flatMap blockToks)) :
    ∃ s', foldOut step s (more.flatMap blockToks) = .ok s' ∧ Inv ⟨c ++ more, .none⟩ s' := by
  induction more generalizing s c with
  | nil => exact ⟨s, rfl, by simpa using hI⟩
  | cons items more ih =>
    rw [List.flatMap_cons] at hf
    obtain ⟨s1, h1, h2⟩ := step_open_file hI
    obtain ⟨s2, h3, h4⟩ := fold_items h2 (more := items) (hf.left.tail.left)
    obtain ⟨s3, h5, h6⟩ := step_close_entity h4
    obtain ⟨s4, h7, h8⟩ := ih h6 hf.right
    refine ⟨s4, ?_, by simpa using h8⟩
    rw [List.flatMap_cons, foldOut_append]
    simp [blockToks, foldOut_cons, h1, foldOut_append, h3, h5, h7]

theorem fold_file (f : MapFile) (hf : FacesOk F f.toks) :
    ∃ s' : State F, foldOut step init f.toks = .ok s' ∧ Inv f s' := by
  obtain ⟨closed, tail⟩ := f
  simp only [MapFile.toks] at hf
  obtain ⟨s1, h1, h2⟩ := fold_blocks (F := F) init_inv hf.left
  simp only [List.nil_append] at h2
  simp only [MapFile.toks, foldOut_append, h1, Outcome.ok_bind]
  have hf2 := hf.right
  cases tail with
  | none => exact ⟨s1, rfl, h2⟩
  | inEntity items =>
    simp only [Tail.toks] at hf2 ⊢
    obtain ⟨s2, h3, h4⟩ := step_open_file h2
    obtain ⟨s3, h5, h6⟩ := fold_items h4 hf2.tail
    exact ⟨s3, by simp [foldOut_cons, h3, h5], by simpa using h6⟩
  | inBrush items faces =>
    simp only [Tail.toks] at hf2 ⊢
    obtain ⟨s2, h3, h4⟩ := step_open_file h2
    obtain ⟨s3, h5, h6⟩ := fold_items h4 hf2.tail.left
    obtain ⟨s4, h7, h8⟩ := step_open_entity h6
    obtain ⟨s5, h9, h10⟩ := fold_faces h8 hf2.tail.right.tail
    exact ⟨s5, by simp [foldOut_cons, h3, foldOut_append, h5, h7, h9], by simpa using h10⟩

/-- A file whose blocks denote entities has readable faces. -/
theorem facesOk_of_denotes {f : MapFile} {es : List (Entity F)} (h : List.Forall₂ Denotes f.blocks es) :
    FacesOk F f.toks := by
  -- every face line is a face of a brush of a block
  have hmem : ∀ line, .brushPlane line ∈ f.toks →
      ∃ items ∈ f.blocks, ∃ faces, Item.brush faces ∈ items ∧ line ∈ faces := by
    have hitem : ∀ (items : List Item) line, Token.brushPlane line ∈ items.flatMap Item.toks →
        ∃ faces, Item.brush faces ∈ items ∧ line ∈ faces := by
      intro items line hl
      obtain ⟨it, hit, hl⟩ := List.mem_flatMap.1 hl
      cases it with
      | prop k v => simp [Item.toks] at hl
      | brush faces => exact ⟨faces, hit, by simpa [Item.toks] using hl⟩
    intro line hl
    obtain ⟨closed, tail⟩ := f
    simp only [MapFile.toks, List.mem_append] at hl
    rcases hl with hl | hl
    · obtain ⟨items, hit, hl⟩ := List.mem_flatMap.1 hl
      refine ⟨items, by simp [MapFile.blocks, hit], hitem items line ?_⟩
      simpa [blockToks] using hl
    · cases tail with
      | none => simp [Tail.toks] at hl
      | inEntity items =>
        exact ⟨items, by simp [MapFile.blocks, Tail.blocks],
          hitem items line (by simpa [Tail.toks] using hl)⟩
      | inBrush items faces =>
        refine ⟨items ++ [.brush faces], by simp [MapFile.blocks, Tail.blocks], ?_⟩
        simp only [Tail.toks, List.mem_cons, List.mem_append, List.mem_map] at hl
        rcases hl with hl | hl | hl | ⟨x, hx, hl⟩
        · cases hl
        · obtain ⟨fs, h1, h2⟩ := hitem items line hl
          exact ⟨fs, by simp [h1], h2⟩
        · cases hl
        · cases hl; exact ⟨faces, by simp, hx⟩
  intro line hl
  obtain ⟨items, hi, faces, hfc, hline⟩ := hmem line hl
  have hex : ∀ {α β : Type} {R : α → β → Prop} {xs : List α} {ys : List β}, List.Forall₂ R xs ys →
      ∀ x ∈ xs, ∃ y, R x y := by
    intro α β R xs ys h
    induction h with
    | nil => simp
    | cons h1 _ ih =>
      intro x hx
      rcases List.mem_cons.1 hx with rfl | hx
      · exact ⟨_, h1⟩
      · exact ih x hx
  obtain ⟨e, he⟩ := hex h items hi
  obtain ⟨b, hb⟩ := hex he.2 faces (List.mem_filterMap.2 ⟨_, hfc, rfl⟩)
  exact hex hb line hline

/-- The parser accepts exactly the files of the grammar with readable faces, and returns what they
denote. -/
theorem run_iff_grammar (tokens : List Token) (es : List (Entity F)) :
    (∃ paths, Parser.run tokens = .ok (paths, es)) ↔
      ∃ f : MapFile, f.toks = tokens.filter (fun t => !isJunk t) ∧ List.Forall₂ Denotes f.blocks es := by
  unfold Parser.run
  constructor
  · rintro ⟨paths, h⟩
    obtain ⟨s, h1, h2⟩ := Outcome.bind_eq_ok.1 h
    cases h2
    obtain ⟨f, hf, hI⟩ := fold_inv init_inv h1
    exact ⟨f, by simpa [MapFile.toks, Tail.toks] using hf, hI.2⟩
  · rintro ⟨f, hf, hd⟩
    obtain ⟨s, h1, h2⟩ := fold_file (F := F) f (facesOk_of_denotes hd)
    rw [fold_filter, ← hf, h1]
    refine ⟨s.tokenPaths, ?_⟩
    rw [Outcome.ok_bind, forall₂_unique (R := Denotes) (fun _ _ _ => denotes_unique) h2.2 hd]

end
end Quarch
