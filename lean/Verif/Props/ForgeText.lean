import Verif.Props.Forge
/-
C66: FGD text determines what was printed.
-/
set_option linter.unusedSectionVars false

namespace Quarch
open Spec Forge

section
variable {F : Type} [Arith F]

theorem clean_append {a b : Str} : Clean (a ++ b) ↔ Clean a ∧ Clean b := by
  unfold Clean
  simp only [List.mem_append, not_or]
  tauto

/-! ### shape of property texts -/

/-- Everything after the name, the kind word and its parentheses. -/
def restOf (p : Property F) (v : Str) : Str :=
  str! " : \"" ++ p.shortDescription ++ str! "\" : " ++ v ++ str! " : \"" ++ p.longDescription ++ str! "\""

/-- Text of the value in a one-line property. -/
inductive LineValue : PropertyData F → Str → Prop
  | integer (i : Int) : LineValue (.integer i) (dec i)
  | float (f : F) : LineValue (.float f) (Arith.disp f)
  | vector3 (v : V3 F) : LineValue (.vector3 v)
      ('"' :: (Arith.disp v.x ++ ' ' :: (Arith.disp v.y ++ ' ' :: Arith.disp v.z) ++ ['"']))
  | string (s : Str) : LineValue (.string s) ('"' :: (s ++ ['"']))
  | color (c : Color F) : LineValue (.color c) ('"' :: (dec (Arith.toI32 (Arith.mul c.r Arith.c255)) ++ ' ' ::
        (dec (Arith.toI32 (Arith.mul c.g Arith.c255)) ++ ' ' ::
          dec (Arith.toI32 (Arith.mul c.b Arith.c255))) ++ ['"']))

theorem line_text {checks : Bool} {p : Property F} {v : Str} (h : LineValue p.data v) :
    Property.toStr checks p = .ok (p.name ++ '(' :: (kindWord p.data ++ ')' :: restOf p v)) := by
  unfold Property.toStr restOf
  revert h
  generalize p.data = data
  intro h
  cases h <;> simp [propertyLine, kindWord, showInt_eq, Color.toStr]

theorem target_text {checks : Bool} {p : Property F} (h : p.data = .targetSource ∨ p.data = .targetDestination) :
    Property.toStr checks p = .ok (p.name ++ '(' :: (kindWord p.data ++ ')' ::
      (str! " : \"" ++ p.shortDescription ++ str! "\" : : \"" ++ p.longDescription ++ str! "\""))) := by
  unfold Property.toStr
  rcases h with h | h <;> rw [h] <;> simp [kindWord]

theorem flags_text {checks : Bool} {p : Property F} {fs : List Str} {d : Int} (hp : p.data = .flags fs d)
    {t : Str} (h : Property.toStr checks p = .ok t) :
    t = p.name ++ '(' :: (kindWord p.data ++ ')' :: ' ' :: '=' :: '\n' :: '\t' :: '[' :: '\n' ::
        ((((fs.zipIdx 0).map fun q => rowOf d q.2 q.1).map fun r => '\t' :: '\t' :: (r ++ ['\n'])).flatten ++
          ['\t', ']'])) := by
  unfold Property.toStr at h
  rw [hp] at h ⊢
  simp only at h
  by_cases hc : 0 + fs.length ≤ 31 ∨ checks = false
  · rw [flagLines_ok hc, Outcome.ok_bind] at h
    cases h
    simp [kindWord]
  · simp only [not_or, Bool.not_eq_false] at hc
    obtain ⟨hl, rfl⟩ := hc
    obtain ⟨m, hm⟩ := flagLines_panic (d := d) (fs := fs) (n := 0) (by omega) (by omega)
    rw [hm] at h
    cases h

theorem choices_text {checks : Bool} {p : Property F} {cs : List (Choice F)} {d : Int}
    (hp : p.data = .choices cs d) {t : Str} (h : Property.toStr checks p = .ok t) :
    ∃ c v, 0 ≤ d ∧ cs[d.toNat]? = some c ∧ DefaultText c.value v ∧
      t = p.name ++ '(' :: (kindWord p.data ++ ')' :: (str! " : \"" ++ p.shortDescription ++ str! "\" : \"" ++ v ++
        '"' :: ' ' :: '=' :: '\n' :: '\t' :: '[' :: '\n' ::
        (((cs.map Choice.toStr).map fun r => '\t' :: '\t' :: (r ++ ['\n'])).flatten ++ ['\t', ']']))) := by
  unfold Property.toStr at h
  rw [hp] at h ⊢
  simp only at h
  obtain ⟨c, h1, h2⟩ := Outcome.bind_eq_ok.1 h
  cases h2
  obtain ⟨h3, h4⟩ := choiceAt_iff.1 h1
  refine ⟨c, _, h3, h4, display_text c.value, ?_⟩
  have e : ((cs.map Choice.toStr).map fun r => '\t' :: '\t' :: (r ++ ['\n'])) =
      cs.map fun c => str! "\t\t" ++ c.toStr ++ str! "\n" := by
    rw [List.map_map]
    apply List.map_congr_left
    intro c _
    simp
  rw [e]
  simp [kindWord]

theorem data_cases (data : PropertyData F) :
    (∃ v, LineValue data v) ∨ (data = .targetSource ∨ data = .targetDestination) ∨
    (∃ fs d, data = .flags fs d) ∨ ∃ cs d, data = .choices cs d := by
  cases data with
  | integer i => exact .inl ⟨_, .integer i⟩
  | float f => exact .inl ⟨_, .float f⟩
  | vector3 v => exact .inl ⟨_, .vector3 v⟩
  | string s => exact .inl ⟨_, .string s⟩
  | color c => exact .inl ⟨_, .color c⟩
  | choices cs d => exact .inr (.inr (.inr ⟨cs, d, rfl⟩))
  | flags fs d => exact .inr (.inr (.inl ⟨fs, d, rfl⟩))
  | targetSource => exact .inr (.inl (.inl rfl))
  | targetDestination => exact .inr (.inl (.inr rfl))

theorem kindWord_clean (data : PropertyData F) : Clean (kindWord data) ∧ ')' ∉ kindWord data := by
  cases data <;> simp [kindWord, Clean]

theorem lineValue_newline (hF : PlainDisplay F) {data : PropertyData F} {v : Str} (h : LineValue data v)
    (hc : CleanData data) : '\n' ∉ v := by
  cases h with
  | integer i => exact (dec_clean i).2
  | float f => exact (hF f).2
  | vector3 w => simp [(hF w.x).2, (hF w.y).2, (hF w.z).2]
  | string s => simpa using hc.2
  | color c => simp [(dec_clean _).2]

theorem rowOf_newline {d : Int} {i : Nat} {s : Str} (h : '\n' ∉ s) : '\n' ∉ rowOf d i s := by
  unfold rowOf
  simp only [List.mem_append, not_or]
  refine ⟨⟨⟨⟨(dec_clean _).2, by decide⟩, h⟩, by decide⟩, ?_⟩
  generalize (if i < 31 then (2 : Int) ^ i else if i = 31 then -2147483648 else 0) = bit
  split <;> decide

theorem choiceText_newline (hF : PlainDisplay F) {v : ChoiceData F} {t : Str} (h : ChoiceText v t)
    (hs : ∀ s, v = .string s → Clean s) : '\n' ∉ t := by
  cases h with
  | integer i => exact (dec_clean i).2
  | float f => exact (hF f).2
  | string s => simpa using (hs s rfl).2

theorem choice_newline (hF : PlainDisplay F) {c : Choice F}
    (h : Clean c.name ∧ ∀ s, c.value = .string s → Clean s) : '\n' ∉ c.toStr := by
  obtain ⟨v, h1, h2⟩ := choice_text c
  rw [h2]
  simp [choiceText_newline hF h1 h.2, h.1.2]

theorem defaultText_clean (hF : PlainDisplay F) {v : ChoiceData F} {t : Str} (h : DefaultText v t)
    (hs : ∀ s, v = .string s → Clean s) : Clean t := by
  cases h with
  | integer i => exact dec_clean i
  | float f => exact hF f
  | string => exact hs _ rfl

/-- A clean property prints as one line or as a table. -/
theorem property_propText (hF : PlainDisplay F) {checks : Bool} {p : Property F} (hc : CleanProperty p)
    {t : Str} (h : Property.toStr checks p = .ok t) : PropText t := by
  have hk := (kindWord_clean p.data).1.2
  rcases data_cases p.data with ⟨v, hv⟩ | ht | ⟨fs, d, hp⟩ | ⟨cs, d, hp⟩
  · rw [line_text hv] at h
    cases h
    refine .line ?_ ?_
    · unfold restOf
      simp [hc.name.2, hc.short.2, hc.long.2, hk, lineValue_newline hF hv hc.data]
    · unfold restOf
      have : p.name ++ '(' :: (kindWord p.data ++ ')' :: (str! " : \"" ++ p.shortDescription ++ str! "\" : " ++ v ++
          str! " : \"" ++ p.longDescription ++ str! "\"")) =
        (p.name ++ '(' :: (kindWord p.data ++ ')' :: (str! " : \"" ++ p.shortDescription ++ str! "\" : " ++ v ++
          str! " : \"" ++ p.longDescription))) ++ ['"'] := by simp
      rw [this, List.getLast?_append]
      simp
  · rw [target_text ht] at h
    cases h
    refine .line ?_ ?_
    · simp [hc.name.2, hc.short.2, hc.long.2, hk]
    · have : p.name ++ '(' :: (kindWord p.data ++ ')' :: (str! " : \"" ++ p.shortDescription ++ str! "\" : : \"" ++
          p.longDescription ++ str! "\"")) =
        (p.name ++ '(' :: (kindWord p.data ++ ')' :: (str! " : \"" ++ p.shortDescription ++ str! "\" : : \"" ++
          p.longDescription))) ++ ['"'] := by simp
      rw [this, List.getLast?_append]
      simp
  · rw [flags_text hp h]
    have hd := hc.data
    rw [hp] at hd
    have := PropText.table (head := p.name ++ '(' :: (kindWord p.data ++ [')', ' ']))
      (rows := (fs.zipIdx 0).map fun q => rowOf d q.2 q.1)
      (by simp [hc.name.2, hk]) (by
        intro r hr
        obtain ⟨q, hq, rfl⟩ := List.mem_map.1 hr
        exact rowOf_newline (hd q.1 (List.fst_mem_of_mem_zipIdx hq)).2)
    simpa using this
  · obtain ⟨c, v, h1, h2, h3, rfl⟩ := choices_text hp h
    have hd := hc.data
    rw [hp] at hd
    have hcm : c ∈ cs := List.mem_of_getElem? h2
    have := PropText.table (head := p.name ++ '(' :: (kindWord p.data ++ ')' :: (str! " : \"" ++ p.shortDescription ++
        str! "\" : \"" ++ v ++ ['"', ' '])))
      (rows := cs.map Choice.toStr)
      (by simp [hc.name.2, hc.short.2, hk, (defaultText_clean hF h3 (hd c hcm).2).2]) (by
        intro r hr
        obtain ⟨c', hc', rfl⟩ := List.mem_map.1 hr
        exact choice_newline hF (hd c' hc'))
    simpa using this

/-! ### definitions -/

theorem joinComma_quote {l : List Str} (h : ∀ c ∈ l, '"' ∉ c) : '"' ∉ joinComma l := by
  induction l with
  | nil => simp [joinComma]
  | cons a l ih =>
    cases l with
    | nil => exact h a (by simp)
    | cons b l =>
      rw [joinComma_cons (by simp)]
      simp only [List.mem_append, not_or]
      exact ⟨⟨h a (by simp), by decide⟩, ih fun c hc => h c (by simp [hc])⟩

theorem metadata_quote (hF : PlainDisplay F) {m : Metadata F}
    (h : ∀ cs, m = .base cs → ∀ c ∈ cs, Clean c) : '"' ∉ m.toStr := by
  cases m with
  | base cs =>
    rw [C67_exact]
    have := joinComma_quote (l := cs.dropWhile fun c => c.isEmpty)
      (fun c hc => (h cs rfl c ((List.dropWhile_sublist _).subset hc)).1)
    simp [this]
  | color c => simp [Metadata.toStr, Color.toStr, showInt_eq, (dec_clean _).1]
  | size a b => simp [Metadata.toStr, (hF _).1]

/-- Texts of definitions at the beginning of a text. -/
theorem entity_split (hF : PlainDisplay F) {checks checks' : Bool} {e e' : Forge.Entity F} (hc : CleanEntity e)
    (hc' : CleanEntity e') {ps qs : List Str} {x y : Str}
    (h1 : List.Forall₂ (fun p s => Property.toStr checks p = .ok s) e.properties ps)
    (h2 : List.Forall₂ (fun p s => Property.toStr checks' p = .ok s) e'.properties qs)
    (he : e.classType.keyword ++ str! " " ++ (e.metadata.map fun m => m.toStr ++ str! " ").flatten ++
          str! "= " ++ e.className ++ str! " : \"" ++ e.description ++ str! "\"\n[\n" ++
          (ps.map fun s => str! "\t" ++ s ++ str! "\n").flatten ++ str! "]" ++ x =
        e'.classType.keyword ++ str! " " ++ (e'.metadata.map fun m => m.toStr ++ str! " ").flatten ++
          str! "= " ++ e'.className ++ str! " : \"" ++ e'.description ++ str! "\"\n[\n" ++
          (qs.map fun s => str! "\t" ++ s ++ str! "\n").flatten ++ str! "]" ++ y) :
    e.classType = e'.classType ∧ e.className = e'.className ∧ e.description = e'.description ∧
    (e.metadata.map fun m => m.toStr ++ [' ']).flatten = (e'.metadata.map fun m => m.toStr ++ [' ']).flatten ∧
    ps = qs ∧ x = y := by
  have kq : ∀ c : ClassType, '"' ∉ c.keyword ∧ ' ' ∉ c.keyword ∧ '=' ∉ c.keyword := by
    intro c; cases c <;> decide
  have mq : ∀ {e : Forge.Entity F}, CleanEntity e →
      '"' ∉ (e.metadata.map fun m => m.toStr ++ [' ']).flatten := by
    intro e hc hm
    obtain ⟨s, hs, hq⟩ := List.mem_flatten.1 hm
    obtain ⟨m, hm, rfl⟩ := List.mem_map.1 hs
    simp only [List.mem_append, List.mem_singleton] at hq
    rcases hq with hq | hq
    · exact metadata_quote hF (fun cs hcs => hc.base m hm cs hcs) hq
    · exact absurd hq (by decide)
  generalize hm : (e.metadata.map fun m => m.toStr ++ [' ']).flatten = md at he
  generalize hm' : (e'.metadata.map fun m => m.toStr ++ [' ']).flatten = md' at he
  have q1 : '"' ∉ md := hm ▸ mq hc
  have q2 : '"' ∉ md' := hm' ▸ mq hc'
  have he2 : (e.classType.keyword ++ ' ' :: (md ++ '=' :: ' ' :: (e.className ++ [' ', ':', ' ']))) ++
      '"' :: (e.description ++ '"' :: '\n' :: '[' :: '\n' ::
        ((ps.map fun s => '\t' :: (s ++ ['\n'])).flatten ++ ']' :: x)) =
      (e'.classType.keyword ++ ' ' :: (md' ++ '=' :: ' ' :: (e'.className ++ [' ', ':', ' ']))) ++
      '"' :: (e'.description ++ '"' :: '\n' :: '[' :: '\n' ::
        ((qs.map fun s => '\t' :: (s ++ ['\n'])).flatten ++ ']' :: y)) := by
    simpa using he
  obtain ⟨a1, a2⟩ := split_first (by simp [(kq _).1, q1, hc.className.1])
    (by simp [(kq _).1, q2, hc'.className.1]) he2
  obtain ⟨b1, b2⟩ := split_first hc.description.1 hc'.description.1 a2
  simp only [List.cons.injEq, true_and] at b2
  have a1' : (e.classType.keyword ++ ' ' :: md) ++ '=' :: (' ' :: (e.className ++ [' ', ':', ' '])) =
      (e'.classType.keyword ++ ' ' :: md') ++ '=' :: (' ' :: (e'.className ++ [' ', ':', ' '])) := by
    simpa using a1
  obtain ⟨c1, c2⟩ := split_last (by simp [hc.noEq]) (by simp [hc'.noEq]) a1'
  obtain ⟨d1, d2⟩ := split_first (kq _).2.1 (kq _).2.1 c1
  have pt : ∀ {checks : Bool} {e : Forge.Entity F} {ps : List Str}, CleanEntity e →
      List.Forall₂ (fun p s => Property.toStr checks p = .ok s) e.properties ps → ∀ s ∈ ps, PropText s := by
    intro checks e ps hc h s hs
    have hcp := hc.properties
    revert hcp
    generalize e.properties = l at h
    intro hcp
    induction h with
    | nil => cases hs
    | cons hx _ ih =>
      rcases List.mem_cons.1 hs with rfl | hs
      · exact property_propText hF (hcp _ (by simp)) hx
      · exact ih hs fun p hp => hcp p (by simp [hp])
  obtain ⟨f1, f2⟩ := propTexts_unique (pt hc h1) (pt hc' h2) b2
  refine ⟨?_, ?_, b1, d2, f1, f2⟩
  · revert d1
    cases e.classType <;> cases e'.classType <;> decide
  · exact List.append_cancel_right (List.cons.inj c2).2

/-- C66: definitions with the same text have the same class type, metadata text, class name, description and
property texts (clean texts; the class name has no `=`). -/
theorem C66_entity (hF : PlainDisplay F) (checks checks' : Bool) (e e' : Forge.Entity F) (hc : CleanEntity e)
    (hc' : CleanEntity e') (t : Str) (h : Forge.Entity.toStr checks e = .ok t)
    (h' : Forge.Entity.toStr checks' e' = .ok t) :
    e.classType = e'.classType ∧ e.className = e'.className ∧ e.description = e'.description ∧
    (e.metadata.map fun m => m.toStr ++ [' ']).flatten = (e'.metadata.map fun m => m.toStr ++ [' ']).flatten ∧
    e.properties.map (Property.toStr checks) = e'.properties.map (Property.toStr checks') := by
  obtain ⟨ps, h1, rfl⟩ := entity_ok_iff.1 h
  obtain ⟨qs, h2, he⟩ := entity_ok_iff.1 h'
  clear h h'
  obtain ⟨a1, a2, a3, a4, f1, _⟩ := entity_split hF hc hc' h1 h2 (x := []) (y := []) (by simpa using he)
  have mp : ∀ {checks : Bool} {l : List (Property F)} {ps : List Str},
      List.Forall₂ (fun p s => Property.toStr checks p = .ok s) l ps →
      l.map (Property.toStr checks) = ps.map Outcome.ok := by
    intro checks l ps h
    induction h with
    | nil => rfl
    | cons hx _ ih => simp [hx, ih]
  exact ⟨a1, a2, a3, a4, by rw [mp h1, mp h2, f1]⟩

/-- Without the proviso on `=` a class name can pose as metadata: two definitions with different class names
and the same text. -/
theorem C66_equals_sign_needed : ∃ e e' : Forge.Entity F, e.className ≠ e'.className ∧
    Clean e.className ∧ Clean e'.className ∧ ∃ t, Forge.Entity.toStr true e = .ok t ∧
      Forge.Entity.toStr true e' = .ok t := by
  refine ⟨⟨.pointClass, [.base [str! "x) = y"]], str! "z", [], []⟩,
    ⟨.pointClass, [.base [str! "x"]], str! "y) = z", [], []⟩, by simp, by simp [Clean],
    by simp [Clean], _, rfl, ?_⟩
  simp [Forge.Entity.toStr, Metadata.toStr, joinBase, mapOut]

/-- Without the proviso on quotes a description can pose as a property. -/
theorem C66_quotes_needed : ∃ e e' : Forge.Entity F, e.description ≠ e'.description ∧
    e.properties.map (·.name) ≠ e'.properties.map (·.name) ∧ ∃ t, Forge.Entity.toStr true e = .ok t ∧
      Forge.Entity.toStr true e' = .ok t := by
  refine ⟨⟨.pointClass, [], str! "z", str! "d\"\n[\n\ta(target_source) : \"x\" : : \"y",
      [⟨str! "b", str! "s", str! "l", .targetSource⟩]⟩,
    ⟨.pointClass, [], str! "z", str! "d",
      [⟨str! "a", str! "x", str! "y\"\n[\n\tb(target_source) : \"s\" : : \"l", .targetSource⟩]⟩,
    by simp, by simp, _, rfl, ?_⟩
  simp [Forge.Entity.toStr, mapOut, Property.toStr]

/-! ### one property -/

theorem paren_split {p q : Property F} (hp : '(' ∉ p.name) (hq : '(' ∉ q.name) {x y : Str}
    (h : p.name ++ '(' :: (kindWord p.data ++ ')' :: x) = q.name ++ '(' :: (kindWord q.data ++ ')' :: y)) :
    p.name = q.name ∧ kindWord p.data = kindWord q.data ∧ x = y := by
  obtain ⟨h1, h2⟩ := split_first hp hq h
  obtain ⟨h3, h4⟩ := split_first (kindWord_clean _).2 (kindWord_clean _).2 h2
  exact ⟨h1, h3, h4⟩

theorem restOf_split {p q : Property F} (hp : CleanProperty p) (hq : CleanProperty q) {v w : Str}
    (h : restOf p v = restOf q w) : p.shortDescription = q.shortDescription ∧
      p.longDescription = q.longDescription ∧ v = w := by
  unfold restOf at h
  have h' : p.shortDescription ++ '"' :: (' ' :: ':' :: ' ' :: (v ++ ' ' :: ':' :: ' ' :: '"' :: (p.longDescription ++ ['"']))) =
      q.shortDescription ++ '"' :: (' ' :: ':' :: ' ' :: (w ++ ' ' :: ':' :: ' ' :: '"' :: (q.longDescription ++ ['"']))) := by
    simpa using h
  obtain ⟨h1, h2⟩ := split_first hp.short.1 hq.short.1 h'
  simp only [List.cons.injEq, true_and] at h2
  have h3 : (v ++ [' ', ':', ' ']) ++ '"' :: (p.longDescription) = (w ++ [' ', ':', ' ']) ++ '"' :: (q.longDescription) := by
    have : (v ++ ' ' :: ':' :: ' ' :: '"' :: p.longDescription) ++ ['"'] =
      (w ++ ' ' :: ':' :: ' ' :: '"' :: q.longDescription) ++ ['"'] := by simpa using h2
    simpa using List.append_cancel_right this
  obtain ⟨h4, h5⟩ := split_last hp.long.1 hq.long.1 h3
  exact ⟨h1, h5, List.append_cancel_right h4⟩

theorem triple_split {a b c x y z : Str} (ha : ' ' ∉ a) (hb : ' ' ∉ b) (hx : ' ' ∉ x) (hy : ' ' ∉ y)
    (h : a ++ ' ' :: (b ++ ' ' :: c) = x ++ ' ' :: (y ++ ' ' :: z)) : a = x ∧ b = y ∧ c = z := by
  obtain ⟨h1, h2⟩ := split_first ha hx h
  obtain ⟨h3, h4⟩ := split_first hb hy h2
  exact ⟨h1, h3, h4⟩

theorem flag_rows {d e : Int} {fs gs : List Str} {n : Nat} (hf : ∀ f ∈ fs, Clean f) (hg : ∀ f ∈ gs, Clean f)
    (h : ((fs.zipIdx n).map fun q => rowOf d q.2 q.1) = ((gs.zipIdx n).map fun q => rowOf e q.2 q.1)) :
    fs = gs ∧ ∀ i, n ≤ i → i < n + fs.length → i < 31 → (BitSet d i ↔ BitSet e i) := by
  induction fs generalizing gs n with
  | nil =>
    cases gs with
    | nil => exact ⟨rfl, fun i h1 h2 => by simp at h2; omega⟩
    | cons g gs => simp at h
  | cons f fs ih =>
    cases gs with
    | nil => simp at h
    | cons g gs =>
      simp only [List.zipIdx_cons, List.map_cons, List.cons.injEq] at h
      obtain ⟨h1, h2⟩ := h
      obtain ⟨rfl, h3⟩ := ih (fun a ha => hf a (by simp [ha])) (fun a ha => hg a (by simp [ha])) h2
      unfold rowOf at h1
      simp only at h1
      generalize hb : (if n < 31 then (2 : Int) ^ n else if n = 31 then -2147483648 else 0) = bit at h1
      have h4 : f ++ '"' :: (' ' :: ':' :: ' ' :: (if andI32 d bit > 0 then ['1'] else ['0'])) =
          g ++ '"' :: (' ' :: ':' :: ' ' :: (if andI32 e bit > 0 then ['1'] else ['0'])) := by
        simpa using h1
      obtain ⟨rfl, h5⟩ := split_first (hf f (by simp)).1 (hg g (by simp)).1 h4
      refine ⟨rfl, fun i hi hi' h31 => ?_⟩
      rcases Nat.eq_or_lt_of_le hi with rfl | hlt
      · rw [if_pos h31] at hb
        subst hb
        rw [← and_pow_pos d h31, ← and_pow_pos e h31]
        simp only [List.cons.injEq, true_and] at h5
        by_cases x1 : andI32 d (2 ^ n) > 0 <;> by_cases x2 : andI32 e (2 ^ n) > 0
        · exact iff_of_true x1 x2
        · rw [if_pos x1, if_neg x2] at h5; exact absurd h5 (by decide)
        · rw [if_neg x1, if_pos x2] at h5; exact absurd h5 (by decide)
        · exact iff_of_false x1 x2
      · exact h3 i (by omega) (by simp only [List.length_cons] at hi'; omega) h31

theorem choice_rows {cs ds : List (Choice F)}
    (hc : ∀ c ∈ cs, Clean c.name ∧ ∀ s, c.value = .string s → Clean s)
    (hd : ∀ c ∈ ds, Clean c.name ∧ ∀ s, c.value = .string s → Clean s)
    (h : cs.map Choice.toStr = ds.map Choice.toStr) :
    List.Forall₂ (fun a b => a.name = b.name ∧ ∃ v, ChoiceText a.value v ∧ ChoiceText b.value v) cs ds := by
  induction cs generalizing ds with
  | nil =>
    cases ds with
    | nil => exact .nil
    | cons d ds => simp at h
  | cons c cs ih =>
    cases ds with
    | nil => simp at h
    | cons d ds =>
      simp only [List.map_cons, List.cons.injEq] at h
      refine .cons ?_ (ih (fun a ha => hc a (by simp [ha])) (fun a ha => hd a (by simp [ha])) h.2)
      obtain ⟨v, h1, h2⟩ := choice_text c
      obtain ⟨w, h3, h4⟩ := choice_text d
      have h5 := h.1
      rw [h2, h4] at h5
      have h6 : (v ++ [' ', ':', ' ']) ++ '"' :: c.name = (w ++ [' ', ':', ' ']) ++ '"' :: d.name := by
        have : (v ++ ' ' :: ':' :: ' ' :: '"' :: c.name) ++ ['"'] = (w ++ ' ' :: ':' :: ' ' :: '"' :: d.name) ++ ['"'] := by
          simpa using h5
        simpa using List.append_cancel_right this
      obtain ⟨h7, h8⟩ := split_last (hc c (by simp)).1.1 (hd d (by simp)).1.1 h6
      obtain rfl := List.append_cancel_right h7
      exact ⟨h8, v, h1, h3⟩

/-- Is the property printed as a table of flags? -/
def isFlags : PropertyData F → Bool
  | .flags _ _ => true
  | _ => false

/-- Is the property printed as a table? -/
def isTable : PropertyData F → Bool
  | .flags _ _ => true
  | .choices _ _ => true
  | _ => false

/-- C66: properties with the same text have the same name and kind word and show the same value, and the same
descriptions as far as they are printed (flags print none, choices only the short one). -/
theorem C66_property (hF : PlainDisplay F) (checks checks' : Bool) (p q : Property F) (hp : CleanProperty p)
    (hq : CleanProperty q) (np : '(' ∉ p.name) (nq : '(' ∉ q.name) (t : Str)
    (h : Property.toStr checks p = .ok t) (h' : Property.toStr checks' q = .ok t) :
    p.name = q.name ∧ kindWord p.data = kindWord q.data ∧ SameShown p.data q.data ∧
    (isFlags p.data = false → p.shortDescription = q.shortDescription) ∧
    (isTable p.data = false → p.longDescription = q.longDescription) := by
  rcases data_cases p.data with ⟨v, hv⟩ | ht | ⟨fs, d, hpd⟩ | ⟨cs, d, hpd⟩
  · rw [line_text hv] at h
    cases h
    rcases data_cases q.data with ⟨w, hw⟩ | ht' | ⟨gs, e, hqd⟩ | ⟨ds, e, hqd⟩
    · rw [line_text hw] at h'
      obtain ⟨h1, h2, h3⟩ := paren_split nq np (Outcome.ok.inj h')
      obtain ⟨h4, h5, h6⟩ := restOf_split hq hp h3
      refine ⟨h1.symm, h2.symm, ?_, fun _ => h4.symm, fun _ => h5.symm⟩
      clear h3 h'
      revert h2 hv hw
      generalize p.data = a
      generalize q.data = b
      intro hv hw h2
      have sp : ∀ i : Int, ' ' ∉ dec i := fun i => dec_notMem i (by decide)
      cases hv <;> cases hw <;> first | (simp [kindWord] at h2; done) | skip
      · exact (dec_inj h6).symm
      · exact h6.symm
      · exact (List.append_cancel_right (List.cons.inj h6).2).symm
      · exact (List.append_cancel_right (List.cons.inj h6).2).symm
      · exact (List.append_cancel_right (List.cons.inj h6).2).symm
      · exact (List.append_cancel_right (List.cons.inj h6).2).symm
      · rename_i c c'
        have h7 := List.append_cancel_right (List.cons.inj h6).2
        obtain ⟨x, y, z⟩ := triple_split (sp _) (sp _) (sp _) (sp _) h7
        exact ⟨(dec_inj x).symm, (dec_inj y).symm, (dec_inj z).symm⟩
    · rw [target_text ht'] at h'
      obtain ⟨_, h2, _⟩ := paren_split nq np (Outcome.ok.inj h')
      exfalso
      revert h2
      rcases ht' with e | e <;> rw [e] <;> (generalize p.data = a at hv; cases hv <;> simp [kindWord])
    · obtain ⟨_, h2, _⟩ := paren_split np nq (flags_text hqd h')
      exfalso
      revert h2
      rw [hqd]
      generalize p.data = a at hv
      cases hv <;> simp [kindWord]
    · obtain ⟨_, _, _, _, _, e⟩ := choices_text hqd h'
      obtain ⟨_, h2, _⟩ := paren_split np nq e
      exfalso
      revert h2
      rw [hqd]
      generalize p.data = a at hv
      cases hv <;> simp [kindWord]
  · rw [target_text ht] at h
    cases h
    rcases data_cases q.data with ⟨w, hw⟩ | ht' | ⟨gs, e, hqd⟩ | ⟨ds, e, hqd⟩
    · rw [line_text hw] at h'
      obtain ⟨_, h2, _⟩ := paren_split nq np (Outcome.ok.inj h')
      exfalso
      revert h2
      rcases ht with e | e <;> rw [e] <;> (generalize q.data = a at hw; cases hw <;> simp [kindWord])
    · rw [target_text ht'] at h'
      obtain ⟨h1, h2, h3⟩ := paren_split nq np (Outcome.ok.inj h')
      have h4 : q.shortDescription ++ '"' :: (' ' :: ':' :: ' ' :: ':' :: ' ' :: '"' :: (q.longDescription ++ ['"'])) =
          p.shortDescription ++ '"' :: (' ' :: ':' :: ' ' :: ':' :: ' ' :: '"' :: (p.longDescription ++ ['"'])) := by
        simpa using h3
      obtain ⟨h5, h6⟩ := split_first hq.short.1 hp.short.1 h4
      simp only [List.cons.injEq, true_and] at h6
      refine ⟨h1.symm, h2.symm, ?_, fun _ => h5.symm, fun _ => (List.append_cancel_right h6).symm⟩
      revert h2
      rcases ht with e | e <;> rcases ht' with e' | e' <;> rw [e, e'] <;> simp [kindWord, SameShown]
    · obtain ⟨_, h2, _⟩ := paren_split np nq (flags_text hqd h')
      exfalso
      revert h2
      rw [hqd]
      rcases ht with e | e <;> rw [e] <;> simp [kindWord]
    · obtain ⟨_, _, _, _, _, e⟩ := choices_text hqd h'
      obtain ⟨_, h2, _⟩ := paren_split np nq e
      exfalso
      revert h2
      rw [hqd]
      rcases ht with e | e <;> rw [e] <;> simp [kindWord]
  · have hr := flags_text hpd h
    rcases data_cases q.data with ⟨w, hw⟩ | ht' | ⟨gs, e, hqd⟩ | ⟨ds, e, hqd⟩
    · rw [line_text hw] at h'
      obtain ⟨_, h2, _⟩ := paren_split nq np ((Outcome.ok.inj h').trans hr)
      exfalso
      revert h2
      rw [hpd]
      generalize q.data = a at hw
      cases hw <;> simp [kindWord]
    · rw [target_text ht'] at h'
      obtain ⟨_, h2, _⟩ := paren_split nq np ((Outcome.ok.inj h').trans hr)
      exfalso
      revert h2
      rw [hpd]
      rcases ht' with e | e <;> rw [e] <;> simp [kindWord]
    · obtain ⟨h1, h2, h3⟩ := paren_split np nq (hr.symm.trans (flags_text hqd h'))
      refine ⟨h1, h2, ?_, fun hf => by simp [hpd, isFlags] at hf, fun hf => by simp [hpd, isTable] at hf⟩
      simp only [List.cons.injEq, true_and] at h3
      have cp := hp.data
      have cq := hq.data
      rw [hpd] at cp ⊢
      rw [hqd] at cq ⊢
      have hn : ∀ {l : List Str} {d : Int}, (∀ f ∈ l, Clean f) →
          ∀ r ∈ (l.zipIdx 0).map fun q => rowOf d q.2 q.1, '\n' ∉ r := by
        intro l d hl r hr
        obtain ⟨x, hx, rfl⟩ := List.mem_map.1 hr
        exact rowOf_newline (hl x.1 (List.fst_mem_of_mem_zipIdx hx)).2
      obtain ⟨h4, _⟩ := rows_unique (hn cp) (hn cq) h3
      obtain ⟨h5, h6⟩ := flag_rows cp cq h4
      exact ⟨h5, fun i hi => h6 i (Nat.zero_le _) (by omega)⟩
    · obtain ⟨_, _, _, _, _, e⟩ := choices_text hqd h'
      obtain ⟨_, h2, _⟩ := paren_split np nq (hr.symm.trans e)
      exfalso
      revert h2
      rw [hqd, hpd]
      simp [kindWord]
  · obtain ⟨c, v, c1, c2, c3, hr⟩ := choices_text hpd h
    rcases data_cases q.data with ⟨w, hw⟩ | ht' | ⟨gs, e, hqd⟩ | ⟨ds, e, hqd⟩
    · rw [line_text hw] at h'
      obtain ⟨_, h2, _⟩ := paren_split nq np ((Outcome.ok.inj h').trans hr)
      exfalso
      revert h2
      rw [hpd]
      generalize q.data = a at hw
      cases hw <;> simp [kindWord]
    · rw [target_text ht'] at h'
      obtain ⟨_, h2, _⟩ := paren_split nq np ((Outcome.ok.inj h').trans hr)
      exfalso
      revert h2
      rw [hpd]
      rcases ht' with e | e <;> rw [e] <;> simp [kindWord]
    · obtain ⟨_, h2, _⟩ := paren_split np nq (hr.symm.trans (flags_text hqd h'))
      exfalso
      revert h2
      rw [hqd, hpd]
      simp [kindWord]
    · obtain ⟨c', v', c1', c2', c3', hr'⟩ := choices_text hqd h'
      obtain ⟨h1, h2, h3⟩ := paren_split np nq (hr.symm.trans hr')
      have h4 : p.shortDescription ++ '"' :: (' ' :: ':' :: ' ' :: '"' :: (v ++ '"' :: (' ' :: '=' :: '\n' :: '\t' :: '[' :: '\n' ::
          (((cs.map Choice.toStr).map fun r => '\t' :: '\t' :: (r ++ ['\n'])).flatten ++ '\t' :: ']' :: [])))) =
          q.shortDescription ++ '"' :: (' ' :: ':' :: ' ' :: '"' :: (v' ++ '"' :: (' ' :: '=' :: '\n' :: '\t' :: '[' :: '\n' ::
          (((ds.map Choice.toStr).map fun r => '\t' :: '\t' :: (r ++ ['\n'])).flatten ++ '\t' :: ']' :: [])))) := by
        simpa only [List.append_assoc, List.cons_append, List.nil_append, List.cons.injEq, true_and] using h3
      have cp := hp.data
      have cq := hq.data
      rw [hpd] at cp ⊢
      rw [hqd] at cq ⊢
      obtain ⟨h5, h6⟩ := split_first hp.short.1 hq.short.1 h4
      simp only [List.cons.injEq, true_and] at h6
      obtain ⟨h7, h8⟩ := split_first (defaultText_clean hF c3 (cp c (List.mem_of_getElem? c2)).2).1
        (defaultText_clean hF c3' (cq c' (List.mem_of_getElem? c2')).2).1 h6
      simp only [List.cons.injEq, true_and] at h8
      have hn : ∀ {l : List (Choice F)}, (∀ c ∈ l, Clean c.name ∧ ∀ s, c.value = .string s → Clean s) →
          ∀ r ∈ l.map Choice.toStr, '\n' ∉ r := by
        intro l hl r hr
        obtain ⟨x, hx, rfl⟩ := List.mem_map.1 hr
        exact choice_newline hF (hl x hx)
      obtain ⟨h9, _⟩ := rows_unique (hn cp) (hn cq) h8
      subst h7
      exact ⟨h1, by rw [← hpd, ← hqd]; exact h2, ⟨c, c', v, ⟨c1, c2⟩, ⟨c1', c2'⟩, c3, c3', choice_rows cp cq h9⟩,
        fun _ => h5, fun hf => by simp [isTable] at hf⟩

end
end Quarch
