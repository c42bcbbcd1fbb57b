import Verif.Props.ForgeLoad
import Verif.Spec.ForgeFile
/-
C65 and C66 for whole game definition files.
-/
set_option linter.unusedSectionVars false
namespace Quarch
open Spec Forge

section
variable {F : Type} [Arith F]

/-! ### the text -/

theorem color_text (c : Color F) : c.toStr = colorText c := by
  simp [Color.toStr, colorText, showInt_eq]

theorem metadata_text (m : Metadata F) : MetadataText m m.toStr := by
  cases m with
  | base cs => rw [C67_exact]; exact .base cs
  | color c =>
    have := MetadataText.color c
    rw [← color_text] at this
    exact this
  | size a b =>
    have := MetadataText.size a b
    simp only [joinComma] at this
    simpa [Metadata.toStr] using this

theorem metadataText_unique {m : Metadata F} {s t : Str} (h : MetadataText m s) (h' : MetadataText m t) : s = t := by
  cases h <;> cases h' <;> rfl

theorem metadatas_iff {l : List (Metadata F)} {ms : List Str} :
    List.Forall₂ MetadataText l ms ↔ ms = l.map Metadata.toStr := by
  constructor
  · intro h
    induction h with
    | nil => rfl
    | cons h _ ih => rw [List.map_cons, ← ih, metadataText_unique h (metadata_text _)]
  · rintro rfl
    rw [List.forall₂_map_right_iff]
    exact List.forall₂_same.2 fun m _ => metadata_text m

theorem rowOf_any (d : Int) (i : Nat) (name : Str) :
    '\t' :: '\t' :: (rowOf d i name ++ ['\n']) = anyFlagRow d i name := by
  unfold anyFlagRow
  by_cases h : i < 31
  · rw [if_pos h]
    have := zipIdx_rows (d := d) (fs := [name]) (n := i) (by simp; omega)
    simpa using this
  · rw [if_neg h]
    unfold rowOf
    simp only [h, if_false]
    by_cases h31 : i = 31
    · subst h31
      have hneg : ¬ andI32 d (-2147483648) > 0 := by
        unfold andI32
        have e : BitVec.ofInt 32 (-2147483648) = BitVec.twoPow 32 31 := by decide
        rw [e, BitVec.and_twoPow]
        split <;> decide
      have : dec (-2147483648) = str! "-2147483648" := by
        simp [dec, toString, Int.repr, Nat.repr, Nat.toDigits, Nat.toDigitsCore]
        decide
      simp only [if_true, hneg, if_false, this]
      simp
    · have hz : ¬ andI32 d 0 > 0 := by
        unfold andI32
        have e : BitVec.ofInt 32 0 = 0#32 := by decide
        rw [e, BitVec.and_zero]
        decide
      have : dec 0 = str! "0" := by decide
      simp only [h31, hz, if_false, this]
      simp

theorem choiceRow_iff {cs : List (Choice F)} {rows : List Str} :
    List.Forall₂ ChoiceRow cs rows ↔ rows = cs.map fun c => str! "\t\t" ++ c.toStr ++ str! "\n" := by
  have key : ∀ (c : Choice F) (row : Str), ChoiceRow c row ↔ row = str! "\t\t" ++ c.toStr ++ str! "\n" := by
    intro c row
    obtain ⟨v, h1, h2⟩ := choice_text c
    constructor
    · rintro ⟨w, hw, rfl⟩
      rw [choiceText_unique hw h1, h2]; simp
    · rintro rfl
      exact ⟨v, h1, by rw [h2]; simp⟩
  constructor
  · intro h
    induction h with
    | nil => rfl
    | cons h _ ih => rw [List.map_cons, ← ih, (key _ _).1 h]
  · rintro rfl
    rw [List.forall₂_map_right_iff]
    exact List.forall₂_same.2 fun c _ => (key c _).2 rfl

/-- C65: the text of a property, in full. -/
theorem C65_property (checks : Bool) (p : Property F) (t : Str) :
    Property.toStr checks p = .ok t ↔ PropertyText checks p t := by
  unfold Property.toStr
  constructor
  · intro h
    cases hd : p.data with
    | integer i =>
      rw [hd] at h; cases h
      rw [showInt_eq]; exact .integer i hd
    | float f => rw [hd] at h; cases h; exact .float f hd
    | vector3 v => rw [hd] at h; cases h; exact .vector3 v hd
    | string s => rw [hd] at h; cases h; exact .string s hd
    | color c =>
      rw [hd] at h; cases h
      rw [color_text]; exact .color c hd
    | choices cs d =>
      rw [hd] at h
      simp only at h
      obtain ⟨c, h1, h2⟩ := Outcome.bind_eq_ok.1 h
      cases h2
      obtain ⟨h3, h4⟩ := choiceAt_iff.1 h1
      obtain ⟨n, rfl⟩ := Int.eq_ofNat_of_zero_le h3
      exact .choices cs n c _ _ hd (by simpa using h4) (display_text c.value) (choiceRow_iff.2 rfl)
    | flags fs d =>
      rw [hd] at h
      simp only at h
      have hc : checks = true → fs.length ≤ 31 := by
        rintro rfl
        by_contra hn
        obtain ⟨m, hm⟩ := flagLines_panic (d := d) (fs := fs) (n := 0) (by omega) (by omega)
        rw [hm] at h; cases h
      rw [flagLines_ok (by cases checks <;> simp_all), Outcome.ok_bind] at h
      cases h
      rw [List.map_map]
      have := PropertyText.flags (checks := checks) fs d hd hc
      simp only [← rowOf_any] at this
      exact this
    | targetSource => rw [hd] at h; cases h; exact .source hd
    | targetDestination => rw [hd] at h; cases h; exact .destination hd
  · intro h
    cases h with
    | integer i hd => rw [hd]; simp only [showInt_eq]; rfl
    | float f hd => rw [hd]; rfl
    | vector3 v hd => rw [hd]; rfl
    | string s hd => rw [hd]; rfl
    | color c hd => rw [hd]; simp only [color_text]; rfl
    | choices cs d c v rows hd hc hv hr =>
      rw [hd]
      simp only
      rw [choiceAt_iff.2 ⟨by omega, by simpa using hc⟩, Outcome.ok_bind, choiceRow_iff.1 hr,
        defaultText_unique hv (display_text c.value)]
    | flags fs d hd hc =>
      rw [hd]
      simp only
      rw [flagLines_ok (by cases checks <;> simp_all), Outcome.ok_bind, List.map_map]
      simp only [← rowOf_any]
      rfl
    | source hd => rw [hd]
    | destination hd => rw [hd]

/-- C65: the text of a definition, in full. -/
theorem C65_definition (checks : Bool) (e : Forge.Entity F) (t : Str) :
    Forge.Entity.toStr checks e = .ok t ↔ DefinitionText checks e t := by
  rw [C65_entity]
  unfold DefinitionText
  simp only [C65_property, metadatas_iff]
  constructor
  · rintro ⟨ps, kw, h, rfl, rfl⟩
    exact ⟨_, ps, rfl, h, by rw [List.map_map]; rfl⟩
  · rintro ⟨ms, ps, rfl, h, rfl⟩
    exact ⟨ps, _, h, rfl, by rw [List.map_map]; rfl⟩

/-- C65: the text of a game definition file, in full. -/
theorem C65_file (checks : Bool) (g : Forge.GameData F) (t : Str) :
    Forge.GameData.toStr checks g = .ok t ↔ FileText checks g t := by
  rw [C65_game_data]
  unfold FileText
  simp only [C65_definition]

/-! ### back from the text -/

theorem joinComma_inj_aux {l l' : List Str} (h : ∀ c ∈ l, ',' ∉ c) (h' : ∀ c ∈ l', ',' ∉ c) (hn : l ≠ []) (hn' : l' ≠ [])
    (e : joinComma l = joinComma l') : l = l' := by
  induction l generalizing l' with
  | nil => exact absurd rfl hn
  | cons a l ih =>
    obtain ⟨b, l', rfl⟩ := List.exists_cons_of_ne_nil hn'
    have ha := h a (by simp)
    have hb := h' b (by simp)
    cases l with
    | nil =>
      cases l' with
      | nil => rw [show a = b from e]
      | cons d l' =>
        exfalso
        apply ha
        have e' : a = joinComma (b :: d :: l') := e
        rw [e', joinComma_cons (by simp)]
        simp
    | cons c l =>
      cases l' with
      | nil =>
        exfalso
        apply hb
        have e' : b = joinComma (a :: c :: l) := e.symm
        rw [e', joinComma_cons (by simp)]
        simp
      | cons d l' =>
        rw [joinComma_cons (l := c :: l) (by simp), joinComma_cons (l := d :: l') (by simp)] at e
        have e' : a ++ ',' :: (' ' :: joinComma (c :: l)) = b ++ ',' :: (' ' :: joinComma (d :: l')) := by
          simpa only [List.append_assoc, List.cons_append, List.nil_append] using e
        obtain ⟨rfl, e2⟩ := split_first ha hb e'
        rw [ih (fun x hx => h x (by simp [hx])) (fun x hx => h' x (by simp [hx])) (by simp) (by simp) (List.cons.inj e2).2]

theorem joinComma_nonempty {l : List Str} (hn : l ≠ []) (hh : l.head? ≠ some []) : joinComma l ≠ [] := by
  obtain ⟨a, l, rfl⟩ := List.exists_cons_of_ne_nil hn
  have : a ≠ [] := fun e => hh (by rw [e]; rfl)
  cases l with
  | nil => exact this
  | cons b l => rw [joinComma_cons (by simp)]; simp

theorem joinComma_inj {l l' : List Str} (h : ∀ c ∈ l, ',' ∉ c) (h' : ∀ c ∈ l', ',' ∉ c) (hh : l.head? ≠ some [])
    (hh' : l'.head? ≠ some []) (e : joinComma l = joinComma l') : l = l' := by
  by_cases hn : l = []
  · by_cases hn' : l' = []
    · rw [hn, hn']
    · subst hn
      exact absurd e.symm (joinComma_nonempty hn' hh')
  · by_cases hn' : l' = []
    · subst hn'
      exact absurd e (joinComma_nonempty hn hh)
    · exact joinComma_inj_aux h h' hn hn' e

theorem dropWhile_head (l : List Str) : (l.dropWhile fun c => c.isEmpty).head? ≠ some [] := by
  intro h
  have h1 := List.head?_dropWhile_not (fun c : Str => c.isEmpty) l
  rw [h] at h1
  cases h1

namespace Spec
/-- Floats are displayed without quotes, line breaks, commas and closing parentheses. -/
def SimpleDisplay (F : Type) [Arith F] : Prop := ∀ f : F, Clean (Arith.disp f) ∧ ',' ∉ Arith.disp f ∧ ')' ∉ Arith.disp f

/-- The base class names have no comma and no closing parenthesis. -/
def SimpleMetadata (m : Metadata F) : Prop := ∀ cs, m = .base cs → ∀ c ∈ cs, ',' ∉ c ∧ ')' ∉ c

/-- What the texts of two properties show is the same. -/
def SameProperty (p q : Property F) : Prop :=
  p.name = q.name ∧ kindWord p.data = kindWord q.data ∧ SameShown p.data q.data ∧
    ((∀ fs d, p.data ≠ .flags fs d) → p.shortDescription = q.shortDescription) ∧
    ((∀ fs d, p.data ≠ .flags fs d) → (∀ cs d, p.data ≠ .choices cs d) → p.longDescription = q.longDescription)

/-- What the texts of two definitions show is the same. -/
structure SameDefinition (e e' : Forge.Entity F) : Prop where
  classType : e.classType = e'.classType
  className : e.className = e'.className
  description : e.description = e'.description
  metadata : List.Forall₂ SameMetadata e.metadata e'.metadata
  properties : List.Forall₂ SameProperty e.properties e'.properties

/-- No text in the definition contains a character that plays a role in the layout there. -/
structure TidyDefinition (e : Forge.Entity F) : Prop where
  clean : CleanEntity e
  metadata : ∀ m ∈ e.metadata, SimpleMetadata m
  names : ∀ p ∈ e.properties, '(' ∉ p.name

/-- The same for the whole file. -/
structure TidyFile (g : Forge.GameData F) : Prop where
  name : '\n' ∉ g.name
  includes : ∀ i ∈ g.includes, '"' ∉ i
  definitions : ∀ e ∈ g.definitions, TidyDefinition e
end Spec

/-- The word of a metadata entry and what is between the parentheses. -/
def metaWord : Metadata F → Str
  | .base _ => str! "base"
  | .color _ => str! "color"
  | .size _ _ => str! "size"

def metaInner : Metadata F → Str
  | .base cs => joinComma (cs.dropWhile fun c => c.isEmpty)
  | .color c => colorText c
  | .size a b => joinComma [Arith.disp a.x, Arith.disp a.y, Arith.disp a.z, Arith.disp b.x, Arith.disp b.y, Arith.disp b.z]

theorem meta_toStr (m : Metadata F) : m.toStr = metaWord m ++ '(' :: (metaInner m ++ [')']) := by
  rw [← metadataText_unique (show MetadataText m (metaWord m ++ '(' :: (metaInner m ++ [')'])) by
    cases m with
    | base cs => simpa [metaWord, metaInner] using MetadataText.base cs
    | color c => simpa [metaWord, metaInner] using MetadataText.color c
    | size a b => simpa [metaWord, metaInner] using MetadataText.size a b) (metadata_text m)]

theorem joinComma_paren {l : List Str} (h : ∀ c ∈ l, ')' ∉ c) : ')' ∉ joinComma l := by
  induction l with
  | nil => simp [joinComma]
  | cons a l ih =>
    cases l with
    | nil => exact h a (by simp)
    | cons b l =>
      rw [joinComma_cons (by simp)]
      simp only [List.mem_append, not_or]
      exact ⟨⟨h a (by simp), by decide⟩, ih fun c hc => h c (by simp [hc])⟩

theorem metaInner_paren (hF : SimpleDisplay F) {m : Metadata F} (h : SimpleMetadata m) : ')' ∉ metaInner m := by
  cases m with
  | base cs =>
    exact joinComma_paren fun c hc => (h cs rfl c ((List.dropWhile_sublist _).subset hc)).2
  | color c =>
    have : ∀ i, ')' ∉ dec i := fun i => dec_notMem i (by decide)
    simp [metaInner, colorText, this]
  | size a b =>
    apply joinComma_paren
    intro c hc
    simp only [List.mem_cons, List.not_mem_nil, or_false] at hc
    rcases hc with rfl | rfl | rfl | rfl | rfl | rfl <;> exact (hF _).2.2

theorem meta_same (hF : SimpleDisplay F) {m m' : Metadata F} (h : SimpleMetadata m) (h' : SimpleMetadata m')
    (hw : metaWord m = metaWord m') (hi : metaInner m = metaInner m') : SameMetadata m m' := by
  cases m with
  | base cs =>
    cases m' with
    | base ds =>
      exact joinComma_inj (fun c hc => (h cs rfl c ((List.dropWhile_sublist _).subset hc)).1)
        (fun c hc => (h' ds rfl c ((List.dropWhile_sublist _).subset hc)).1) (dropWhile_head _) (dropWhile_head _) hi
    | color c => exact absurd hw (by simp [metaWord])
    | size a b => exact absurd hw (by simp [metaWord])
  | color c =>
    cases m' with
    | base ds => exact absurd hw (by simp [metaWord])
    | color c' =>
      simp only [metaInner, colorText, List.append_assoc, List.cons_append, List.nil_append] at hi
      have hsp : ∀ i, ' ' ∉ dec i := fun i => dec_notMem i (by decide)
      obtain ⟨h1, h2⟩ := split_first (hsp _) (hsp _) hi
      obtain ⟨h3, h4⟩ := split_first (hsp _) (hsp _) h2
      exact ⟨dec_inj h1, dec_inj h3, dec_inj h4⟩
    | size a b => exact absurd hw (by simp [metaWord])
  | size a b =>
    cases m' with
    | base ds => exact absurd hw (by simp [metaWord])
    | color c => exact absurd hw (by simp [metaWord])
    | size a' b' =>
      have key : ∀ u v : V3 F, ∀ c ∈ [Arith.disp u.x, Arith.disp u.y, Arith.disp u.z, Arith.disp v.x, Arith.disp v.y,
          Arith.disp v.z], ',' ∉ c := by
        intro u v c hc
        simp only [List.mem_cons, List.not_mem_nil, or_false] at hc
        rcases hc with rfl | rfl | rfl | rfl | rfl | rfl <;> exact (hF _).2.1
      have := joinComma_inj_aux (key a b) (key a' b') (by simp) (by simp) hi
      simpa [SameMetadata] using this

theorem metas_same (hF : SimpleDisplay F) {l l' : List (Metadata F)} (h : ∀ m ∈ l, SimpleMetadata m)
    (h' : ∀ m ∈ l', SimpleMetadata m)
    (e : (l.map fun m => m.toStr ++ [' ']).flatten = (l'.map fun m => m.toStr ++ [' ']).flatten) :
    List.Forall₂ SameMetadata l l' := by
  induction l generalizing l' with
  | nil =>
    cases l' with
    | nil => exact .nil
    | cons m l' => simp at e
  | cons m l ih =>
    cases l' with
    | nil => simp at e
    | cons m' l' =>
      simp only [List.map_cons, List.flatten_cons, meta_toStr, List.append_assoc, List.cons_append, List.nil_append] at e
      have hp : ∀ m : Metadata F, '(' ∉ metaWord m := by intro m; cases m <;> simp [metaWord]
      obtain ⟨h1, h2⟩ := split_first (hp _) (hp _) e
      obtain ⟨h3, h4⟩ := split_first (metaInner_paren hF (h m (by simp))) (metaInner_paren hF (h' m' (by simp))) h2
      refine .cons (meta_same hF (h m (by simp)) (h' m' (by simp)) h1 h3)
        (ih (fun x hx => h x (by simp [hx])) (fun x hx => h' x (by simp [hx])) ?_)
      simp only [meta_toStr, List.append_assoc, List.cons_append, List.nil_append]
      exact (List.cons.inj h4).2

theorem properties_same (hF : PlainDisplay F) {checks checks' : Bool} {l l' : List (Property F)} {ps : List Str}
    (hc : ∀ p ∈ l, CleanProperty p ∧ '(' ∉ p.name) (hc' : ∀ p ∈ l', CleanProperty p ∧ '(' ∉ p.name)
    (h : List.Forall₂ (fun p s => Property.toStr checks p = .ok s) l ps)
    (h' : List.Forall₂ (fun p s => Property.toStr checks' p = .ok s) l' ps) : List.Forall₂ SameProperty l l' := by
  induction h generalizing l' with
  | nil => cases h'; exact .nil
  | @cons p _ _ _ hx _ ih =>
    cases h' with
    | @cons q _ _ _ hy hys =>
      obtain ⟨h1, h2⟩ := hc p (by simp)
      obtain ⟨h3, h4⟩ := hc' q (by simp)
      obtain ⟨k1, k2, k3, k4, k5⟩ := C66_property hF checks checks' _ _ h1 h3 h2 h4 _ hx hy
      refine .cons ⟨k1, k2, k3, fun hn => k4 ?_, fun hn hn' => k5 ?_⟩
        (ih (fun p hp => hc p (by simp [hp])) (fun p hp => hc' p (by simp [hp])) hys)
      · revert hn
        cases p.data <;> simp [isFlags]
      · revert hn hn'
        cases p.data <;> simp [isTable]

theorem blocks_same (hF : SimpleDisplay F) {checks checks' : Bool} {l l' : List (Forge.Entity F)} {bs bs' : List Str}
    (hc : ∀ e ∈ l, TidyDefinition e) (hc' : ∀ e ∈ l', TidyDefinition e)
    (h : List.Forall₂ (fun e b => Forge.Entity.toStr checks e = .ok b) l bs)
    (h' : List.Forall₂ (fun e b => Forge.Entity.toStr checks' e = .ok b) l' bs')
    (he : (bs.map fun b => b ++ str! "\n\n").flatten = (bs'.map fun b => b ++ str! "\n\n").flatten) :
    List.Forall₂ SameDefinition l l' := by
  have hP : PlainDisplay F := fun f => (hF f).1
  induction h generalizing l' bs' with
  | nil =>
    cases h' with
    | nil => exact .nil
    | cons hx _ => simp at he
  | @cons e b l bs hx hxs ih =>
    cases h' with
    | nil => simp at he
    | @cons e' b' l' bs' hy hys =>
      obtain ⟨ps, h1, rfl⟩ := entity_ok_iff.1 hx
      obtain ⟨qs, h2, rfl⟩ := entity_ok_iff.1 hy
      have t := hc e (by simp)
      have t' := hc' e' (by simp)
      simp only [List.map_cons, List.flatten_cons] at he
      obtain ⟨a1, a2, a3, a4, rfl, a6⟩ := entity_split hP t.clean t'.clean h1 h2
        (x := str! "\n\n" ++ (bs.map fun b => b ++ str! "\n\n").flatten)
        (y := str! "\n\n" ++ (bs'.map fun b => b ++ str! "\n\n").flatten) (by simpa only [List.append_assoc] using he)
      refine .cons ⟨a1, a2, a3, metas_same hF t.metadata t'.metadata a4, ?_⟩
        (ih (fun x hx => hc x (by simp [hx])) (fun x hx => hc' x (by simp [hx])) hys (List.append_cancel_left a6))
      exact properties_same hP (fun p hp => ⟨t.clean.properties p hp, t.names p hp⟩)
        (fun p hp => ⟨t'.clean.properties p hp, t'.names p hp⟩) h1 h2

theorem includes_same {l l' : List Str} {x y : Str} (h : ∀ i ∈ l, '"' ∉ i) (h' : ∀ i ∈ l', '"' ∉ i)
    (e : (l.map fun i => str! "@include \"" ++ i ++ str! "\"\n").flatten ++ '\n' :: x =
      (l'.map fun i => str! "@include \"" ++ i ++ str! "\"\n").flatten ++ '\n' :: y) : l = l' ∧ x = y := by
  induction l generalizing l' with
  | nil =>
    cases l' with
    | nil => simpa using e
    | cons i l' => simp at e
  | cons i l ih =>
    cases l' with
    | nil => simp at e
    | cons i' l' =>
      simp only [List.map_cons, List.flatten_cons, List.append_assoc, List.cons_append, List.nil_append,
        List.cons.injEq, true_and] at e
      obtain ⟨rfl, h2⟩ := split_first (h i (by simp)) (h' i' (by simp)) e
      obtain ⟨rfl, h3⟩ := ih (l' := l') (fun x hx => h x (by simp [hx])) (fun x hx => h' x (by simp [hx]))
        (by simpa using (List.cons.inj h2).2)
      exact ⟨rfl, h3⟩

/-- C66: a game definition file determines everything it shows: files with the same text have the same name, the
same includes and, one by one, the same definitions. -/
theorem C66_file (hF : SimpleDisplay F) (checks checks' : Bool) (g g' : Forge.GameData F) (hg : TidyFile g)
    (hg' : TidyFile g') (t : Str) (h : Forge.GameData.toStr checks g = .ok t)
    (h' : Forge.GameData.toStr checks' g' = .ok t) :
    g.name = g'.name ∧ g.includes = g'.includes ∧ List.Forall₂ SameDefinition g.definitions g'.definitions := by
  obtain ⟨bs, h1, rfl⟩ := (C65_game_data checks g t).1 h
  obtain ⟨bs', h2, e⟩ := (C65_game_data checks' g' _).1 h'
  simp only [List.append_assoc, List.cons_append, List.nil_append, List.cons.injEq, true_and] at e
  obtain ⟨e1, e2⟩ := split_first hg.name hg'.name e
  obtain ⟨e3, e4⟩ := includes_same hg.includes hg'.includes (by simpa using (List.cons.inj e2).2)
  exact ⟨e1, e3, blocks_same hF hg.definitions hg'.definitions h1 h2 (by simpa using e4)⟩

end

section
attribute [local instance] refPlatform intArith

theorem int_simpleDisplay : SimpleDisplay Int := fun i => by
  refine ⟨int_plainDisplay i, ?_, ?_⟩ <;>
    (show _ ∉ showInt i; rw [showInt_eq]; exact dec_notMem i (by decide))

theorem lampDef_tidy : TidyDefinition lampDef where
  clean := lampDef_clean
  metadata := by
    intro m hm cs hcs
    simp only [lampDef, List.mem_cons, List.not_mem_nil, or_false] at hm
    rcases hm with rfl | rfl | rfl
    · cases hcs; decide
    · cases hcs
    · cases hcs
  names := by decide

theorem lampFile_tidy : TidyFile ⟨str! "Game", [str! "base.fgd"], [lampDef]⟩ where
  name := by decide
  includes := by decide
  definitions := by
    intro e he
    simp only [List.mem_singleton] at he
    subst he
    exact lampDef_tidy

/-- The hypotheses of `C66_file` hold of a file with all kinds of metadata and properties, and of no other tidy file
with the same text can the definition have another name. -/
example : ∃ t, FileText true ⟨str! "Game", [str! "base.fgd"], [lampDef]⟩ t ∧
    ∀ g : Forge.GameData Int, TidyFile g → FileText true g t → g.definitions.map (·.className) = [str! "light_lamp"] := by
  obtain ⟨t, ht⟩ := lampDef_printable
  refine ⟨t, (C65_file _ _ _).1 ht, fun g hg hf => ?_⟩
  obtain ⟨_, _, h⟩ := C66_file int_simpleDisplay true true _ g lampFile_tidy hg t ht ((C65_file _ _ _).2 hf)
  revert h
  generalize g.definitions = l
  intro h
  cases h with
  | cons h h' => cases h'; simp [← h.className, lampDef]

/-- The size entry of the lamp in the text. -/
example : (Metadata.size ⟨-4, -4, -4⟩ ⟨4, 5, 6⟩ : Metadata Int).toStr = str! "size(-4, -4, -4, 4, 5, 6)" := by
  have h : ∀ i : Int, Arith.disp i = dec i := showInt_eq
  simp only [Metadata.toStr, h]
  decide

/-- Without the condition on quotes two files can have the same text. -/
example : Forge.GameData.toStr true (⟨[], [str! "a", str! "b"], []⟩ : Forge.GameData Int) =
    Forge.GameData.toStr true (⟨[], [str! "a\"\n@include \"b"], []⟩ : Forge.GameData Int) := by decide

/-- Without the condition on commas two metadata entries can have the same text. -/
example : (Metadata.base [str! "a", str! "b"] : Metadata Int).toStr = (Metadata.base [str! "a, b"] : Metadata Int).toStr := by decide

end
end Quarch
