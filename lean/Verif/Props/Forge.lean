import Verif.Proofs.Forge
/-
C64–C69: enumeration codes and FGD text.
-/
set_option linter.unusedSectionVars false

namespace Quarch
open Spec Forge

/-! ### C64 -/

/-- C64: visual types have the codes 0 and 1, every other code aborts. -/
theorem C64_visual : Codes VisualType.toCode VisualType.ofCode [0, 1] where
  back a := by cases a <;> rfl
  valid a := by cases a <;> decide
  forth i hi := by
    simp only [List.mem_cons, List.not_mem_nil, or_false] at hi
    rcases hi with rfl | rfl
    · exact ⟨_, rfl, rfl⟩
    · exact ⟨_, rfl, rfl⟩
  invalid i hi := by
    simp only [List.mem_cons, List.not_mem_nil, or_false, not_or] at hi
    exact ⟨_, by unfold VisualType.ofCode; rw [if_neg hi.1, if_neg hi.2]⟩

/-- C64: collision types have the codes 0, 1 and 2, every other code aborts. -/
theorem C64_collision : Codes CollisionType.toCode CollisionType.ofCode [0, 1, 2] where
  back a := by cases a <;> rfl
  valid a := by cases a <;> decide
  forth i hi := by
    simp only [List.mem_cons, List.not_mem_nil, or_false] at hi
    rcases hi with rfl | rfl | rfl
    · exact ⟨_, rfl, rfl⟩
    · exact ⟨_, rfl, rfl⟩
    · exact ⟨_, rfl, rfl⟩
  invalid i hi := by
    simp only [List.mem_cons, List.not_mem_nil, or_false, not_or] at hi
    exact ⟨_, by unfold CollisionType.ofCode; rw [if_neg hi.1, if_neg hi.2.1, if_neg hi.2.2]⟩

/-- C64: class types have the codes 0, 1 and 2, every other code aborts. -/
theorem C64_class : Codes ClassType.toCode ClassType.ofCode [0, 1, 2] where
  back a := by cases a <;> rfl
  valid a := by cases a <;> decide
  forth i hi := by
    simp only [List.mem_cons, List.not_mem_nil, or_false] at hi
    rcases hi with rfl | rfl | rfl
    · exact ⟨_, rfl, rfl⟩
    · exact ⟨_, rfl, rfl⟩
    · exact ⟨_, rfl, rfl⟩
  invalid i hi := by
    simp only [List.mem_cons, List.not_mem_nil, or_false, not_or] at hi
    exact ⟨_, by unfold ClassType.ofCode; rw [if_neg hi.1, if_neg hi.2.1, if_neg hi.2.2]⟩

/-- C64: the codes of entity, component and metadata values tell the kinds apart and nothing else. -/
theorem C64_kinds {F : Type} :
    (∀ a b : EntityType, a.toCode = b.toCode ↔
      (a = .placeholder ∧ b = .placeholder) ∨ (∃ s t, a = .cls s ∧ b = .cls t) ∨
      ∃ s t, a = .prefab s ∧ b = .prefab t) ∧
    (∀ a b : ComponentType, a.toCode = b.toCode ↔
      (a = .none ∧ b = .none) ∨ ∃ s t, a = .script s ∧ b = .script t) ∧
    (∀ a b : Metadata F, a.toCode = b.toCode ↔
      (∃ s t, a = .base s ∧ b = .base t) ∨ (∃ s t, a = .color s ∧ b = .color t) ∨
      ∃ s t s' t', a = .size s s' ∧ b = .size t t') := by
  refine ⟨fun a b => ?_, fun a b => ?_, fun a b => ?_⟩
  · cases a <;> cases b <;> simp [EntityType.toCode]
  · cases a <;> cases b <;> simp [ComponentType.toCode]
  · cases a <;> cases b <;> simp [Metadata.toCode]

/-- C64: the code of every value. -/
theorem C64_values {F : Type} :
    (VisualType.toCode .none = 0 ∧ VisualType.toCode .mesh = 1) ∧
    (CollisionType.toCode .none = 0 ∧ CollisionType.toCode .convex = 1 ∧ CollisionType.toCode .concave = 2) ∧
    (ClassType.toCode .baseClass = 0 ∧ ClassType.toCode .pointClass = 1 ∧ ClassType.toCode .solidClass = 2) ∧
    (EntityType.toCode .placeholder = 0 ∧ (∀ s, EntityType.toCode (.cls s) = 1) ∧
      ∀ s, EntityType.toCode (.prefab s) = 2) ∧
    (ComponentType.toCode .none = 0 ∧ ∀ s, ComponentType.toCode (.script s) = 1) ∧
    ((∀ bases, Metadata.toCode (F := F) (.base bases) = 0) ∧ (∀ c, Metadata.toCode (F := F) (.color c) = 1) ∧
      ∀ a b, Metadata.toCode (F := F) (.size a b) = 2) := by
  simp [VisualType.toCode, CollisionType.toCode, ClassType.toCode, EntityType.toCode, ComponentType.toCode,
    Metadata.toCode]

example : ClassType.ofCode 2 = .ok .solidClass ∧ (∃ m, ClassType.ofCode 3 = .panic m) ∧
    (∃ m, CollisionType.ofCode (-1) = .panic m) := ⟨rfl, ⟨_, rfl⟩, ⟨_, rfl⟩⟩

section
variable {F : Type} [Arith F]

/-! ### C68, C69 -/

theorem zipIdx_rows {d : Int} {fs : List Str} {n : Nat} (h : n + fs.length ≤ 31) :
    (((fs.zipIdx n).map fun p => rowOf d p.2 p.1).map fun r => '\t' :: '\t' :: (r ++ ['\n'])) =
      (fs.zipIdx n).map fun p => flagRow d p.2 p.1 := by
  rw [List.map_map]
  apply List.map_congr_left
  intro p hp
  have : p.2 < 31 := by
    have := List.snd_lt_of_mem_zipIdx hp
    omega
  simp only [Function.comp_apply]
  unfold rowOf flagRow
  simp only [if_pos this, and_pow_pos d this]
  simp

/-- C68: up to 31 flags are printed without aborting, in order, flag number `i` with the value `2^i` and
with 1 exactly when bit `i` of the default is set. -/
theorem C68_rows (checks : Bool) (p : Property F) (fs : List Str) (d : Int) (hp : p.data = .flags fs d)
    (hn : fs.length ≤ 31) :
    Property.toStr checks p = .ok (p.name ++ str! "(flags) =\n\t[\n" ++
      ((fs.zipIdx 0).map fun q => flagRow d q.2 q.1).flatten ++ str! "\t]") := by
  unfold Property.toStr
  rw [hp]
  simp only
  rw [flagLines_ok (.inl (by omega)), zipIdx_rows (by omega), Outcome.ok_bind]

/-- C68: the values of the flags printed with 1 add up to the default restricted to the declared bits. -/
theorem spec_C68_sum (d : Int) (n : Nat) :
    flagSum d n = d % 2 ^ n ∧ (∀ i < n, BitSet (flagSum d n) i ↔ BitSet d i) ∧
    (0 ≤ d → d < 2 ^ n → flagSum d n = d) := by
  refine ⟨flagSum_eq d n, fun i hi => ?_, fun h0 h1 => ?_⟩
  · rw [flagSum_eq]
    unfold BitSet
    obtain ⟨k, rfl⟩ : ∃ k, n = i + (k + 1) := ⟨n - i - 1, by omega⟩
    have hp : (0 : Int) < 2 ^ i := by positivity
    have e1 := Int.emod_add_mul_ediv d (2 ^ (i + (k + 1)))
    have e2 : d / 2 ^ i = d % 2 ^ (i + (k + 1)) / 2 ^ i + 2 * (2 ^ k * (d / 2 ^ (i + (k + 1)))) := by
      conv_lhs => rw [← e1]
      have : (2 : Int) ^ (i + (k + 1)) * (d / 2 ^ (i + (k + 1))) =
          2 ^ i * (2 * (2 ^ k * (d / 2 ^ (i + (k + 1))))) := by
        conv_lhs => rw [pow_add (2 : Int) i (k + 1), pow_succ]
        rw [pow_add (2 : Int) i (k + 1), pow_succ]
        ring
      rw [this, Int.add_mul_ediv_left _ _ hp.ne']
    rw [e2, Int.add_mul_emod_self_left]
  · rw [flagSum_eq, Int.emod_eq_of_lt h0 h1]

/-- C68: more than 31 flags abort if overflow is checked; otherwise flag 31 is printed as `-2147483648`
and later flags as 0, all switched off. -/
theorem C68_too_many (p : Property F) (fs : List Str) (d : Int) (hp : p.data = .flags fs d)
    (hn : 31 < fs.length) :
    (∃ m, Property.toStr true p = .panic m) ∧
    ∃ tail, Property.toStr false p = .ok (p.name ++ str! "(flags) =\n\t[\n" ++
      (((fs.take 31).zipIdx 0).map fun q => flagRow d q.2 q.1).flatten ++
      (str! "\t\t-2147483648 : \"" ++ fs[31] ++ str! "\" : 0\n") ++ tail ++ str! "\t]") := by
  constructor
  · obtain ⟨m, hm⟩ := flagLines_panic (d := d) (fs := fs) (n := 0) (by omega) (by omega)
    refine ⟨m, ?_⟩
    unfold Property.toStr
    rw [hp]
    simp only
    rw [hm]
    rfl
  · have hsplit : fs = fs.take 31 ++ fs[31] :: fs.drop 32 := by
      rw [List.getElem_cons_drop, List.take_append_drop]
    have hlen : (fs.take 31).length = 31 := by simp; omega
    have h31 : rowOf d 31 fs[31] = str! "-2147483648 : \"" ++ fs[31] ++ str! "\" : 0" := by
      have hneg : ¬ andI32 d (-2147483648) > 0 := by
        unfold andI32
        have e : BitVec.ofInt 32 (-2147483648) = BitVec.twoPow 32 31 := by decide
        rw [e, BitVec.and_twoPow]
        split <;> decide
      unfold rowOf
      simp only [show ¬ (31 < 31) by omega, if_false, if_true, hneg]
      have : dec (-2147483648) = str! "-2147483648" := by
        simp [dec, toString, Int.repr, Nat.repr, Nat.toDigits, Nat.toDigitsCore]
        decide
      rw [this]
      simp
    refine ⟨((((fs.drop 32).zipIdx 32).map fun p => rowOf d p.2 p.1).map
      fun r => '\t' :: '\t' :: (r ++ ['\n'])).flatten, ?_⟩
    unfold Property.toStr
    rw [hp]
    simp only
    rw [flagLines_ok (.inr rfl), Outcome.ok_bind]
    conv_lhs => rw [hsplit]
    rw [List.zipIdx_append, List.map_append, List.map_append, List.flatten_append,
      zipIdx_rows (by omega), hlen]
    simp only [List.zipIdx_cons, List.map_cons, List.flatten_cons, h31, Nat.zero_add]
    simp only [List.append_assoc, List.cons_append, List.nil_append]

/-- C69: a choices property prints the value of the choice at the default index, then all choices in order. -/
theorem C69_text (checks : Bool) (p : Property F) (cs : List (Choice F)) (d : Nat) (c : Choice F)
    (hp : p.data = .choices cs d) (hc : cs[d]? = some c) :
    ∃ v rows, DefaultText c.value v ∧ List.Forall₂ ChoiceRow cs rows ∧
      Property.toStr checks p = .ok (p.name ++ str! "(choices) : \"" ++ p.shortDescription ++
        str! "\" : \"" ++ v ++ str! "\" =\n\t[\n" ++ rows.flatten ++ str! "\t]") := by
  refine ⟨_, cs.map fun c => str! "\t\t" ++ c.toStr ++ str! "\n", display_text c.value, ?_, ?_⟩
  · rw [List.forall₂_map_right_iff]
    exact List.forall₂_same.2 fun c _ => by
      obtain ⟨v, h1, h2⟩ := choice_text c
      exact ⟨v, h1, by rw [h2]; simp⟩
  · unfold Property.toStr
    rw [hp]
    simp only
    rw [choiceAt_iff.2 ⟨by omega, by simpa using hc⟩, Outcome.ok_bind]

/-- C69: printing a choices property aborts exactly when the default is negative or not less than the number
of choices. -/
theorem C69_aborts_iff (checks : Bool) (p : Property F) (cs : List (Choice F)) (d : Int)
    (hp : p.data = .choices cs d) :
    ((∃ m, Property.toStr checks p = .panic m) ↔ d < 0 ∨ (cs.length : Int) ≤ d) ∧
    ((∃ m, Property.toStr checks p = .panic m) ∨ ∃ t, Property.toStr checks p = .ok t) := by
  unfold Property.toStr
  rw [hp, ← choiceAt_panic]
  simp only
  constructor
  · constructor
    · rintro ⟨m, h⟩
      rcases Outcome.bind_eq_panic.1 h with h | ⟨a, _, h⟩
      · exact ⟨m, h⟩
      · cases h
    · rintro ⟨m, h⟩
      exact ⟨m, by rw [h]; rfl⟩
  · unfold choiceAt
    split
    · split
      · exact .inr ⟨_, rfl⟩
      · exact .inl ⟨_, rfl⟩
    · exact .inl ⟨_, rfl⟩

/-! ### C65 -/

/-- Printing a property succeeds or aborts, and it aborts exactly for the unprintable properties. -/
theorem property_outcome (checks : Bool) (p : Property F) :
    ((∃ m, Property.toStr checks p = .panic m) ∧ Unprintable checks p) ∨
    ((∃ t, Property.toStr checks p = .ok t) ∧ ¬ Unprintable checks p) := by
  cases hp : p.data with
  | choices cs d =>
    obtain ⟨h1, h2⟩ := C69_aborts_iff checks p cs d hp
    have hu : Unprintable checks p ↔ d < 0 ∨ (cs.length : Int) ≤ d := by
      unfold Unprintable
      rw [hp]
      simp
    rw [hu, ← h1]
    rcases h2 with h | ⟨t, h⟩
    · exact .inl ⟨h, h⟩
    · exact .inr ⟨⟨t, h⟩, fun ⟨m, h'⟩ => by rw [h] at h'; cases h'⟩
  | flags fs d =>
    have hu : Unprintable checks p ↔ checks = true ∧ 31 < fs.length := by
      unfold Unprintable
      rw [hp]
      simp
    rw [hu]
    by_cases h31 : 31 < fs.length
    · obtain ⟨h1, t, h2⟩ := C68_too_many p fs d hp h31
      cases checks with
      | true => exact .inl ⟨h1, rfl, h31⟩
      | false => exact .inr ⟨⟨_, h2⟩, by simp⟩
    · exact .inr ⟨⟨_, C68_rows checks p fs d hp (by omega)⟩, by simp [h31]⟩
  | _ => exact .inr ⟨⟨_, by unfold Property.toStr; rw [hp]⟩, by simp [Unprintable, hp]⟩

theorem entity_ok_iff {checks : Bool} {e : Forge.Entity F} {t : Str} :
    Forge.Entity.toStr checks e = .ok t ↔
      ∃ ps, List.Forall₂ (fun p s => Property.toStr checks p = .ok s) e.properties ps ∧
        t = e.classType.keyword ++ str! " " ++ (e.metadata.map fun m => m.toStr ++ str! " ").flatten ++
          str! "= " ++ e.className ++ str! " : \"" ++ e.description ++ str! "\"\n[\n" ++
          (ps.map fun s => str! "\t" ++ s ++ str! "\n").flatten ++ str! "]" := by
  unfold Forge.Entity.toStr
  simp only
  rw [Outcome.bind_eq_ok]
  constructor
  · rintro ⟨r, h1, h2⟩
    cases h2
    rw [mapOut_eq_ok] at h1
    obtain ⟨ps, h3, rfl⟩ : ∃ ps, List.Forall₂ (fun p s => Property.toStr checks p = .ok s) e.properties ps ∧
        r = ps.map fun s => str! "\t" ++ s ++ str! "\n" := by
      generalize e.properties = l at h1
      induction h1 with
      | nil => exact ⟨[], .nil, rfl⟩
      | cons h _ ih =>
        obtain ⟨s, hs, h'⟩ := Outcome.bind_eq_ok.1 h
        cases h'
        obtain ⟨ps, ih, rfl⟩ := ih
        exact ⟨s :: ps, .cons hs ih, rfl⟩
    exact ⟨ps, h3, rfl⟩
  · rintro ⟨ps, h1, rfl⟩
    refine ⟨_, ?_, rfl⟩
    rw [mapOut_eq_ok, List.forall₂_map_right_iff]
    exact h1.imp fun p s h => by rw [h]; rfl

/-- C65: the text of a definition is the class keyword, all metadata in order, the name, the description and
all property texts in order, one per line. -/
theorem C65_entity (checks : Bool) (e : Forge.Entity F) (t : Str) :
    Forge.Entity.toStr checks e = .ok t ↔
      ∃ ps kw, List.Forall₂ (fun p s => Property.toStr checks p = .ok s) e.properties ps ∧
        (kw = match e.classType with
          | .baseClass => str! "@BaseClass "
          | .pointClass => str! "@PointClass "
          | .solidClass => str! "@SolidClass ") ∧
        t = kw ++ (e.metadata.map fun m => m.toStr ++ str! " ").flatten ++
          str! "= " ++ e.className ++ str! " : \"" ++ e.description ++ str! "\"\n[\n" ++
          (ps.map fun s => str! "\t" ++ s ++ str! "\n").flatten ++ str! "]" := by
  rw [entity_ok_iff]
  constructor
  · rintro ⟨ps, h, rfl⟩
    exact ⟨ps, _, h, rfl, by cases e.classType <;> rfl⟩
  · rintro ⟨ps, kw, h, rfl, rfl⟩
    exact ⟨ps, h, by cases e.classType <;> rfl⟩

/-- C65: the text of the game data is the name comment, one line per include and one block per definition,
in order. -/
theorem C65_game_data (checks : Bool) (g : Forge.GameData F) (t : Str) :
    Forge.GameData.toStr checks g = .ok t ↔
      ∃ blocks, List.Forall₂ (fun e b => Forge.Entity.toStr checks e = .ok b) g.definitions blocks ∧
        t = str! "// " ++ g.name ++ str! "\n\n" ++
          (g.includes.map fun i => str! "@include \"" ++ i ++ str! "\"\n").flatten ++ str! "\n" ++
          (blocks.map fun b => b ++ str! "\n\n").flatten := by
  unfold Forge.GameData.toStr
  simp only
  rw [Outcome.bind_eq_ok]
  constructor
  · rintro ⟨r, h1, h2⟩
    cases h2
    rw [mapOut_eq_ok] at h1
    obtain ⟨ps, h3, rfl⟩ : ∃ ps, List.Forall₂ (fun e b => Forge.Entity.toStr checks e = .ok b) g.definitions ps ∧
        r = ps.map fun b => b ++ str! "\n\n" := by
      generalize g.definitions = l at h1
      induction h1 with
      | nil => exact ⟨[], .nil, rfl⟩
      | cons h _ ih =>
        obtain ⟨s, hs, h'⟩ := Outcome.bind_eq_ok.1 h
        cases h'
        obtain ⟨ps, ih, rfl⟩ := ih
        exact ⟨s :: ps, .cons hs ih, rfl⟩
    exact ⟨ps, h3, rfl⟩
  · rintro ⟨ps, h1, rfl⟩
    refine ⟨_, ?_, rfl⟩
    rw [mapOut_eq_ok, List.forall₂_map_right_iff]
    exact h1.imp fun p s h => by rw [h]; rfl

/-- C65: definitions added at the end only append text: their blocks, in order. -/
theorem C65_append (checks : Bool) (g : Forge.GameData F) (more : List (Forge.Entity F)) (t : Str) :
    Forge.GameData.toStr checks { g with definitions := g.definitions ++ more } = .ok t ↔
      ∃ t₀ blocks, Forge.GameData.toStr checks g = .ok t₀ ∧
        List.Forall₂ (fun e b => Forge.Entity.toStr checks e = .ok b) more blocks ∧
        t = t₀ ++ (blocks.map fun b => b ++ str! "\n\n").flatten := by
  simp only [C65_game_data]
  constructor
  · rintro ⟨bs, h, rfl⟩
    have hl := h.length_eq
    obtain ⟨b₁, b₂, h1, h2, rfl⟩ : ∃ b₁ b₂,
        List.Forall₂ (fun e b => Forge.Entity.toStr checks e = .ok b) g.definitions b₁ ∧
        List.Forall₂ (fun e b => Forge.Entity.toStr checks e = .ok b) more b₂ ∧ bs = b₁ ++ b₂ := by
      have h1 := List.forall₂_take_append _ _ _ h.flip
      have h2 := List.forall₂_drop_append _ _ _ h.flip
      exact ⟨_, _, h1.flip, h2.flip, (List.take_append_drop _ _).symm⟩
    exact ⟨_, b₂, ⟨b₁, h1, rfl⟩, h2, by simp⟩
  · rintro ⟨_, b₂, ⟨b₁, h1, rfl⟩, h2, rfl⟩
    exact ⟨b₁ ++ b₂, List.rel_append h1 h2, by simp⟩

/-- C65: printing never fails softly, and aborts exactly when some property of some definition is
unprintable. -/
theorem C65_aborts_iff (checks : Bool) (g : Forge.GameData F) :
    ((∃ m, Forge.GameData.toStr checks g = .panic m) ↔
      ∃ e ∈ g.definitions, ∃ p ∈ e.properties, Unprintable checks p) ∧
    ((∃ m, Forge.GameData.toStr checks g = .panic m) ∨ ∃ t, Forge.GameData.toStr checks g = .ok t) := by
  have gen : ∀ {α β : Type} (f : α → Outcome β) (bad : α → Prop),
      (∀ a, ((∃ m, f a = .panic m) ∧ bad a) ∨ ((∃ t, f a = .ok t) ∧ ¬ bad a)) → ∀ l : List α,
      ((∃ m, mapOut f l = .panic m) ∧ ∃ a ∈ l, bad a) ∨ ((∃ t, mapOut f l = .ok t) ∧ ¬ ∃ a ∈ l, bad a) := by
    intro α β f bad h l
    induction l with
    | nil => exact .inr ⟨⟨_, rfl⟩, by simp⟩
    | cons a l ih =>
      rw [mapOut_cons]
      rcases h a with ⟨⟨m, ha⟩, hb⟩ | ⟨⟨t, ha⟩, hb⟩
      · exact .inl ⟨⟨m, by rw [ha]; rfl⟩, a, by simp, hb⟩
      · rw [ha, Outcome.ok_bind]
        rcases ih with ⟨⟨m, hl⟩, x, hx, hbx⟩ | ⟨⟨t', hl⟩, hn⟩
        · exact .inl ⟨⟨m, by rw [hl]; rfl⟩, x, by simp [hx], hbx⟩
        · refine .inr ⟨⟨_, by rw [hl]; rfl⟩, ?_⟩
          rintro ⟨x, hx, hbx⟩
          rcases List.mem_cons.1 hx with rfl | hx
          · exact hb hbx
          · exact hn ⟨x, hx, hbx⟩
  have hE : ∀ e : Forge.Entity F,
      ((∃ m, (Forge.Entity.toStr checks e).bind (fun s => Outcome.ok (s ++ str! "\n\n")) = .panic m) ∧
        ∃ p ∈ e.properties, Unprintable checks p) ∨
      ((∃ t, (Forge.Entity.toStr checks e).bind (fun s => Outcome.ok (s ++ str! "\n\n")) = .ok t) ∧
        ¬ ∃ p ∈ e.properties, Unprintable checks p) := by
    intro e
    unfold Forge.Entity.toStr
    simp only
    rcases gen (fun p => (Property.toStr checks p).bind fun s => .ok (str! "\t" ++ s ++ str! "\n"))
      (Unprintable checks) (fun p => by
        rcases property_outcome checks p with ⟨⟨m, h⟩, hu⟩ | ⟨⟨t, h⟩, hu⟩
        · exact .inl ⟨⟨m, by rw [h]; rfl⟩, hu⟩
        · exact .inr ⟨⟨_, by rw [h]; rfl⟩, hu⟩) e.properties with ⟨⟨m, h⟩, hu⟩ | ⟨⟨t, h⟩, hu⟩
    · exact .inl ⟨⟨m, by rw [h]; rfl⟩, hu⟩
    · exact .inr ⟨⟨_, by rw [h]; rfl⟩, hu⟩
  unfold Forge.GameData.toStr
  simp only
  rcases gen _ _ hE g.definitions with ⟨⟨m, h⟩, hu⟩ | ⟨⟨t, h⟩, hu⟩
  · rw [h]
    exact ⟨⟨fun _ => hu, fun _ => ⟨m, rfl⟩⟩, .inl ⟨m, rfl⟩⟩
  · rw [h]
    exact ⟨⟨fun ⟨_, h⟩ => (nomatch h), fun h => absurd h hu⟩, .inr ⟨_, rfl⟩⟩

/-! ### C67 -/

theorem joinComma_cons {a : Str} {l : List Str} (h : l ≠ []) :
    joinComma (a :: l) = a ++ str! ", " ++ joinComma l := by
  cases l with
  | nil => exact absurd rfl h
  | cons b l => rfl

theorem joinBase_acc (acc : Str) (h : acc ≠ []) (l : List Str) :
    l.foldl (fun acc next => (if acc.isEmpty then acc else acc ++ str! ", ") ++ next) acc =
      joinComma (acc :: l) := by
  induction l generalizing acc with
  | nil => rfl
  | cons b l ih =>
    have he : acc.isEmpty = false := by cases acc <;> simp_all
    rw [List.foldl_cons, ih _ (by simp [he])]
    simp only [he, Bool.false_eq_true, if_false]
    cases l with
    | nil => rfl
    | cons c l =>
      rw [joinComma_cons (a := acc) (by simp), joinComma_cons (a := b) (by simp), joinComma_cons (by simp)]
      simp

/-- C67 in exact form: leading empty names are dropped together with their separators, the rest is joined by
`", "`. -/
theorem C67_exact (classes : List Str) :
    (Metadata.base classes : Metadata F).toStr =
      str! "base(" ++ joinComma (classes.dropWhile fun c => c.isEmpty) ++ str! ")" := by
  unfold Metadata.toStr
  simp only
  congr 2
  unfold joinBase
  induction classes with
  | nil => rfl
  | cons a l ih =>
    cases a with
    | nil => simpa using ih
    | cons x a => exact joinBase_acc (x :: a) (by simp) l

/-- C67 (partial): the base names are joined by `", "` if the first name is not empty. Missing: lists that
start with an empty name, for which the property fails, see `C67_fails`. -/
theorem C67_joined_partial (classes : List Str) (h : classes.head? ≠ some []) :
    (Metadata.base classes : Metadata F).toStr = str! "base(" ++ joinComma classes ++ str! ")" := by
  rw [C67_exact]
  cases classes with
  | nil => rfl
  | cons a l =>
    cases a with
    | nil => simp at h
    | cons x a => rfl

/-- C67 fails: with an empty first name the separator is missing. -/
theorem C67_fails : ¬ ∀ classes : List Str,
    (Metadata.base classes : Metadata F).toStr = str! "base(" ++ joinComma classes ++ str! ")" := by
  intro h
  have := h [[], str! "a"]
  rw [C67_exact] at this
  exact absurd this (by decide)

example : ([str! "Origin", [], str! "Target"] : List Str).head? ≠ some [] := by decide

end
end Quarch
