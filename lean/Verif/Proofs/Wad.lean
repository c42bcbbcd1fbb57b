import Verif.Spec.Wad
import Verif.Proofs.Basic
import Mathlib.Tactic.SplitIfs
import Mathlib.Tactic.Tauto
import Mathlib.Data.List.Perm.Basic
/-
Lemmas about the WAD readers.
-/
namespace Quarch
namespace Wad
open Spec

/-! ### numbers -/

theorem le2_length (n : Nat) : (le2 n).length = 2 := rfl
theorem le4_length (n : Nat) : (le4 n).length = 4 := rfl

theorem leU32_le4 {n : Nat} (h : n < 2 ^ 32) (rest : Bytes) : leU32 (le4 n ++ rest) = some (rest, n) := by
  simp only [le4, List.cons_append, List.nil_append, leU32, UInt8.toNat_ofNat', Option.some.injEq,
    Prod.mk.injEq, true_and]
  omega

theorem leU16_le2 {n : Nat} (h : n < 2 ^ 16) (rest : Bytes) : leU16 (le2 n ++ rest) = some (rest, n) := by
  simp only [le2, List.cons_append, List.nil_append, leU16, UInt8.toNat_ofNat', Option.some.injEq,
    Prod.mk.injEq, true_and]
  omega

theorem u8_eq {a : Nat} {b : UInt8} (h : a % 256 = b.toNat) : UInt8.ofNat a = b := by
  apply UInt8.toNat_inj.mp
  rw [UInt8.toNat_ofNat']
  exact h

theorem le4_of_bytes (bs : Bytes) (h : bs.length = 4) : ∃ n < 2 ^ 32, bs = le4 n := by
  match bs, h with
  | [b0, b1, b2, b3], _ =>
    have h0 := b0.toNat_lt; have h1 := b1.toNat_lt; have h2 := b2.toNat_lt; have h3 := b3.toNat_lt
    refine ⟨b0.toNat + 256 * b1.toNat + 65536 * b2.toNat + 16777216 * b3.toNat, by omega, ?_⟩
    unfold le4
    rw [u8_eq (b := b0) (by omega), u8_eq (b := b1) (by omega), u8_eq (b := b2) (by omega),
      u8_eq (b := b3) (by omega)]

theorem le2_of_bytes (bs : Bytes) (h : bs.length = 2) : ∃ n < 2 ^ 16, bs = le2 n := by
  match bs, h with
  | [b0, b1], _ =>
    have h0 := b0.toNat_lt; have h1 := b1.toNat_lt
    refine ⟨b0.toNat + 256 * b1.toNat, by omega, ?_⟩
    unfold le2
    rw [u8_eq (b := b0) (by omega), u8_eq (b := b1) (by omega)]

/-- Splitting a byte string. -/
theorem split_at {n m : Nat} (bs : Bytes) (h : bs.length = n + m) :
    ∃ a b, bs = a ++ b ∧ a.length = n ∧ b.length = m :=
  ⟨bs.take n, bs.drop n, (List.take_append_drop n bs).symm, by simp [h], by simp [h]⟩

theorem le4_split {m : Nat} (bs : Bytes) (h : bs.length = 4 + m) :
    ∃ n b, bs = le4 n ++ b ∧ n < 2 ^ 32 ∧ b.length = m := by
  obtain ⟨a, b, rfl, ha, hb⟩ := split_at bs h
  obtain ⟨n, hn, rfl⟩ := le4_of_bytes a ha
  exact ⟨n, b, rfl, hn, hb⟩

/-! ### count -/

theorem count_leU8 (bs rest : Bytes) : count leU8 bs.length (bs ++ rest) = some (rest, bs) := by
  induction bs with
  | nil => rfl
  | cons b bs ih => simp [count, leU8, ih]

theorem mipLevel_self (bs : Bytes) : mipLevelParser bs.length bs = some ([], bs) := by
  simpa [mipLevelParser] using count_leU8 bs []

theorem mipLevel_some {n : Nat} {bs m rest : Bytes} (h : mipLevelParser n bs = some (rest, m)) :
    bs = m ++ rest ∧ m.length = n := by
  induction n generalizing bs m with
  | zero => simp [mipLevelParser, count] at h; simp [h]
  | succ n ih =>
    cases bs with
    | nil => simp [mipLevelParser, count, leU8] at h
    | cons b bs =>
      simp only [mipLevelParser, count, leU8] at h
      split at h
      · rename_i i as hc
        simp only [Option.some.injEq, Prod.mk.injEq] at h
        obtain ⟨rfl, rfl⟩ := h
        obtain ⟨h1, h2⟩ := ih hc
        simp [h1, h2]
      · simp at h

theorem count_anychar (bs rest : Bytes) :
    count anychar bs.length (bs ++ rest) = some (rest, bs.map latin1) := by
  induction bs with
  | nil => rfl
  | cons b bs ih => simp [count, anychar, ih]

theorem count_anychar' {n : Nat} (bs rest : Bytes) (h : bs.length = n) :
    count anychar n (bs ++ rest) = some (rest, bs.map latin1) := h ▸ count_anychar bs rest

theorem latin1_inj {a b : UInt8} (h : latin1 a = latin1 b) : a = b := by
  unfold latin1 at h
  have ha := a.toNat_lt; have hb := b.toNat_lt
  have e := congrArg Char.toNat h
  have va : Nat.isValidChar a.toNat := Or.inl (by omega)
  have vb : Nat.isValidChar b.toNat := Or.inl (by omega)
  rw [Char.ofNat, Char.ofNat, dif_pos va, dif_pos vb] at e
  exact UInt8.toNat_inj.mp e

/-! ### palettes -/

theorem paletteBytes_length (p : Palette) : (paletteBytes p).length = 3 * p.length := by
  induction p with
  | nil => rfl
  | cons c p ih => simp [paletteBytes] at ih ⊢; omega

theorem count_color (p : Palette) (rest : Bytes) :
    count colorParser p.length (paletteBytes p ++ rest) = some (rest, p) := by
  induction p with
  | nil => rfl
  | cons c p ih =>
    have : paletteBytes (c :: p) ++ rest = c.r :: c.g :: c.b :: (paletteBytes p ++ rest) := by
      simp [paletteBytes]
    simp [count, this, colorParser, andThen, leU8] at ih ⊢
    simp [ih]

theorem paletteBytes_of_bytes (n : Nat) (bs : Bytes) (h : bs.length = 3 * n) :
    ∃ p : Palette, p.length = n ∧ bs = paletteBytes p := by
  induction n generalizing bs with
  | zero => exact ⟨[], rfl, List.length_eq_zero_iff.mp (by omega)⟩
  | succ n ih =>
    match bs, h with
    | r :: g :: b :: bs, h =>
      obtain ⟨p, hp, rfl⟩ := ih bs (by simp at h; omega)
      exact ⟨⟨r, g, b⟩ :: p, by simp [hp], by simp [paletteBytes]⟩

theorem count_color_short (n : Nat) (bs : Bytes) (h : bs.length < 3 * n) : count colorParser n bs = none := by
  induction n generalizing bs with
  | zero => omega
  | succ n ih =>
    match bs, h with
    | [], _ => rfl
    | [_], _ => rfl
    | [_, _], _ => rfl
    | r :: g :: b :: bs, h =>
      simp only [count, colorParser, andThen, leU8]
      have := ih bs (by simp at h; omega)
      simp only [colorParser] at this
      rw [this]

theorem paletteBytes_inj {p q : Palette} (h : paletteBytes p = paletteBytes q) : p = q := by
  have hl : p.length = q.length := by
    have := congrArg List.length h
    simp only [paletteBytes_length] at this; omega
  have h1 := count_color p []
  have h2 := count_color q []
  rw [h, hl] at h1
  rw [h1] at h2
  simpa using h2

theorem palette_of (p : Palette) (hp : p.length = 256) (rest : Bytes) :
    paletteParser (paletteBytes p ++ rest) = some (rest, p) := by
  unfold paletteParser; rw [← hp]; exact count_color p rest

/-! ### reading -/

theorem readExact_some {file : Bytes} {off len : Nat} {buf : Bytes} :
    readExact file off len = some buf ↔ buf.length = len ∧ Has file off buf := by
  unfold readExact Has
  split_ifs with h0 h1
  · subst h0
    constructor
    · intro h; obtain rfl : [] = buf := by simpa using h
      simp
    · rintro ⟨h, _⟩; simp [List.length_eq_zero_iff.mp h]
  · constructor
    · intro h; obtain rfl : (file.drop off).take len = buf := by simpa using h
      refine ⟨by simp; omega, List.take_prefix _ _⟩
    · rintro ⟨h, hp⟩
      rw [← h, ← List.prefix_iff_eq_take.mp hp]
  · constructor
    · simp
    · rintro ⟨h, hp⟩
      have := hp.length_le
      simp at this; omega

theorem readExact_none {file : Bytes} {off len : Nat} :
    readExact file off len = none ↔ Beyond file off len := by
  unfold readExact Beyond
  split_ifs <;> simp <;> omega

theorem has_unique {file : Bytes} {off : Nat} {a b : Bytes} (ha : Has file off a) (hb : Has file off b)
    (h : a.length = b.length) : a = b :=
  List.prefix_of_prefix_length_le ha hb (Nat.le_of_eq h) |>.eq_of_length h

theorem has_not_beyond {file : Bytes} {off : Nat} {a : Bytes} (ha : Has file off a) :
    ¬ Beyond file off a.length := by
  rintro ⟨h0, h1⟩
  have := List.IsPrefix.length_le ha
  simp at this; omega

theorem has_of_not_beyond {file : Bytes} {off len : Nat} (h : ¬ Beyond file off len) :
    ∃ bs, bs.length = len ∧ Has file off bs := by
  cases hr : readExact file off len with
  | none => exact absurd (readExact_none.mp hr) h
  | some bs => exact ⟨bs, readExact_some.mp hr⟩

/-! ### names -/

theorem cName_zero (cs : List Char) : cName (latin1 0 :: cs) = [] := rfl

theorem cName_cons {b : UInt8} (h : b ≠ 0) (cs : List Char) :
    cName (latin1 b :: cs) = latin1 b :: cName cs := by
  have : latin1 b ≠ Char.ofNat 0 := fun e => h (latin1_inj (b := 0) e)
  simp [cName, this]

theorem nameIn_iff {field : Bytes} {name : Str} : NameIn field name ↔ name = cName (field.map latin1) := by
  constructor
  · rintro ⟨bs, h0, h, rfl⟩
    induction bs generalizing field with
    | nil =>
      rcases h with rfl | ⟨junk, rfl⟩
      · rfl
      · rfl
    | cons b bs ih =>
      have hb : b ≠ 0 := by rintro rfl; exact h0 (by simp)
      have h0' : 0 ∉ bs := fun h => h0 (by simp [h])
      rcases h with rfl | ⟨junk, rfl⟩
      · rw [List.map_cons, ih h0' (.inl rfl), List.map_cons (f := latin1), cName_cons hb]; rfl
      · rw [List.cons_append, List.map_cons, ih h0' (.inr ⟨junk, rfl⟩), List.map_cons (f := latin1),
          cName_cons hb]; rfl
  · rintro rfl
    induction field with
    | nil => exact ⟨[], by simp, .inl rfl, rfl⟩
    | cons b field ih =>
      by_cases hb : b = 0
      · subst hb; exact ⟨[], by simp, .inr ⟨field, rfl⟩, rfl⟩
      · obtain ⟨bs, h0, h, e⟩ := ih
        refine ⟨b :: bs, by simp [h0, Ne.symm hb], ?_, ?_⟩
        · rcases h with rfl | ⟨junk, rfl⟩
          · exact .inl rfl
          · exact .inr ⟨junk, rfl⟩
        · rw [List.map_cons, cName_cons hb, e]; rfl

/-! ### entries -/

/-- The record the reader makes of an entry. -/
def toEntry (e : EntryRec) : Entry :=
  ⟨e.offset, e.dsize, e.size, latin1 e.kind, e.cmprs, cName (e.field.map latin1)⟩

theorem entry_bytes_length {e : EntryRec} (h : e.Fits) : e.bytes.length = 32 := by
  simp [EntryRec.bytes, le4_length, le2_length, h.field]

theorem entryParser_bytes {e : EntryRec} (h : e.Fits) : entryParser e.bytes = some ([], toEntry e) := by
  have := count_anychar' e.field [] h.field
  rw [List.append_nil] at this
  simp only [entryParser, EntryRec.bytes, andThen, leU32_le4 h.offset, leU32_le4 h.dsize, leU32_le4 h.size,
    leU16_le2 h.pad, List.cons_append, List.nil_append, anychar, leU8, this]
  rfl

theorem entry_of_bytes (bs : Bytes) (h : bs.length = 32) : ∃ e : EntryRec, e.Fits ∧ bs = e.bytes := by
  obtain ⟨o, bs, rfl, ho, h⟩ := le4_split (m := 28) bs h
  obtain ⟨d, bs, rfl, hd, h⟩ := le4_split (m := 24) bs h
  obtain ⟨s, bs, rfl, hs, h⟩ := le4_split (m := 20) bs h
  obtain ⟨k, bs, rfl, hk, h⟩ := split_at (n := 1) (m := 19) bs h
  obtain ⟨c, bs, rfl, hc, h⟩ := split_at (n := 1) (m := 18) bs h
  obtain ⟨p, f, rfl, hp, hf⟩ := split_at (n := 2) (m := 16) bs h
  obtain ⟨p, hp2, rfl⟩ := le2_of_bytes p hp
  match k, c, hk, hc with
  | [k], [c], _, _ => exact ⟨⟨o, d, s, k, c, p, f⟩, ⟨ho, hd, hs, hp2, hf⟩, rfl⟩

/-- The test the reader applies to an entry. -/
def sel (whitelist : Option (List Str)) (e : Entry) : Option Entry :=
  if e.entryType = 'C' ∨ e.entryType = 'D' then
    if whitelisted whitelist e.name then some e else none
  else none

theorem sel_wanted {whitelist : Option (List Str)} {e : EntryRec} :
    (Wanted whitelist e → sel whitelist (toEntry e) = some (toEntry e)) ∧
    (¬ Wanted whitelist e → sel whitelist (toEntry e) = none) := by
  have hk : (toEntry e).entryType = 'C' ∨ (toEntry e).entryType = 'D' ↔ e.kind = 67 ∨ e.kind = 68 := by
    have h1 : ('C' : Char) = latin1 67 := rfl
    have h2 : ('D' : Char) = latin1 68 := rfl
    rw [h1, h2]
    constructor
    · rintro (h | h)
      · exact .inl (latin1_inj h)
      · exact .inr (latin1_inj h)
    · rintro (h | h) <;> simp [toEntry, h]
  have hw : whitelisted whitelist (toEntry e).name = true ↔
      ∀ w, whitelist = some w → ∃ name ∈ w, NameIn e.field name := by
    cases whitelist with
    | none => simp [whitelisted]
    | some w => simp [whitelisted, nameIn_iff, toEntry]
  unfold sel Wanted
  by_cases h1 : e.kind = 67 ∨ e.kind = 68
  · by_cases h2 : ∀ w, whitelist = some w → ∃ name ∈ w, NameIn e.field name
    · refine ⟨fun _ => ?_, fun h => absurd ⟨h1, h2⟩ h⟩
      rw [if_pos (hk.mpr h1), if_pos (hw.mpr h2)]
    · have : whitelisted whitelist (toEntry e).name = false := by
        rw [Bool.eq_false_iff]; exact fun h => h2 (hw.mp h)
      refine ⟨fun h => absurd h.2 h2, fun _ => ?_⟩
      rw [if_pos (hk.mpr h1), if_neg (by simp [this])]
  · refine ⟨fun h => absurd h.1 h1, fun _ => ?_⟩
    rw [if_neg (fun h => h1 (hk.mp h))]

theorem selection_filterMap {whitelist : Option (List Str)} {es ws : List EntryRec} :
    Selection whitelist es ws →
    (es.map fun e => sel whitelist (toEntry e)).filterMap id = ws.map toEntry := by
  intro h
  induction h with
  | nil => rfl
  | take hw _ ih =>
    simp only [List.map_cons, sel_wanted.1 hw]
    rw [List.filterMap_cons, ← ih]; rfl
  | skip hw _ ih =>
    simp only [List.map_cons, sel_wanted.2 hw]
    rw [List.filterMap_cons, ← ih]; rfl

theorem selection_exists (whitelist : Option (List Str)) (es : List EntryRec) :
    ∃ ws, Selection whitelist es ws := by
  induction es with
  | nil => exact ⟨[], .nil⟩
  | cons e es ih =>
    obtain ⟨ws, h⟩ := ih
    by_cases hw : Wanted whitelist e
    · exact ⟨_, .take hw h⟩
    · exact ⟨_, .skip hw h⟩

theorem selection_sub {whitelist : Option (List Str)} {es ws : List EntryRec}
    (h : Selection whitelist es ws) : ws.Sublist es := by
  induction h with
  | nil => exact .slnil
  | take _ _ ih => exact ih.cons_cons _
  | skip _ _ ih => exact ih.cons _

theorem selection_unique {whitelist : Option (List Str)} {es ws ws' : List EntryRec}
    (h : Selection whitelist es ws) (h' : Selection whitelist es ws') : ws = ws' := by
  induction h generalizing ws' with
  | nil => cases h'; rfl
  | take hw _ ih =>
    cases h' with
    | take _ h' => rw [ih h']
    | skip hn _ => exact absurd hw hn
  | skip hw _ ih =>
    cases h' with
    | take hn _ => exact absurd hn hw
    | skip _ h' => exact ih h'

/-! ### 32-bit arithmetic -/

theorem addU32_ok {checks : Bool} {a b r : Nat} : addU32 checks a b = .ok r ↔ Computes checks (a + b) r := by
  unfold addU32 Computes
  split_ifs with h1 h2
  · simp only [Outcome.ok.injEq, Nat.mod_eq_of_lt h1, h1, implies_true, and_true, eq_comm]
  · simp [h2]; omega
  · simp only [Outcome.ok.injEq]
    constructor
    · rintro rfl; exact ⟨rfl, fun h => absurd h h2⟩
    · rintro ⟨rfl, _⟩; rfl

theorem mulU32_ok {checks : Bool} {a b r : Nat} : mulU32 checks a b = .ok r ↔ Computes checks (a * b) r := by
  unfold mulU32 Computes
  split_ifs with h1 h2
  · simp only [Outcome.ok.injEq, Nat.mod_eq_of_lt h1, h1, implies_true, and_true, eq_comm]
  · simp [h2]; omega
  · simp only [Outcome.ok.injEq]
    constructor
    · rintro rfl; exact ⟨rfl, fun h => absurd h h2⟩
    · rintro ⟨rfl, _⟩; rfl

theorem addU32_cases (checks : Bool) (a b : Nat) :
    (addU32 checks a b = .ok ((a + b) % 2 ^ 32) ∧ (checks = true → a + b < 2 ^ 32)) ∨
    (addU32 checks a b = .panic "attempt to add with overflow" ∧ checks = true ∧ 2 ^ 32 ≤ a + b) := by
  unfold addU32
  split_ifs with h1 h2
  · left; exact ⟨by rw [Nat.mod_eq_of_lt h1], fun _ => h1⟩
  · right; exact ⟨rfl, h2, by omega⟩
  · left; exact ⟨rfl, fun h => absurd h h2⟩

theorem mulU32_cases (checks : Bool) (a b : Nat) :
    (mulU32 checks a b = .ok ((a * b) % 2 ^ 32) ∧ (checks = true → a * b < 2 ^ 32)) ∨
    (mulU32 checks a b = .panic "attempt to multiply with overflow" ∧ checks = true ∧ 2 ^ 32 ≤ a * b) := by
  unfold mulU32
  split_ifs with h1 h2
  · left; exact ⟨by rw [Nat.mod_eq_of_lt h1], fun _ => h1⟩
  · right; exact ⟨rfl, h2, by omega⟩
  · left; exact ⟨rfl, fun h => absurd h h2⟩

theorem computes_mod (checks : Bool) {n : Nat} (h : checks = true → n < 2 ^ 32) :
    Computes checks n (n % 2 ^ 32) := ⟨rfl, h⟩

theorem computes_unique {checks : Bool} {n a b : Nat} (h : Computes checks n a) (h' : Computes checks n b) :
    a = b := h.1.trans h'.1.symm

/-! ### collecting -/

/-! ### collecting -/

theorem collectResults_err {α : Type} {l : List (Outcome α)} {e : Err} :
    collectResults l = .err e ↔ (∀ x ∈ l, x.aborts = false) ∧
      ∃ pre post, l = pre ++ .err e :: post ∧ ∀ x ∈ pre, x.isErr = false := by
  constructor
  · intro h
    unfold collectResults at h
    split at h
    · simp at h
    · simp at h
    · rename_i h1
      split at h
      · rename_i e' h2
        injection h with h
        subst h
        refine ⟨fun x hx => by simpa using List.find?_eq_none.1 h1 x hx, ?_⟩
        obtain ⟨_, pre, post, rfl, hpre⟩ := List.find?_eq_some_iff_append.1 h2
        exact ⟨pre, post, rfl, fun x hx => by simpa using hpre x hx⟩
      · simp at h
  · rintro ⟨h1, pre, post, rfl, h2⟩
    unfold collectResults
    rw [List.find?_eq_none.2 (fun x hx => by simp [h1 x hx])]
    have : (pre ++ .err e :: post).find? Outcome.isErr = some (.err e) :=
      List.find?_eq_some_iff_append.2 ⟨rfl, pre, post, rfl, fun x hx => by simp [h2 x hx]⟩
    rw [this]

theorem collectResults_aborts {α : Type} {l : List (Outcome α)} :
    (collectResults l).aborts = true ↔ ∃ x ∈ l, x.aborts = true := by
  unfold collectResults
  cases h : l.find? Outcome.aborts with
  | some x =>
    have hx := List.find?_some h
    have hm := List.mem_of_find?_eq_some h
    cases x with
    | panic m => simp [Outcome.aborts]; exact ⟨_, hm, hx⟩
    | overflow => simp [Outcome.aborts]; exact ⟨_, hm, hx⟩
    | ok a => simp [Outcome.aborts] at hx
    | err e => simp [Outcome.aborts] at hx
  | none =>
    have := List.find?_eq_none.1 h
    simp only
    constructor
    · intro h; split at h <;> simp [Outcome.aborts] at h
    · rintro ⟨x, hx, ha⟩; exact absurd ha (this x hx)

/-- Every call ends in one of these ways. -/
theorem outcome_cases {α : Type} (o : Outcome α) :
    (∃ a, o = .ok a) ∨ (∃ e, o = .err e) ∨ o.aborts = true := by
  cases o <;> simp [Outcome.aborts]

/-! ### the parallel part -/

theorem runTasks_foldl {α β : Type} (f : α → β) (xs : List α) (sched : List Nat)
    (slots : List (Option β)) (hl : slots.length = xs.length) (i : Nat) :
    (sched.foldl (fun slots i => match xs[i]? with
      | some x => slots.set i (some (f x))
      | none => slots) slots)[i]? = if i ∈ sched then xs[i]?.map fun x => some (f x) else slots[i]? := by
  induction sched generalizing slots with
  | nil => simp
  | cons j sched ih =>
    rw [List.foldl_cons, ih]
    · by_cases hi : i ∈ sched
      · simp [hi]
      · by_cases hij : i = j
        · subst hij
          simp only [hi, List.mem_cons, true_or, if_true, if_false]
          cases hx : xs[i]? with
          | none =>
            simp only [Option.map_none]
            rw [List.getElem?_eq_none_iff] at hx ⊢; omega
          | some x =>
            have := (List.getElem?_eq_some_iff.1 hx).1
            simp only [Option.map_some]
            rw [List.getElem?_set_self (by omega)]
        · simp only [hi, List.mem_cons, hij, or_false, if_false]
          cases hx : xs[j]? with
          | none => rfl
          | some x => simp only; rw [List.getElem?_set_ne (fun h => hij h.symm)]
    · cases hx : xs[j]? <;> simp [hl]

theorem runTasks_complete {α β : Type} (f : α → β) (xs : List α) (sched : List Nat)
    (h : Complete xs.length sched) : runTasks f xs sched = xs.map fun x => some (f x) := by
  apply List.ext_getElem?
  intro i
  refine (runTasks_foldl f xs sched (List.replicate xs.length none) (by simp) i).trans ?_
  rw [List.getElem?_map]
  split_ifs with hi
  · rfl
  · have : xs.length ≤ i := Nat.le_of_not_lt fun hlt => hi (h i hlt)
    rw [List.getElem?_eq_none_iff.2 this, List.getElem?_eq_none_iff.2 (by simpa using this)]; rfl

theorem readMipData_complete {checks : Bool} {file : Bytes} {wt : WadType} {dir : List Entry}
    {ms : List MipTexture} {levels : Nat} {sched : List Nat} (h : Complete (dir.zip ms).length sched) :
    readMipData checks file wt dir ms levels sched =
      collectResults ((dir.zip ms).map (readMipDatum checks file wt levels)) := by
  unfold readMipData
  rw [runTasks_complete _ _ _ h]
  show collectResults (List.filterMap id _) = _
  rw [List.filterMap_map]
  have : (id ∘ fun x => some (readMipDatum checks file wt levels x)) =
    fun x => some (readMipDatum checks file wt levels x) := rfl
  rw [this, List.filterMap_eq_map']

/-! ### each reader -/

theorem headerParser_bytes {wt : WadType} {n d : Nat} (hn : n < 2 ^ 32) (hd : d < 2 ^ 32) :
    headerParser (magicOf wt ++ (le4 n ++ le4 d)) = some ([], ⟨(magicOf wt).map latin1, n, d⟩) := by
  have h1 := count_anychar' (n := 4) (magicOf wt) (le4 n ++ le4 d) (by cases wt <;> rfl)
  have h2 := leU32_le4 hd []
  rw [List.append_nil] at h2
  simp only [headerParser, andThen, h1, leU32_le4 hn, h2]

theorem readHeader_of {file : Bytes} {wt : WadType} {n d : Nat} (h : HasHeader file wt n d) :
    readHeader file = .ok ⟨(magicOf wt).map latin1, n, d⟩ ∧
    wadTypeOf ((magicOf wt).map latin1) = .ok wt := by
  obtain ⟨hn, hd, h⟩ := h
  have : readExact file 0 headerBytes = some (magicOf wt ++ (le4 n ++ le4 d)) :=
    readExact_some.2 ⟨by cases wt <;> rfl, h⟩
  refine ⟨?_, by cases wt <;> rfl⟩
  simp [readHeader, this, headerParser_bytes hn hd]

/-- A file either is too short for the header or has one with some magic. -/
theorem readHeader_cases (file : Bytes) :
    (Beyond file 0 12 ∧ readHeader file = .err (.wad .readHeader)) ∨
    ∃ magic n d, magic.length = 4 ∧ n < 2 ^ 32 ∧ d < 2 ^ 32 ∧ Has file 0 (magic ++ (le4 n ++ le4 d)) ∧
      readHeader file = .ok ⟨magic.map latin1, n, d⟩ := by
  by_cases hb : Beyond file 0 12
  · left
    refine ⟨hb, ?_⟩
    have : readExact file 0 headerBytes = none := readExact_none.2 hb
    simp [readHeader, this]
  · right
    obtain ⟨bs, hl, hh⟩ := has_of_not_beyond hb
    obtain ⟨magic, bs, rfl, hm, hl⟩ := split_at (n := 4) (m := 8) bs hl
    obtain ⟨n, bs, rfl, hn, hl⟩ := le4_split (m := 4) bs hl
    obtain ⟨d, hd, rfl⟩ := le4_of_bytes bs hl
    refine ⟨magic, n, d, hm, hn, hd, hh, ?_⟩
    have : readExact file 0 headerBytes = some (magic ++ (le4 n ++ le4 d)) :=
      readExact_some.2 ⟨by simp [hm, le4_length, headerBytes], hh⟩
    have h1 := count_anychar' (n := 4) magic (le4 n ++ le4 d) hm
    have h2 := leU32_le4 hd []
    rw [List.append_nil] at h2
    simp [readHeader, this, headerParser, andThen, h1, leU32_le4 hn, h2]

theorem wadTypeOf_ok {magic : Bytes} {wt : WadType} :
    wadTypeOf (magic.map latin1) = .ok wt ↔ magic = magicOf wt := by
  have inj : ∀ a b : Bytes, a.map latin1 = b.map latin1 → a = b :=
    fun a b h => (List.map_injective_iff.2 fun _ _ => latin1_inj) h
  have h2 : ['W', 'A', 'D', '2'] = (magicOf .wad2).map latin1 := rfl
  have h3 : ['W', 'A', 'D', '3'] = (magicOf .wad3).map latin1 := rfl
  have hne : magicOf .wad2 ≠ magicOf .wad3 := by decide
  unfold wadTypeOf
  rw [h2, h3]
  constructor
  · split_ifs with a b
    · rintro ⟨⟩; exact inj _ _ a
    · rintro ⟨⟩; exact inj _ _ b
    · simp
  · rintro rfl
    cases wt
    · simp
    · rw [if_neg (fun h => hne (inj _ _ h).symm)]; simp

theorem wadTypeOf_panic {magic : Bytes} (h : ∀ wt, magic ≠ magicOf wt) :
    (wadTypeOf (magic.map latin1)).aborts = true := by
  rcases outcome_cases (wadTypeOf (magic.map latin1)) with ⟨a, ha⟩ | ⟨e, he⟩ | h'
  · exact absurd (wadTypeOf_ok.1 ha) (h a)
  · unfold wadTypeOf at he; split_ifs at he
  · exact h'

/-- Reading entry `i`: overflow, outside the file, or an entry. -/
theorem readEntry_cases (checks : Bool) (file : Bytes) (h : Header) (wl : Option (List Str)) (i : Nat) :
    (checks = true ∧ 2 ^ 32 ≤ h.dirOffset + 32 * i ∧
      (readEntry checks file h wl i = .panic "attempt to add with overflow" ∨
       readEntry checks file h wl i = .panic "attempt to multiply with overflow")) ∨
    ((checks = true → h.dirOffset + 32 * i < 2 ^ 32) ∧
      ((Beyond file ((h.dirOffset + 32 * i) % 2 ^ 32) 32 ∧
        readEntry checks file h wl i = .err (.wad (.readEntry i))) ∨
      ∃ e, HasEntry checks file h.dirOffset i e ∧
        readEntry checks file h wl i = .ok (sel wl (toEntry e)))) := by
  unfold readEntry
  rcases mulU32_cases checks i entryBytes with ⟨hm, hmc⟩ | ⟨hm, hc, hge⟩
  · rcases addU32_cases checks h.dirOffset ((i * entryBytes) % 2 ^ 32) with ⟨ha, hac⟩ | ⟨ha, hc, hge⟩
    · right
      have hfit : checks = true → h.dirOffset + 32 * i < 2 ^ 32 := by
        intro hc; have := hmc hc; have := hac hc
        simp only [entryBytes] at *; omega
      have haddr : (h.dirOffset + i * entryBytes % 2 ^ 32) % 2 ^ 32 = (h.dirOffset + 32 * i) % 2 ^ 32 := by
        simp only [entryBytes]; omega
      refine ⟨hfit, ?_⟩
      rw [hm, Outcome.ok_bind, ha, Outcome.ok_bind, haddr]
      by_cases hb : Beyond file ((h.dirOffset + 32 * i) % 2 ^ 32) 32
      · left
        refine ⟨hb, ?_⟩
        have : readExact file ((h.dirOffset + 32 * i) % 2 ^ 32) entryBytes = none := readExact_none.2 hb
        rw [this]
      · right
        obtain ⟨bs, hl, hh⟩ := has_of_not_beyond hb
        obtain ⟨e, hf, rfl⟩ := entry_of_bytes bs hl
        refine ⟨e, ⟨hf, _, computes_mod checks hfit, hh⟩, ?_⟩
        have : readExact file ((h.dirOffset + 32 * i) % 2 ^ 32) entryBytes = some e.bytes :=
          readExact_some.2 ⟨hl, hh⟩
        rw [this]
        simp only [entryParser_bytes hf]
        unfold sel
        split_ifs <;> rfl
    · left
      refine ⟨hc, ?_, .inl ?_⟩
      · have := hmc hc; simp only [entryBytes] at *; omega
      · rw [hm, Outcome.ok_bind, ha]; rfl
  · left
    refine ⟨hc, by simp only [entryBytes] at *; omega, .inr ?_⟩
    rw [hm]; rfl

theorem texHeader_bytes_length {field : Bytes} (h : field.length = 16) (m : MipTexture) :
    (headerBytesOf field m).length = 40 := by
  simp [headerBytesOf, h, le4_length]

set_option maxRecDepth 20000 in
theorem lowerLatin1_eq : lowerLatin1 = Spec.lower := by
  funext c
  by_cases h : c.toNat < 256
  · have key : ∀ n < 256, lowerLatin1 (Char.ofNat n) = Spec.lower (Char.ofNat n) := by decide
    have := key c.toNat h
    rwa [Char.ofNat_toNat] at this
  · have h1 : (Spec.capitals.zip Spec.smalls).lookup c = none := by
      rw [List.lookup_eq_none_iff]
      intro p hp
      have key : ∀ p ∈ Spec.capitals.zip Spec.smalls, p.1.toNat < 256 := by decide
      have := key p hp
      simp only [ne_eq, bne_iff_ne]
      rintro rfl
      exact h this
    unfold Spec.lower lowerLatin1
    rw [h1]
    simp only [Option.getD_none]
    rw [if_neg (by omega)]

theorem mipTextureParser_bytes {field : Bytes} (hf : field.length = 16) {m : MipTexture} (h : TexFits m) :
    mipTextureParser (headerBytesOf field m) =
      some ([], { m with name := (cName (field.map latin1)).map lower }) := by
  have h8 := leU32_le4 h.offset8 []
  rw [List.append_nil] at h8
  simp only [mipTextureParser, headerBytesOf, andThen, lowerLatin1_eq, count_anychar' field _ hf, leU32_le4 h.width,
    leU32_le4 h.height, leU32_le4 h.offset1, leU32_le4 h.offset2, leU32_le4 h.offset4, h8]

theorem readMipTexture_cases (file : Bytes) (e : EntryRec) :
    (Beyond file e.offset 40 ∧ readMipTexture file (toEntry e) = .err (.wad .readMiptex)) ∨
    ∃ m, HasTexHeader file e m ∧ readMipTexture file (toEntry e) = .ok m := by
  by_cases hb : Beyond file e.offset 40
  · left
    refine ⟨hb, ?_⟩
    have : readExact file (toEntry e).offset miptexBytes = none := readExact_none.2 hb
    simp [readMipTexture, this]
  · right
    obtain ⟨bs, hl, hh⟩ := has_of_not_beyond hb
    obtain ⟨field, bs, rfl, hf, hl⟩ := split_at (n := 16) (m := 24) bs hl
    obtain ⟨w, bs, rfl, hw, hl⟩ := le4_split (m := 20) bs hl
    obtain ⟨ht, bs, rfl, hht, hl⟩ := le4_split (m := 16) bs hl
    obtain ⟨o1, bs, rfl, h1, hl⟩ := le4_split (m := 12) bs hl
    obtain ⟨o2, bs, rfl, h2, hl⟩ := le4_split (m := 8) bs hl
    obtain ⟨o4, bs, rfl, h4, hl⟩ := le4_split (m := 4) bs hl
    obtain ⟨o8, h8, rfl⟩ := le4_of_bytes bs hl
    let m : MipTexture := ⟨(cName (field.map latin1)).map lower, w, ht, o1, o2, o4, o8⟩
    have hm : TexFits m := ⟨hw, hht, h1, h2, h4, h8⟩
    refine ⟨m, ⟨hm, field, _, hf, nameIn_iff.2 rfl, rfl, hh⟩, ?_⟩
    have : readExact file (toEntry e).offset miptexBytes = some (headerBytesOf field m) :=
      readExact_some.2 ⟨texHeader_bytes_length hf m, hh⟩
    simp only [readMipTexture, this, mipTextureParser_bytes hf hm]
    rfl

theorem texHeader_unique {file : Bytes} {e : EntryRec} {m m' : MipTexture} (h : HasTexHeader file e m)
    (h' : HasTexHeader file e m') : m = m' := by
  obtain ⟨hm, f, n, hf, hn, hnm, hh⟩ := h
  obtain ⟨hm', f', n', hf', hn', hnm', hh'⟩ := h'
  have heq := has_unique hh hh' (by rw [texHeader_bytes_length hf, texHeader_bytes_length hf'])
  have p := mipTextureParser_bytes hf hm
  have p' := mipTextureParser_bytes hf' hm'
  rw [heq, p'] at p
  rw [nameIn_iff] at hn hn'
  subst hn hn'
  rw [← hnm, ← hnm'] at p
  cases m; cases m'
  simpa using p.symm

theorem readMipTexture_of {file : Bytes} {e : EntryRec} {m : MipTexture} (h : HasTexHeader file e m) :
    readMipTexture file (toEntry e) = .ok m := by
  rcases readMipTexture_cases file e with ⟨hb, _⟩ | ⟨m', hm', hr⟩
  · obtain ⟨hm, f, n, hf, hn, hnm, hh⟩ := h
    have := has_not_beyond hh
    rw [texHeader_bytes_length hf] at this
    exact absurd hb this
  · rw [hr, texHeader_unique h hm']

theorem entry_unique {checks : Bool} {file : Bytes} {d i : Nat} {e e' : EntryRec}
    (h : HasEntry checks file d i e) (h' : HasEntry checks file d i e') : toEntry e = toEntry e' := by
  obtain ⟨hf, a, ha, hh⟩ := h
  obtain ⟨hf', a', ha', hh'⟩ := h'
  obtain rfl := computes_unique ha ha'
  have heq := has_unique hh hh' (by rw [entry_bytes_length hf, entry_bytes_length hf'])
  have p := entryParser_bytes hf
  rw [heq, entryParser_bytes hf'] at p
  simpa using p.symm

theorem readEntry_of {checks : Bool} {file : Bytes} {h : Header} {wl : Option (List Str)} {i : Nat}
    {e : EntryRec} (he : HasEntry checks file h.dirOffset i e) :
    readEntry checks file h wl i = .ok (sel wl (toEntry e)) := by
  rcases readEntry_cases checks file h wl i with ⟨hc, hge, _⟩ | ⟨hfit, ⟨hb, _⟩ | ⟨e', he', hr⟩⟩
  · obtain ⟨_, a, ha, _⟩ := he
    have := ha.2 hc; omega
  · obtain ⟨hf, a, ha, hh⟩ := he
    have := has_not_beyond hh
    rw [entry_bytes_length hf, ha.1] at this
    exact absurd hb this
  · rw [hr, entry_unique he he']

/-! ### pixels and palette -/

theorem slice_all (buf : Bytes) : slice buf 0 buf.length = .ok buf := by
  simp [slice]

/-- The palette: overflow, outside the file, or there. -/
theorem readTexturePalette_cases (checks : Bool) (file : Bytes) (e : EntryRec) (m : MipTexture)
    {n size3 : Nat} (hn : n < 2 ^ 32) (h3 : size3 = n / 64) :
    (checks = true ∧ 2 ^ 32 ≤ e.offset + m.offset8 + n / 64 + 2 ∧
      readTexturePalette checks file .wad3 (toEntry e) m size3 = .panic "attempt to add with overflow") ∨
    ((checks = true → e.offset + m.offset8 + n / 64 + 2 < 2 ^ 32) ∧
      ((Beyond file ((e.offset + m.offset8 + n / 64 + 2) % 2 ^ 32) 768 ∧
        readTexturePalette checks file .wad3 (toEntry e) m size3 = .err (.wad .readPalette)) ∨
       ∃ p, HasPalette checks file e m n p ∧
        readTexturePalette checks file .wad3 (toEntry e) m size3 = .ok (some p))) := by
  subst h3
  unfold readTexturePalette
  simp only
  have hoff : (toEntry e).offset = e.offset := rfl
  rw [hoff]
  have h3 : n / 64 % 2 ^ 32 = n / 64 := Nat.mod_eq_of_lt (by omega)
  rw [h3]
  rcases addU32_cases checks e.offset m.offset8 with ⟨h1, c1⟩ | ⟨h1, c1, g1⟩
  swap
  · left; refine ⟨c1, by omega, ?_⟩; rw [h1]; rfl
  rw [h1, Outcome.ok_bind]
  rcases addU32_cases checks ((e.offset + m.offset8) % 2 ^ 32) (n / 64) with ⟨h2, c2⟩ | ⟨h2, c2, g2⟩
  swap
  · left; have := c1 c2; refine ⟨c2, by omega, ?_⟩; rw [h2]; rfl
  rw [h2, Outcome.ok_bind]
  rcases addU32_cases checks (((e.offset + m.offset8) % 2 ^ 32 + n / 64) % 2 ^ 32) 2 with
    ⟨h4, c4⟩ | ⟨h4, c4, g4⟩
  swap
  · left; have := c1 c4; have := c2 c4; refine ⟨c4, by omega, ?_⟩; rw [h4]; rfl
  rw [h4, Outcome.ok_bind]
  right
  have hfit : checks = true → e.offset + m.offset8 + n / 64 + 2 < 2 ^ 32 := by
    intro hc; have := c1 hc; have := c2 hc; have := c4 hc; omega
  have haddr : (((e.offset + m.offset8) % 2 ^ 32 + n / 64) % 2 ^ 32 + 2) % 2 ^ 32 =
    (e.offset + m.offset8 + n / 64 + 2) % 2 ^ 32 := by omega
  rw [haddr]
  refine ⟨hfit, ?_⟩
  by_cases hb : Beyond file ((e.offset + m.offset8 + n / 64 + 2) % 2 ^ 32) 768
  · left
    refine ⟨hb, ?_⟩
    have : readExact file ((e.offset + m.offset8 + n / 64 + 2) % 2 ^ 32) (256 * 3) = none :=
      readExact_none.2 hb
    rw [this]
  · right
    obtain ⟨bs, hl, hh⟩ := has_of_not_beyond hb
    obtain ⟨p, hp, rfl⟩ := paletteBytes_of_bytes 256 bs (by omega)
    refine ⟨p, ⟨hp, _, computes_mod checks hfit, hh⟩, ?_⟩
    have h5 : readExact file ((e.offset + m.offset8 + n / 64 + 2) % 2 ^ 32) (256 * 3) =
        some (paletteBytes p) := readExact_some.2 ⟨hl, hh⟩
    have h6 := palette_of p hp []
    rw [List.append_nil] at h6
    rw [h5]
    simp only [h6]

/-- Reading the data of a texture with one level. -/
theorem readMipDatum_cases (checks : Bool) (file : Bytes) (wt : WadType) (e : EntryRec) (m : MipTexture) :
    (checks = true ∧ (2 ^ 32 ≤ e.offset + m.offset1 ∨ 2 ^ 32 ≤ m.width * m.height) ∧
      (readMipDatum checks file wt 1 (toEntry e, m)).aborts = true) ∨
    ((checks = true → e.offset + m.offset1 < 2 ^ 32 ∧ m.width * m.height < 2 ^ 32) ∧
      ((Beyond file ((e.offset + m.offset1) % 2 ^ 32) ((m.width * m.height) % 2 ^ 32) ∧
        readMipDatum checks file wt 1 (toEntry e, m) = .err (.wad (.readMipdata m.name))) ∨
      ∃ pixels, HasPixels checks file e m pixels ∧
        readMipDatum checks file wt 1 (toEntry e, m) =
          (readTexturePalette checks file wt (toEntry e) m (pixels.length / 64)).bind fun palette =>
            .ok (⟨pixels, none, none, none⟩, palette))) := by
  unfold readMipDatum
  simp only
  have hoff : (toEntry e).offset = e.offset := rfl
  rw [hoff]
  rcases addU32_cases checks e.offset m.offset1 with ⟨h1, c1⟩ | ⟨h1, c1, g1⟩
  swap
  · left; refine ⟨c1, .inl g1, ?_⟩; rw [h1]; rfl
  rw [h1, Outcome.ok_bind]
  rcases mulU32_cases checks m.width m.height with ⟨h2, c2⟩ | ⟨h2, c2, g2⟩
  swap
  · left; refine ⟨c2, .inr g2, ?_⟩; rw [h2]; rfl
  rw [h2, Outcome.ok_bind]
  right
  refine ⟨fun hc => ⟨c1 hc, c2 hc⟩, ?_⟩
  set n := m.width * m.height % 2 ^ 32 with hn
  have hsum : (List.take 1 [n, n / 4, n / 4 / 4, n / 4 / 4 / 4]).sum = n := by simp
  rw [hsum]
  by_cases hb : Beyond file ((e.offset + m.offset1) % 2 ^ 32) n
  · left
    refine ⟨hb, ?_⟩
    rw [readExact_none.2 hb]
  · right
    obtain ⟨px, hl, hh⟩ := has_of_not_beyond hb
    refine ⟨px, ⟨⟨hl, c2⟩, _, computes_mod checks c1, hh⟩, ?_⟩
    rw [readExact_some.2 ⟨hl, hh⟩]
    simp only
    rw [← hl, slice_all, Outcome.ok_bind]
    simp only [mipLevel_self, readLevel]
    simp only [show ¬ (1 : Nat) > 1 by omega, show ¬ (1 : Nat) > 2 by omega, show ¬ (1 : Nat) > 3 by omega,
      decide_false, Bool.false_eq_true, if_false, Outcome.ok_bind]
    rw [show px.length / 4 / 4 / 4 = px.length / 64 by omega]

theorem hasPixels_lt {checks : Bool} {file : Bytes} {e : EntryRec} {m : MipTexture} {px : Bytes}
    (h : HasPixels checks file e m px) : px.length < 2 ^ 32 := by
  have := h.1.1; omega

theorem pixels_unique {checks : Bool} {file : Bytes} {e : EntryRec} {m : MipTexture} {a b : Bytes}
    (h : HasPixels checks file e m a) (h' : HasPixels checks file e m b) : a = b := by
  obtain ⟨hl, x, hx, hh⟩ := h
  obtain ⟨hl', x', hx', hh'⟩ := h'
  rw [computes_unique hx hx'] at hh
  exact has_unique hh hh' (computes_unique hl hl')

theorem palette_unique {checks : Bool} {file : Bytes} {e : EntryRec} {m : MipTexture} {n : Nat}
    {a b : Palette} (h : HasPalette checks file e m n a) (h' : HasPalette checks file e m n b) : a = b := by
  obtain ⟨hl, x, hx, hh⟩ := h
  obtain ⟨hl', x', hx', hh'⟩ := h'
  rw [computes_unique hx hx'] at hh
  exact paletteBytes_inj (has_unique hh hh' (by rw [paletteBytes_length, paletteBytes_length, hl, hl']))

/-- The pixels are not there: no reading. -/
theorem pixels_not {checks : Bool} {file : Bytes} {e : EntryRec} {m : MipTexture} {px : Bytes}
    (h : HasPixels checks file e m px) :
    (checks = true → e.offset + m.offset1 < 2 ^ 32 ∧ m.width * m.height < 2 ^ 32) ∧
    ¬ Beyond file ((e.offset + m.offset1) % 2 ^ 32) ((m.width * m.height) % 2 ^ 32) := by
  obtain ⟨hl, x, hx, hh⟩ := h
  refine ⟨fun hc => ⟨hx.2 hc, hl.2 hc⟩, ?_⟩
  have := has_not_beyond hh
  rw [hl.1, hx.1] at this
  exact this

theorem palette_not {checks : Bool} {file : Bytes} {e : EntryRec} {m : MipTexture} {n : Nat} {p : Palette}
    (h : HasPalette checks file e m n p) :
    (checks = true → e.offset + m.offset8 + n / 64 + 2 < 2 ^ 32) ∧
    ¬ Beyond file ((e.offset + m.offset8 + n / 64 + 2) % 2 ^ 32) 768 := by
  obtain ⟨hl, x, hx, hh⟩ := h
  refine ⟨hx.2, ?_⟩
  have := has_not_beyond hh
  rw [paletteBytes_length, hl, hx.1] at this
  exact this

/-- The data read for an entry and its header, as a texture. -/
theorem datum_ok {checks : Bool} {file : Bytes} {wt : WadType} {e : EntryRec} {m : MipTexture}
    (hm : HasTexHeader file e m) {d : MipDataIndexed} {p : Option Palette} :
    readMipDatum checks file wt 1 (toEntry e, m) = .ok (d, p) ↔ TextureAt checks file wt e ⟨m, d, p⟩ := by
  have hc := readMipDatum_cases checks file wt e m
  constructor
  · intro h
    rw [h] at hc
    rcases hc with ⟨_, _, ha⟩ | ⟨_, ⟨_, he⟩ | ⟨px, hpx, he⟩⟩
    · simp [Outcome.aborts] at ha
    · simp at he
    · obtain ⟨q, hq, he⟩ := Outcome.bind_eq_ok.1 he.symm
      simp only [Outcome.ok.injEq, Prod.mk.injEq] at he
      obtain ⟨rfl, rfl⟩ := he
      refine ⟨hm, px, hpx, rfl, ?_, ?_⟩
      · rintro rfl; simpa [readTexturePalette] using hq.symm
      · rintro rfl
        rcases readTexturePalette_cases checks file e m (hasPixels_lt hpx) rfl with
          ⟨_, _, h'⟩ | ⟨_, ⟨_, h'⟩ | ⟨p, hp, h'⟩⟩
        · rw [h'] at hq; simp at hq
        · rw [h'] at hq; simp at hq
        · rw [h'] at hq
          simp only [Outcome.ok.injEq] at hq
          exact ⟨p, hq.symm, hp⟩
  · rintro ⟨_, px, hpx, rfl, h2, h3⟩
    simp only at hpx h2 h3
    have hn := pixels_not hpx
    rcases hc with ⟨hc, ho, _⟩ | ⟨_, ⟨hb, _⟩ | ⟨px', hpx', he⟩⟩
    · have := hn.1 hc; omega
    · exact absurd hb hn.2
    · obtain rfl := pixels_unique hpx hpx'
      rw [he]
      cases wt with
      | wad2 => rw [h2 rfl]; rfl
      | wad3 =>
        obtain ⟨q, rfl, hq⟩ := h3 rfl
        have hqn := palette_not hq
        rcases readTexturePalette_cases checks file e m (hasPixels_lt hpx) rfl with
          ⟨hc, ho, h'⟩ | ⟨_, ⟨hb, h'⟩ | ⟨p, hp, h'⟩⟩
        · have := hqn.1 hc; simp only at *; omega
        · exact absurd hb hqn.2
        · rw [h', palette_unique hp hq]; rfl

/-! ### whole files -/

theorem readDirectory_ok {checks : Bool} {file : Bytes} {h : Header} {wl : Option (List Str)}
    {dir : List Entry} :
    readDirectory checks file h wl = .ok dir ↔
      ∃ es ws, es.length = h.numEntries ∧ HasDirectory checks file h.dirOffset es ∧ Selection wl es ws ∧
        dir = ws.map toEntry := by
  unfold readDirectory
  rw [Outcome.bind_eq_ok]
  constructor
  · rintro ⟨os, hos, hd⟩
    rw [collectResults_eq_ok] at hos
    simp only [Outcome.ok.injEq] at hd
    have hlen : os.length = h.numEntries := by
      have := congrArg List.length hos; simpa using this.symm
    have hex : ∀ i : Fin h.numEntries, ∃ e, HasEntry checks file h.dirOffset i e ∧
        os[i.1]'(by omega) = sel wl (toEntry e) := by
      intro i
      have hi : readEntry checks file h wl i = .ok (os[i.1]'(by omega)) := by
        have := congrArg (fun l => l[i.1]?) hos
        simp only [List.getElem?_map, List.getElem?_range i.2, Option.map_some] at this
        rw [List.getElem?_eq_getElem (by omega)] at this
        simpa using this
      rcases readEntry_cases checks file h wl i with ⟨_, _, h1 | h1⟩ | ⟨_, ⟨_, h1⟩ | ⟨e, he, h1⟩⟩
      · rw [h1] at hi; simp at hi
      · rw [h1] at hi; simp at hi
      · rw [h1] at hi; simp at hi
      · rw [h1] at hi
        simp only [Outcome.ok.injEq] at hi
        exact ⟨e, he, hi.symm⟩
    choose g hg1 hg2 using hex
    obtain ⟨ws, hws⟩ := selection_exists wl (List.ofFn g)
    refine ⟨List.ofFn g, ws, by simp, ?_, hws, ?_⟩
    · intro i e hi
      obtain ⟨hlt, rfl⟩ := List.getElem?_eq_some_iff.1 hi
      have hlt' : i < h.numEntries := by simpa using hlt
      simpa using hg1 ⟨i, hlt'⟩
    · rw [← hd, ← selection_filterMap hws]
      congr 1
      apply List.ext_getElem (by simp [hlen])
      intro i h1 h2
      simpa using hg2 ⟨i, by simpa using h2⟩
  · rintro ⟨es, ws, hlen, hdir, hws, rfl⟩
    refine ⟨es.map fun e => sel wl (toEntry e), ?_, ?_⟩
    · rw [collectResults_eq_ok]
      apply List.ext_getElem (by simp [hlen])
      intro i h1 h2
      simp only [List.getElem_map, List.getElem_range]
      refine readEntry_of (hdir i _ ?_)
      exact List.getElem?_eq_getElem _
    · rw [selection_filterMap hws]

theorem readMipTextures_ok {file : Bytes} {ws : List EntryRec} {ms : List MipTexture} :
    readMipTextures file (ws.map toEntry) = .ok ms ↔ List.Forall₂ (HasTexHeader file) ws ms := by
  unfold readMipTextures
  rw [collectResults_eq_ok, List.map_map]
  constructor
  · intro h
    induction ws generalizing ms with
    | nil => cases ms <;> simp at h ⊢
    | cons e ws ih =>
      cases ms with
      | nil => simp at h
      | cons m ms =>
        simp only [List.map_cons, List.cons.injEq, Function.comp] at h
        refine .cons ?_ (ih h.2)
        rcases readMipTexture_cases file e with ⟨_, h1⟩ | ⟨m', hm', h1⟩
        · rw [h1] at h; simp at h
        · rw [h1] at h; simp only [Outcome.ok.injEq] at h; rw [← h.1]; exact hm'
  · intro h
    induction h with
    | nil => rfl
    | cons h _ ih => simp only [List.map_cons, Function.comp, readMipTexture_of h]; rw [← ih]

theorem data_ok {checks : Bool} {file : Bytes} {wt : WadType} {ws : List EntryRec} {ms : List MipTexture}
    (hms : List.Forall₂ (HasTexHeader file) ws ms) {ts : List TextureIndexed} :
    (∃ ds, collectResults (((ws.map toEntry).zip ms).map (readMipDatum checks file wt 1)) = .ok ds ∧
      ts = (ms.zip ds).map fun (m, d) => ⟨m, d.1, d.2⟩) ↔
    List.Forall₂ (TextureAt checks file wt) ws ts := by
  simp only [collectResults_eq_ok]
  induction hms generalizing ts with
  | nil =>
    constructor
    · rintro ⟨ds, h, rfl⟩; simp
    · intro h; cases h; exact ⟨[], rfl, rfl⟩
  | @cons e m ws ms hm _ ih =>
    constructor
    · rintro ⟨ds, h, rfl⟩
      cases ds with
      | nil => simp at h
      | cons d ds =>
        simp only [List.map_cons, List.zip_cons_cons, List.cons.injEq] at h
        simp only [List.zip_cons_cons, List.map_cons]
        exact .cons ((datum_ok hm).1 h.1) (ih.1 ⟨ds, h.2, rfl⟩)
    · intro h
      cases h with
      | @cons _ t _ ts ht hts =>
        obtain ⟨ds, h1, rfl⟩ := ih.2 hts
        have hmt : t.mipTexture = m := texHeader_unique ht.1 hm
        subst hmt
        refine ⟨(t.mipData, t.palette) :: ds, ?_, by simp⟩
        simp only [List.map_cons, List.zip_cons_cons]
        rw [h1, (datum_ok (d := t.mipData) (p := t.palette) hm).2 ht]

/-- Reading with one level succeeds exactly on the files that store these textures. -/
theorem readTextures_ok {checks : Bool} {file : Bytes} {wl : Option (List Str)} {sched : Nat → List Nat}
    (hs : ∀ n, Complete n (sched n)) {ts : List TextureIndexed} :
    readTextures checks (some file) wl 1 sched = .ok ts ↔ ReadsAs checks file wl ts := by
  have zl : ∀ {ws : List EntryRec} {ms : List MipTexture}, List.Forall₂ (HasTexHeader file) ws ms →
      Complete ((ws.map toEntry).zip ms).length (sched (ws.map toEntry).length) := by
    intro ws ms h
    have := h.length_eq
    have : ((ws.map toEntry).zip ms).length = (ws.map toEntry).length := by simp [this]
    rw [this]; exact hs _
  unfold readTextures
  rw [if_neg (by omega)]
  simp only
  constructor
  · intro h
    obtain ⟨hd, h1, h⟩ := Outcome.bind_eq_ok.1 h
    obtain ⟨wt, h2, h⟩ := Outcome.bind_eq_ok.1 h
    obtain ⟨dir, h3, h⟩ := Outcome.bind_eq_ok.1 h
    obtain ⟨ms, h4, h⟩ := Outcome.bind_eq_ok.1 h
    obtain ⟨ds, h5, h6⟩ := Outcome.bind_eq_ok.1 h
    simp only [Outcome.ok.injEq] at h6
    rcases readHeader_cases file with ⟨_, h1'⟩ | ⟨magic, n, d, hm, hn, hdd, hh, h1'⟩
    · rw [h1'] at h1; simp at h1
    · rw [h1'] at h1
      simp only [Outcome.ok.injEq] at h1
      subst h1
      obtain rfl := wadTypeOf_ok.1 h2
      obtain ⟨es, ws, hlen, hdir, hws, rfl⟩ := readDirectory_ok.1 h3
      have hms := readMipTextures_ok.1 h4
      rw [readMipData_complete (zl hms)] at h5
      simp only at hlen
      subst hlen
      exact ⟨wt, d, es, ws, ⟨hn, hdd, hh⟩, hdir, hws, (data_ok hms).1 ⟨ds, h5, h6.symm⟩⟩
  · rintro ⟨wt, d, es, ws, hh, hdir, hws, hts⟩
    obtain ⟨h1, h2⟩ := readHeader_of hh
    have hms : List.Forall₂ (HasTexHeader file) ws (ts.map (·.mipTexture)) := by
      rw [List.forall₂_map_right_iff]
      exact hts.imp fun _ _ h => h.1
    obtain ⟨ds, h3, h4⟩ := (data_ok hms).2 hts
    rw [h1, Outcome.ok_bind, h2, Outcome.ok_bind, readDirectory_ok.2 ⟨es, ws, rfl, hdir, hws, rfl⟩,
      Outcome.ok_bind, readMipTextures_ok.2 hms, Outcome.ok_bind, readMipData_complete (zl hms), h3,
      Outcome.ok_bind, ← h4]

end Wad
end Quarch
