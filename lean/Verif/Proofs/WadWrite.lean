import Verif.Proofs.Wad
/-
Written WAD files store what was written; truncations; overflow checks.
-/
namespace Quarch
namespace Wad
open Spec

/-! ### positions -/

theorem has_append {file : Bytes} {off : Nat} {a b : Bytes} :
    Has file off (a ++ b) ↔ Has file off a ∧ Has file (off + a.length) b := by
  unfold Has
  rw [← List.drop_drop]
  constructor
  · rintro ⟨t, ht⟩
    rw [List.append_assoc] at ht
    refine ⟨⟨b ++ t, ht⟩, ?_⟩
    rw [← ht, List.drop_left]
    exact ⟨t, rfl⟩
  · rintro ⟨⟨t, ht⟩, ⟨u, hu⟩⟩
    rw [← ht, List.drop_left] at hu
    subst hu
    exact ⟨u, by rw [List.append_assoc]; exact ht⟩

theorem has_self (file : Bytes) : Has file 0 file := by simp [Has]

theorem has_le {file : Bytes} {off : Nat} {bs : Bytes} (h : Has file off bs) (h0 : bs ≠ []) :
    off + bs.length ≤ file.length := by
  have := has_not_beyond h
  have h1 : bs.length ≠ 0 := fun e => h0 (List.length_eq_zero_iff.1 e)
  unfold Beyond at this
  omega

theorem computes_of_lt (checks : Bool) {n : Nat} (h : n < 2 ^ 32) : Computes checks n n :=
  ⟨(Nat.mod_eq_of_lt h).symm, fun _ => h⟩

/-! ### written files -/

theorem lump_header_bytes (l : Lump) (name : Str) :
    headerBytesOf l.field (l.header name) = headerBytesOf l.field (l.header []) := rfl

theorem lump_bytes_length (wt : WadType) {l : Lump} (h : l.Good) :
    (l.bytes wt).length = 40 + l.pixels.length + l.mip1.length + l.mip2.length + l.mip3.length +
      match wt with | .wad2 => 0 | .wad3 => 770 := by
  cases wt <;> simp [Lump.bytes, texHeader_bytes_length h.field, le2_length, paletteBytes_length, h.palette] <;>
    omega

/-- What is read back for a lump. -/
def lumpTexture (wt : WadType) (l : Lump) : TextureIndexed :=
  ⟨l.header ((cName (l.field.map latin1)).map lower), ⟨l.pixels, none, none, none⟩,
    match wt with | .wad2 => none | .wad3 => some l.palette⟩

theorem lumpTexture_readBack (wt : WadType) (l : Lump) : l.ReadBack wt (lumpTexture wt l) :=
  ⟨⟨_, nameIn_iff.2 rfl, rfl⟩, rfl, rfl⟩

/-- The entry of a lump at a position. -/
def lumpEntry (off : Nat) (l : Lump) : EntryRec := ⟨off, l.dsize, l.size, l.kind, l.cmprs, l.pad, l.dirField⟩

/-- The parts of a stored lump. -/
theorem lump_parts {checks : Bool} {file : Bytes} {off : Nat} {wt : WadType} {l : Lump} (hl : l.Good)
    (hb : file.length < 2 ^ 32) (h : Has file off (l.bytes wt)) :
    HasTexHeader file (lumpEntry off l) (lumpTexture wt l).mipTexture ∧
    Has file (off + 40) (l.pixels ++ (l.mip1 ++ (l.mip2 ++ l.mip3))) ∧
    off + (l.bytes wt).length ≤ file.length ∧
    (wt = .wad3 → HasPalette checks file (lumpEntry off l) (lumpTexture wt l).mipTexture l.pixels.length
      l.palette) := by
  have hne : l.bytes wt ≠ [] := by
    intro e
    have := congrArg List.length e
    rw [lump_bytes_length wt hl] at this
    simp at this
  have hle := has_le h hne
  have hlen := lump_bytes_length wt hl
  unfold Lump.bytes at h
  rw [has_append, texHeader_bytes_length hl.field] at h
  obtain ⟨h1, h2⟩ := h
  rw [has_append] at h2
  obtain ⟨h2, h3⟩ := h2
  rw [has_append] at h3
  obtain ⟨h3, h4⟩ := h3
  rw [has_append] at h4
  obtain ⟨h4, h5⟩ := h4
  rw [has_append] at h5
  obtain ⟨h5, h6⟩ := h5
  refine ⟨⟨?_, l.field, _, hl.field, nameIn_iff.2 rfl, rfl, h1⟩, ?_, hle, ?_⟩
  · constructor <;> simp only [lumpTexture, Lump.header]
    · exact hl.width
    · exact hl.height
    · omega
    · omega
    · omega
    · omega
  · rw [has_append, has_append, has_append]; exact ⟨h2, h3, h4, h5⟩
  · rintro rfl
    rw [has_append] at h6
    refine ⟨hl.palette, off + 40 + l.pixels.length + l.mip1.length + l.mip2.length + l.mip3.length + 2, ?_,
      h6.2⟩
    have e : (lumpEntry off l).offset + (lumpTexture .wad3 l).mipTexture.offset8 + l.pixels.length / 64 + 2 =
        off + 40 + l.pixels.length + l.mip1.length + l.mip2.length + l.mip3.length + 2 := by
      have := hl.mip3; have := hl.pixels
      simp only [lumpEntry, lumpTexture, Lump.header]; omega
    rw [e]
    exact computes_of_lt checks (by simp only at hlen; omega)

theorem lump_texture {checks : Bool} {file : Bytes} {off : Nat} {wt : WadType} {l : Lump} (hl : l.Good)
    (hb : file.length < 2 ^ 32) (h : Has file off (l.bytes wt)) :
    TextureAt checks file wt (lumpEntry off l) (lumpTexture wt l) := by
  obtain ⟨h1, h2, h3, h4⟩ := lump_parts (checks := checks) hl hb h
  have hlen := lump_bytes_length wt hl
  refine ⟨h1, l.pixels, ⟨?_, off + 40, ?_, ?_⟩, rfl, ?_, ?_⟩
  · have : (lumpTexture wt l).mipTexture.width * (lumpTexture wt l).mipTexture.height = l.pixels.length :=
      hl.pixels.symm
    rw [this]
    exact computes_of_lt checks (by omega)
  · exact computes_of_lt checks (n := off + 40) (by omega)
  · exact (has_append.1 h2).1
  · rintro rfl; rfl
  · rintro rfl; exact ⟨l.palette, rfl, h4 rfl⟩

theorem lumps_textures {checks : Bool} {file : Bytes} {wt : WadType} (hb : file.length < 2 ^ 32)
    {ls : List Lump} (hl : ∀ l ∈ ls, l.Good) {off : Nat} (h : Has file off (lumpData wt ls)) :
    List.Forall₂ (TextureAt checks file wt) (lumpEntries wt off ls) (ls.map (lumpTexture wt)) ∧
    (∀ e ∈ lumpEntries wt off ls, e.Fits ∧ Wanted none e) := by
  induction ls generalizing off with
  | nil => exact ⟨.nil, by simp [lumpEntries]⟩
  | cons l ls ih =>
    unfold lumpData at h
    rw [has_append, has_append] at h
    obtain ⟨_, h1, h2⟩ := h
    have hg := hl l (by simp)
    obtain ⟨i1, i2⟩ := ih (fun l h => hl l (by simp [h])) h2
    have ht := lump_texture (checks := checks) hg hb h1
    obtain ⟨_, _, h3, _⟩ := lump_parts (checks := checks) hg hb h1
    have hlen := lump_bytes_length wt hg
    refine ⟨.cons ht i1, ?_⟩
    intro e he
    simp only [lumpEntries, List.mem_cons] at he
    rcases he with rfl | he
    · refine ⟨⟨?_, hg.dsize, hg.size, hg.pad, hg.dirField⟩, hg.kind, by simp⟩
      simp only; omega
    · exact i2 e he

theorem directory_of {checks : Bool} {file : Bytes} (hb : file.length < 2 ^ 32) {es : List EntryRec}
    (hf : ∀ e ∈ es, e.Fits) {d : Nat} (h : Has file d (es.flatMap EntryRec.bytes)) :
    HasDirectory checks file d es := by
  induction es generalizing d with
  | nil => intro i e hi; simp at hi
  | cons e es ih =>
    rw [List.flatMap_cons, has_append, entry_bytes_length (hf e (by simp))] at h
    obtain ⟨h1, h2⟩ := h
    have hle := has_le h1 (by
      intro e'
      have := congrArg List.length e'
      rw [entry_bytes_length (hf e (by simp))] at this
      simp at this)
    rw [entry_bytes_length (hf e (by simp))] at hle
    intro i e' hi
    cases i with
    | zero =>
      obtain rfl : e = e' := by simpa using hi
      exact ⟨hf e (by simp), d, computes_of_lt checks (by omega), h1⟩
    | succ i =>
      obtain ⟨f, a, ha, hh⟩ := ih (fun e h => hf e (by simp [h])) h2 i e' (by simpa using hi)
      exact ⟨f, a, by rw [show d + 32 * (i + 1) = d + 32 + 32 * i by omega]; exact ha, hh⟩

theorem selection_all {es : List EntryRec} (h : ∀ e ∈ es, Wanted none e) : Selection none es es := by
  induction es with
  | nil => exact .nil
  | cons e es ih => exact .take (h e (by simp)) (ih fun e he => h e (by simp [he]))

theorem lumpEntries_length (wt : WadType) (off : Nat) (ls : List Lump) :
    (lumpEntries wt off ls).length = ls.length := by
  induction ls generalizing off with
  | nil => rfl
  | cons l ls ih => simp [lumpEntries, ih]

/-- The parts of a written file. -/
theorem writeWad_parts {checks : Bool} {wt : WadType} {ls : List Lump} {gap trailer : Bytes}
    (hl : ∀ l ∈ ls, l.Good) (hb : (writeWad wt ls gap trailer).length < 2 ^ 32) :
    HasHeader (writeWad wt ls gap trailer) wt (lumpEntries wt 12 ls).length
      (12 + (lumpData wt ls).length + gap.length) ∧
    HasDirectory checks (writeWad wt ls gap trailer) (12 + (lumpData wt ls).length + gap.length)
      (lumpEntries wt 12 ls) ∧
    Has (writeWad wt ls gap trailer) 12 (lumpData wt ls) ∧
    (∀ e ∈ lumpEntries wt 12 ls, Wanted none e) := by
  have h := has_self (writeWad wt ls gap trailer)
  have hm : (magicOf wt).length = 4 := by cases wt <;> rfl
  have hlenf : (writeWad wt ls gap trailer).length = 12 + (lumpData wt ls).length + gap.length +
      ((lumpEntries wt 12 ls).flatMap EntryRec.bytes).length + trailer.length := by
    simp only [writeWad, List.length_append, hm, le4_length]; omega
  conv at h => rhs; unfold writeWad
  rw [has_append, has_append, has_append, has_append, has_append, has_append, hm, le4_length, le4_length] at h
  obtain ⟨h1, h2, h3, h4, h5, h6, h7⟩ := h
  obtain ⟨_, i2⟩ := lumps_textures (checks := checks) hb hl h4
  have hd := directory_of (checks := checks) hb (fun e he => (i2 e he).1) h6
  refine ⟨⟨?_, by omega, ?_⟩, ?_, h4, fun e he => (i2 e he).2⟩
  · have : 32 * (lumpEntries wt 12 ls).length =
        ((lumpEntries wt 12 ls).flatMap EntryRec.bytes).length := by
      have hf : ∀ e ∈ lumpEntries wt 12 ls, e.Fits := fun e he => (i2 e he).1
      clear * - hf
      generalize lumpEntries wt 12 ls = es at hf
      induction es with
      | nil => rfl
      | cons e es ih =>
        rw [List.flatMap_cons, List.length_append, ← ih fun e he => hf e (by simp [he]),
          entry_bytes_length (hf e (by simp)), List.length_cons]
        omega
    omega
  · rw [has_append, has_append, lumpEntries_length, hm, le4_length]; exact ⟨h1, h2, h3⟩
  · simpa [Nat.add_assoc] using hd

theorem writeWad_reads {checks : Bool} {wt : WadType} {ls : List Lump} {gap trailer : Bytes}
    (hl : ∀ l ∈ ls, l.Good) (hb : (writeWad wt ls gap trailer).length < 2 ^ 32) :
    ReadsAs checks (writeWad wt ls gap trailer) none (ls.map (lumpTexture wt)) := by
  obtain ⟨h1, h2, h3, h4⟩ := writeWad_parts (checks := checks) hl hb
  exact ⟨wt, _, _, _, h1, h2, selection_all h4, (lumps_textures hb hl h3).1⟩

/-! ### truncation -/

theorem has_take {file : Bytes} {off : Nat} {bs : Bytes} (h : Has file off bs) (k : Nat) :
    Has (file.take k) off bs ∨ Beyond (file.take k) off bs.length := by
  by_cases hb : Beyond (file.take k) off bs.length
  · exact .inr hb
  · left
    obtain ⟨cs, hl, hc⟩ := has_of_not_beyond hb
    have : Has file off cs := by
      unfold Has at hc ⊢
      rw [List.drop_take] at hc
      exact hc.trans (List.take_prefix _ _)
    rw [has_unique h this hl.symm]; exact hc

/-- Either this value or an error. -/
def OkOrErr {α : Type} (o : Outcome α) (a : α) : Prop := o = .ok a ∨ ∃ e, o = .err e

theorem OkOrErr.bind {α β : Type} {o : Outcome α} {a : α} (h : OkOrErr o a) {f : α → Outcome β} {b : β}
    (hf : OkOrErr (f a) b) : OkOrErr (o.bind f) b := by
  rcases h with rfl | ⟨e, rfl⟩
  · exact hf
  · exact .inr ⟨e, rfl⟩

theorem collectResults_okOrErr {α : Type} {l : List (Outcome α)} {ys : List α}
    (h : List.Forall₂ OkOrErr l ys) : OkOrErr (collectResults l) ys := by
  by_cases hall : l = ys.map Outcome.ok
  · left; exact collectResults_eq_ok.2 hall
  · rcases outcome_cases (collectResults l) with ⟨r, hr⟩ | he | ha
    · exfalso
      rw [collectResults_eq_ok] at hr
      subst hr
      apply hall
      congr 1
      clear hall
      induction r generalizing ys with
      | nil => cases h; rfl
      | cons x r ih =>
        cases h with
        | cons h1 h2 =>
          rcases h1 with h1 | ⟨e, h1⟩
          · simp only [Outcome.ok.injEq] at h1
            rw [h1, ih h2]
          · simp at h1
    · exact .inr he
    · exfalso
      obtain ⟨x, hx, hxa⟩ := collectResults_aborts.1 ha
      clear hall ha
      induction h with
      | nil => simp at hx
      | cons h1 _ ih =>
        simp only [List.mem_cons] at hx
        rcases hx with rfl | hx
        · rcases h1 with rfl | ⟨e, rfl⟩ <;> simp [Outcome.aborts] at hxa
        · exact ih hx

theorem readHeader_take {file : Bytes} {wt : WadType} {n d : Nat} (h : HasHeader file wt n d) (k : Nat) :
    OkOrErr (readHeader (file.take k)) ⟨(magicOf wt).map latin1, n, d⟩ := by
  obtain ⟨hn, hd, hh⟩ := h
  rcases has_take hh k with h | h
  · exact .inl (readHeader_of ⟨hn, hd, h⟩).1
  · have h12 : Beyond (file.take k) 0 12 := by
      have e : (magicOf wt ++ (le4 n ++ le4 d)).length = 12 := by cases wt <;> rfl
      rwa [e] at h
    rcases readHeader_cases (file.take k) with ⟨_, h⟩ | ⟨magic, n', d', hm, hn', hd', hh', _⟩
    · exact .inr ⟨_, h⟩
    · have := has_not_beyond hh'
      simp only [List.length_append, hm, le4_length] at this
      exact absurd h12 this

theorem readEntry_take {checks : Bool} {file : Bytes} {h : Header} {wl : Option (List Str)} {i : Nat}
    {e : EntryRec} (he : HasEntry checks file h.dirOffset i e) (k : Nat) :
    OkOrErr (readEntry checks (file.take k) h wl i) (sel wl (toEntry e)) := by
  obtain ⟨hf, a, ha, hh⟩ := he
  rcases has_take hh k with h1 | h1
  · exact .inl (readEntry_of ⟨hf, a, ha, h1⟩)
  · rcases readEntry_cases checks (file.take k) h wl i with ⟨hc, ho, _⟩ | ⟨_, ⟨_, h2⟩ | ⟨e', he', _⟩⟩
    · have := ha.2 hc; omega
    · exact .inr ⟨_, h2⟩
    · obtain ⟨hf', a', ha', hh'⟩ := he'
      rw [entry_bytes_length hf, ← entry_bytes_length hf', computes_unique ha ha'] at h1
      exact absurd h1 (has_not_beyond hh')

theorem readMipTexture_take {file : Bytes} {e : EntryRec} {m : MipTexture} (h : HasTexHeader file e m)
    (k : Nat) : OkOrErr (readMipTexture (file.take k) (toEntry e)) m := by
  rcases readMipTexture_cases (file.take k) e with ⟨_, h1⟩ | ⟨m', hm', h1⟩
  · exact .inr ⟨_, h1⟩
  · left
    rw [h1]
    obtain ⟨hm2, f, n, hf, hn, hnm, hh⟩ := hm'
    congr 1
    refine texHeader_unique ⟨hm2, f, n, hf, hn, hnm, ?_⟩ h
    unfold Has at hh ⊢
    rw [List.drop_take] at hh
    exact hh.trans (List.take_prefix _ _)

theorem readMipDatum_take {checks : Bool} {file : Bytes} {wt : WadType} {e : EntryRec} {t : TextureIndexed}
    (h : TextureAt checks file wt e t) (k : Nat) :
    OkOrErr (readMipDatum checks (file.take k) wt 1 (toEntry e, t.mipTexture)) (t.mipData, t.palette) := by
  obtain ⟨_, px, hpx, hd, h2, h3⟩ := h
  have hn := pixels_not hpx
  have up : ∀ {off : Nat} {bs : Bytes}, Has (file.take k) off bs → Has file off bs := by
    intro off bs hh
    unfold Has at hh ⊢
    rw [List.drop_take] at hh
    exact hh.trans (List.take_prefix _ _)
  rcases readMipDatum_cases checks (file.take k) wt e t.mipTexture with
    ⟨hc, ho, _⟩ | ⟨_, ⟨_, h4⟩ | ⟨px', hpx', h4⟩⟩
  · have := hn.1 hc; omega
  · exact .inr ⟨_, h4⟩
  · have hpx2 : HasPixels checks file e t.mipTexture px' :=
      ⟨hpx'.1, hpx'.2.imp fun a ha => ⟨ha.1, up ha.2⟩⟩
    obtain rfl := pixels_unique hpx hpx2
    rw [h4, hd]
    cases wt with
    | wad2 => left; rw [h2 rfl]; rfl
    | wad3 =>
      obtain ⟨q, hq, hqp⟩ := h3 rfl
      have hqn := palette_not hqp
      rcases readTexturePalette_cases checks (file.take k) e t.mipTexture (hasPixels_lt hpx) rfl with
        ⟨hc, ho, _⟩ | ⟨_, ⟨_, h5⟩ | ⟨p, hp, h5⟩⟩
      · have := hqn.1 hc; omega
      · right; rw [h5]; exact ⟨_, rfl⟩
      · left
        have hp2 : HasPalette checks file e t.mipTexture px.length p :=
          ⟨hp.1, hp.2.imp fun a ha => ⟨ha.1, up ha.2⟩⟩
        rw [h5, hq, palette_unique hp2 hqp]; rfl

theorem readTextures_take {checks : Bool} {file : Bytes} {wl : Option (List Str)} {sched : Nat → List Nat}
    (hs : ∀ n, Complete n (sched n)) {ts : List TextureIndexed} (h : ReadsAs checks file wl ts) (k : Nat) :
    OkOrErr (readTextures checks (some (file.take k)) wl 1 sched) ts := by
  obtain ⟨wt, d, es, ws, hh, hdir, hws, hts⟩ := h
  unfold readTextures
  rw [if_neg (by omega)]
  refine (readHeader_take hh k).bind ?_
  refine OkOrErr.bind (.inl (readHeader_of hh).2) ?_
  refine OkOrErr.bind (a := ws.map toEntry) ?_ ?_
  · refine OkOrErr.bind (a := es.map fun e => sel wl (toEntry e)) (collectResults_okOrErr ?_)
      (.inl (by rw [selection_filterMap hws]))
    rw [List.forall₂_iff_get]
    refine ⟨by simp, ?_⟩
    intro i h1 h2
    simp only [List.get_eq_getElem, List.getElem_map, List.getElem_range]
    exact readEntry_take (hdir i _ (List.getElem?_eq_getElem _)) k
  · refine OkOrErr.bind (a := ts.map (·.mipTexture)) ?_ ?_
    · refine collectResults_okOrErr ?_
      rw [List.map_map, List.forall₂_map_left_iff, List.forall₂_map_right_iff]
      exact hts.imp fun e t ht => readMipTexture_take ht.1 k
    · refine OkOrErr.bind (a := ts.map fun t => (t.mipData, t.palette)) ?_ (.inl ?_)
      · have hlen := hts.length_eq
        rw [readMipData_complete (by
          have : ((ws.map toEntry).zip (ts.map (·.mipTexture))).length = (ws.map toEntry).length := by
            simp [hlen]
          rw [this]; exact hs _)]
        refine collectResults_okOrErr ?_
        clear * - hts
        induction hts with
        | nil => exact .nil
        | cons h _ ih => exact .cons (readMipDatum_take h k) ih
      · congr 1
        clear * -
        induction ts with
        | nil => rfl
        | cons t ts ih => simp only [List.map_cons, List.zip_cons_cons, List.cons.injEq, true_and]; exact ih

/-! ### overflow checks -/

/-- With checks: the same as without, or an overflow panic. -/
def SameOrOverflow {α : Type} (o o' : Outcome α) : Prop :=
  o = o' ∨ o = .panic "attempt to add with overflow" ∨ o = .panic "attempt to multiply with overflow"

theorem SameOrOverflow.refl {α : Type} (o : Outcome α) : SameOrOverflow o o := .inl rfl

theorem SameOrOverflow.bind {α β : Type} {o o' : Outcome α} (h : SameOrOverflow o o')
    {f f' : α → Outcome β} (hf : ∀ a, o' = .ok a → SameOrOverflow (f a) (f' a)) :
    SameOrOverflow (o.bind f) (o'.bind f') := by
  rcases h with rfl | rfl | rfl
  · cases o with
    | ok a => exact hf a rfl
    | err e => exact .inl rfl
    | panic m => exact .inl rfl
    | overflow => exact .inl rfl
  · exact .inr (.inl rfl)
  · exact .inr (.inr rfl)

theorem add_same (a b : Nat) : SameOrOverflow (addU32 true a b) (addU32 false a b) := by
  unfold addU32 SameOrOverflow
  split_ifs <;> simp_all

theorem mul_same (a b : Nat) : SameOrOverflow (mulU32 true a b) (mulU32 false a b) := by
  unfold mulU32 SameOrOverflow
  split_ifs <;> simp_all

/-- The first call that aborts decides. -/
theorem collectResults_same {α : Type} {l l' : List (Outcome α)} (h : List.Forall₂ SameOrOverflow l l') :
    SameOrOverflow (collectResults l) (collectResults l') := by
  by_cases hall : l = l'
  · rw [hall]; exact .inl rfl
  · have key : ∀ (x : Outcome α), l.find? Outcome.aborts = some x →
        (l'.find? Outcome.aborts = some x) ∨ x = .panic "attempt to add with overflow" ∨
          x = .panic "attempt to multiply with overflow" := by
      clear hall
      induction h with
      | nil => simp
      | @cons a b l l' h1 _ ih =>
        intro x hx
        by_cases ha : a.aborts = true
        · rw [List.find?_cons_of_pos ha] at hx
          obtain rfl : a = x := by simpa using hx
          rcases h1 with rfl | h1
          · left; rw [List.find?_cons_of_pos ha]
          · exact .inr h1
        · rw [List.find?_cons_of_neg ha] at hx
          rcases h1 with rfl | rfl | rfl
          · rw [List.find?_cons_of_neg ha]; exact ih x hx
          · simp [Outcome.aborts] at ha
          · simp [Outcome.aborts] at ha
    cases hf : l.find? Outcome.aborts with
    | none =>
      exfalso; apply hall
      clear key hall
      induction h with
      | nil => rfl
      | @cons a b l l' h1 _ ih =>
        have hn := List.find?_eq_none.1 hf
        have ha := hn a (by simp)
        rw [ih (List.find?_eq_none.2 fun x hx => hn x (by simp [hx]))]
        rcases h1 with rfl | rfl | rfl
        · rfl
        · simp [Outcome.aborts] at ha
        · simp [Outcome.aborts] at ha
    | some x =>
      rcases key x hf with h' | h' | h'
      · left
        unfold collectResults
        rw [hf, h']
        cases x <;> rfl
      · right; left; subst h'; unfold collectResults; rw [hf]
      · right; right; subst h'; unfold collectResults; rw [hf]

theorem readEntry_same (file : Bytes) (h : Header) (wl : Option (List Str)) (i : Nat) :
    SameOrOverflow (readEntry true file h wl i) (readEntry false file h wl i) := by
  unfold readEntry
  exact (mul_same _ _).bind fun _ _ => (add_same _ _).bind fun _ _ => .inl rfl

theorem readTexturePalette_same (file : Bytes) (wt : WadType) (e : Entry) (m : MipTexture) (s : Nat) :
    SameOrOverflow (readTexturePalette true file wt e m s) (readTexturePalette false file wt e m s) := by
  unfold readTexturePalette
  cases wt with
  | wad2 => exact .inl rfl
  | wad3 =>
    exact (add_same _ _).bind fun _ _ => (add_same _ _).bind fun _ _ => (add_same _ _).bind fun _ _ => .inl rfl

theorem readMipDatum_same (file : Bytes) (wt : WadType) (levels : Nat) (em : Entry × MipTexture) :
    SameOrOverflow (readMipDatum true file wt levels em) (readMipDatum false file wt levels em) := by
  unfold readMipDatum
  refine (add_same _ _).bind fun off _ => (mul_same _ _).bind fun size0 _ => ?_
  simp only
  split
  · exact .inl rfl
  · refine (SameOrOverflow.refl _).bind fun b0 _ => ?_
    split
    · exact .inl rfl
    · refine (SameOrOverflow.refl _).bind fun _ _ => (SameOrOverflow.refl _).bind fun _ _ =>
        (SameOrOverflow.refl _).bind fun _ _ => (readTexturePalette_same _ _ _ _ _).bind fun _ _ => .inl rfl

theorem forall₂_map_same {α β : Type} {f f' : α → Outcome β} (h : ∀ a, SameOrOverflow (f a) (f' a))
    (l : List α) : List.Forall₂ SameOrOverflow (l.map f) (l.map f') := by
  induction l with
  | nil => exact .nil
  | cons a l ih => exact .cons (h a) ih

/-- Fewer slots than tasks when a schedule is incomplete: which slots are filled does not depend on the
values. -/
theorem runTasks_filled {α β : Type} (f : α → β) (xs : List α) (sched : List Nat) (i : Nat) :
    (runTasks f xs sched)[i]? =
      if i ∈ sched then xs[i]?.map fun x => some (f x) else (List.replicate xs.length none)[i]? :=
  runTasks_foldl f xs sched (List.replicate xs.length none) (by simp) i

theorem complete_mono {n m : Nat} {sched : List Nat} (h : Complete n sched) (hm : m ≤ n) :
    Complete m sched := fun i hi => h i (Nat.lt_of_lt_of_le hi hm)

theorem zip_le {α β : Type} (a : List α) (b : List β) : (a.zip b).length ≤ a.length := by
  simp only [List.length_zip]; omega

/-- The whole reader with the parallel part resolved. -/
theorem readTextures_eq {checks : Bool} {file : Bytes} {wl : Option (List Str)} {levels : Nat}
    {sched : Nat → List Nat} (hs : ∀ n, Complete n (sched n)) (hl : 1 ≤ levels ∧ levels ≤ 4) :
    readTextures checks (some file) wl levels sched =
      ((readHeader file).bind fun h =>
      (wadTypeOf h.magic).bind fun wt =>
      (readDirectory checks file h wl).bind fun dir =>
      (readMipTextures file dir).bind fun ms =>
      (collectResults ((dir.zip ms).map (readMipDatum checks file wt levels))).bind fun ds =>
      .ok ((ms.zip ds).map fun (m, d) => ⟨m, d.1, d.2⟩)) := by
  unfold readTextures
  rw [if_neg (by omega)]
  simp only
  congr 1; funext h; congr 1; funext wt; congr 1; funext dir; congr 1; funext ms
  rw [readMipData_complete (complete_mono (hs _) (zip_le dir ms))]

theorem readTextures_same {file : Option Bytes} {wl : Option (List Str)} {levels : Nat}
    {sched : Nat → List Nat} (hs : ∀ n, Complete n (sched n)) :
    SameOrOverflow (readTextures true file wl levels sched) (readTextures false file wl levels sched) := by
  by_cases hl : 1 ≤ levels ∧ levels ≤ 4
  · cases file with
    | none => left; unfold readTextures; rfl
    | some file =>
      rw [readTextures_eq hs hl, readTextures_eq hs hl]
      refine (SameOrOverflow.refl _).bind fun h _ => (SameOrOverflow.refl _).bind fun wt _ =>
        SameOrOverflow.bind ?_ fun dir _ => (SameOrOverflow.refl _).bind fun ms _ =>
        SameOrOverflow.bind ?_ fun ds _ => .inl rfl
      · unfold readDirectory
        exact (collectResults_same (forall₂_map_same (readEntry_same file h wl) _)).bind fun _ _ => .inl rfl
      · exact collectResults_same (forall₂_map_same (readMipDatum_same file wt levels) _)
  · left; unfold readTextures; rw [if_pos hl, if_pos hl]

end Wad
end Quarch
