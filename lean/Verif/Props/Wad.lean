import Verif.Proofs.WadWrite
/-
Properties C54–C63: reading WAD files and palettes.
-/
namespace Quarch
open Spec Wad

/-! ### C54 -/

/-- C54: with one mip level the reader succeeds exactly on the files that store textures, and returns
what is stored: for each wanted directory entry, in directory order, the header at its offset (name
lower-cased), the pixels and, in WAD3, the palette. Without overflow checks addresses are taken modulo
2^32. -/
theorem C54_reads_what_is_stored (checks : Bool) (file : Bytes) (wl : Option (List Str))
    (sched : Nat → List Nat) (hs : ∀ n, Complete n (sched n)) (ts : List TextureIndexed) :
    readTextures checks (some file) wl 1 sched = .ok ts ↔ ReadsAs checks file wl ts :=
  readTextures_ok hs

/-- C54: any WAD2 or WAD3 file written from a list of textures, with any gaps, is read back. -/
theorem C54_round_trip (checks : Bool) (wt : WadType) (ls : List Lump) (gap trailer : Bytes)
    (hl : ∀ l ∈ ls, l.Good) (hb : (writeWad wt ls gap trailer).length < 2 ^ 32)
    (sched : Nat → List Nat) (hs : ∀ n, Complete n (sched n)) :
    ∃ ts, readTextures checks (some (writeWad wt ls gap trailer)) none 1 sched = .ok ts ∧
      List.Forall₂ (fun l t => l.ReadBack wt t) ls ts := by
  refine ⟨_, (readTextures_ok hs).2 (writeWad_reads hl hb), ?_⟩
  rw [List.forall₂_map_right_iff, List.forall₂_same]
  exact fun l _ => lumpTexture_readBack wt l

/-- What is read back is determined by the lump. -/
theorem spec_C54_read_back_unique (wt : WadType) (l : Lump) (t t' : TextureIndexed) (h : l.ReadBack wt t)
    (h' : l.ReadBack wt t') : t = t' := by
  obtain ⟨⟨n, hn, h1⟩, h2, h3⟩ := h
  obtain ⟨⟨n', hn', h1'⟩, h2', h3'⟩ := h'
  rw [nameIn_iff] at hn hn'
  subst hn hn'
  cases t; cases t'
  simp_all

/-! ### C55 -/

/-- C55: whatever is returned is stored in the file. -/
theorem C55_only_stored_data (checks : Bool) (file : Bytes) (wl : Option (List Str))
    (sched : Nat → List Nat) (hs : ∀ n, Complete n (sched n)) (ts : List TextureIndexed)
    (h : readTextures checks (some file) wl 1 sched = .ok ts) : ReadsAs checks file wl ts :=
  (readTextures_ok hs).1 h

/-- C55: if something needed is missing and no 32-bit computation overflows, the result is an error. The
magic must be known if it is there at all. -/
theorem C55_missing_data_is_error (file : Bytes) (wl : Option (List Str))
    (sched : Nat → List Nat) (hs : ∀ n, Complete n (sched n))
    (hm : file.length < 12 ∨ ∃ wt n d, HasHeader file wt n d)
    (h : ¬ ∃ ts, ReadsAs false file wl ts) :
    (∃ e, readTextures false (some file) wl 1 sched = .err e) ∧
    ((∃ e, readTextures true (some file) wl 1 sched = .err e) ∨
      readTextures true (some file) wl 1 sched = .panic "attempt to add with overflow" ∨
      readTextures true (some file) wl 1 sched = .panic "attempt to multiply with overflow") := by
  have key : ∃ e, readTextures false (some file) wl 1 sched = .err e := by
    rcases outcome_cases (readTextures false (some file) wl 1 sched) with ⟨ts, ht⟩ | he | ha
    · exact absurd ⟨ts, (readTextures_ok hs).1 ht⟩ h
    · exact he
    · exfalso
      rw [readTextures_eq hs (by omega)] at ha
      rcases readHeader_cases file with ⟨_, h1⟩ | ⟨magic, n, d, hml, hn, hd, hh, h1⟩
      · rw [h1] at ha; simp [Outcome.bind, Outcome.aborts] at ha
      · obtain ⟨wt, rfl⟩ : ∃ wt, magic = magicOf wt := by
          rcases hm with hm | ⟨wt, n', d', hn', hd', hh'⟩
          · have := has_le hh (by intro e; have := congrArg List.length e; simp [hml] at this)
            simp [hml, le4_length] at this; omega
          · refine ⟨wt, ?_⟩
            have hmw : (magicOf wt).length = 4 := by cases wt <;> rfl
            exact has_unique (has_append.1 hh).1 (has_append.1 hh').1 (by rw [hml, hmw])
        rw [h1, Outcome.ok_bind, (readHeader_of (n := n) (d := d) ⟨hn, hd, hh⟩).2, Outcome.ok_bind] at ha
        rcases outcome_cases (readDirectory false file ⟨(magicOf wt).map latin1, n, d⟩ wl) with
          ⟨dir, hdir⟩ | ⟨e, he⟩ | hab
        · rw [hdir, Outcome.ok_bind] at ha
          obtain ⟨es, ws, _, _, hws, rfl⟩ := readDirectory_ok.1 hdir
          rcases outcome_cases (readMipTextures file (ws.map toEntry)) with ⟨ms, hms⟩ | ⟨e, he⟩ | hab
          · rw [hms, Outcome.ok_bind] at ha
            rcases outcome_cases (collectResults
                (((ws.map toEntry).zip ms).map (readMipDatum false file wt 1))) with
              ⟨ds, hds⟩ | ⟨e, he⟩ | hab
            · rw [hds] at ha; simp [Outcome.bind, Outcome.aborts] at ha
            · rw [he] at ha; simp [Outcome.bind, Outcome.aborts] at ha
            · obtain ⟨x, hx, hxa⟩ := collectResults_aborts.1 hab
              obtain ⟨⟨e, m⟩, hem, rfl⟩ := List.mem_map.1 hx
              obtain ⟨r, _, rfl⟩ := List.mem_map.1 (List.of_mem_zip hem).1
              rcases readMipDatum_cases false file wt r m with ⟨hc, _⟩ | ⟨_, ⟨_, h2⟩ | ⟨px, hpx, h2⟩⟩
              · simp at hc
              · rw [h2] at hxa; simp [Outcome.aborts] at hxa
              · rw [h2] at hxa
                cases wt with
                | wad2 => simp [readTexturePalette, Outcome.bind, Outcome.aborts] at hxa
                | wad3 =>
                  rcases readTexturePalette_cases false file r m (hasPixels_lt hpx) rfl with
                    ⟨hc, _⟩ | ⟨_, ⟨_, h3⟩ | ⟨p, _, h3⟩⟩
                  · simp at hc
                  · rw [h3] at hxa; simp [Outcome.bind, Outcome.aborts] at hxa
                  · rw [h3] at hxa; simp [Outcome.bind, Outcome.aborts] at hxa
          · rw [he] at ha; simp [Outcome.bind, Outcome.aborts] at ha
          · obtain ⟨x, hx, hxa⟩ := collectResults_aborts.1 hab
            obtain ⟨e, he, rfl⟩ := List.mem_map.1 hx
            obtain ⟨r, _, rfl⟩ := List.mem_map.1 he
            rcases readMipTexture_cases file r with ⟨_, h2⟩ | ⟨m, _, h2⟩ <;>
              · rw [h2] at hxa; simp [Outcome.aborts] at hxa
        · rw [he] at ha; simp [Outcome.bind, Outcome.aborts] at ha
        · have hab' : (collectResults ((List.range n).map
              (readEntry false file ⟨(magicOf wt).map latin1, n, d⟩ wl))).aborts = true := by
            unfold readDirectory at hab
            rcases outcome_cases (collectResults ((List.range n).map
              (readEntry false file ⟨(magicOf wt).map latin1, n, d⟩ wl))) with ⟨a, h2⟩ | ⟨e, h2⟩ | h2
            · rw [h2] at hab; simp [Outcome.bind, Outcome.aborts] at hab
            · rw [h2] at hab; simp [Outcome.bind, Outcome.aborts] at hab
            · exact h2
          obtain ⟨x, hx, hxa⟩ := collectResults_aborts.1 hab'
          obtain ⟨i, _, rfl⟩ := List.mem_map.1 hx
          rcases readEntry_cases false file ⟨(magicOf wt).map latin1, n, d⟩ wl i with
            ⟨hc, _⟩ | ⟨_, ⟨_, h2⟩ | ⟨e, _, h2⟩⟩
          · simp at hc
          · rw [h2] at hxa; simp [Outcome.aborts] at hxa
          · rw [h2] at hxa; simp [Outcome.aborts] at hxa
  refine ⟨key, ?_⟩
  rcases readTextures_same (file := some file) (wl := wl) (levels := 1) hs with h1 | h1 | h1
  · left; rw [h1]; exact key
  · exact .inr (.inl h1)
  · exact .inr (.inr h1)

/-- C55: every truncation of a readable file gives an error or the same textures. -/
theorem C55_every_truncation (checks : Bool) (file : Bytes) (wl : Option (List Str))
    (sched : Nat → List Nat) (hs : ∀ n, Complete n (sched n)) (ts : List TextureIndexed)
    (h : readTextures checks (some file) wl 1 sched = .ok ts) (k : Nat) :
    readTextures checks (some (file.take k)) wl 1 sched = .ok ts ∨
    ∃ e, readTextures checks (some (file.take k)) wl 1 sched = .err e :=
  readTextures_take hs ((readTextures_ok hs).1 h) k

/-! ### C56 -/

/-- The data of one texture: the levels asked for, and with more than one only for empty textures. -/
theorem readMipDatum_levels {checks : Bool} {file : Bytes} {wt : WadType} {levels : Nat}
    {em : Entry × MipTexture} {d : MipDataIndexed} {p : Option Palette}
    (h : readMipDatum checks file wt levels em = .ok (d, p)) :
    d.mip1.isSome = decide (levels > 1) ∧ d.mip2.isSome = decide (levels > 2) ∧
    d.mip3.isSome = decide (levels > 3) ∧ (levels > 1 → d.mip0 = []) := by
  unfold readMipDatum at h
  simp only at h
  obtain ⟨off, _, h⟩ := Outcome.bind_eq_ok.1 h
  obtain ⟨n, hn, h⟩ := Outcome.bind_eq_ok.1 h
  split at h
  · simp at h
  · rename_i buf hbuf
    obtain ⟨b0, hb0, h⟩ := Outcome.bind_eq_ok.1 h
    split at h
    · simp at h
    · rename_i m0 hm0
      obtain ⟨m1, h1, h⟩ := Outcome.bind_eq_ok.1 h
      obtain ⟨m2, h2, h⟩ := Outcome.bind_eq_ok.1 h
      obtain ⟨m3, h3, h⟩ := Outcome.bind_eq_ok.1 h
      obtain ⟨q, _, h⟩ := Outcome.bind_eq_ok.1 h
      simp only [Outcome.ok.injEq, Prod.mk.injEq] at h
      obtain ⟨rfl, rfl⟩ := h
      have lv : ∀ {buf : Bytes} {w : Bool} {l a b : Nat} {m : Option MipLevel},
          readLevel buf w l a b = .ok m → m.isSome = w ∧ (w = true → a ≤ b) := by
        intro buf w l a b m h
        unfold readLevel at h
        split_ifs at h with hw
        · obtain ⟨s, hs, h⟩ := Outcome.bind_eq_ok.1 h
          unfold slice at hs
          split_ifs at hs with hab
          split at h
          · simp only [Outcome.ok.injEq] at h
            subst h
            exact ⟨by simp [hw], fun _ => hab.1⟩
          · simp at h
        · simp only [Outcome.ok.injEq] at h
          subst h
          exact ⟨by simpa using hw, fun h => absurd h hw⟩
      refine ⟨(lv h1).1, (lv h2).1, (lv h3).1, ?_⟩
      intro hl
      have := (lv h1).2 (by simpa using hl)
      have hn0 : n = 0 := by omega
      subst hn0
      exact List.length_eq_zero_iff.1 (mipLevel_some hm0).2

theorem zip_map_mem {ms : List MipTexture} {ds : List (MipDataIndexed × Option Palette)} {t : TextureIndexed}
    (h : t ∈ (ms.zip ds).map fun (m, d) => (⟨m, d.1, d.2⟩ : TextureIndexed)) :
    (t.mipData, t.palette) ∈ ds := by
  obtain ⟨⟨m, d⟩, hmd, rfl⟩ := List.mem_map.1 h
  exact (List.of_mem_zip hmd).2

/-- C56: when reading succeeds, exactly the levels asked for are there for every texture. What is missing:
with more than one level this covers only empty textures, see the next two theorems. -/
theorem C56_levels_partial (checks : Bool) (file : Option Bytes) (wl : Option (List Str)) (levels : Nat)
    (sched : Nat → List Nat) (hs : ∀ n, Complete n (sched n)) (ts : List TextureIndexed)
    (h : readTextures checks file wl levels sched = .ok ts) (t : TextureIndexed) (ht : t ∈ ts) :
    t.mipData.mip1.isSome = decide (levels > 1) ∧ t.mipData.mip2.isSome = decide (levels > 2) ∧
    t.mipData.mip3.isSome = decide (levels > 3) ∧ (levels > 1 → t.mipData.mip0 = []) := by
  by_cases hl : 1 ≤ levels ∧ levels ≤ 4
  · cases file with
    | none => unfold readTextures at h; rw [if_neg (by simpa using hl)] at h; simp at h
    | some file =>
      rw [readTextures_eq hs hl] at h
      obtain ⟨hd, _, h⟩ := Outcome.bind_eq_ok.1 h
      obtain ⟨wt, _, h⟩ := Outcome.bind_eq_ok.1 h
      obtain ⟨dir, _, h⟩ := Outcome.bind_eq_ok.1 h
      obtain ⟨ms, _, h⟩ := Outcome.bind_eq_ok.1 h
      obtain ⟨ds, h5, h⟩ := Outcome.bind_eq_ok.1 h
      simp only [Outcome.ok.injEq] at h
      subst h
      rw [collectResults_eq_ok] at h5
      have hm := zip_map_mem ht
      have : Outcome.ok (t.mipData, t.palette) ∈
          (dir.zip ms).map (readMipDatum checks file wt levels) := by
        rw [h5]; exact List.mem_map.2 ⟨_, hm, rfl⟩
      obtain ⟨em, _, hem⟩ := List.mem_map.1 this
      exact readMipDatum_levels hem
  · unfold readTextures at h; rw [if_pos hl] at h; simp at h

/-- C56 fails: asking for more than one level of a well-formed file with a texture that is not empty
aborts (the slices `[size0..size1]` have their start after their end). -/
theorem C56_more_levels_abort (checks : Bool) (wt : WadType) (ls : List Lump) (gap trailer : Bytes)
    (hl : ∀ l ∈ ls, l.Good) (hb : (writeWad wt ls gap trailer).length < 2 ^ 32)
    (sched : Nat → List Nat) (hs : ∀ n, Complete n (sched n)) (levels : Nat) (h2 : 2 ≤ levels)
    (h4 : levels ≤ 4) (l : Lump) (hmem : l ∈ ls) (hne : 0 < l.width * l.height) :
    (readTextures checks (some (writeWad wt ls gap trailer)) none levels sched).aborts = true := by
  obtain ⟨p1, p2, p3, p4⟩ := writeWad_parts (checks := checks) hl hb
  obtain ⟨q1, _⟩ := lumps_textures (checks := checks) hb hl p3
  obtain ⟨r1, r2⟩ := readHeader_of p1
  generalize hfile : writeWad wt ls gap trailer = file at *
  have hmt : readMipTextures file ((lumpEntries wt 12 ls).map toEntry) =
      .ok ((ls.map (lumpTexture wt)).map (·.mipTexture)) := readMipTextures_ok.2 (by
    rw [List.forall₂_map_right_iff]; exact q1.imp fun _ _ h => h.1)
  rw [readTextures_eq hs (by omega), r1, Outcome.ok_bind, r2, Outcome.ok_bind,
    readDirectory_ok.2 ⟨_, _, rfl, p2, selection_all p4, rfl⟩, Outcome.ok_bind,
    hmt, Outcome.ok_bind]
  have : (collectResults ((((lumpEntries wt 12 ls).map toEntry).zip
      ((ls.map (lumpTexture wt)).map (·.mipTexture))).map (readMipDatum checks file wt levels))).aborts =
      true := by
    rw [collectResults_aborts]
    -- the entry of the lump
    have hex : ∃ off, Has file off (l.bytes wt) ∧ (toEntry (lumpEntry off l), (lumpTexture wt l).mipTexture) ∈
        ((lumpEntries wt 12 ls).map toEntry).zip ((ls.map (lumpTexture wt)).map (·.mipTexture)) := by
      clear * - hmem p3
      generalize 12 = off at p3
      induction ls generalizing off with
      | nil => simp at hmem
      | cons k ls ih =>
        unfold lumpData at p3
        rw [has_append, has_append] at p3
        obtain ⟨_, h1, h2⟩ := p3
        simp only [List.mem_cons] at hmem
        rcases hmem with rfl | hmem
        · exact ⟨_, h1, by simp only [lumpEntries, List.map_cons, List.zip_cons_cons]; exact List.mem_cons_self⟩
        · obtain ⟨o, ho, hm⟩ := ih hmem _ h2
          exact ⟨o, ho, by
            simp only [lumpEntries, List.map_cons, List.zip_cons_cons]; exact List.mem_cons_of_mem _ hm⟩
    obtain ⟨off, hhas, hin⟩ := hex
    refine ⟨_, List.mem_map.2 ⟨_, hin, rfl⟩, ?_⟩
    have hg := hl l hmem
    obtain ⟨_, s2, s3, _⟩ := lump_parts (checks := checks) hg hb hhas
    have hlen := lump_bytes_length wt hg
    have gp := hg.pixels; have g1 := hg.mip1; have g2 := hg.mip2; have g3 := hg.mip3
    have hadd : addU32 checks (toEntry (lumpEntry off l)).offset (lumpTexture wt l).mipTexture.offset1 =
        .ok (off + 40) := addU32_ok.2 (computes_of_lt checks (n := off + 40) (by omega))
    have hmul : mulU32 checks (lumpTexture wt l).mipTexture.width (lumpTexture wt l).mipTexture.height =
        .ok (l.width * l.height) := mulU32_ok.2 (computes_of_lt checks (n := l.width * l.height) (by omega))
    generalize hnn : l.width * l.height = n at *
    unfold readMipDatum
    simp only [hadd, hmul, Outcome.ok_bind]
    have hbuf : ∃ buf rest, readExact file (off + 40)
        (List.take levels [n, n / 4, n / 4 / 4, n / 4 / 4 / 4]).sum = some buf ∧ buf = l.pixels ++ rest := by
      have hl4 : levels = 2 ∨ levels = 3 ∨ levels = 4 := by omega
      rcases hl4 with rfl | rfl | rfl
      · refine ⟨l.pixels ++ l.mip1, l.mip1, readExact_some.2 ⟨by simp [gp, g1], ?_⟩, rfl⟩
        rw [← List.append_assoc] at s2; exact (has_append.1 s2).1
      · refine ⟨l.pixels ++ (l.mip1 ++ l.mip2), l.mip1 ++ l.mip2,
          readExact_some.2 ⟨by simp [gp, g1, g2], ?_⟩, rfl⟩
        rw [← List.append_assoc l.mip1, ← List.append_assoc] at s2; exact (has_append.1 s2).1
      · exact ⟨_, l.mip1 ++ (l.mip2 ++ l.mip3), readExact_some.2 ⟨by simp [gp, g1, g2, g3], s2⟩, rfl⟩
    obtain ⟨buf, rest, hr, rfl⟩ := hbuf
    rw [hr]
    simp only
    have hsl : slice (l.pixels ++ rest) 0 n = .ok l.pixels := by
      unfold slice
      rw [if_pos ⟨by omega, by simp; omega⟩]
      simp [← gp]
    rw [hsl, Outcome.ok_bind, ← gp]
    simp only [mipLevel_self]
    have : readLevel (l.pixels ++ rest) (decide (levels > 1)) 1 l.pixels.length (l.pixels.length / 4) =
        .panic "slice index out of range" := by
      unfold readLevel
      rw [if_pos (by simp; omega)]
      unfold slice
      rw [if_neg (by omega)]; rfl
    rw [this]; rfl
  revert this
  generalize collectResults _ = o
  intro this
  cases o <;> simp [Outcome.aborts, Outcome.bind] at this ⊢

/-! ### C57 -/

/-- C57: the textures returned are those of the entries of type `C` or `D` whose directory name is wanted,
in directory order and as often. -/
theorem C57_directory_selection (checks : Bool) (file : Bytes) (wl : Option (List Str)) (levels : Nat)
    (sched : Nat → List Nat) (hs : ∀ n, Complete n (sched n)) (ts : List TextureIndexed)
    (h : readTextures checks (some file) wl levels sched = .ok ts) :
    ∃ wt d es ws, HasHeader file wt es.length d ∧ HasDirectory checks file d es ∧ Selection wl es ws ∧
      List.Forall₂ (fun e t => HasTexHeader file e t.mipTexture) ws ts := by
  by_cases hl : 1 ≤ levels ∧ levels ≤ 4
  · rw [readTextures_eq hs hl] at h
    obtain ⟨hd, h1, h⟩ := Outcome.bind_eq_ok.1 h
    obtain ⟨wt, h2, h⟩ := Outcome.bind_eq_ok.1 h
    obtain ⟨dir, h3, h⟩ := Outcome.bind_eq_ok.1 h
    obtain ⟨ms, h4, h⟩ := Outcome.bind_eq_ok.1 h
    obtain ⟨ds, h5, h6⟩ := Outcome.bind_eq_ok.1 h
    rcases readHeader_cases file with ⟨_, h1'⟩ | ⟨magic, n, d, hm, hn, hdd, hh, h1'⟩
    · rw [h1'] at h1; simp at h1
    · rw [h1'] at h1
      simp only [Outcome.ok.injEq] at h1
      subst h1
      obtain rfl := wadTypeOf_ok.1 h2
      obtain ⟨es, ws, hlen, hdir, hws, rfl⟩ := readDirectory_ok.1 h3
      have hms := readMipTextures_ok.1 h4
      simp only at hlen
      subst hlen
      refine ⟨wt, d, es, ws, ⟨hn, hdd, hh⟩, hdir, hws, ?_⟩
      simp only [Outcome.ok.injEq] at h6
      subst h6
      have hl2 : ds.length = ms.length := by
        rw [collectResults_eq_ok] at h5
        have h7 := congrArg List.length h5
        have h8 := hms.length_eq
        simp only [List.length_map, List.length_zip] at h7
        omega
      clear * - hms hl2
      induction hms generalizing ds with
      | nil => simp
      | cons h _ ih =>
        cases ds with
        | nil => simp at hl2
        | cons d ds => exact .cons h (ih ds (by simpa using hl2))
  · unfold readTextures at h; rw [if_pos hl] at h; simp at h

/-! ### C58 -/

/-- C58: the first unreadable directory entry decides the error. -/
theorem C58_first_bad_entry (checks : Bool) (file : Bytes) (wl : Option (List Str)) (levels : Nat)
    (hl : 1 ≤ levels ∧ levels ≤ 4) (sched : Nat → List Nat) (hs : ∀ n, Complete n (sched n)) (wt : WadType)
    (n d : Nat) (hh : HasHeader file wt n d) (hno : checks = true → ∀ i < n, d + 32 * i < 2 ^ 32)
    (i : Nat) (hi : i < n) (hbad : Beyond file ((d + 32 * i) % 2 ^ 32) 32)
    (hfirst : ∀ j < i, ¬ Beyond file ((d + 32 * j) % 2 ^ 32) 32) :
    readTextures checks (some file) wl levels sched = .err (.wad (.readEntry i)) := by
  obtain ⟨r1, r2⟩ := readHeader_of hh
  rw [readTextures_eq hs hl, r1, Outcome.ok_bind, r2, Outcome.ok_bind]
  have : collectResults ((List.range n).map
      (readEntry checks file ⟨(magicOf wt).map latin1, n, d⟩ wl)) = .err (.wad (.readEntry i)) := by
    have cs := fun j => readEntry_cases checks file ⟨(magicOf wt).map latin1, n, d⟩ wl j
    rw [collectResults_err]
    constructor
    · intro x hx
      obtain ⟨j, hj, rfl⟩ := List.mem_map.1 hx
      rcases cs j with ⟨hc, ho, _⟩ | ⟨_, ⟨_, h1⟩ | ⟨e, _, h1⟩⟩
      · have := hno hc j (List.mem_range.1 hj); simp only at ho; omega
      · rw [h1]; rfl
      · rw [h1]; rfl
    · refine ⟨(List.range i).map (readEntry checks file ⟨(magicOf wt).map latin1, n, d⟩ wl),
        (List.range' (i + 1) (n - (i + 1))).map (readEntry checks file ⟨(magicOf wt).map latin1, n, d⟩ wl),
        ?_, ?_⟩
      · have hsplit : List.range n = List.range i ++ i :: List.range' (i + 1) (n - (i + 1)) := by
          have e1 : n = i + (1 + (n - (i + 1))) := by omega
          conv_lhs => rw [e1]
          rw [List.range_eq_range', List.range_eq_range', ← List.range'_append_1, ← List.range'_append_1]
          simp
        have hbi : readEntry checks file ⟨(magicOf wt).map latin1, n, d⟩ wl i = .err (.wad (.readEntry i)) := by
          rcases cs i with ⟨hc, ho, _⟩ | ⟨_, ⟨_, h1⟩ | ⟨e, he, h1⟩⟩
          · have := hno hc i hi; simp only at ho; omega
          · exact h1
          · exfalso
            obtain ⟨hf, a, ha, hh'⟩ := he
            have := has_not_beyond hh'
            rw [entry_bytes_length hf, ha.1] at this
            exact this hbad
        rw [hsplit, List.map_append, List.map_cons, hbi]
      · intro x hx
        obtain ⟨j, hj, rfl⟩ := List.mem_map.1 hx
        rcases cs j with ⟨_, _, h1 | h1⟩ | ⟨_, ⟨hb, _⟩ | ⟨e, _, h1⟩⟩
        · rw [h1]; rfl
        · rw [h1]; rfl
        · exact absurd hb (hfirst j (List.mem_range.1 hj))
        · rw [h1]; rfl
  unfold readDirectory
  rw [this]; rfl

/-- C58: with a readable directory, an unreadable texture header gives that error. -/
theorem C58_bad_header (checks : Bool) (file : Bytes) (wl : Option (List Str)) (levels : Nat)
    (hl : 1 ≤ levels ∧ levels ≤ 4) (sched : Nat → List Nat) (hs : ∀ n, Complete n (sched n)) (wt : WadType)
    (d : Nat) (es ws : List EntryRec) (hh : HasHeader file wt es.length d)
    (hdir : HasDirectory checks file d es) (hws : Selection wl es ws) (e : EntryRec) (he : e ∈ ws)
    (hbad : Beyond file e.offset 40) :
    readTextures checks (some file) wl levels sched = .err (.wad .readMiptex) := by
  obtain ⟨r1, r2⟩ := readHeader_of hh
  rw [readTextures_eq hs hl, r1, Outcome.ok_bind, r2, Outcome.ok_bind,
    readDirectory_ok.2 ⟨es, ws, rfl, hdir, hws, rfl⟩, Outcome.ok_bind]
  have : readMipTextures file (ws.map toEntry) = .err (.wad .readMiptex) := by
    have noab : ∀ x ∈ (ws.map toEntry).map (readMipTexture file), x = .err (.wad .readMiptex) ∨
        ∃ m, x = .ok m := by
      intro x hx
      rw [List.map_map] at hx
      obtain ⟨r, _, rfl⟩ := List.mem_map.1 hx
      rcases readMipTexture_cases file r with ⟨_, h⟩ | ⟨m, _, h⟩
      · exact .inl h
      · exact .inr ⟨m, h⟩
    rcases outcome_cases (readMipTextures file (ws.map toEntry)) with ⟨ms, h⟩ | ⟨err, h⟩ | h
    · exfalso
      have hms := readMipTextures_ok.1 h
      have : ∃ m, HasTexHeader file e m := by
        clear * - hms he
        induction hms with
        | nil => simp at he
        | cons h _ ih =>
          rcases List.mem_cons.1 he with rfl | he
          · exact ⟨_, h⟩
          · exact ih he
      obtain ⟨m, _, f, nm, hf, _, _, hx⟩ := this
      have := has_not_beyond hx
      rw [texHeader_bytes_length hf] at this
      exact this hbad
    · unfold readMipTextures at h ⊢
      obtain ⟨_, pre, post, hl, _⟩ := collectResults_err.1 h
      rw [h]
      rcases noab (.err err) (by rw [hl]; simp) with h' | ⟨m, h'⟩
      · simp only [Outcome.err.injEq] at h'; rw [h']
      · simp at h'
    · exfalso
      obtain ⟨x, hx, hxa⟩ := collectResults_aborts.1 h
      rcases noab x hx with rfl | ⟨m, rfl⟩ <;> simp [Outcome.aborts] at hxa
  rw [this]; rfl

/-- C58: with readable headers, the first texture whose data is not there decides the error, whatever the
schedule. -/
theorem C58_first_bad_texture (checks : Bool) (file : Bytes) (wl : Option (List Str))
    (sched : Nat → List Nat) (hs : ∀ n, Complete n (sched n)) (wt : WadType)
    (d : Nat) (es ws ws' : List EntryRec) (e : EntryRec) (ms ms' : List MipTexture) (m : MipTexture)
    (ts : List TextureIndexed) (hh : HasHeader file wt es.length d)
    (hdir : HasDirectory checks file d es) (hws : Selection wl es (ws ++ e :: ws'))
    (hms : List.Forall₂ (HasTexHeader file) (ws ++ e :: ws') (ms ++ m :: ms'))
    (hlen : ws.length = ms.length)
    (hno : checks = true → ∀ em ∈ (ws ++ e :: ws').zip (ms ++ m :: ms'), NoOverflow em.1 em.2)
    (hgood : List.Forall₂ (TextureAt checks file wt) ws ts)
    (hbad : Beyond file ((e.offset + m.offset1) % 2 ^ 32) (m.width * m.height % 2 ^ 32)) :
    readTextures checks (some file) wl 1 sched = .err (.wad (.readMipdata m.name)) := by
  obtain ⟨r1, r2⟩ := readHeader_of hh
  rw [readTextures_eq hs (by omega), r1, Outcome.ok_bind, r2, Outcome.ok_bind,
    readDirectory_ok.2 ⟨es, _, rfl, hdir, hws, rfl⟩, Outcome.ok_bind, readMipTextures_ok.2 hms,
    Outcome.ok_bind]
  have : collectResults ((((ws ++ e :: ws').map toEntry).zip (ms ++ m :: ms')).map
      (readMipDatum checks file wt 1)) = .err (.wad (.readMipdata m.name)) := by
    rw [collectResults_err]
    constructor
    · intro x hx
      obtain ⟨⟨en, k⟩, hk, rfl⟩ := List.mem_map.1 hx
      rw [List.zip_map_left] at hk
      obtain ⟨⟨r, k'⟩, hrk, hrk'⟩ := List.mem_map.1 hk
      simp only [Prod.map, id, Prod.mk.injEq] at hrk'
      obtain ⟨rfl, rfl⟩ := hrk'
      rcases readMipDatum_cases checks file wt r k' with ⟨hc, ho, _⟩ | ⟨_, ⟨_, h1⟩ | ⟨px, hpx, h1⟩⟩
      · have := hno hc _ hrk; unfold NoOverflow at this; simp only at this; omega
      · rw [h1]; rfl
      · rw [h1]
        cases wt with
        | wad2 => rfl
        | wad3 =>
          rcases readTexturePalette_cases checks file r k' (hasPixels_lt hpx) rfl with
            ⟨hc, ho, _⟩ | ⟨_, ⟨_, h2⟩ | ⟨p, _, h2⟩⟩
          · have := hno hc _ hrk
            unfold NoOverflow at this
            have e1 : px.length = k'.width * k'.height := by
              rw [hpx.1.1, Nat.mod_eq_of_lt this.2.1]
            rw [e1] at ho
            simp only at this; omega
          · rw [h2]; rfl
          · rw [h2]; rfl
    · have hz : ((ws ++ e :: ws').map toEntry).zip (ms ++ m :: ms') =
          (ws.map toEntry).zip ms ++ (toEntry e, m) :: (ws'.map toEntry).zip ms' := by
        rw [List.map_append, List.zip_append (by simpa using hlen)]; rfl
      refine ⟨((ws.map toEntry).zip ms).map (readMipDatum checks file wt 1),
        ((ws'.map toEntry).zip ms').map (readMipDatum checks file wt 1), ?_, ?_⟩
      · have hb : readMipDatum checks file wt 1 (toEntry e, m) = .err (.wad (.readMipdata m.name)) := by
          rcases readMipDatum_cases checks file wt e m with ⟨hc, ho, _⟩ | ⟨_, ⟨_, h1⟩ | ⟨px, hpx, h1⟩⟩
          · have := hno hc (e, m) (by rw [List.zip_append hlen]; simp)
            unfold NoOverflow at this; simp only at this; omega
          · exact h1
          · exact absurd hbad (pixels_not hpx).2
        rw [hz, List.map_append, List.map_cons, hb]
      · have hms1 : List.Forall₂ (HasTexHeader file) ws ms := by
          have := List.forall₂_take ws.length hms
          rwa [List.take_left, hlen, List.take_left] at this
        obtain ⟨ds, hds, _⟩ := (data_ok hms1).2 hgood
        rw [collectResults_eq_ok] at hds
        rw [hds]
        intro x hx
        obtain ⟨y, _, rfl⟩ := List.mem_map.1 hx
        rfl
  rw [this]; rfl

/-- C58: the same if the pixels of the first unreadable texture of a WAD3 file are there, and its palette is not. -/
theorem C58_first_bad_palette (checks : Bool) (file : Bytes) (wl : Option (List Str))
    (sched : Nat → List Nat) (hs : ∀ n, Complete n (sched n)) (d : Nat) (es ws ws' : List EntryRec) (e : EntryRec) (ms ms' : List MipTexture) (m : MipTexture)
    (ts : List TextureIndexed) (hh : HasHeader file .wad3 es.length d)
    (hdir : HasDirectory checks file d es) (hws : Selection wl es (ws ++ e :: ws'))
    (hms : List.Forall₂ (HasTexHeader file) (ws ++ e :: ws') (ms ++ m :: ms'))
    (hlen : ws.length = ms.length)
    (hno : checks = true → ∀ em ∈ (ws ++ e :: ws').zip (ms ++ m :: ms'), NoOverflow em.1 em.2)
    (hgood : List.Forall₂ (TextureAt checks file .wad3) ws ts)
    (pixels : Bytes) (hpixels : HasPixels checks file e m pixels)
    (hbad : Beyond file ((e.offset + m.offset8 + pixels.length / 64 + 2) % 2 ^ 32) 768) :
    readTextures checks (some file) wl 1 sched = .err (.wad .readPalette) := by
  obtain ⟨r1, r2⟩ := readHeader_of hh
  rw [readTextures_eq hs (by omega), r1, Outcome.ok_bind, r2, Outcome.ok_bind,
    readDirectory_ok.2 ⟨es, _, rfl, hdir, hws, rfl⟩, Outcome.ok_bind, readMipTextures_ok.2 hms,
    Outcome.ok_bind]
  have : collectResults ((((ws ++ e :: ws').map toEntry).zip (ms ++ m :: ms')).map
      (readMipDatum checks file .wad3 1)) = .err (.wad .readPalette) := by
    rw [collectResults_err]
    constructor
    · intro x hx
      obtain ⟨⟨en, k⟩, hk, rfl⟩ := List.mem_map.1 hx
      rw [List.zip_map_left] at hk
      obtain ⟨⟨r, k'⟩, hrk, hrk'⟩ := List.mem_map.1 hk
      simp only [Prod.map, id, Prod.mk.injEq] at hrk'
      obtain ⟨rfl, rfl⟩ := hrk'
      rcases readMipDatum_cases checks file .wad3 r k' with ⟨hc, ho, _⟩ | ⟨_, ⟨_, h1⟩ | ⟨px, hpx, h1⟩⟩
      · have := hno hc _ hrk; unfold NoOverflow at this; simp only at this; omega
      · rw [h1]; rfl
      · rw [h1]
        rcases readTexturePalette_cases checks file r k' (hasPixels_lt hpx) rfl with
          ⟨hc, ho, _⟩ | ⟨_, ⟨_, h2⟩ | ⟨p, _, h2⟩⟩
        · have := hno hc _ hrk
          unfold NoOverflow at this
          have e1 : px.length = k'.width * k'.height := by
            rw [hpx.1.1, Nat.mod_eq_of_lt this.2.1]
          rw [e1] at ho
          simp only at this; omega
        · rw [h2]; rfl
        · rw [h2]; rfl
    · have hz : ((ws ++ e :: ws').map toEntry).zip (ms ++ m :: ms') =
          (ws.map toEntry).zip ms ++ (toEntry e, m) :: (ws'.map toEntry).zip ms' := by
        rw [List.map_append, List.zip_append (by simpa using hlen)]; rfl
      refine ⟨((ws.map toEntry).zip ms).map (readMipDatum checks file .wad3 1),
        ((ws'.map toEntry).zip ms').map (readMipDatum checks file .wad3 1), ?_, ?_⟩
      · have hb : readMipDatum checks file .wad3 1 (toEntry e, m) = .err (.wad .readPalette) := by
          rcases readMipDatum_cases checks file .wad3 e m with ⟨hc, ho, _⟩ | ⟨_, ⟨_, h1⟩ | ⟨px, hpx, h1⟩⟩
          · have := hno hc (e, m) (by rw [List.zip_append hlen]; simp)
            unfold NoOverflow at this; simp only at this; omega
          · exact absurd (by assumption) (pixels_not hpixels).2
          · have e1 : px.length = pixels.length := by rw [hpx.1.1, hpixels.1.1]
            rw [← e1] at hbad
            rw [h1]
            rcases readTexturePalette_cases checks file e m (hasPixels_lt hpx) rfl with
              ⟨hc, ho, _⟩ | ⟨_, ⟨_, h2⟩ | ⟨p, h2, _⟩⟩
            · have := hno hc (e, m) (by rw [List.zip_append hlen]; simp)
              unfold NoOverflow at this
              simp only at this
              rw [hpx.1.1, Nat.mod_eq_of_lt this.2.1] at ho
              omega
            · rw [h2]; rfl
            · exact absurd hbad (palette_not h2).2
        rw [hz, List.map_append, List.map_cons, hb]
      · have hms1 : List.Forall₂ (HasTexHeader file) ws ms := by
          have := List.forall₂_take ws.length hms
          rwa [List.take_left, hlen, List.take_left] at this
        obtain ⟨ds, hds, _⟩ := (data_ok hms1).2 hgood
        rw [collectResults_eq_ok] at hds
        rw [hds]
        intro x hx
        obtain ⟨y, _, rfl⟩ := List.mem_map.1 hx
        rfl
  rw [this]; rfl

/-! ### C59 -/

/-- C59: any two schedules that run every task give the same result. -/
theorem C59_schedule_independent (checks : Bool) (file : Option Bytes) (wl : Option (List Str))
    (levels : Nat) (sched sched' : Nat → List Nat) (hs : ∀ n, Complete n (sched n))
    (hs' : ∀ n, Complete n (sched' n)) :
    readTextures checks file wl levels sched = readTextures checks file wl levels sched' := by
  by_cases hl : 1 ≤ levels ∧ levels ≤ 4
  · cases file with
    | none => rfl
    | some file => rw [readTextures_eq hs hl, readTextures_eq hs' hl]
  · unfold readTextures; rw [if_pos hl, if_pos hl]

/-! ### C60 -/

/-- C60: a palette file is readable exactly with at least 768 bytes; colour `i` is bytes `3i`, `3i+1`,
`3i+2`; further bytes do not matter. -/
theorem C60_palette_file (buf : Bytes) :
    (768 ≤ buf.length → ∃ p, readPalette (some buf) = .ok p ∧ p.length = 256 ∧
      ∀ i < 256, ∃ c, p[i]? = some c ∧ buf[3 * i]? = some c.r ∧ buf[3 * i + 1]? = some c.g ∧
        buf[3 * i + 2]? = some c.b) ∧
    (buf.length < 768 → readPalette (some buf) = .err (.wad .parsePaletteFile)) ∧
    readPalette none = .err (.wad .loadPaletteFile) := by
  refine ⟨?_, ?_, rfl⟩
  · intro h
    obtain ⟨a, b, rfl, ha, _⟩ := split_at (n := 768) (m := buf.length - 768) buf (by omega)
    obtain ⟨p, hp, rfl⟩ := paletteBytes_of_bytes 256 a (by omega)
    refine ⟨p, by simp [readPalette, palette_of p hp], hp, ?_⟩
    intro i hi
    have key : ∀ (p : Palette) (rest : Bytes) (i : Nat) (hi : i < p.length),
        (paletteBytes p ++ rest)[3 * i]? = some (p[i]).r ∧
        (paletteBytes p ++ rest)[3 * i + 1]? = some (p[i]).g ∧
        (paletteBytes p ++ rest)[3 * i + 2]? = some (p[i]).b := by
      intro p rest
      induction p with
      | nil => intro i hi; simp at hi
      | cons c p ih =>
        have e : paletteBytes (c :: p) ++ rest = c.r :: c.g :: c.b :: (paletteBytes p ++ rest) := by
          simp [paletteBytes]
        intro i hi
        rw [e]
        cases i with
        | zero => simp
        | succ i =>
          have := ih i (by simpa using hi)
          simp only [show 3 * (i + 1) = 3 * i + 1 + 1 + 1 by omega, List.getElem?_cons_succ,
            List.getElem_cons_succ]
          exact this
    exact ⟨p[i]'(by omega), List.getElem?_eq_getElem _, key p b i (by omega)⟩
  · intro h
    simp [readPalette, paletteParser, count_color_short 256 buf (by omega)]

/-! ### C61 -/

theorem toColor_looksUp {p : Palette} (hp : p.length = 256) (l : MipLevel) :
    ∃ cs, toColor p l = .ok cs ∧ LooksUp p l cs := by
  induction l with
  | nil => exact ⟨[], rfl, .nil⟩
  | cons i l ih =>
    obtain ⟨cs, h1, h2⟩ := ih
    have hi := i.toNat_lt
    have hx : p[i.toNat]? = some (p[i.toNat]'(by omega)) := List.getElem?_eq_getElem _
    refine ⟨_ :: cs, ?_, .cons hx h2⟩
    unfold toColor at h1 ⊢
    rw [mapOut_cons, h1, hx]; rfl

theorem toColorOpt_looksUp {p : Palette} (hp : p.length = 256) (l : Option MipLevel) :
    ∃ cs, toColorOpt p l = .ok cs ∧ LooksUpOpt p l cs := by
  cases l with
  | none => exact ⟨none, rfl, trivial⟩
  | some l =>
    obtain ⟨cs, h1, h2⟩ := toColor_looksUp hp l
    exact ⟨some cs, by simp [toColorOpt, h1, Outcome.bind], h2⟩

theorem fromIndexed_looksUp {p : Palette} (hp : p.length = 256) (d : MipDataIndexed) :
    ∃ r, fromIndexed d p = .ok r ∧ LooksUp p d.mip0 r.mip0 ∧ LooksUpOpt p d.mip1 r.mip1 ∧
      LooksUpOpt p d.mip2 r.mip2 ∧ LooksUpOpt p d.mip3 r.mip3 := by
  obtain ⟨c0, h0, l0⟩ := toColor_looksUp hp d.mip0
  obtain ⟨c1, h1, l1⟩ := toColorOpt_looksUp hp d.mip1
  obtain ⟨c2, h2, l2⟩ := toColorOpt_looksUp hp d.mip2
  obtain ⟨c3, h3, l3⟩ := toColorOpt_looksUp hp d.mip3
  exact ⟨⟨c0, c1, c2, c3⟩, by simp [fromIndexed, h0, h1, h2, h3, Outcome.bind], l0, l1, l2, l3⟩

/-- C61: with palettes of 256 colours the conversion looks every pixel of every level up in the texture's
own palette, or else the supplied one; it fails exactly if there is neither. -/
theorem C61_rgb (t : TextureIndexed) (sup : Option Palette)
    (ht : ∀ p, t.palette = some p → p.length = 256) (hsup : ∀ p, sup = some p → p.length = 256) :
    (∀ p, (t.palette = some p ∨ t.palette = none ∧ sup = some p) →
      ∃ r, intoRgb t sup = .ok r ∧ r.mipTexture = t.mipTexture ∧
        LooksUp p t.mipData.mip0 r.mipData.mip0 ∧ LooksUpOpt p t.mipData.mip1 r.mipData.mip1 ∧
        LooksUpOpt p t.mipData.mip2 r.mipData.mip2 ∧ LooksUpOpt p t.mipData.mip3 r.mipData.mip3) ∧
    (t.palette = none ∧ sup = none ↔ ∃ e, intoRgb t sup = .err e) ∧
    (intoRgb t sup).aborts = false := by
  have main : ∀ p, (t.palette = some p ∨ t.palette = none ∧ sup = some p) →
      ∃ r, intoRgb t sup = .ok r ∧ r.mipTexture = t.mipTexture ∧
        LooksUp p t.mipData.mip0 r.mipData.mip0 ∧ LooksUpOpt p t.mipData.mip1 r.mipData.mip1 ∧
        LooksUpOpt p t.mipData.mip2 r.mipData.mip2 ∧ LooksUpOpt p t.mipData.mip3 r.mipData.mip3 := by
    intro p hp
    have h256 : p.length = 256 := by
      rcases hp with h | h
      · exact ht p h
      · exact hsup p h.2
    obtain ⟨d, hd, hl⟩ := fromIndexed_looksUp h256 t.mipData
    refine ⟨⟨t.mipTexture, d⟩, ?_, rfl, hl⟩
    unfold intoRgb
    rcases hp with h | ⟨h, h'⟩
    · rw [h]; simp only; rw [hd]; rfl
    · rw [h, h']; simp only; rw [hd]; rfl
  refine ⟨main, ?_, ?_⟩
  · constructor
    · rintro ⟨h1, h2⟩; unfold intoRgb; rw [h1, h2]; exact ⟨_, rfl⟩
    · rintro ⟨e, he⟩
      cases h1 : t.palette with
      | some p => obtain ⟨r, hr, _⟩ := main p (.inl h1); rw [hr] at he; simp at he
      | none =>
        cases h2 : sup with
        | some p => obtain ⟨r, hr, _⟩ := main p (.inr ⟨h1, h2⟩); rw [hr] at he; simp at he
        | none => exact ⟨rfl, rfl⟩
  · cases h1 : t.palette with
    | some p => obtain ⟨r, hr, _⟩ := main p (.inl h1); rw [hr]; rfl
    | none =>
      cases h2 : sup with
      | some p => obtain ⟨r, hr, _⟩ := main p (.inr ⟨h1, h2⟩); rw [← h2, hr]; rfl
      | none => unfold intoRgb; rw [h1]; rfl

/-! ### C62 -/

/-- C62: reading with overflow checks is the same as reading without, or ends in an overflow panic. -/
theorem C62_same_or_overflow (file : Option Bytes) (wl : Option (List Str)) (levels : Nat)
    (sched : Nat → List Nat) (hs : ∀ n, Complete n (sched n)) :
    readTextures true file wl levels sched = readTextures false file wl levels sched ∨
    readTextures true file wl levels sched = .panic "attempt to add with overflow" ∨
    readTextures true file wl levels sched = .panic "attempt to multiply with overflow" :=
  readTextures_same hs

theorem addU32_of_lt (checks : Bool) {a b : Nat} (h : a + b < 2 ^ 32) : addU32 checks a b = .ok (a + b) :=
  addU32_ok.2 (computes_of_lt checks h)

theorem mulU32_of_lt (checks : Bool) {a b : Nat} (h : a * b < 2 ^ 32) : mulU32 checks a b = .ok (a * b) :=
  mulU32_ok.2 (computes_of_lt checks h)

/-- C62: if no computation overflows, both ways of compiling behave the same: this file has a directory
whose addresses fit and whose textures do. -/
theorem C62_same_without_overflow (file : Bytes) (wl : Option (List Str))
    (sched : Nat → List Nat) (hs : ∀ n, Complete n (sched n)) (wt : WadType)
    (n d : Nat) (hh : HasHeader file wt n d) (hd : ∀ i < n, d + 32 * i < 2 ^ 32)
    (ht : ∀ i < n, ∀ e m, HasEntry false file d i e → Wanted wl e → HasTexHeader file e m → NoOverflow e m) :
    readTextures true (some file) wl 1 sched = readTextures false (some file) wl 1 sched := by
  obtain ⟨r1, r2⟩ := readHeader_of hh
  rw [readTextures_eq hs (by omega), readTextures_eq hs (by omega), r1, Outcome.ok_bind, r2, Outcome.ok_bind,
    Outcome.ok_bind, r2, Outcome.ok_bind]
  have hdir : readDirectory true file ⟨(magicOf wt).map latin1, n, d⟩ wl =
      readDirectory false file ⟨(magicOf wt).map latin1, n, d⟩ wl := by
    unfold readDirectory
    congr 2
    apply List.map_congr_left
    intro i hi
    have hfit := hd i (List.mem_range.1 hi)
    have q1 := fun c => mulU32_of_lt c (a := i) (b := entryBytes) (by simp only [entryBytes]; omega)
    have q2 := fun c => addU32_of_lt c (a := d) (b := i * entryBytes) (by simp only [entryBytes]; omega)
    simp only [readEntry, q1, q2, Outcome.ok_bind]
  rw [hdir]
  rcases outcome_cases (readDirectory false file ⟨(magicOf wt).map latin1, n, d⟩ wl) with
    ⟨dir, h1⟩ | ⟨e, h1⟩ | h1
  · rw [h1, Outcome.ok_bind, Outcome.ok_bind]
    obtain ⟨es, ws, hlen, hes, hws, rfl⟩ := readDirectory_ok.1 h1
    rcases outcome_cases (readMipTextures file (ws.map toEntry)) with ⟨ms, h2⟩ | ⟨e, h2⟩ | h2
    · rw [h2, Outcome.ok_bind, Outcome.ok_bind]
      have hms := readMipTextures_ok.1 h2
      congr 2
      apply List.map_congr_left
      rintro ⟨en, m⟩ hem
      rw [List.zip_map_left] at hem
      obtain ⟨⟨r, m'⟩, hrm, hrm'⟩ := List.mem_map.1 hem
      simp only [Prod.map, id, Prod.mk.injEq] at hrm'
      obtain ⟨rfl, rfl⟩ := hrm'
      have hw : Wanted wl r := by
        have hr := (List.of_mem_zip hrm).1
        clear * - hws hr
        induction hws with
        | nil => simp at hr
        | take h _ ih =>
          rcases List.mem_cons.1 hr with rfl | hr
          · exact h
          · exact ih hr
        | skip _ _ ih => exact ih hr
      have hm : HasTexHeader file r m' := List.forall₂_zip hms hrm
      obtain ⟨i, hi⟩ := List.mem_iff_getElem?.1 ((selection_sub hws).subset (List.of_mem_zip hrm).1)
      have hin : i < n := by
        have := (List.getElem?_eq_some_iff.1 hi).1
        simp only at hlen; omega
      obtain ⟨n1, n2, n3⟩ := ht i hin r m' (hes i r hi) hw hm
      have q1 := fun c => addU32_of_lt c n1
      have q2 := fun c => mulU32_of_lt c n2
      have hoff : (toEntry r).offset = r.offset := rfl
      have hpal : readTexturePalette true file wt (toEntry r) m' (m'.width * m'.height / 4 / 4 / 4) =
          readTexturePalette false file wt (toEntry r) m' (m'.width * m'.height / 4 / 4 / 4) := by
        cases wt with
        | wad2 => rfl
        | wad3 =>
          have e3 : m'.width * m'.height / 4 / 4 / 4 % 2 ^ 32 = m'.width * m'.height / 64 := by omega
          have q3 := fun c => addU32_of_lt c (a := r.offset) (b := m'.offset8) (by omega)
          have q4 := fun c => addU32_of_lt c (a := r.offset + m'.offset8) (b := m'.width * m'.height / 64)
            (by omega)
          have q5 := fun c => addU32_of_lt c n3
          simp only [readTexturePalette, hoff, e3, q3, q4, q5, Outcome.ok_bind]
      simp only [readMipDatum, hoff, q1, q2, Outcome.ok_bind, hpal]
    · rw [h2]; simp only [Outcome.bind]
    · generalize readMipTextures file (ws.map toEntry) = o at h2
      cases o <;> simp [Outcome.aborts, Outcome.bind] at h2 ⊢
  · rw [h1]; simp only [Outcome.bind]
  · generalize readDirectory false file ⟨(magicOf wt).map latin1, n, d⟩ wl = o at h1
    cases o <;> simp [Outcome.aborts, Outcome.bind] at h1 ⊢

/-- C62: with overflow checks a directory address that does not fit aborts. -/
theorem C62_directory_overflow_aborts (file : Bytes) (wl : Option (List Str)) (levels : Nat)
    (hl : 1 ≤ levels ∧ levels ≤ 4) (sched : Nat → List Nat) (hs : ∀ n, Complete n (sched n)) (wt : WadType)
    (n d : Nat) (hh : HasHeader file wt n d) (i : Nat) (hi : i < n) (ho : 2 ^ 32 ≤ d + 32 * i) :
    (readTextures true (some file) wl levels sched).aborts = true := by
  obtain ⟨r1, r2⟩ := readHeader_of hh
  rw [readTextures_eq hs hl, r1, Outcome.ok_bind, r2, Outcome.ok_bind]
  unfold readDirectory
  have : (collectResults ((List.range n).map
      (readEntry true file ⟨(magicOf wt).map latin1, n, d⟩ wl))).aborts = true := by
    rw [collectResults_aborts]
    refine ⟨_, List.mem_map.2 ⟨i, List.mem_range.2 hi, rfl⟩, ?_⟩
    rcases readEntry_cases true file ⟨(magicOf wt).map latin1, n, d⟩ wl i with ⟨_, _, h | h⟩ | ⟨h, _⟩
    · rw [h]; rfl
    · rw [h]; rfl
    · have := h rfl; simp only at this; omega
  revert this
  simp only
  generalize collectResults _ = o
  intro this
  cases o <;> simp [Outcome.aborts, Outcome.bind] at this ⊢

/-- C62: with overflow checks a position or size of a texture that does not fit aborts. -/
theorem C62_texture_overflow_aborts (file : Bytes) (wl : Option (List Str)) (levels : Nat)
    (hl : 1 ≤ levels ∧ levels ≤ 4) (sched : Nat → List Nat) (hs : ∀ n, Complete n (sched n)) (wt : WadType)
    (d : Nat) (es ws : List EntryRec) (ms : List MipTexture) (hh : HasHeader file wt es.length d)
    (hdir : HasDirectory true file d es) (hws : Selection wl es ws)
    (hms : List.Forall₂ (HasTexHeader file) ws ms) (e : EntryRec) (m : MipTexture) (hem : (e, m) ∈ ws.zip ms)
    (ho : 2 ^ 32 ≤ e.offset + m.offset1 ∨ 2 ^ 32 ≤ m.width * m.height) :
    (readTextures true (some file) wl levels sched).aborts = true := by
  obtain ⟨r1, r2⟩ := readHeader_of hh
  rw [readTextures_eq hs hl, r1, Outcome.ok_bind, r2, Outcome.ok_bind,
    readDirectory_ok.2 ⟨es, ws, rfl, hdir, hws, rfl⟩, Outcome.ok_bind, readMipTextures_ok.2 hms,
    Outcome.ok_bind]
  have : (collectResults (((ws.map toEntry).zip ms).map (readMipDatum true file wt levels))).aborts =
      true := by
    rw [collectResults_aborts]
    refine ⟨_, List.mem_map.2 ⟨(toEntry e, m), ?_, rfl⟩, ?_⟩
    · rw [List.zip_map_left]; exact List.mem_map.2 ⟨(e, m), hem, rfl⟩
    · unfold readMipDatum
      simp only
      have hoff : (toEntry e).offset = e.offset := rfl
      rw [hoff]
      rcases addU32_cases true e.offset m.offset1 with ⟨h1, c1⟩ | ⟨h1, _, _⟩
      · rw [h1, Outcome.ok_bind]
        rcases mulU32_cases true m.width m.height with ⟨h2, c2⟩ | ⟨h2, _, _⟩
        · have := c1 rfl; have := c2 rfl; omega
        · rw [h2]; rfl
      · rw [h1]; rfl
  revert this
  generalize collectResults _ = o
  intro this
  cases o <;> simp [Outcome.aborts, Outcome.bind] at this ⊢

/-- C62: with overflow checks a position of the palette that does not fit aborts. -/
theorem C62_palette_overflow_aborts (file : Bytes) (wl : Option (List Str))
    (sched : Nat → List Nat) (hs : ∀ n, Complete n (sched n))
    (d : Nat) (es ws : List EntryRec) (ms : List MipTexture) (hh : HasHeader file .wad3 es.length d)
    (hdir : HasDirectory true file d es) (hws : Selection wl es ws)
    (hms : List.Forall₂ (HasTexHeader file) ws ms) (e : EntryRec) (m : MipTexture) (hem : (e, m) ∈ ws.zip ms)
    (pixels : Bytes) (hpixels : HasPixels true file e m pixels)
    (ho : 2 ^ 32 ≤ e.offset + m.offset8 + pixels.length / 64 + 2) :
    (readTextures true (some file) wl 1 sched).aborts = true := by
  obtain ⟨r1, r2⟩ := readHeader_of hh
  rw [readTextures_eq hs (by omega), r1, Outcome.ok_bind, r2, Outcome.ok_bind,
    readDirectory_ok.2 ⟨es, ws, rfl, hdir, hws, rfl⟩, Outcome.ok_bind, readMipTextures_ok.2 hms,
    Outcome.ok_bind]
  have : (collectResults (((ws.map toEntry).zip ms).map (readMipDatum true file .wad3 1))).aborts = true := by
    rw [collectResults_aborts]
    refine ⟨_, List.mem_map.2 ⟨(toEntry e, m), ?_, rfl⟩, ?_⟩
    · rw [List.zip_map_left]; exact List.mem_map.2 ⟨(e, m), hem, rfl⟩
    · rcases readMipDatum_cases true file .wad3 e m with ⟨_, _, h1⟩ | ⟨_, ⟨h1, _⟩ | ⟨px, hpx, h1⟩⟩
      · exact h1
      · exact absurd h1 (pixels_not hpixels).2
      · have e1 : px.length = pixels.length := by rw [hpx.1.1, hpixels.1.1]
        rw [← e1] at ho
        rw [h1]
        rcases readTexturePalette_cases true file e m (hasPixels_lt hpx) rfl with ⟨_, _, h2⟩ | ⟨h2, _⟩
        · rw [h2]; rfl
        · have := h2 rfl; omega
  revert this
  generalize collectResults _ = o
  intro this
  cases o <;> simp [Outcome.aborts, Outcome.bind] at this ⊢

/-! ### C63 -/

/-- C63: a level count outside 1..4 aborts. -/
theorem C63_bad_levels (checks : Bool) (file : Option Bytes) (wl : Option (List Str)) (levels : Nat)
    (sched : Nat → List Nat) (hl : levels = 0 ∨ 4 < levels) :
    (readTextures checks file wl levels sched).aborts = true := by
  unfold readTextures
  rw [if_pos (by omega)]; rfl

/-- C63: twelve bytes with an unknown magic abort, whatever follows. -/
theorem C63_bad_magic (checks : Bool) (magic rest : Bytes) (wl : Option (List Str)) (levels : Nat)
    (sched : Nat → List Nat) (hm : magic.length = 4) (hne : ∀ wt, magic ≠ magicOf wt)
    (hr : 8 ≤ rest.length) :
    (readTextures checks (some (magic ++ rest)) wl levels sched).aborts = true := by
  by_cases hl : 1 ≤ levels ∧ levels ≤ 4
  · unfold readTextures
    rw [if_neg (by omega)]
    simp only
    rcases readHeader_cases (magic ++ rest) with ⟨hb, _⟩ | ⟨mg, n, d, hml, hn, hd, hh, h1⟩
    · have := hb.2; simp [hm] at this; omega
    · have : mg = magic := has_unique (has_append.1 hh).1 (has_append.1 (has_self (magic ++ rest))).1
        (by rw [hml, hm])
      subst this
      rw [h1, Outcome.ok_bind]
      have := wadTypeOf_panic hne
      revert this
      simp only
      generalize wadTypeOf _ = o
      intro this
      cases o <;> simp [Outcome.aborts, Outcome.bind] at this ⊢
  · unfold readTextures
    rw [if_pos hl]; rfl

end Quarch
