import Verif.Props.Wad
/-
Concrete cases for C54–C63.
-/
set_option maxRecDepth 100000

namespace Quarch
open Spec Wad

/-- Tasks are run last to first. -/
def backwards (n : Nat) : List Nat := (List.range n).reverse

theorem backwards_complete : ∀ n, Complete n (backwards n) := by
  intro n i hi; simp [backwards, hi]

/-- Tasks are run in order. -/
theorem forwards_complete : ∀ n, Complete n (List.range n) := by
  intro n i hi; simp [hi]

/-- A texture `Sky1` of 4 × 4 pixels. -/
def skyLump : Lump where
  gap := [9, 9, 9]
  field := [83, 107, 121, 49, 0, 7, 7, 7, 0, 0, 0, 0, 0, 0, 0, 0]
  width := 4
  height := 4
  pixels := [0, 1, 2, 3, 4, 5, 6, 7, 8, 9, 10, 11, 12, 13, 14, 15]
  mip1 := [1, 2, 3, 4]
  mip2 := [5]
  mip3 := []
  palette := List.replicate 255 ⟨1, 2, 3⟩ ++ [⟨4, 5, 6⟩]
  dsize := 61
  size := 61
  kind := 68
  cmprs := 0
  pad := 0
  dirField := [83, 75, 89, 0, 0, 0, 0, 0, 0, 0, 0, 0, 0, 0, 0, 0]

theorem skyLump_good : skyLump.Good := by
  constructor <;> first | rfl | decide

def skyTexture (p : Option Palette) : TextureIndexed :=
  ⟨⟨str! "sky1", 4, 4, 40, 56, 60, 61⟩,
    ⟨[0, 1, 2, 3, 4, 5, 6, 7, 8, 9, 10, 11, 12, 13, 14, 15], none, none, none⟩, p⟩

theorem skyLump_readBack2 : skyLump.ReadBack .wad2 (skyTexture none) :=
  ⟨⟨str! "Sky1", ⟨[83, 107, 121, 49], by decide, .inr ⟨[7, 7, 7, 0, 0, 0, 0, 0, 0, 0, 0], rfl⟩, by decide⟩,
    by decide⟩, rfl, rfl⟩

theorem skyLump_readBack3 : skyLump.ReadBack .wad3 (skyTexture (some skyLump.palette)) :=
  ⟨⟨str! "Sky1", ⟨[83, 107, 121, 49], by decide, .inr ⟨[7, 7, 7, 0, 0, 0, 0, 0, 0, 0, 0], rfl⟩, by decide⟩,
    by decide⟩, rfl, rfl⟩

/-- Two files with the texture twice. -/
def sky2 : Bytes := writeWad .wad2 [skyLump, skyLump] [1, 2] [3]
def sky3 : Bytes := writeWad .wad3 [skyLump, skyLump] [1, 2] [3]

theorem sky_good : ∀ l ∈ [skyLump, skyLump], l.Good := by
  intro l hl
  have : l = skyLump := by simpa using hl
  rw [this]; exact skyLump_good

theorem sky2_length : sky2.length = 207 := by decide

theorem sky3_length : sky3.length = 1747 := by
  have h := lump_bytes_length .wad3 skyLump_good
  have e : (skyLump.bytes .wad3).length = 831 := h
  have g : skyLump.gap.length = 3 := rfl
  simp only [sky3, writeWad, lumpData, lumpEntries, List.length_append, le4_length, e, g, List.flatMap_cons,
    List.flatMap_nil, EntryRec.bytes, le2_length, magicOf, List.length_cons, List.length_nil]
  rfl

theorem sky2_reads (checks : Bool) (sched : Nat → List Nat) (hs : ∀ n, Complete n (sched n)) :
    readTextures checks (some sky2) none 1 sched = .ok [skyTexture none, skyTexture none] := by
  obtain ⟨ts, h, hts⟩ := C54_round_trip checks .wad2 [skyLump, skyLump] [1, 2] [3] sky_good
    (by have := sky2_length; unfold sky2 at this; rw [this]; decide) sched hs
  cases hts with
  | cons h1 h2 => cases h2 with
    | cons h2 h3 =>
      cases h3
      rw [spec_C54_read_back_unique _ _ _ _ h1 skyLump_readBack2,
        spec_C54_read_back_unique _ _ _ _ h2 skyLump_readBack2] at h
      exact h

theorem sky3_reads (checks : Bool) (sched : Nat → List Nat) (hs : ∀ n, Complete n (sched n)) :
    readTextures checks (some sky3) none 1 sched =
      .ok [skyTexture (some skyLump.palette), skyTexture (some skyLump.palette)] := by
  obtain ⟨ts, h, hts⟩ := C54_round_trip checks .wad3 [skyLump, skyLump] [1, 2] [3] sky_good
    (by have := sky3_length; unfold sky3 at this; rw [this]; decide) sched hs
  cases hts with
  | cons h1 h2 => cases h2 with
    | cons h2 h3 =>
      cases h3
      rw [spec_C54_read_back_unique _ _ _ _ h1 skyLump_readBack3,
        spec_C54_read_back_unique _ _ _ _ h2 skyLump_readBack3] at h
      exact h

/-- C54, C55, C57: the file stores the textures. -/
example : ReadsAs true sky3 none [skyTexture (some skyLump.palette), skyTexture (some skyLump.palette)] :=
  (C54_reads_what_is_stored true sky3 none backwards backwards_complete _).1
    (sky3_reads true backwards backwards_complete)

/-- C55: cut after the first texture. -/
example : ¬ ∃ ts, readTextures true (some (sky2.take 76)) none 1 backwards = .ok ts := by
  rintro ⟨ts, h⟩
  rcases C55_every_truncation true sky2 none backwards backwards_complete _
    (sky2_reads true backwards backwards_complete) 76 with h' | ⟨e, h'⟩
  · have h2 : readTextures true (some (sky2.take 76)) none 1 backwards =
        .err (.wad (.readEntry 0)) := by decide
    rw [h2] at h; simp at h
  · rw [h'] at h; simp at h

/-- C55: missing data. -/
example : readTextures true (some (sky2.take 206)) none 1 backwards =
    .ok [skyTexture none, skyTexture none] := by decide

/-- C55: the last entry is cut. -/
example : readTextures true (some (sky2.take 205)) none 1 backwards = .err (.wad (.readEntry 1)) := by decide

/-- C55: something needed is missing. -/
example : (sky2.take 11).length < 12 ∧ ∃ e, readTextures false (some (sky2.take 11)) none 1 backwards = .err e :=
  ⟨by decide, .wad .readHeader, by decide⟩

/-- C56: two levels of this file cannot be read. -/
example : (readTextures false (some sky2) none 2 backwards).aborts = true :=
  C56_more_levels_abort false .wad2 [skyLump, skyLump] [1, 2] [3] sky_good
    (by have := sky2_length; unfold sky2 at this; rw [this]; decide) backwards backwards_complete 2
    (by decide) (by decide) skyLump (by simp) (by decide)

/-- An empty texture. -/
def emptyLump : Lump := { skyLump with width := 0, pixels := [], mip1 := [], mip2 := [], mip3 := [] }

/-- C56: all levels of an empty texture can be read. -/
example : readTextures true (some (writeWad .wad2 [emptyLump] [] [])) none 4 backwards =
    .ok [⟨⟨str! "sky1", 0, 4, 40, 40, 40, 40⟩, ⟨[], some [], some [], some []⟩, none⟩] := by decide

/-- C57: the directory name counts, not the name of the texture. -/
example : readTextures true (some sky2) (some [str! "SKY"]) 1 backwards =
    .ok [skyTexture none, skyTexture none] ∧
    readTextures true (some sky2) (some [str! "sky1"]) 1 backwards = .ok [] := by decide

/-- C57: entries of other types are skipped. -/
example : readTextures true (some (writeWad .wad2 [skyLump, { skyLump with kind := 64 }] [] [])) none 1
    backwards = .ok [skyTexture none] := by decide

/-- C58: both entries are cut; the first decides. -/
example : Beyond (sky2.take 150) (12 + (lumpData .wad2 [skyLump, skyLump]).length + 2 + 32 * 0) 32 ∧
    Beyond (sky2.take 150) (12 + (lumpData .wad2 [skyLump, skyLump]).length + 2 + 32 * 1) 32 ∧
    readTextures true (some (sky2.take 150)) none 1 backwards = .err (.wad (.readEntry 0)) := by
  refine ⟨?_, ?_, ?_⟩
  · unfold Beyond; decide
  · unfold Beyond; decide
  · decide

/-- A directory entry and the header of a texture whose pixels are far away. -/
def farEntry (off : Nat) : EntryRec := ⟨off, 0, 0, 68, 0, 0, skyLump.dirField⟩
def farFile (offset1 : Nat) : Bytes :=
  magicOf .wad2 ++ (le4 2 ++ le4 12) ++ (farEntry 76).bytes ++ (farEntry 76).bytes ++
    headerBytesOf skyLump.field ⟨[], 4, 4, offset1, 0, 0, 0⟩

/-- C58: the pixels are not in the file. -/
example : readTextures true (some (farFile 1000)) none 1 backwards =
    .err (.wad (.readMipdata (str! "sky1"))) := by decide

theorem farFile_parts : HasHeader (farFile 1000) .wad2 2 12 ∧
    HasDirectory true (farFile 1000) 12 [farEntry 76, farEntry 76] ∧
    Selection none [farEntry 76, farEntry 76] ([] ++ farEntry 76 :: [farEntry 76]) ∧
    List.Forall₂ (HasTexHeader (farFile 1000)) ([] ++ farEntry 76 :: [farEntry 76])
      ([] ++ ⟨str! "sky1", 4, 4, 1000, 0, 0, 0⟩ :: [⟨str! "sky1", 4, 4, 1000, 0, 0, 0⟩]) := by
  have hl : (farFile 1000).length = 116 := by decide
  have fits : (farEntry 76).Fits := by constructor <;> decide
  have head : HasTexHeader (farFile 1000) (farEntry 76) ⟨str! "sky1", 4, 4, 1000, 0, 0, 0⟩ := by
    refine ⟨by constructor <;> decide, skyLump.field, str! "Sky1", rfl,
      ⟨[83, 107, 121, 49], by decide, .inr ⟨[7, 7, 7, 0, 0, 0, 0, 0, 0, 0, 0], rfl⟩, by decide⟩, by decide, ?_⟩
    exact ⟨[], by decide⟩
  refine ⟨⟨by decide, by decide, ?_⟩, ?_, ?_, .cons head (.cons head .nil)⟩
  · exact ⟨(farFile 1000).drop 12, by decide⟩
  · refine directory_of (by rw [hl]; decide) (by simp [fits]) ?_
    exact ⟨(farFile 1000).drop 76, by decide⟩
  · exact selection_all (by
      intro e he
      have : e = farEntry 76 := by simpa using he
      rw [this]; exact ⟨.inr rfl, by simp⟩)

/-- C58: the hypotheses of the theorem hold for this file. -/
example : readTextures true (some (farFile 1000)) none 1 backwards = .err (.wad (.readMipdata (str! "sky1"))) :=
  C58_first_bad_texture true (farFile 1000) none backwards backwards_complete .wad2 12
    [farEntry 76, farEntry 76] [] [farEntry 76] (farEntry 76) [] [⟨str! "sky1", 4, 4, 1000, 0, 0, 0⟩]
    ⟨str! "sky1", 4, 4, 1000, 0, 0, 0⟩ [] farFile_parts.1 farFile_parts.2.1 farFile_parts.2.2.1
    farFile_parts.2.2.2 rfl
    (by
      intro _ em hem
      have : em = (farEntry 76, ⟨str! "sky1", 4, 4, 1000, 0, 0, 0⟩) := by simpa using hem
      rw [this]; unfold NoOverflow; decide)
    .nil (by unfold Beyond; decide)

/-- C58: an unreadable header. -/
example : readTextures true (some ((farFile 1000).take 115)) none 1 backwards = .err (.wad .readMiptex) := by
  decide

/-- A WAD3 file with one texture of 1 × 1 pixels, which is there, and its palette, which is not: the palette would start
at `76 + offset8 + 2`. -/
def bareFile (offset8 : Nat) : Bytes :=
  magicOf .wad3 ++ (le4 1 ++ le4 12) ++ (farEntry 44).bytes ++
    headerBytesOf skyLump.field ⟨[], 1, 1, 0, 0, 0, offset8⟩

theorem bareFile_parts (n : Nat) (hn : n = 0 ∨ n = 4294967290) : HasHeader (bareFile n) .wad3 1 12 ∧
    HasDirectory true (bareFile n) 12 [farEntry 44] ∧ Selection none [farEntry 44] ([] ++ farEntry 44 :: []) ∧
    List.Forall₂ (HasTexHeader (bareFile n)) ([] ++ farEntry 44 :: []) ([] ++ ⟨str! "sky1", 1, 1, 0, 0, 0, n⟩ :: []) ∧
    HasPixels true (bareFile n) (farEntry 44) ⟨str! "sky1", 1, 1, 0, 0, 0, n⟩ [83] := by
  have hl : (bareFile n).length = 84 := by rcases hn with rfl | rfl <;> decide
  have fits : (farEntry 44).Fits := by constructor <;> decide
  have head : HasTexHeader (bareFile n) (farEntry 44) ⟨str! "sky1", 1, 1, 0, 0, 0, n⟩ := by
    refine ⟨by rcases hn with rfl | rfl <;> constructor <;> decide, skyLump.field, str! "Sky1", rfl,
      ⟨[83, 107, 121, 49], by decide, .inr ⟨[7, 7, 7, 0, 0, 0, 0, 0, 0, 0, 0], rfl⟩, by decide⟩, by rcases hn with rfl | rfl <;> decide, ?_⟩
    exact ⟨[], by rcases hn with rfl | rfl <;> decide⟩
  refine ⟨⟨by decide, by decide, ?_⟩, ?_, ?_, .cons head .nil, ?_, 44, ?_, ?_⟩
  · exact ⟨(bareFile n).drop 12, by rcases hn with rfl | rfl <;> decide⟩
  · refine directory_of (by rw [hl]; decide) (by simp [fits]) ?_
    exact ⟨(bareFile n).drop 44, by rcases hn with rfl | rfl <;> decide⟩
  · exact selection_all (by
      intro e he
      have : e = farEntry 44 := by simpa using he
      rw [this]; exact ⟨.inr rfl, by simp⟩)
  · unfold Computes; rcases hn with rfl | rfl <;> decide
  · unfold Computes; rcases hn with rfl | rfl <;> decide
  · exact ⟨(bareFile n).drop 45, by rcases hn with rfl | rfl <;> decide⟩

/-- C58: the palette is not in the file. -/
example : readTextures true (some (bareFile 0)) none 1 backwards = .err (.wad .readPalette) :=
  have h := bareFile_parts 0 (.inl rfl)
  C58_first_bad_palette true (bareFile 0) none backwards backwards_complete 12
    [farEntry 44] [] [] (farEntry 44) [] [] ⟨str! "sky1", 1, 1, 0, 0, 0, 0⟩ [] h.1 h.2.1 h.2.2.1 h.2.2.2.1 rfl
    (by
      intro _ em hem
      have : em = (farEntry 44, ⟨str! "sky1", 1, 1, 0, 0, 0, 0⟩) := by simpa using hem
      rw [this]; unfold NoOverflow; decide)
    .nil [83] h.2.2.2.2 (by unfold Beyond; decide)

/-- C62: the palette would start beyond 2^32. -/
example : (readTextures true (some (bareFile 4294967290)) none 1 backwards).aborts = true :=
  have h := bareFile_parts 4294967290 (.inr rfl)
  C62_palette_overflow_aborts (bareFile 4294967290) none backwards backwards_complete 12 [farEntry 44] [farEntry 44]
    [⟨str! "sky1", 1, 1, 0, 0, 0, 4294967290⟩] h.1 h.2.1 h.2.2.1 h.2.2.2.1 (farEntry 44) _ (by simp) [83] h.2.2.2.2
    (by decide)

/-- C59: two schedules. -/
example : readTextures true (some sky2) none 1 backwards = readTextures true (some sky2) none 1 List.range :=
  C59_schedule_independent true _ none 1 backwards List.range backwards_complete forwards_complete

/-- C60. -/
example : ∃ p, readPalette (some (List.replicate 770 7)) = .ok p ∧ p.length = 256 := by
  obtain ⟨p, h, hl, _⟩ := (C60_palette_file (List.replicate 770 7)).1 (by rw [List.length_replicate]; decide)
  exact ⟨p, h, hl⟩

example : readPalette (some (List.replicate 767 7)) = .err (.wad .parsePaletteFile) :=
  (C60_palette_file _).2.1 (by rw [List.length_replicate]; decide)

/-- C61: the texture's own palette wins. -/
example : ∃ r, intoRgb (skyTexture (some skyLump.palette)) (some (List.replicate 256 ⟨0, 0, 0⟩)) = .ok r ∧
    r.mipData.mip0 = List.replicate 16 ⟨1, 2, 3⟩ := by
  refine ⟨⟨(skyTexture none).mipTexture, ⟨List.replicate 16 ⟨1, 2, 3⟩, none, none, none⟩⟩, ?_, rfl⟩
  decide

/-- C61: neither palette. -/
example : ∃ e, intoRgb (skyTexture none) none = .err e := ⟨_, rfl⟩

/-- C62: the pixels start beyond 2^32: with checks this aborts, without them the position wraps around to
the first byte of the file. -/
example : (readTextures true (some (farFile 4294967220)) none 1 backwards).aborts = true ∧
    ∃ t, readTextures false (some (farFile 4294967220)) none 1 backwards = .ok [t, t] ∧
      t.mipData.mip0 = (farFile 4294967220).take 16 := by
  refine ⟨by decide, ⟨⟨str! "sky1", 4, 4, 4294967220, 0, 0, 0⟩, ⟨(farFile 4294967220).take 16, none, none, none⟩,
    none⟩, by decide, rfl⟩

/-- C62: a directory whose second entry would start at 2^32. -/
example : (readTextures true (some (magicOf .wad2 ++ (le4 2 ++ le4 4294967264))) none 1 backwards).aborts =
    true :=
  C62_directory_overflow_aborts _ none 1 (by decide) backwards backwards_complete .wad2 2 4294967264
    ⟨by decide, by decide, has_self _⟩ 1 (by decide) (by decide)

/-- C62: no overflow here. -/
example : readTextures true (some (farFile 1000)) none 1 backwards =
    readTextures false (some (farFile 1000)) none 1 backwards := by
  refine C62_same_without_overflow _ none backwards backwards_complete .wad2 2 12 farFile_parts.1
    (by intro i hi; omega) ?_
  intro i hi e m he _ hm
  have hsame : toEntry e = toEntry (farEntry 76) := by
    have h2 : HasEntry false (farFile 1000) 12 i (farEntry 76) := by
      have := farFile_parts.2.1 i (farEntry 76) (by
        have : i = 0 ∨ i = 1 := by omega
        rcases this with rfl | rfl <;> rfl)
      exact ⟨this.1, this.2.imp fun a ha => ⟨⟨ha.1.1, by simp⟩, ha.2⟩⟩
    exact entry_unique he h2
  have hoff : e.offset = 76 := congrArg Entry.offset hsame
  have hm' : HasTexHeader (farFile 1000) (farEntry 76) m := by
    obtain ⟨h1, f, nm, h2, h3, h4, h5⟩ := hm
    rw [hoff] at h5
    exact ⟨h1, f, nm, h2, h3, h4, h5⟩
  have : m = ⟨str! "sky1", 4, 4, 1000, 0, 0, 0⟩ := by
    have h := farFile_parts.2.2.2
    cases h with
    | cons h _ => exact texHeader_unique hm' h
  subst this
  unfold NoOverflow; rw [hoff]; decide

/-- C63. -/
example : (readTextures true (some ([87, 65, 68, 52] ++ [0, 0, 0, 0, 12, 0, 0, 0])) none 1 backwards).aborts =
    true :=
  C63_bad_magic true [87, 65, 68, 52] _ none 1 backwards rfl (by intro wt; cases wt <;> decide) (by decide)

example : (readTextures true (some sky2) none 5 backwards).aborts = true :=
  C63_bad_levels true _ none 5 backwards (by decide)

end Quarch
