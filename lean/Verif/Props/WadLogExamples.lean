import Verif.Props.WadLog
import Verif.Props.WadExamples
/-
Concrete cases for C95.
-/
set_option maxRecDepth 100000

namespace Quarch
open Spec Output Wad

theorem backwards_perm (n : Nat) : (backwards n).Perm (List.range n) := List.reverse_perm _

theorem showNat_fun : showNat = Nat.toDigits 10 := by
  funext n; exact showNat_eq n

/-- The durations of the steps. -/
def exampleClock (i : Nat) : Nat := 9 * i

/-- The lines about the two textures. -/
def skyTold : List LogLine :=
  [.out (str! "Reading mipdata for entry: Entry { offset: 79, dsize: 61, size: 61, entry_type: 'D', cmprs: 0, name: \"SKY\" }"),
   .out (str! "Reading mipdata for entry: Entry { offset: 15, dsize: 61, size: 61, entry_type: 'D', cmprs: 0, name: \"SKY\" }")]

/-- C95: two textures, read last to first. -/
theorem sky_printed : readTexturesLog plainStyle exampleClock true (some sky2) none 1 backwards =
    ([.out (str! "Read header took 0"), .out (str! "Read directory took 9"),
      .out (str! "Read mip textures took 18")] ++ skyTold ++ [.out (str! "Read mip data took 27")],
     .ok [skyTexture none, skyTexture none]) := by
  refine Prod.ext ?_ ?_
  · unfold readTexturesLog readMipDataLog readingLine debugEntry tookLine; rw [showNat_fun]; decide
  · rw [C95_same_result]; exact sky2_reads true backwards backwards_complete

example : ∃ wt d es ws ws' l1 l2 l3 l4 told, HasHeader sky2 wt es.length d ∧ HasDirectory true sky2 d es ∧
    Selection none es ws ∧ List.Forall₂ (HasTexHeader sky2) ws
      ([skyTexture none, skyTexture none].map fun t => t.mipTexture) ∧ ws'.Perm ws ∧
    List.Forall₂ EntryTold ws' told ∧ Took (str! "header") l1 ∧ Took (str! "directory") l2 ∧
    Took (str! "mip textures") l3 ∧ Took (str! "mip data") l4 ∧
    (readTexturesLog plainStyle exampleClock true (some sky2) none 1 backwards).1 = [l1, l2, l3] ++ told ++ [l4] :=
  C95_printed plainStyle exampleClock true sky2 none 1 backwards backwards_perm _ _
    (by rw [sky_printed])

/-- C95: a file without its last entry. -/
theorem cut_printed : readTexturesLog plainStyle exampleClock true (some (sky2.take 205)) none 1 backwards =
    ([.out (str! "Read header took 0")], .err (.wad (.readEntry 1))) := by
  unfold readTexturesLog tookLine; rw [showNat_fun]; decide

example : ∃ wt n d, HasHeader (sky2.take 205) wt n d ∧ ¬ ∃ es, es.length = n ∧ HasDirectory true (sky2.take 205) d es := by
  rcases C95_failed _ _ _ _ _ _ _ backwards_perm _ _ cut_printed with ⟨h, _⟩ | ⟨b, hb, ⟨_, h⟩ | ⟨wt, n, d, l1, hh, _, h⟩⟩
  · cases h
  · cases h
  · obtain rfl := Option.some.inj hb
    rcases h with ⟨h, _⟩ | ⟨es, ws, l2, _, _, _, _, h⟩
    · exact ⟨wt, n, d, hh, h⟩
    · rcases h with ⟨_, h⟩ | ⟨_, _, _, _, _, _, _, _, h⟩
      · cases h
      · have := congrArg List.length h; simp at this

/-- C95: a file with nothing but a piece of the header. -/
example : readTexturesLog plainStyle exampleClock true (some (sky2.take 11)) none 1 backwards =
    ([], .err (.wad .readHeader)) := by decide

/-- C95: the textures of the file not asked for. -/
example : readTexturesLog plainStyle exampleClock true (some sky2) (some [str! "sky1"]) 1 backwards =
    ([.out (str! "Read header took 0"), .out (str! "Read directory took 9"),
      .out (str! "Read mip textures took 18"), .out (str! "Read mip data took 27")], .ok []) := by
  unfold readTexturesLog tookLine; rw [showNat_fun]; decide

/-- C95: the line about the second texture. -/
theorem sky_told : EntryTold ⟨79, 61, 61, 68, 0, 0, skyLump.dirField⟩
    (.out (str! "Reading mipdata for entry: Entry { offset: 79, dsize: 61, size: 61, entry_type: 'D', cmprs: 0, name: \"SKY\" }")) := by
  refine ⟨str! "79", str! "61", str! "61", str! "D", str! "0", str! "SKY", str! "\"SKY\"", decVal_iff.2 ⟨by decide, by decide⟩,
    decVal_iff.2 ⟨by decide, by decide⟩, decVal_iff.2 ⟨by decide, by decide⟩, .inr ⟨rfl, .plain _ (by decide)⟩,
    decVal_iff.2 ⟨by decide, by decide⟩,
    ⟨[83, 75, 89], by decide, .inr ⟨List.replicate 12 0, rfl⟩, by decide⟩, ⟨[['S'], ['K'], ['Y']], ?_, rfl⟩, rfl⟩
  exact .cons (.plain _ (by decide)) (.cons (.plain _ (by decide)) (.cons (.plain _ (by decide)) .nil))

example (e : EntryRec) (h : EntryTold e (skyTold.get ⟨0, by decide⟩)) : e.offset = 79 ∧ e.kind = 68 := by
  obtain ⟨h1, _, _, h2, _⟩ := spec_C95_told_unique _ _ _ h sky_told
  exact ⟨h1, h2⟩

/-- C95: a supplied palette is not used for a texture with its own. -/
example : (intoRgbLog (skyTexture (some skyLump.palette)) (some [])).1 =
    [.out (str! "Skipping supplied palette: Not necessary for WAD3 RGB conversion")] :=
  (C95_conversion _ _).2.1 ⟨by simp [skyTexture], by simp⟩

end Quarch
