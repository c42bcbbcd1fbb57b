import Verif.Model.Wad
import Verif.Model.Log
/-
What the WAD reader (/repo/src/wad/mod.rs) writes to the standard output. C95 proves that these functions return what the
functions of `Model/Wad` return.
-/
namespace Quarch.Output
open Wad

/-- Derived `Debug` of `Entry`, `/repo/src/wad/entry.rs:7-15`. (`impl Debug for char` treats quotes differently from
`impl Debug for str`; the entry types printed are `C` and `D` only, `/repo/src/wad/mod.rs:172`.) -/
def debugEntry (style : DebugStyle) (e : Entry) : Str :=
  str! "Entry { offset: " ++ showNat e.offset ++ str! ", dsize: " ++ showNat e.dsize ++ str! ", size: " ++
    showNat e.size ++ str! ", entry_type: '" ++ escapeChar style e.entryType ++ str! "', cmprs: " ++
    showNat e.cmprs.toNat ++ str! ", name: " ++ debugStr style e.name ++ str! " }"

/-- `println!` of `/repo/src/wad/mod.rs:257`. -/
def readingLine (style : DebugStyle) (e : Entry) : LogLine :=
  .out (str! "Reading mipdata for entry: " ++ debugEntry style e)

/-- `read_mip_data`, `/repo/src/wad/mod.rs:244-382`: the tasks write their line when they start. (If a task panics the
others may not start; the model lets them.) -/
def readMipDataLog (style : DebugStyle) (checks : Bool) (file : Bytes) (wadType : WadType) (directory : List Entry)
    (mipTextures : List Wad.MipTexture) (mipLevels : Nat) (sched : List Nat) :
    Logged (List (MipDataIndexed × Option Palette)) :=
  (sched.filterMap fun i => ((directory.zip mipTextures)[i]?).map fun em => readingLine style em.1,
   readMipData checks file wadType directory mipTextures mipLevels sched)

/-- `println!("… took {}", now.elapsed().as_millis())`, `/repo/src/wad/mod.rs:103, 113, 117, 122`. -/
def tookLine (what : Str) (millis : Nat) : Str := str! "Read " ++ what ++ str! " took " ++ showNat millis

/-- `read_textures`, `/repo/src/wad/mod.rs:89-133`. `clock` gives the four durations in milliseconds. -/
def readTexturesLog (style : DebugStyle) (clock : Nat → Nat) (checks : Bool) (file : Option Bytes)
    (whitelist : Option (List Str)) (mipLevels : Nat) (sched : Nat → List Nat) : Logged (List TextureIndexed) :=
  if ¬ (1 ≤ mipLevels ∧ mipLevels ≤ 4) then quiet (.panic "assertion failed")
  else match file with
  | none => quiet (.err (.wad .openWad))
  | some file =>
    (quiet (readHeader file)).bind fun h =>
    (say (tookLine (str! "header") (clock 0))).bind fun _ =>
    (quiet (wadTypeOf h.magic)).bind fun wadType =>
    (quiet (readDirectory checks file h whitelist)).bind fun directory =>
    (say (tookLine (str! "directory") (clock 1))).bind fun _ =>
    (quiet (readMipTextures file directory)).bind fun mipTextures =>
    (say (tookLine (str! "mip textures") (clock 2))).bind fun _ =>
    (readMipDataLog style checks file wadType directory mipTextures mipLevels (sched directory.length)).bind
      fun mipData =>
    (say (tookLine (str! "mip data") (clock 3))).bind fun _ =>
    quiet (.ok ((mipTextures.zip mipData).map fun (m, d) => ⟨m, d.1, d.2⟩))

/-- `TextureIndexed::into_rgb`, `/repo/src/wad/mod.rs:54-69`. -/
def intoRgbLog (t : TextureIndexed) (palette : Option Palette) : Logged TextureRGB :=
  match t.palette with
  | some p =>
    (if palette.isSome then say (str! "Skipping supplied palette: Not necessary for WAD3 RGB conversion")
      else quiet (.ok ())).bind fun _ =>
    quiet ((fromIndexed t.mipData p).bind fun d => .ok ⟨t.mipTexture, d⟩)
  | none => quiet (match palette with
    | some p => (fromIndexed t.mipData p).bind fun d => .ok ⟨t.mipTexture, d⟩
    | none => .err (.wad .noPalette))

end Quarch.Output
