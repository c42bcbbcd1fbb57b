import Verif.Model.Wad
import Mathlib.Data.List.Forall2
/-
The layout of WAD2/WAD3 files as byte strings, written without the readers. Only the record types of the
results (`Wad.MipTexture`, `Wad.TextureIndexed`, ..) are shared with the model.
-/
namespace Quarch.Spec
open Wad (Bytes)

/-- Little-endian 16-bit number. -/
def le2 (n : Nat) : Bytes := [UInt8.ofNat n, UInt8.ofNat (n / 256)]

/-- Little-endian 32-bit number. -/
def le4 (n : Nat) : Bytes :=
  [UInt8.ofNat n, UInt8.ofNat (n / 256), UInt8.ofNat (n / 65536), UInt8.ofNat (n / 16777216)]

/-- The file contains these bytes at this position (nothing is required of zero bytes). -/
def Has (file : Bytes) (off : Nat) (bs : Bytes) : Prop := bs <+: file.drop off

/-- The `len` bytes at this position are not all in the file. -/
def Beyond (file : Bytes) (off len : Nat) : Prop := len ≠ 0 ∧ file.length < off + len

/-- A sum or product computed in 32 bits: the address is the value modulo 2^32; with overflow checks the
value must fit. -/
def Computes (checks : Bool) (value addr : Nat) : Prop :=
  addr = value % 2 ^ 32 ∧ (checks = true → value < 2 ^ 32)

/-- The zero-terminated name in a field of bytes: the characters before the first zero. -/
def NameIn (field : Bytes) (name : Str) : Prop :=
  ∃ bs, 0 ∉ bs ∧ (field = bs ∨ ∃ junk, field = bs ++ 0 :: junk) ∧
    name = bs.map fun b => Char.ofNat b.toNat

/-- The capital letters of Latin-1. -/
def capitals : Str := str! "ABCDEFGHIJKLMNOPQRSTUVWXYZÀÁÂÃÄÅÆÇÈÉÊËÌÍÎÏÐÑÒÓÔÕÖØÙÚÛÜÝÞ"

/-- The small letters of Latin-1 that have a capital letter, in the same order. -/
def smalls : Str := str! "abcdefghijklmnopqrstuvwxyzàáâãäåæçèéêëìíîïðñòóôõöøùúûüýþ"

/-- The small letter of a capital letter; other characters stay. -/
def lower (c : Char) : Char := ((capitals.zip smalls).lookup c).getD c

/-- One directory entry. -/
structure EntryRec where
  offset : Nat
  dsize : Nat
  size : Nat
  kind : UInt8
  cmprs : UInt8
  pad : Nat
  field : Bytes
deriving DecidableEq

/-- The numbers fit into their fields. -/
structure EntryRec.Fits (e : EntryRec) : Prop where
  offset : e.offset < 2 ^ 32
  dsize : e.dsize < 2 ^ 32
  size : e.size < 2 ^ 32
  pad : e.pad < 2 ^ 16
  field : e.field.length = 16

/-- The 32 bytes of a directory entry. -/
def EntryRec.bytes (e : EntryRec) : Bytes :=
  le4 e.offset ++ (le4 e.dsize ++ (le4 e.size ++ ([e.kind] ++ ([e.cmprs] ++ (le2 e.pad ++ e.field)))))

/-- Magic bytes `WAD2` and `WAD3`. -/
def magicOf : Wad.WadType → Bytes
  | .wad2 => [87, 65, 68, 50]
  | .wad3 => [87, 65, 68, 51]

/-- The first 12 bytes. -/
def HasHeader (file : Bytes) (wt : Wad.WadType) (num dirOffset : Nat) : Prop :=
  num < 2 ^ 32 ∧ dirOffset < 2 ^ 32 ∧ Has file 0 (magicOf wt ++ (le4 num ++ le4 dirOffset))

/-- Entry number `i` of the directory. -/
def HasEntry (checks : Bool) (file : Bytes) (dirOffset i : Nat) (e : EntryRec) : Prop :=
  e.Fits ∧ ∃ a, Computes checks (dirOffset + 32 * i) a ∧ Has file a e.bytes

/-- The directory of the file, all entries in order. -/
def HasDirectory (checks : Bool) (file : Bytes) (dirOffset : Nat) (es : List EntryRec) : Prop :=
  ∀ i e, es[i]? = some e → HasEntry checks file dirOffset i e

/-- A texture entry (type `C` or `D`) whose directory name is wanted. -/
def Wanted (whitelist : Option (List Str)) (e : EntryRec) : Prop :=
  (e.kind = 67 ∨ e.kind = 68) ∧ ∀ w, whitelist = some w → ∃ name ∈ w, NameIn e.field name

/-- `ws` are the wanted ones among `es`, in the same order and as often. -/
inductive Selection (whitelist : Option (List Str)) : List EntryRec → List EntryRec → Prop where
  | nil : Selection whitelist [] []
  | take {e es ws} : Wanted whitelist e → Selection whitelist es ws → Selection whitelist (e :: es) (e :: ws)
  | skip {e es ws} : ¬ Wanted whitelist e → Selection whitelist es ws → Selection whitelist (e :: es) ws

/-- The 40 bytes of a texture header with this name field. -/
def headerBytesOf (field : Bytes) (m : Wad.MipTexture) : Bytes :=
  field ++ (le4 m.width ++ (le4 m.height ++ (le4 m.offset1 ++ (le4 m.offset2 ++ (le4 m.offset4 ++
    le4 m.offset8)))))

/-- The numbers fit. -/
structure TexFits (m : Wad.MipTexture) : Prop where
  width : m.width < 2 ^ 32
  height : m.height < 2 ^ 32
  offset1 : m.offset1 < 2 ^ 32
  offset2 : m.offset2 < 2 ^ 32
  offset4 : m.offset4 < 2 ^ 32
  offset8 : m.offset8 < 2 ^ 32

/-- The file has this texture header where the entry says; the name is lower-cased. -/
def HasTexHeader (file : Bytes) (e : EntryRec) (m : Wad.MipTexture) : Prop :=
  TexFits m ∧ ∃ field name, field.length = 16 ∧ NameIn field name ∧ m.name = name.map lower ∧
    Has file e.offset (headerBytesOf field m)

/-- The file has these pixels of the largest level of the texture. -/
def HasPixels (checks : Bool) (file : Bytes) (e : EntryRec) (m : Wad.MipTexture) (pixels : Bytes) : Prop :=
  Computes checks (m.width * m.height) pixels.length ∧
  ∃ a, Computes checks (e.offset + m.offset1) a ∧ Has file a pixels

/-- Bytes of a palette. -/
def paletteBytes (p : Wad.Palette) : Bytes := p.flatMap fun c => [c.r, c.g, c.b]

/-- The file has this palette: 768 bytes, two bytes after the smallest level, which has `n / 64` pixels. -/
def HasPalette (checks : Bool) (file : Bytes) (e : EntryRec) (m : Wad.MipTexture) (n : Nat)
    (p : Wad.Palette) : Prop :=
  p.length = 256 ∧
  ∃ a, Computes checks (e.offset + m.offset8 + n / 64 + 2) a ∧ Has file a (paletteBytes p)

/-- The texture stored for the entry, with one mip level. -/
def TextureAt (checks : Bool) (file : Bytes) (wt : Wad.WadType) (e : EntryRec) (t : Wad.TextureIndexed) :
    Prop :=
  HasTexHeader file e t.mipTexture ∧
  ∃ pixels, HasPixels checks file e t.mipTexture pixels ∧ t.mipData = ⟨pixels, none, none, none⟩ ∧
    (wt = .wad2 → t.palette = none) ∧
    (wt = .wad3 → ∃ p, t.palette = some p ∧ HasPalette checks file e t.mipTexture pixels.length p)

/-- The file is a WAD file whose wanted textures are these, in directory order. -/
def ReadsAs (checks : Bool) (file : Bytes) (whitelist : Option (List Str)) (ts : List Wad.TextureIndexed) :
    Prop :=
  ∃ wt dirOffset es wanted, HasHeader file wt es.length dirOffset ∧
    HasDirectory checks file dirOffset es ∧ Selection whitelist es wanted ∧
    List.Forall₂ (TextureAt checks file wt) wanted ts

/-- A schedule that runs every one of the `n` tasks, in any order. -/
def Complete (n : Nat) (sched : List Nat) : Prop := ∀ i < n, i ∈ sched

/-- None of the computations for this texture overflows. -/
def NoOverflow (e : EntryRec) (m : Wad.MipTexture) : Prop :=
  e.offset + m.offset1 < 2 ^ 32 ∧ m.width * m.height < 2 ^ 32 ∧
  e.offset + m.offset8 + m.width * m.height / 64 + 2 < 2 ^ 32

/-- A level is looked up in the palette pixel by pixel. -/
def LooksUp (p : Wad.Palette) (level : Wad.MipLevel) (colours : List Wad.RGB) : Prop :=
  List.Forall₂ (fun i c => p[i.toNat]? = some c) level colours

/-- The same for an optional level. -/
def LooksUpOpt (p : Wad.Palette) : Option Wad.MipLevel → Option (List Wad.RGB) → Prop
  | some l, some c => LooksUp p l c
  | none, none => True
  | _, _ => False

/-! ### writing WAD files -/

/-- A texture to be stored, with its place in the directory. -/
structure Lump where
  /-- unused bytes before the texture -/
  gap : Bytes
  field : Bytes
  width : Nat
  height : Nat
  pixels : Bytes
  mip1 : Bytes
  mip2 : Bytes
  mip3 : Bytes
  palette : Wad.Palette
  /-- directory entry -/
  dsize : Nat
  size : Nat
  kind : UInt8
  cmprs : UInt8
  pad : Nat
  dirField : Bytes

structure Lump.Good (l : Lump) : Prop where
  field : l.field.length = 16
  pixels : l.pixels.length = l.width * l.height
  mip1 : l.mip1.length = l.width * l.height / 4
  mip2 : l.mip2.length = l.width * l.height / 4 / 4
  mip3 : l.mip3.length = l.width * l.height / 4 / 4 / 4
  palette : l.palette.length = 256
  width : l.width < 2 ^ 32
  height : l.height < 2 ^ 32
  dsize : l.dsize < 2 ^ 32
  size : l.size < 2 ^ 32
  kind : l.kind = 67 ∨ l.kind = 68
  pad : l.pad < 2 ^ 16
  dirField : l.dirField.length = 16

/-- The four levels follow the 40 bytes of the header. -/
def Lump.header (l : Lump) (name : Str) : Wad.MipTexture :=
  ⟨name, l.width, l.height, 40, 40 + l.pixels.length, 40 + l.pixels.length + l.mip1.length,
    40 + l.pixels.length + l.mip1.length + l.mip2.length⟩

/-- Header, levels and, in WAD3, the palette after its length. -/
def Lump.bytes (wt : Wad.WadType) (l : Lump) : Bytes :=
  headerBytesOf l.field (l.header []) ++ (l.pixels ++ (l.mip1 ++ (l.mip2 ++ (l.mip3 ++
    match wt with
    | .wad2 => []
    | .wad3 => le2 256 ++ paletteBytes l.palette))))

/-- All lumps with the gaps before them. -/
def lumpData (wt : Wad.WadType) : List Lump → Bytes
  | [] => []
  | l :: ls => l.gap ++ (l.bytes wt ++ lumpData wt ls)

/-- The directory of lumps stored from position `off` on. -/
def lumpEntries (wt : Wad.WadType) : Nat → List Lump → List EntryRec
  | _, [] => []
  | off, l :: ls =>
    ⟨off + l.gap.length, l.dsize, l.size, l.kind, l.cmprs, l.pad, l.dirField⟩ ::
      lumpEntries wt (off + l.gap.length + (l.bytes wt).length) ls

/-- A WAD file: header, lumps, a gap, the directory, and anything after it. -/
def writeWad (wt : Wad.WadType) (ls : List Lump) (gap trailer : Bytes) : Bytes :=
  magicOf wt ++ (le4 ls.length ++ (le4 (12 + (lumpData wt ls).length + gap.length) ++ (lumpData wt ls ++
    (gap ++ ((lumpEntries wt 12 ls).flatMap EntryRec.bytes ++ trailer)))))

/-- What is read back for a lump. -/
def Lump.ReadBack (wt : Wad.WadType) (l : Lump) (t : Wad.TextureIndexed) : Prop :=
  (∃ name, NameIn l.field name ∧ t.mipTexture = l.header (name.map lower)) ∧
  t.mipData = ⟨l.pixels, none, none, none⟩ ∧
  t.palette = match wt with
    | .wad2 => none
    | .wad3 => some l.palette

end Quarch.Spec
