import Verif.Model.Rust
/-
/repo/src/wad/**
-/
namespace Quarch
namespace Wad

abbrev Bytes := List UInt8

/-! ### nom parsers. A nom parser is a function from the input to the remaining input and the value, or
failure. -/

/-- `nom::IResult<&[u8], α>` (the error payload is not modelled). -/
abbrev Parser (α : Type) := Bytes → Option (Bytes × α)

/-- `nom::number::complete::le_u8`. -/
def leU8 : Parser UInt8
  | [] => none
  | b :: rest => some (rest, b)

/-- `nom::number::complete::le_u16`. -/
def leU16 : Parser Nat
  | b0 :: b1 :: rest => some (rest, b0.toNat + 256 * b1.toNat)
  | _ => none

/-- `nom::number::complete::le_u32`. -/
def leU32 : Parser Nat
  | b0 :: b1 :: b2 :: b3 :: rest =>
    some (rest, b0.toNat + 256 * b1.toNat + 65536 * b2.toNat + 16777216 * b3.toNat)
  | _ => none

/-- `u8 as char`: the Latin-1 character with that code. -/
def latin1 (b : UInt8) : Char := Char.ofNat b.toNat

/-- `nom::character::complete::anychar` on bytes: `AsChar for u8` is `u8 as char`. -/
def anychar : Parser Char
  | [] => none
  | b :: rest => some (rest, latin1 b)

/-- `nom::multi::count`. -/
def count {α : Type} (p : Parser α) : Nat → Parser (List α)
  | 0, i => some (i, [])
  | n + 1, i => match p i with
    | some (i, a) => match count p n i with
      | some (i, as) => some (i, a :: as)
      | none => none
    | none => none

/-- Sequencing in `nom::sequence::tuple`. -/
def andThen {α β : Type} (p : Parser α) (f : α → Parser β) : Parser β := fun i =>
  match p i with
  | some (i, a) => f a i
  | none => none

/-! ### records -/

/-- `Color`, `/repo/src/wad/color.rs:4-5`. -/
structure RGB where
  r : UInt8
  g : UInt8
  b : UInt8
deriving DecidableEq, Repr

/-- `color::parser`, `/repo/src/wad/color.rs:7-10`. -/
def colorParser : Parser RGB :=
  andThen leU8 fun r => andThen leU8 fun g => andThen leU8 fun b => fun i => some (i, ⟨r, g, b⟩)

/-- `Palette`, `/repo/src/wad/palette.rs:5-6`: an array of 256 colours. -/
abbrev Palette := List RGB

/-- `palette::parser`, `/repo/src/wad/palette.rs:8-13`. (`copy_from_slice` panics unless the lengths
agree; `count` returned exactly 256 elements.) -/
def paletteParser : Parser Palette := count colorParser 256

/-- `read_palette`, `/repo/src/wad/palette.rs:15-27`. `none` stands for an unreadable file. -/
def readPalette (file : Option Bytes) : Outcome Palette :=
  match file with
  | none => .err (.wad .loadPaletteFile)
  | some buf => match paletteParser buf with
    | some (_, p) => .ok p
    | none => .err (.wad .parsePaletteFile)

/-- `Header`, `/repo/src/wad/header.rs:3-8`. -/
structure Header where
  magic : List Char
  numEntries : Nat
  dirOffset : Nat
deriving DecidableEq, Repr

/-- `header::parser`, `/repo/src/wad/header.rs:20-40`. -/
def headerParser : Parser Header :=
  andThen (count anychar 4) fun magic => andThen leU32 fun numEntries => andThen leU32 fun dirOffset =>
  fun i => some (i, ⟨magic, numEntries, dirOffset⟩)

/-- `Entry`, `/repo/src/wad/entry.rs:7-15`. -/
structure Entry where
  offset : Nat
  dsize : Nat
  size : Nat
  entryType : Char
  cmprs : UInt8
  name : Str
deriving DecidableEq, Repr

/-- `take_while(|c| *c != char::from(0)).collect()`, `entry.rs:43-46`, `mip_texture.rs:27-30`. -/
def cName (cs : List Char) : Str := cs.takeWhile fun c => c != Char.ofNat 0

/-- `entry::parser`, `/repo/src/wad/entry.rs:30-59`. -/
def entryParser : Parser Entry :=
  andThen leU32 fun offset => andThen leU32 fun dsize => andThen leU32 fun size =>
  andThen anychar fun entryType => andThen leU8 fun cmprs => andThen leU16 fun _ =>
  andThen (count anychar 16) fun name =>
  fun i => some (i, ⟨offset, dsize, size, entryType, cmprs, cName name⟩)

/-- `MipTexture`, `/repo/src/wad/mip_texture.rs:3-12`. -/
structure MipTexture where
  name : Str
  width : Nat
  height : Nat
  offset1 : Nat
  offset2 : Nat
  offset4 : Nat
  offset8 : Nat
deriving DecidableEq, Repr

/-- `char::to_lowercase` on Latin-1 characters (all that `anychar` yields): `A..Z` and `À..Þ` except `×`
move by 32. -/
def lowerLatin1 (c : Char) : Char :=
  let n := c.toNat
  if (65 ≤ n ∧ n ≤ 90) ∨ (192 ≤ n ∧ n ≤ 222 ∧ n ≠ 215) then Char.ofNat (n + 32) else c

/-- `mip_texture::parser`, `/repo/src/wad/mip_texture.rs:14-46`. -/
def mipTextureParser : Parser MipTexture :=
  andThen (count anychar 16) fun name => andThen leU32 fun width => andThen leU32 fun height =>
  andThen leU32 fun offset1 => andThen leU32 fun offset2 => andThen leU32 fun offset4 =>
  andThen leU32 fun offset8 =>
  fun i => some (i, ⟨(cName name).map lowerLatin1, width, height, offset1, offset2, offset4, offset8⟩)

/-- `MipLevel`, `/repo/src/wad/mip_level.rs:3-4`. -/
abbrev MipLevel := List UInt8

/-- `mip_level::parser`, `/repo/src/wad/mip_level.rs:12-17`. -/
def mipLevelParser (textureSize : Nat) : Parser MipLevel := count leU8 textureSize

/-- `MipDataIndexed`, `/repo/src/wad/mip_data.rs:6-12`. -/
structure MipDataIndexed where
  mip0 : MipLevel
  mip1 : Option MipLevel
  mip2 : Option MipLevel
  mip3 : Option MipLevel
deriving DecidableEq, Repr

/-- `MipDataRGB`, `/repo/src/wad/mip_data.rs:20-26`. -/
structure MipDataRGB where
  mip0 : List RGB
  mip1 : Option (List RGB)
  mip2 : Option (List RGB)
  mip3 : Option (List RGB)
deriving DecidableEq, Repr

/-- The closure `to_color`, `/repo/src/wad/mip_data.rs:30`: indexing outside the palette panics. -/
def toColor (palette : Palette) (level : MipLevel) : Outcome (List RGB) :=
  mapOut (fun idx => match palette[idx.toNat]? with
    | some c => .ok c
    | none => .panic "index out of bounds") level

/-- `Option::map(to_color)`. -/
def toColorOpt (palette : Palette) : Option MipLevel → Outcome (Option (List RGB))
  | some l => (toColor palette l).bind fun x => .ok (some x)
  | none => .ok none

/-- `MipDataRGB::from_indexed`, `/repo/src/wad/mip_data.rs:28-43`. -/
def fromIndexed (d : MipDataIndexed) (palette : Palette) : Outcome MipDataRGB :=
  (toColor palette d.mip0).bind fun mip0 =>
  (toColorOpt palette d.mip1).bind fun mip1 =>
  (toColorOpt palette d.mip2).bind fun mip2 =>
  (toColorOpt palette d.mip3).bind fun mip3 =>
  .ok ⟨mip0, mip1, mip2, mip3⟩

/-- `TextureIndexed`, `/repo/src/wad/mod.rs:35-39`. -/
structure TextureIndexed where
  mipTexture : MipTexture
  mipData : MipDataIndexed
  palette : Option Palette
deriving DecidableEq, Repr

/-- `TextureRGB`, `/repo/src/wad/mod.rs:72-75`. -/
structure TextureRGB where
  mipTexture : MipTexture
  mipData : MipDataRGB
deriving DecidableEq, Repr

/-- `TextureIndexed::into_rgb`, `/repo/src/wad/mod.rs:54-69, 78-86`. -/
def intoRgb (t : TextureIndexed) (palette : Option Palette) : Outcome TextureRGB :=
  match t.palette with
  | some p => (fromIndexed t.mipData p).bind fun d => .ok ⟨t.mipTexture, d⟩
  | none => match palette with
    | some p => (fromIndexed t.mipData p).bind fun d => .ok ⟨t.mipTexture, d⟩
    | none => .err (.wad .noPalette)

/-! ### reading files -/

/-- `seek(SeekFrom::Start(off))` then `read_exact` into a buffer of `len` bytes: seeking beyond the end is
allowed, reading beyond it fails, an empty read always succeeds. -/
def readExact (file : Bytes) (off len : Nat) : Option Bytes :=
  if len = 0 then some []
  else if off + len ≤ file.length then some ((file.drop off).take len) else none

/-- `HEADER_BYTES`, `ENTRY_BYTES`, `MIPTEX_BYTES`, `/repo/src/wad/mod.rs:25-27`. -/
def headerBytes : Nat := 12
def entryBytes : Nat := 32
def miptexBytes : Nat := 40

/-- `WadType`, `/repo/src/wad/mod.rs:29-33`. -/
inductive WadType where
  | wad2
  | wad3
deriving DecidableEq, Repr

/-- `read_header`, `/repo/src/wad/mod.rs:135-145`. -/
def readHeader (file : Bytes) : Outcome Header :=
  match readExact file 0 headerBytes with
  | none => .err (.wad .readHeader)
  | some buf => match headerParser buf with
    | some (_, h) => .ok h
    | none => .err (.wad .parseHeader)

/-- The whitelist test, `/repo/src/wad/mod.rs:175-178`. -/
def whitelisted (whitelist : Option (List Str)) (name : Str) : Bool :=
  match whitelist with
  | none => true
  | some w => w.any fun t => t == name

/-- The closure of `read_directory`, `/repo/src/wad/mod.rs:153-183`. -/
def readEntry (checks : Bool) (file : Bytes) (h : Header) (whitelist : Option (List Str)) (i : Nat) :
    Outcome (Option Entry) :=
  (mulU32 checks i entryBytes).bind fun k =>
  (addU32 checks h.dirOffset k).bind fun offset =>
  match readExact file offset entryBytes with
  | none => .err (.wad (.readEntry i))
  | some buf => match entryParser buf with
    | none => .err (.wad .parseEntry)
    | some (_, entry) =>
      if entry.entryType = 'C' ∨ entry.entryType = 'D' then
        if whitelisted whitelist entry.name then .ok (some entry) else .ok none
      else .ok none

/-- `read_directory`, `/repo/src/wad/mod.rs:147-202`: all entries are visited before an error is
returned. -/
def readDirectory (checks : Bool) (file : Bytes) (h : Header) (whitelist : Option (List Str)) :
    Outcome (List Entry) :=
  (collectResults ((List.range h.numEntries).map (readEntry checks file h whitelist))).bind fun es =>
  .ok (es.filterMap id)

/-- The closure of `read_mip_textures`, `/repo/src/wad/mod.rs:207-223`. -/
def readMipTexture (file : Bytes) (entry : Entry) : Outcome MipTexture :=
  match readExact file entry.offset miptexBytes with
  | none => .err (.wad .readMiptex)
  | some buf => match mipTextureParser buf with
    | none => .err (.wad .parseMiptex)
    | some (_, m) => .ok m

/-- `read_mip_textures`, `/repo/src/wad/mod.rs:204-242`. -/
def readMipTextures (file : Bytes) (directory : List Entry) : Outcome (List MipTexture) :=
  collectResults (directory.map (readMipTexture file))

/-- `&buf[a..b]`: panics if `a > b` or `b > buf.len()`. -/
def slice (buf : Bytes) (a b : Nat) : Outcome Bytes :=
  if a ≤ b ∧ b ≤ buf.length then .ok ((buf.drop a).take (b - a))
  else .panic "slice index out of range"

/-- One of the optional mip levels, `/repo/src/wad/mod.rs:295-326`: the range `start..stop` of the buffer,
parsed as `stop` bytes. -/
def readLevel (buf : Bytes) (wanted : Bool) (level start stop : Nat) : Outcome (Option MipLevel) :=
  if wanted then
    (slice buf start stop).bind fun b =>
    match mipLevelParser stop b with
    | some (_, m) => .ok (some m)
    | none => .err (.wad (.parseMip level))
  else .ok none

/-- The palette of a WAD3 texture, `/repo/src/wad/mod.rs:335-360`. -/
def readTexturePalette (checks : Bool) (file : Bytes) (wadType : WadType) (entry : Entry)
    (miptex : MipTexture) (size3 : Nat) : Outcome (Option Palette) :=
  match wadType with
  | .wad2 => .ok none
  | .wad3 =>
    (addU32 checks entry.offset miptex.offset8).bind fun a =>
    (addU32 checks a (size3 % 2 ^ 32)).bind fun b =>
    (addU32 checks b 2).bind fun off =>
    match readExact file off (256 * 3) with
    | none => .err (.wad .readPalette)
    | some buf => match paletteParser buf with
      | some (_, p) => .ok (some p)
      | none => .err (.wad .parsePalette)

/-- The closure of `read_mip_data`, `/repo/src/wad/mod.rs:256-363`. The file is opened again for every
texture; it is assumed unchanged and openable, as it was opened before. -/
def readMipDatum (checks : Bool) (file : Bytes) (wadType : WadType) (mipLevels : Nat)
    (em : Entry × MipTexture) : Outcome (MipDataIndexed × Option Palette) :=
  let entry := em.1
  let miptex := em.2
  (addU32 checks entry.offset miptex.offset1).bind fun off =>
  (mulU32 checks miptex.width miptex.height).bind fun size0 =>
  let size1 := size0 / 4
  let size2 := size1 / 4
  let size3 := size2 / 4
  let total := ([size0, size1, size2, size3].take mipLevels).sum
  match readExact file off total with
  | none => .err (.wad (.readMipdata miptex.name))
  | some buf =>
    (slice buf 0 size0).bind fun b0 =>
    match mipLevelParser size0 b0 with
    | none => .err (.wad (.parseMip 0))
    | some (_, mip0) =>
      (readLevel buf (mipLevels > 1) 1 size0 size1).bind fun mip1 =>
      (readLevel buf (mipLevels > 2) 2 (size0 + size1) size2).bind fun mip2 =>
      (readLevel buf (mipLevels > 3) 3 (size0 + size1 + size2) size3).bind fun mip3 =>
      (readTexturePalette checks file wadType entry miptex size3).bind fun palette =>
      .ok (⟨mip0, mip1, mip2, mip3⟩, palette)

/-- Indexed parallel collect (`rayon`): the tasks run in the order `sched` (any order in which their
effects become visible), each filling its own slot. -/
def runTasks {α β : Type} (f : α → β) (xs : List α) (sched : List Nat) : List (Option β) :=
  sched.foldl (fun slots i => match xs[i]? with
    | some x => slots.set i (some (f x))
    | none => slots) (List.replicate xs.length none)

/-- `read_mip_data`, `/repo/src/wad/mod.rs:244-382`: `par_iter().zip(..).map(..).collect()` and then the
search for an error. `sched` is the order in which the workers execute the tasks. -/
def readMipData (checks : Bool) (file : Bytes) (wadType : WadType) (directory : List Entry)
    (mipTextures : List MipTexture) (mipLevels : Nat) (sched : List Nat) :
    Outcome (List (MipDataIndexed × Option Palette)) :=
  let slots := runTasks (readMipDatum checks file wadType mipLevels) (directory.zip mipTextures) sched
  collectResults (slots.filterMap id)

/-- `match header.magic`, `/repo/src/wad/mod.rs:105-109`. -/
def wadTypeOf (magic : List Char) : Outcome WadType :=
  if magic = ['W', 'A', 'D', '2'] then .ok .wad2
  else if magic = ['W', 'A', 'D', '3'] then .ok .wad3
  else .panic "Unexpected WAD magic"

/-- `read_textures`, `/repo/src/wad/mod.rs:89-133`. `none` stands for a file that cannot be opened;
`checks` tells whether overflow checks are compiled in; `sched` is the schedule of the parallel part. -/
def readTextures (checks : Bool) (file : Option Bytes) (whitelist : Option (List Str)) (mipLevels : Nat)
    (sched : Nat → List Nat) : Outcome (List TextureIndexed) :=
  if ¬ (1 ≤ mipLevels ∧ mipLevels ≤ 4) then .panic "assertion failed"
  else match file with
  | none => .err (.wad .openWad)
  | some file =>
    (readHeader file).bind fun h =>
    (wadTypeOf h.magic).bind fun wadType =>
    (readDirectory checks file h whitelist).bind fun directory =>
    (readMipTextures file directory).bind fun mipTextures =>
    (readMipData checks file wadType directory mipTextures mipLevels (sched directory.length)).bind
      fun mipData =>
    .ok ((mipTextures.zip mipData).map fun (m, d) => ⟨m, d.1, d.2⟩)

end Wad
end Quarch
