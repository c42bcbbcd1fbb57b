import Verif.Model.Lib
/-
Files: `std::fs::read_to_string` and `std::fs::write` as used in /repo/src/lib.rs and
/repo/src/game_data/forge/game_data.rs. A file is its bytes, `none` if it cannot be opened or read.
-/
namespace Quarch

/-- Is `b` a continuation byte (`10xxxxxx`)? -/
def isCont (b : UInt8) : Bool := 0x80 ≤ b.toNat && b.toNat ≤ 0xBF

/-- Low six bits. -/
def low6 (b : UInt8) : Nat := b.toNat % 64

/-- First character of UTF-8 bytes: the checks of `core::str::from_utf8` (Rust 1.4x, `run_utf8_validation`: byte
ranges of the Unicode standard, table 3-7), and the code point of `next_code_point`. -/
def utf8First : List UInt8 → Option (Char × List UInt8)
  | [] => none
  | a :: rest =>
    if a.toNat < 0x80 then some (Char.ofNat a.toNat, rest)
    else if 0xC2 ≤ a.toNat && a.toNat ≤ 0xDF then
      match rest with
      | b :: rest => if isCont b then some (Char.ofNat ((a.toNat % 32) * 64 + low6 b), rest) else none
      | _ => none
    else if 0xE0 ≤ a.toNat && a.toNat ≤ 0xEF then
      match rest with
      | b :: c :: rest =>
        if isCont b && isCont c && (a.toNat != 0xE0 || 0xA0 ≤ b.toNat) && (a.toNat != 0xED || b.toNat ≤ 0x9F) then
          some (Char.ofNat ((a.toNat % 16) * 4096 + low6 b * 64 + low6 c), rest)
        else none
      | _ => none
    else if 0xF0 ≤ a.toNat && a.toNat ≤ 0xF4 then
      match rest with
      | b :: c :: d :: rest =>
        if isCont b && isCont c && isCont d && (a.toNat != 0xF0 || 0x90 ≤ b.toNat) &&
            (a.toNat != 0xF4 || b.toNat ≤ 0x8F) then
          some (Char.ofNat ((a.toNat % 8) * 262144 + low6 b * 4096 + low6 c * 64 + low6 d), rest)
        else none
      | _ => none
    else none

/-- The rest is shorter. -/
theorem utf8First_shorter {bytes : List UInt8} {c : Char} {rest : List UInt8}
    (h : utf8First bytes = some (c, rest)) : rest.length < bytes.length := by
  unfold utf8First at h
  split at h
  · cases h
  · split at h
    · cases h; simp
    · split at h
      · split at h
        · split at h <;> cases h; simp; omega
        · cases h
      · split at h
        · split at h
          · split at h <;> cases h; simp; omega
          · cases h
        · split at h
          · split at h
            · split at h <;> cases h; simp; omega
            · cases h
          · cases h

/-- `String::from_utf8`: the characters, `none` if the bytes are not UTF-8. -/
def utf8Decode (bytes : List UInt8) : Option Str :=
  match bytes with
  | [] => some []
  | a :: l =>
    match h : utf8First (a :: l) with
    | none => none
    | some (c, rest) => (utf8Decode rest).map (c :: ·)
termination_by bytes.length
decreasing_by exact utf8First_shorter h

/-- The bytes of a character of a Rust string (`char::encode_utf8`). -/
def utf8Char (c : Char) : List UInt8 :=
  let n := c.toNat
  if n < 0x80 then [UInt8.ofNat n]
  else if n < 0x800 then [UInt8.ofNat (0xC0 + n / 64), UInt8.ofNat (0x80 + n % 64)]
  else if n < 0x10000 then
    [UInt8.ofNat (0xE0 + n / 4096), UInt8.ofNat (0x80 + n / 64 % 64), UInt8.ofNat (0x80 + n % 64)]
  else
    [UInt8.ofNat (0xF0 + n / 262144), UInt8.ofNat (0x80 + n / 4096 % 64), UInt8.ofNat (0x80 + n / 64 % 64),
     UInt8.ofNat (0x80 + n % 64)]

/-- The bytes of a Rust string. -/
def utf8Bytes (s : Str) : List UInt8 := s.flatMap utf8Char

/-- `std::fs::read_to_string`: an unreadable file and bytes that are not UTF-8 are errors. -/
def readToString (file : Option (List UInt8)) : Option Str := file.bind utf8Decode

section
variable {F : Type} [Arith F] [Platform]

/-- `run`, `/repo/src/lib.rs:55-86`, with the map file given as bytes (line 60). The other fields of the
configuration are as in `Config`. -/
def runFile (depth : Nat) (order : List (Str × List (BrushGeo F)) → List (Str × List (BrushGeo F)))
    (file : Option (List UInt8)) (config : Config F) : Outcome (List (Node F)) :=
  run depth order { config with mapFile := readToString file }

/-- `run_diff`, `/repo/src/lib.rs:88-99`, with the files given as bytes. -/
def runDiffFiles (fileA fileB : Option (List UInt8)) : Outcome (Tokenizer.Diff Token) :=
  runDiff (readToString fileA) (readToString fileB)

/-- `GameData::save`, `/repo/src/game_data/forge/game_data.rs:19-22`: the contents of the file afterwards.
`writable`: does `std::fs::write` succeed? -/
def Forge.GameData.save (checks writable : Bool) (g : Forge.GameData F) : Outcome (List UInt8) :=
  (g.toStr checks).bind fun s => if writable then .ok (utf8Bytes s) else .err .io
end

end Quarch
