import Verif.Model.Log
import Verif.Spec.Wad
import Verif.Spec.Output
import Verif.Spec.Number
/-
The lines written by the WAD reader, in terms of the bytes of the file.
-/
namespace Quarch.Spec
open Output

/-- Written about a step that took some time. -/
def Took (what : Str) (line : LogLine) : Prop :=
  ∃ millis n, DecVal millis n ∧ line = .out (str! "Read " ++ what ++ str! " took " ++ millis)

/-- Written about a texture entry of the directory. -/
def EntryTold (e : EntryRec) (line : LogLine) : Prop :=
  ∃ offset dsize size kind cmprs name q, DecVal offset e.offset ∧ DecVal dsize e.dsize ∧ DecVal size e.size ∧
    (e.kind = 67 ∧ Piece 'C' kind ∨ e.kind = 68 ∧ Piece 'D' kind) ∧ DecVal cmprs e.cmprs.toNat ∧
    NameIn e.field name ∧ Quoted name q ∧
    line = .out (str! "Reading mipdata for entry: Entry { offset: " ++ offset ++ str! ", dsize: " ++ dsize ++
      str! ", size: " ++ size ++ str! ", entry_type: '" ++ kind ++ str! "', cmprs: " ++ cmprs ++ str! ", name: " ++ q ++
      str! " }")

end Quarch.Spec
