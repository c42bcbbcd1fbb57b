import Verif.Props.Face
import Verif.Props.Tokenizer
import Verif.Model.Lib
/-
C12 for whole loads: the letter case of textures in a map file does not matter.
-/
set_option linter.unusedSectionVars false

namespace Quarch
open Spec

/-- The same line, or two face lines that differ in the letter case of the texture and in spaces only. -/
def SameLine [Platform] (line line' : Str) : Prop :=
  line = line' ∨ (line.head? = some '(' ∧ line'.head? = some '(' ∧ SameFace line line')

section
variable {F : Type} [Arith F] [Platform]

theorem tokenOf_face {line : Str} (h : line.head? = some '(') : Tokenizer.tokenOf line = .ok (.brushPlane line) := by
  cases line with
  | nil => simp at h
  | cons c l =>
    simp only [List.head?_cons, Option.some.injEq] at h
    subst h
    rfl

theorem tokens_case {ls ls' : List Str} (h : List.Forall₂ SameLine ls ls') :
    (∃ ts ts', mapOut Tokenizer.tokenOf ls = .ok ts ∧ mapOut Tokenizer.tokenOf ls' = .ok ts' ∧
      List.Forall₂ SameToken ts ts') ∨
    ∀ ts, mapOut Tokenizer.tokenOf ls ≠ .ok ts ∧ mapOut Tokenizer.tokenOf ls = mapOut Tokenizer.tokenOf ls' := by
  induction h with
  | nil => exact .inl ⟨[], [], rfl, rfl, .nil⟩
  | @cons a b l l' hab _ ih =>
    have hh : (∃ t t', Tokenizer.tokenOf a = .ok t ∧ Tokenizer.tokenOf b = .ok t' ∧ SameToken t t') ∨
        ∀ t, Tokenizer.tokenOf a ≠ .ok t ∧ Tokenizer.tokenOf a = Tokenizer.tokenOf b := by
      rcases hab with rfl | ⟨h1, h2, h3⟩
      · cases ha : Tokenizer.tokenOf a with
        | ok t => exact .inl ⟨t, t, rfl, rfl, .same t⟩
        | _ => exact .inr fun t => ⟨by simp, rfl⟩
      · exact .inl ⟨_, _, tokenOf_face h1, tokenOf_face h2, .face h3⟩
    rw [mapOut_cons, mapOut_cons]
    rcases hh with ⟨t, t', e1, e2, e3⟩ | hn
    · rw [e1, e2, Outcome.ok_bind, Outcome.ok_bind]
      rcases ih with ⟨ts, ts', i1, i2, i3⟩ | ih
      · rw [i1, i2]; exact .inl ⟨_, _, rfl, rfl, .cons e3 i3⟩
      · refine .inr fun ts => ?_
        have e := (ih ts).2
        rw [← e]
        cases h : mapOut Tokenizer.tokenOf l with
        | ok x => exact absurd h (ih x).1
        | err x => exact ⟨by simp [Outcome.bind], rfl⟩
        | panic x => exact ⟨by simp [Outcome.bind], rfl⟩
        | overflow => exact ⟨by simp [Outcome.bind], rfl⟩
    · refine .inr fun ts => ?_
      cases h : Tokenizer.tokenOf a with
      | ok x => exact absurd h (hn x).1
      | err x => rw [← (hn (.comment [])).2, h]; exact ⟨by simp [Outcome.bind], rfl⟩
      | panic x => rw [← (hn (.comment [])).2, h]; exact ⟨by simp [Outcome.bind], rfl⟩
      | overflow => rw [← (hn (.comment [])).2, h]; exact ⟨by simp [Outcome.bind], rfl⟩

/-- C12 for whole loads: two map files whose lines are the same except for the letter case of the textures of faces (and
the space between the words of face lines) load alike: they give the same nodes, return the same error or abort alike. -/
theorem C12_loads_case_insensitive (depth : Nat)
    (order : List (Str × List (BrushGeo F)) → List (Str × List (BrushGeo F))) (config : Config F)
    (ls ls' : List Line) (final final' : Str) (hw : ∀ l ∈ ls, l.WF) (hw' : ∀ l ∈ ls', l.WF) (hf : '\n' ∉ final)
    (hf' : '\n' ∉ final')
    (h : List.Forall₂ SameLine (contents Platform.bareCR ls final) (contents Platform.bareCR ls' final')) :
    Quarch.run depth order { config with mapFile := some (textOf ls final) } =
      Quarch.run depth order { config with mapFile := some (textOf ls' final') } := by
  unfold Quarch.run Tokenizer.run
  simp only [lines_textOf hw hf, lines_textOf hw' hf']
  rcases tokens_case h with ⟨ts, ts', h1, h2, h3⟩ | hn
  · rw [h1, h2, Outcome.ok_bind, Outcome.ok_bind]
    have hp := C12_maps_case_insensitive (F := F) ts ts' h3
    cases h4 : Parser.run (F := F) ts <;> cases h5 : Parser.run (F := F) ts' <;>
      simp only [h4, h5, Outcome.bind, Outcome.ok.injEq, Outcome.err.injEq, Outcome.panic.injEq, reduceCtorEq] at hp
    · simp only [Outcome.bind, hp]
    · simp only [Outcome.bind, hp]
    · simp only [Outcome.bind, hp]
    · rfl
  · rw [(hn []).2]

end

section Examples
attribute [local instance] refPlatform intArith

-- C12: a whole file
example : List.Forall₂ SameLine
    (contents false [⟨str! "{", false⟩, ⟨str! "( 0 0 0 ) ( 0 1 0 ) ( 1 0 0 ) Brick 0 0 0 1 1 ", true⟩] (str! "}"))
    (contents false [⟨str! "{", false⟩, ⟨str! "( 0 0 0 ) ( 0 1 0 ) ( 1 0 0 ) bRICK 0 0 0 1 1 ", false⟩] (str! "}")) := by
  refine .cons (.inl (by decide)) (.cons (.inr ⟨by decide, by decide, ?_⟩) (.cons (.inl (by decide)) .nil))
  refine ⟨[], [str! "(", str! "0", str! "0", str! "0", str! ")", str! "(", str! "0", str! "1", str! "0", str! ")",
      str! "(", str! "1", str! "0", str! "0", str! ")", str! "Brick", str! "0", str! "0", str! "0",
      str! "1", str! "1"].map (·, [' ']), [],
    [str! "(", str! "0", str! "0", str! "0", str! ")", str! "(", str! "0", str! "1", str! "0", str! ")",
      str! "(", str! "1", str! "0", str! "0", str! ")", str! "bRICK", str! "0", str! "0", str! "0",
      str! "1", str! "1"].map (·, [' ']),
    [str! "(", str! "0", str! "0", str! "0", str! ")", str! "(", str! "0", str! "1", str! "0", str! ")",
      str! "(", str! "1", str! "0", str! "0", str! ")"], str! "Brick", str! "bRICK",
    [str! "0", str! "0", str! "0", str! "1", str! "1"], by decide, by decide, by simp, by simp, ?_, ?_,
    rfl, rfl, rfl, by decide⟩
  · decide
  · decide

end Examples
end Quarch
