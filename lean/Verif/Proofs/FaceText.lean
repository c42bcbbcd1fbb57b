import Verif.Proofs.Face
/-
Face lines are read as their words say.
-/
set_option linter.unusedSectionVars false
namespace Quarch
open Spec

/-- Every line is made of words. -/
theorem exists_spaced (line : Str) :
    ∃ lead ws, line = spaced lead ws ∧ (∀ c ∈ lead, isBlank c = true) ∧ SpacedOk ws := by
  induction line with
  | nil => exact ⟨[], [], rfl, by simp, trivial⟩
  | cons c l ih =>
    obtain ⟨lead, ws, rfl, h1, h2⟩ := ih
    cases hc : isBlank c with
    | true =>
      refine ⟨c :: lead, ws, ?_, by simpa [hc] using h1, h2⟩
      cases ws <;> rfl
    | false =>
      cases lead with
      | cons d lead => exact ⟨[], ([c], d :: lead) :: ws, rfl, by simp, by simp, by simpa using hc, h1, by simp, h2⟩
      | nil =>
        cases ws with
        | nil => exact ⟨[], [([c], [])], rfl, by simp, by simp, by simpa using hc, by simp, by simp, trivial⟩
        | cons w ws =>
          obtain ⟨w, gap⟩ := w
          obtain ⟨h3, h4, h5, h6, h7⟩ := h2
          exact ⟨[], (c :: w, gap) :: ws, rfl, by simp, by simp, by simpa [hc] using h4, h5, h6, h7⟩

section
variable {F : Type} [Arith F] [Platform]

theorem face_reads_iff (lead : Str) (ws : List (Str × Str)) (hl : ∀ c ∈ lead, isBlank c = true)
    (hws : SpacedOk ws) (p : BrushPlane F) :
    BrushPlane.new (spaced lead ws) = .ok p ↔ FaceIs (ws.map Prod.fst) p := by
  unfold BrushPlane.new
  rw [splitWhitespace_spaced hl hws, ofWords_ok_iff]

theorem face_err_iff (lead : Str) (ws : List (Str × Str)) (hl : ∀ c ∈ lead, isBlank c = true)
    (hws : SpacedOk ws) (e : Err) :
    BrushPlane.new (F := F) (spaced lead ws) = .err e ↔
      ∃ msg, e = .quarch msg ∧ HeadOk F (ws.map Prod.fst) ∧
        ExtraError F (extraWords F (ws.map Prod.fst)) msg := by
  unfold BrushPlane.new
  rw [splitWhitespace_spaced hl hws]
  generalize ws.map Prod.fst = words
  rcases ofWords_cases (F := F) words with ⟨q, h1, h2, _⟩ | ⟨msg, h1, h2, h3⟩ | ⟨⟨m, h1⟩, h2⟩
  · rw [h1]
    constructor
    · intro h; cases h
    · rintro ⟨msg, _, _, h⟩
      exact absurd h2.2.2.2.2.2 (extraError_not_is h)
  · rw [h1]
    constructor
    · intro h; cases h; exact ⟨msg, rfl, h2, h3⟩
    · rintro ⟨msg', rfl, _, h⟩
      rw [extraError_unique h3 h]
  · rw [h1]
    constructor
    · intro h; cases h
    · rintro ⟨msg, _, hh, h⟩
      rcases h2 with h2 | ⟨h2, _⟩
      · exact absurd hh h2
      · rcases h with ⟨h, _⟩ | ⟨h, _⟩
        · rw [h2] at h; simp at h
        · rw [h2] at h; simp at h

theorem face_abort_iff (lead : Str) (ws : List (Str × Str)) (hl : ∀ c ∈ lead, isBlank c = true)
    (hws : SpacedOk ws) :
    (∃ m, BrushPlane.new (F := F) (spaced lead ws) = .panic m) ↔
      ¬ HeadOk F (ws.map Prod.fst) ∨
      ((extraWords F (ws.map Prod.fst)).length = 1 ∧
        numAt (F := F) (extraWords F (ws.map Prod.fst)) 0 = none) := by
  unfold BrushPlane.new
  rw [splitWhitespace_spaced hl hws]
  generalize ws.map Prod.fst = words
  rcases ofWords_cases (F := F) words with ⟨q, h1, h2, h3⟩ | ⟨msg, h1, h2, h3⟩ | ⟨⟨m, h1⟩, h2⟩
  · rw [h1]
    constructor
    · rintro ⟨m, h⟩; cases h
    · rintro (h | ⟨h4, h5⟩)
      · exact absurd h3 h
      · exfalso
        have := h2.2.2.2.2.2
        obtain ⟨w, hw⟩ : ∃ w, extraWords F words = [w] := List.length_eq_one_iff.1 h4
        rw [hw] at this h5
        cases hp : q.extra <;> rw [hp] at this <;> simp only [ExtraIs] at this
        simp [numAt, this] at h5
  · rw [h1]
    constructor
    · rintro ⟨m, h⟩; cases h
    · rintro (h | ⟨h4, _⟩)
      · exact absurd h2 h
      · rcases h3 with ⟨h, _⟩ | ⟨h, _⟩
        · rw [h4] at h; simp at h
        · rw [h4] at h; simp at h
  · exact ⟨fun _ => h2, fun _ => ⟨m, h1⟩⟩

theorem face_outcomes (line : Str) :
    (∃ p : BrushPlane F, BrushPlane.new line = .ok p) ∨
    (∃ msg, BrushPlane.new (F := F) line = .err (.quarch msg)) ∨
    (∃ m, BrushPlane.new (F := F) line = .panic m) := by
  unfold BrushPlane.new
  rcases ofWords_cases (F := F) (splitWhitespace line) with ⟨q, h1, _⟩ | ⟨msg, h1, _⟩ | ⟨⟨m, h1⟩, _⟩
  · exact .inl ⟨q, h1⟩
  · exact .inr (.inl ⟨msg, h1⟩)
  · exact .inr (.inr ⟨m, h1⟩)

theorem faceFault_iff (line : Str) (msg : String) :
    BrushPlane.new (F := F) line = .err (.quarch msg) ↔ FaceFault F line msg := by
  constructor
  · intro h
    obtain ⟨lead, ws, rfl, h1, h2⟩ := exists_spaced line
    obtain ⟨_, h3, h4, h5⟩ := (face_err_iff lead ws h1 h2 _).1 h
    cases h3
    exact ⟨lead, ws, rfl, h1, h2, h4, h5⟩
  · rintro ⟨lead, ws, rfl, h1, h2, h3, h4⟩
    exact (face_err_iff lead ws h1 h2 _).2 ⟨msg, rfl, h3, h4⟩

theorem faceAborts_iff (line : Str) : (∃ m, BrushPlane.new (F := F) line = .panic m) ↔ FaceAborts F line := by
  constructor
  · intro h
    obtain ⟨lead, ws, rfl, h1, h2⟩ := exists_spaced line
    exact ⟨lead, ws, rfl, h1, h2, (face_abort_iff lead ws h1 h2).1 h⟩
  · rintro ⟨lead, ws, rfl, h1, h2, h3⟩
    exact (face_abort_iff lead ws h1 h2).2 h3

/-- A face line is read as `p` exactly if its words describe `p`. -/
theorem faceText_iff (line : Str) (p : BrushPlane F) : BrushPlane.new line = .ok p ↔ FaceText line p := by
  constructor
  · intro h
    obtain ⟨lead, ws, rfl, h1, h2⟩ := exists_spaced line
    exact ⟨lead, ws, rfl, h1, h2, (face_reads_iff lead ws h1 h2 p).1 h⟩
  · rintro ⟨lead, ws, rfl, h1, h2, h⟩
    exact (face_reads_iff lead ws h1 h2 p).2 h

end

end Quarch
