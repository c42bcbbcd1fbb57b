import Verif.Props.Clip
import Verif.Props.CutExamples
/-
Three boxes, clipped at x = 1, for C146: one is behind the plane, one is clipped and one is dropped.
-/
set_option linter.unusedSectionVars false
namespace Quarch
open Spec Scene Geo

section
attribute [local instance] refPlatform stepText

/-- A box from 0 to 1. -/
noncomputable def clipNear : Brush ℝ := ⟨[stepPlane ⟨1, 0, 0⟩ ⟨1, 0, 1⟩ ⟨1, 1, 0⟩,
    stepPlane ⟨0, 0, 0⟩ ⟨0, 1, 0⟩ ⟨0, 0, 1⟩,
    stepPlane ⟨0, 1, 0⟩ ⟨1, 1, 0⟩ ⟨0, 1, 1⟩,
    stepPlane ⟨0, 0, 0⟩ ⟨0, 0, 1⟩ ⟨1, 0, 0⟩,
    stepPlane ⟨0, 0, 1⟩ ⟨0, 1, 1⟩ ⟨1, 0, 1⟩,
    stepPlane ⟨0, 0, 0⟩ ⟨1, 0, 0⟩ ⟨0, 1, 0⟩]⟩

/-- A box from 2 to 3. -/
noncomputable def clipFar : Brush ℝ := ⟨[stepPlane ⟨3, 0, 0⟩ ⟨3, 0, 1⟩ ⟨3, 1, 0⟩,
    stepPlane ⟨2, 0, 0⟩ ⟨2, 1, 0⟩ ⟨2, 0, 1⟩,
    stepPlane ⟨0, 1, 0⟩ ⟨1, 1, 0⟩ ⟨0, 1, 1⟩,
    stepPlane ⟨0, 0, 0⟩ ⟨0, 0, 1⟩ ⟨1, 0, 0⟩,
    stepPlane ⟨0, 0, 1⟩ ⟨0, 1, 1⟩ ⟨1, 0, 1⟩,
    stepPlane ⟨0, 0, 0⟩ ⟨1, 0, 0⟩ ⟨0, 1, 0⟩]⟩

theorem clipNear_axis : ∀ p ∈ clipNear.planes, OnAxis p := by
  intro p hp
  simp only [clipNear, List.mem_cons, List.not_mem_nil, or_false] at hp
  rcases hp with rfl | rfl | rfl | rfl | rfl | rfl
  · exact ⟨1, 1, .inl rfl, .inl ⟨by norm_num [rawNormal, stepPlane, crossR, subR], by norm_num [stepPlane]⟩⟩
  · exact ⟨-1, 0, .inr rfl, .inl ⟨by norm_num [rawNormal, stepPlane, crossR, subR], by norm_num [stepPlane]⟩⟩
  · exact ⟨1, 1, .inl rfl, .inr (.inl ⟨by norm_num [rawNormal, stepPlane, crossR, subR], by norm_num [stepPlane]⟩)⟩
  · exact ⟨-1, 0, .inr rfl, .inr (.inl ⟨by norm_num [rawNormal, stepPlane, crossR, subR], by norm_num [stepPlane]⟩)⟩
  · exact ⟨1, 1, .inl rfl, .inr (.inr ⟨by norm_num [rawNormal, stepPlane, crossR, subR], by norm_num [stepPlane]⟩)⟩
  · exact ⟨-1, 0, .inr rfl, .inr (.inr ⟨by norm_num [rawNormal, stepPlane, crossR, subR], by norm_num [stepPlane]⟩)⟩

theorem clipNear_inside (x : V3 ℝ) (h : ∀ p ∈ clipNear.planes, WithinR 0 p x) :
    0 ≤ x.x ∧ x.x ≤ 1 ∧ 0 ≤ x.y ∧ x.y ≤ 1 ∧ 0 ≤ x.z ∧ x.z ≤ 1 := by
  simp only [clipNear, List.mem_cons, List.not_mem_nil, or_false, forall_eq_or_imp, forall_eq, WithinR, zero_mul] at h
  norm_num [rawNormal, stepPlane, crossR, subR, dotR] at h
  obtain ⟨h1, h2, h3, h4, h5, h6⟩ := h
  refine ⟨?_, ?_, ?_, ?_, ?_, ?_⟩ <;> linarith

theorem clipNear_proper : ProperBrush clipNear.planes := by
  refine onAxis_proper clipNear_axis ⟨⟨0 + 1 / 2, 1 / 2, 1 / 2⟩, fun p hp => ?_⟩ ⟨3, fun x hx => ?_⟩
  · simp only [clipNear, List.mem_cons, List.not_mem_nil, or_false] at hp
    rcases hp with rfl | rfl | rfl | rfl | rfl | rfl <;> norm_num [rawNormal, stepPlane, crossR, subR, dotR]
  · obtain ⟨h1, h2, h3, h4, h5, h6⟩ := clipNear_inside x hx
    refine ⟨abs_le.2 ⟨?_, ?_⟩, abs_le.2 ⟨?_, ?_⟩, abs_le.2 ⟨?_, ?_⟩⟩ <;> linarith

theorem clipFar_axis : ∀ p ∈ clipFar.planes, OnAxis p := by
  intro p hp
  simp only [clipFar, List.mem_cons, List.not_mem_nil, or_false] at hp
  rcases hp with rfl | rfl | rfl | rfl | rfl | rfl
  · exact ⟨1, 3, .inl rfl, .inl ⟨by norm_num [rawNormal, stepPlane, crossR, subR], by norm_num [stepPlane]⟩⟩
  · exact ⟨-1, 2, .inr rfl, .inl ⟨by norm_num [rawNormal, stepPlane, crossR, subR], by norm_num [stepPlane]⟩⟩
  · exact ⟨1, 1, .inl rfl, .inr (.inl ⟨by norm_num [rawNormal, stepPlane, crossR, subR], by norm_num [stepPlane]⟩)⟩
  · exact ⟨-1, 0, .inr rfl, .inr (.inl ⟨by norm_num [rawNormal, stepPlane, crossR, subR], by norm_num [stepPlane]⟩)⟩
  · exact ⟨1, 1, .inl rfl, .inr (.inr ⟨by norm_num [rawNormal, stepPlane, crossR, subR], by norm_num [stepPlane]⟩)⟩
  · exact ⟨-1, 0, .inr rfl, .inr (.inr ⟨by norm_num [rawNormal, stepPlane, crossR, subR], by norm_num [stepPlane]⟩)⟩

theorem clipFar_inside (x : V3 ℝ) (h : ∀ p ∈ clipFar.planes, WithinR 0 p x) :
    2 ≤ x.x ∧ x.x ≤ 3 ∧ 0 ≤ x.y ∧ x.y ≤ 1 ∧ 0 ≤ x.z ∧ x.z ≤ 1 := by
  simp only [clipFar, List.mem_cons, List.not_mem_nil, or_false, forall_eq_or_imp, forall_eq, WithinR, zero_mul] at h
  norm_num [rawNormal, stepPlane, crossR, subR, dotR] at h
  obtain ⟨h1, h2, h3, h4, h5, h6⟩ := h
  refine ⟨?_, ?_, ?_, ?_, ?_, ?_⟩ <;> linarith

theorem clipFar_proper : ProperBrush clipFar.planes := by
  refine onAxis_proper clipFar_axis ⟨⟨2 + 1 / 2, 1 / 2, 1 / 2⟩, fun p hp => ?_⟩ ⟨3, fun x hx => ?_⟩
  · simp only [clipFar, List.mem_cons, List.not_mem_nil, or_false] at hp
    rcases hp with rfl | rfl | rfl | rfl | rfl | rfl <;> norm_num [rawNormal, stepPlane, crossR, subR, dotR]
  · obtain ⟨h1, h2, h3, h4, h5, h6⟩ := clipFar_inside x hx
    refine ⟨abs_le.2 ⟨?_, ?_⟩, abs_le.2 ⟨?_, ?_⟩, abs_le.2 ⟨?_, ?_⟩⟩ <;> linarith

def clipWholeMap : Str :=
  str! "{\n\"classname\" \"worldspawn\"\n{\n( 1 0 0 ) ( 1 0 1 ) ( 1 1 0 ) brick [ 0 1 0 0 ] [ 0 0 1 0 ] 0 0.015625 0.015625\n( 0 0 0 ) ( 0 1 0 ) ( 0 0 1 ) brick [ 0 1 0 0 ] [ 0 0 1 0 ] 0 0.015625 0.015625\n( 0 1 0 ) ( 1 1 0 ) ( 0 1 1 ) brick [ 0 1 0 0 ] [ 0 0 1 0 ] 0 0.015625 0.015625\n( 0 0 0 ) ( 0 0 1 ) ( 1 0 0 ) brick [ 0 1 0 0 ] [ 0 0 1 0 ] 0 0.015625 0.015625\n( 0 0 1 ) ( 0 1 1 ) ( 1 0 1 ) brick [ 0 1 0 0 ] [ 0 0 1 0 ] 0 0.015625 0.015625\n( 0 0 0 ) ( 1 0 0 ) ( 0 1 0 ) brick [ 0 1 0 0 ] [ 0 0 1 0 ] 0 0.015625 0.015625\n}\n{\n( 2 0 0 ) ( 2 0 1 ) ( 2 1 0 ) brick [ 0 1 0 0 ] [ 0 0 1 0 ] 0 0.015625 0.015625\n( 0 0 0 ) ( 0 1 0 ) ( 0 0 1 ) brick [ 0 1 0 0 ] [ 0 0 1 0 ] 0 0.015625 0.015625\n( 0 1 0 ) ( 1 1 0 ) ( 0 1 1 ) brick [ 0 1 0 0 ] [ 0 0 1 0 ] 0 0.015625 0.015625\n( 0 0 0 ) ( 0 0 1 ) ( 1 0 0 ) brick [ 0 1 0 0 ] [ 0 0 1 0 ] 0 0.015625 0.015625\n( 0 0 1 ) ( 0 1 1 ) ( 1 0 1 ) brick [ 0 1 0 0 ] [ 0 0 1 0 ] 0 0.015625 0.015625\n( 0 0 0 ) ( 1 0 0 ) ( 0 1 0 ) brick [ 0 1 0 0 ] [ 0 0 1 0 ] 0 0.015625 0.015625\n}\n{\n( 3 0 0 ) ( 3 0 1 ) ( 3 1 0 ) brick [ 0 1 0 0 ] [ 0 0 1 0 ] 0 0.015625 0.015625\n( 2 0 0 ) ( 2 1 0 ) ( 2 0 1 ) brick [ 0 1 0 0 ] [ 0 0 1 0 ] 0 0.015625 0.015625\n( 0 1 0 ) ( 1 1 0 ) ( 0 1 1 ) brick [ 0 1 0 0 ] [ 0 0 1 0 ] 0 0.015625 0.015625\n( 0 0 0 ) ( 0 0 1 ) ( 1 0 0 ) brick [ 0 1 0 0 ] [ 0 0 1 0 ] 0 0.015625 0.015625\n( 0 0 1 ) ( 0 1 1 ) ( 1 0 1 ) brick [ 0 1 0 0 ] [ 0 0 1 0 ] 0 0.015625 0.015625\n( 0 0 0 ) ( 1 0 0 ) ( 0 1 0 ) brick [ 0 1 0 0 ] [ 0 0 1 0 ] 0 0.015625 0.015625\n}\n}\n"

def clipWholeTokens : List Token :=
  [.openBrace, .property (str! "classname") (str! "worldspawn"),
    .openBrace,
    .brushPlane (cubeLine (str! "1 0 0") (str! "1 0 1") (str! "1 1 0")),
    .brushPlane (cubeLine (str! "0 0 0") (str! "0 1 0") (str! "0 0 1")),
    .brushPlane (cubeLine (str! "0 1 0") (str! "1 1 0") (str! "0 1 1")),
    .brushPlane (cubeLine (str! "0 0 0") (str! "0 0 1") (str! "1 0 0")),
    .brushPlane (cubeLine (str! "0 0 1") (str! "0 1 1") (str! "1 0 1")),
    .brushPlane (cubeLine (str! "0 0 0") (str! "1 0 0") (str! "0 1 0")),
    .closeBrace,
    .openBrace,
    .brushPlane (cubeLine (str! "2 0 0") (str! "2 0 1") (str! "2 1 0")),
    .brushPlane (cubeLine (str! "0 0 0") (str! "0 1 0") (str! "0 0 1")),
    .brushPlane (cubeLine (str! "0 1 0") (str! "1 1 0") (str! "0 1 1")),
    .brushPlane (cubeLine (str! "0 0 0") (str! "0 0 1") (str! "1 0 0")),
    .brushPlane (cubeLine (str! "0 0 1") (str! "0 1 1") (str! "1 0 1")),
    .brushPlane (cubeLine (str! "0 0 0") (str! "1 0 0") (str! "0 1 0")),
    .closeBrace,
    .openBrace,
    .brushPlane (cubeLine (str! "3 0 0") (str! "3 0 1") (str! "3 1 0")),
    .brushPlane (cubeLine (str! "2 0 0") (str! "2 1 0") (str! "2 0 1")),
    .brushPlane (cubeLine (str! "0 1 0") (str! "1 1 0") (str! "0 1 1")),
    .brushPlane (cubeLine (str! "0 0 0") (str! "0 0 1") (str! "1 0 0")),
    .brushPlane (cubeLine (str! "0 0 1") (str! "0 1 1") (str! "1 0 1")),
    .brushPlane (cubeLine (str! "0 0 0") (str! "1 0 0") (str! "0 1 0")),
    .closeBrace,
    .closeBrace]

set_option maxRecDepth 100000 in
theorem clipWhole_tokens : Tokenizer.run (Platform.bareCR) clipWholeMap = .ok clipWholeTokens := by decide

set_option maxRecDepth 100000 in
theorem clipWhole_parse : ∃ paths, Parser.run (F := ℝ) clipWholeTokens = .ok (paths, [plankWorld [clipNear, plank, clipFar]]) := ⟨_, rfl⟩

theorem clipWhole_loads : LoadsAs clipWholeMap [plankWorld [clipNear, plank, clipFar]] := by
  obtain ⟨paths, h⟩ := clipWhole_parse
  exact ⟨_, _, clipWhole_tokens, h⟩

theorem clipWhole_run : ∃ nodes, Quarch.run 1 id { stepConfig with mapFile := some clipWholeMap } = .ok nodes := by
  refine C92_enough 1 id (fun _ => .refl _) { stepConfig with mapFile := some clipWholeMap } [plankWorld [clipNear, plank, clipFar]]
    ⟨⟨_, rfl, (C92_text _ _).1 clipWhole_loads⟩, ⟨[], _, [], rfl, rfl, fun e he => by simp at he⟩, ?_, ?_, ?_, ?_⟩ (Nat.le_refl _)
  · exact (geo_succeeds stepConfig.textureInfo _).1 (mapOut_isOk.2 fun e _ => buildEntity_real _ e)
  · intro e he _
    cases List.mem_singleton.1 he
    exact ⟨_, rfl⟩
  · intro e he _ _ k hk s hs
    exfalso
    simp only [List.mem_cons, List.not_mem_nil, or_false] at he hk
    subst he
    rcases hk with rfl | rfl <;> revert hs <;> simp [plankWorld, stepWorld]
  · apply no_loop_of_unique
    exact .cons (fun b hb => by cases hb) .nil

def clipPartMap : Str :=
  str! "{\n\"classname\" \"worldspawn\"\n{\n( 1 0 0 ) ( 1 0 1 ) ( 1 1 0 ) brick [ 0 1 0 0 ] [ 0 0 1 0 ] 0 0.015625 0.015625\n( 0 0 0 ) ( 0 1 0 ) ( 0 0 1 ) brick [ 0 1 0 0 ] [ 0 0 1 0 ] 0 0.015625 0.015625\n( 0 1 0 ) ( 1 1 0 ) ( 0 1 1 ) brick [ 0 1 0 0 ] [ 0 0 1 0 ] 0 0.015625 0.015625\n( 0 0 0 ) ( 0 0 1 ) ( 1 0 0 ) brick [ 0 1 0 0 ] [ 0 0 1 0 ] 0 0.015625 0.015625\n( 0 0 1 ) ( 0 1 1 ) ( 1 0 1 ) brick [ 0 1 0 0 ] [ 0 0 1 0 ] 0 0.015625 0.015625\n( 0 0 0 ) ( 1 0 0 ) ( 0 1 0 ) brick [ 0 1 0 0 ] [ 0 0 1 0 ] 0 0.015625 0.015625\n}\n{\n( 2 0 0 ) ( 2 0 1 ) ( 2 1 0 ) brick [ 0 1 0 0 ] [ 0 0 1 0 ] 0 0.015625 0.015625\n( 0 0 0 ) ( 0 1 0 ) ( 0 0 1 ) brick [ 0 1 0 0 ] [ 0 0 1 0 ] 0 0.015625 0.015625\n( 0 1 0 ) ( 1 1 0 ) ( 0 1 1 ) brick [ 0 1 0 0 ] [ 0 0 1 0 ] 0 0.015625 0.015625\n( 0 0 0 ) ( 0 0 1 ) ( 1 0 0 ) brick [ 0 1 0 0 ] [ 0 0 1 0 ] 0 0.015625 0.015625\n( 0 0 1 ) ( 0 1 1 ) ( 1 0 1 ) brick [ 0 1 0 0 ] [ 0 0 1 0 ] 0 0.015625 0.015625\n( 0 0 0 ) ( 1 0 0 ) ( 0 1 0 ) brick [ 0 1 0 0 ] [ 0 0 1 0 ] 0 0.015625 0.015625\n( 1 0 0 ) ( 1 0 1 ) ( 1 1 0 ) brick [ 0 1 0 0 ] [ 0 0 1 0 ] 0 0.015625 0.015625\n}\n}\n"

def clipPartTokens : List Token :=
  [.openBrace, .property (str! "classname") (str! "worldspawn"),
    .openBrace,
    .brushPlane (cubeLine (str! "1 0 0") (str! "1 0 1") (str! "1 1 0")),
    .brushPlane (cubeLine (str! "0 0 0") (str! "0 1 0") (str! "0 0 1")),
    .brushPlane (cubeLine (str! "0 1 0") (str! "1 1 0") (str! "0 1 1")),
    .brushPlane (cubeLine (str! "0 0 0") (str! "0 0 1") (str! "1 0 0")),
    .brushPlane (cubeLine (str! "0 0 1") (str! "0 1 1") (str! "1 0 1")),
    .brushPlane (cubeLine (str! "0 0 0") (str! "1 0 0") (str! "0 1 0")),
    .closeBrace,
    .openBrace,
    .brushPlane (cubeLine (str! "2 0 0") (str! "2 0 1") (str! "2 1 0")),
    .brushPlane (cubeLine (str! "0 0 0") (str! "0 1 0") (str! "0 0 1")),
    .brushPlane (cubeLine (str! "0 1 0") (str! "1 1 0") (str! "0 1 1")),
    .brushPlane (cubeLine (str! "0 0 0") (str! "0 0 1") (str! "1 0 0")),
    .brushPlane (cubeLine (str! "0 0 1") (str! "0 1 1") (str! "1 0 1")),
    .brushPlane (cubeLine (str! "0 0 0") (str! "1 0 0") (str! "0 1 0")),
    .brushPlane (cubeLine (str! "1 0 0") (str! "1 0 1") (str! "1 1 0")),
    .closeBrace,
    .closeBrace]

set_option maxRecDepth 100000 in
theorem clipPart_tokens : Tokenizer.run (Platform.bareCR) clipPartMap = .ok clipPartTokens := by decide

set_option maxRecDepth 100000 in
theorem clipPart_parse : ∃ paths, Parser.run (F := ℝ) clipPartTokens = .ok (paths, [plankWorld [clipNear, sawn plank sawCut]]) := ⟨_, rfl⟩

theorem clipPart_loads : LoadsAs clipPartMap [plankWorld [clipNear, sawn plank sawCut]] := by
  obtain ⟨paths, h⟩ := clipPart_parse
  exact ⟨_, _, clipPart_tokens, h⟩

theorem clipPart_run : ∃ nodes, Quarch.run 1 id { stepConfig with mapFile := some clipPartMap } = .ok nodes := by
  refine C92_enough 1 id (fun _ => .refl _) { stepConfig with mapFile := some clipPartMap } [plankWorld [clipNear, sawn plank sawCut]]
    ⟨⟨_, rfl, (C92_text _ _).1 clipPart_loads⟩, ⟨[], _, [], rfl, rfl, fun e he => by simp at he⟩, ?_, ?_, ?_, ?_⟩ (Nat.le_refl _)
  · exact (geo_succeeds stepConfig.textureInfo _).1 (mapOut_isOk.2 fun e _ => buildEntity_real _ e)
  · intro e he _
    cases List.mem_singleton.1 he
    exact ⟨_, rfl⟩
  · intro e he _ _ k hk s hs
    exfalso
    simp only [List.mem_cons, List.not_mem_nil, or_false] at he hk
    subst he
    rcases hk with rfl | rfl <;> revert hs <;> simp [plankWorld, stepWorld]
  · apply no_loop_of_unique
    exact .cons (fun b hb => by cases hb) .nil

theorem ahead_cut (x : V3 ℝ) : aheadOf sawCut x = x.x - 1 := by
  norm_num [aheadOf, sawCut, rawNormal, stepPlane, crossR, subR, dotR]

/-- C146 from end to end: both maps load, and after clipping exactly the part up to x = 1 is solid; nothing is drawn beyond it, and
all that was drawn before it is. -/
example : ∃ nodes nodes', Quarch.run 1 id { stepConfig with mapFile := some clipWholeMap } = .ok nodes ∧
    Quarch.run 1 id { stepConfig with mapFile := some clipPartMap } = .ok nodes' ∧
    ∀ x, (InSolid nodes' x ↔ InSolid nodes x ∧ x.x ≤ 1) ∧ (Drawn nodes x → x.x < 1 → Drawn nodes' x) ∧
      (Drawn nodes' x → x.x ≤ 1 ∧ (Drawn nodes x ∨ x.x = 1)) := by
  obtain ⟨nodes, h⟩ := clipWhole_run
  obtain ⟨nodes', h'⟩ := clipPart_run
  have hm : List.Forall₂ (ClipEntity sawCut) [plankWorld [clipNear, plank, clipFar]]
      [plankWorld [clipNear, sawn plank sawCut]] := by
    refine .cons ⟨rfl, .keep (fun x hx => ?_) (.cut ⟨rfl, rfl, rfl⟩ saw_cut.texture (.drop (fun x hx => ?_) .nil))⟩ .nil
    · rw [ahead_cut]; linarith [(clipNear_inside x hx).2.1]
    · rw [ahead_cut]; linarith [(clipFar_inside x hx).1]
  have hp : ∀ e ∈ [plankWorld [clipNear, plank, clipFar]], Anchored [plankWorld [clipNear, plank, clipFar]] e →
      ∀ br ∈ e.brushes, ProperBrush br.planes := by
    intro e he _ br hbr
    cases List.mem_singleton.1 he
    simp only [plankWorld, List.mem_cons, List.not_mem_nil, or_false] at hbr
    rcases hbr with rfl | rfl | rfl
    · exact clipNear_proper
    · exact plank_proper
    · exact clipFar_proper
  have hp' : ∀ e ∈ [plankWorld [clipNear, sawn plank sawCut]],
      Anchored [plankWorld [clipNear, sawn plank sawCut]] e → ∀ br ∈ e.brushes, ProperBrush br.planes := by
    intro e he _ br hbr
    cases List.mem_singleton.1 he
    simp only [plankWorld, List.mem_cons, List.not_mem_nil, or_false] at hbr
    rcases hbr with rfl | rfl
    · exact clipNear_proper
    · exact sawn_proper cut_axis (a := 1 / 2) (by norm_num) (by norm_num)
        (by norm_num [sawCut, rawNormal, stepPlane, crossR, subR, dotR])
  refine ⟨nodes, nodes', h, h', fun x => ?_⟩
  have h0 := C146_solid 1 1 id id (fun _ => .refl _) (fun _ => .refl _) { stepConfig with mapFile := some clipWholeMap }
    clipWholeMap clipPartMap rfl _ _ clipWhole_loads clipPart_loads nodes nodes' h h' hm hp hp' x
  obtain ⟨h1, h2⟩ := C146_drawn 1 1 id id (fun _ => .refl _) (fun _ => .refl _)
    { stepConfig with mapFile := some clipWholeMap } clipWholeMap clipPartMap rfl _ _ clipWhole_loads clipPart_loads
    nodes nodes' h h' hm hp hp' x
  simp only [ahead_cut, sub_nonpos, sub_neg, sub_eq_zero] at h0 h1 h2
  exact ⟨h0, h1, fun hx => ⟨(h2 hx).1, (h2 hx).2.imp_right And.left⟩⟩

end
end Quarch
