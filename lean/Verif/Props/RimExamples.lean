import Verif.Props.Rim
import Verif.Props.ClipExamples
/-
Two boxes apart from each other, for C148.
-/
set_option linter.unusedSectionVars false
namespace Quarch
open Spec Scene Geo

section
attribute [local instance] refPlatform stepText

def rimMap : Str :=
  str! "{\n\"classname\" \"worldspawn\"\n{\n( 1 0 0 ) ( 1 0 1 ) ( 1 1 0 ) brick [ 0 1 0 0 ] [ 0 0 1 0 ] 0 0.015625 0.015625\n( 0 0 0 ) ( 0 1 0 ) ( 0 0 1 ) brick [ 0 1 0 0 ] [ 0 0 1 0 ] 0 0.015625 0.015625\n( 0 1 0 ) ( 1 1 0 ) ( 0 1 1 ) brick [ 0 1 0 0 ] [ 0 0 1 0 ] 0 0.015625 0.015625\n( 0 0 0 ) ( 0 0 1 ) ( 1 0 0 ) brick [ 0 1 0 0 ] [ 0 0 1 0 ] 0 0.015625 0.015625\n( 0 0 1 ) ( 0 1 1 ) ( 1 0 1 ) brick [ 0 1 0 0 ] [ 0 0 1 0 ] 0 0.015625 0.015625\n( 0 0 0 ) ( 1 0 0 ) ( 0 1 0 ) brick [ 0 1 0 0 ] [ 0 0 1 0 ] 0 0.015625 0.015625\n}\n{\n( 3 0 0 ) ( 3 0 1 ) ( 3 1 0 ) brick [ 0 1 0 0 ] [ 0 0 1 0 ] 0 0.015625 0.015625\n( 2 0 0 ) ( 2 1 0 ) ( 2 0 1 ) brick [ 0 1 0 0 ] [ 0 0 1 0 ] 0 0.015625 0.015625\n( 0 1 0 ) ( 1 1 0 ) ( 0 1 1 ) brick [ 0 1 0 0 ] [ 0 0 1 0 ] 0 0.015625 0.015625\n( 0 0 0 ) ( 0 0 1 ) ( 1 0 0 ) brick [ 0 1 0 0 ] [ 0 0 1 0 ] 0 0.015625 0.015625\n( 0 0 1 ) ( 0 1 1 ) ( 1 0 1 ) brick [ 0 1 0 0 ] [ 0 0 1 0 ] 0 0.015625 0.015625\n( 0 0 0 ) ( 1 0 0 ) ( 0 1 0 ) brick [ 0 1 0 0 ] [ 0 0 1 0 ] 0 0.015625 0.015625\n}\n}\n"

def rimTokens : List Token :=
  [.openBrace, .property (str! "classname") (str! "worldspawn"),
    .openBrace,
    .brushPlane (cubeLine (str! "1 0 0") (str! "1 0 1") (str! "1 1 0")),
    .brushPlane (cubeLine (str! "0 0 0") (str! "0 1 0") (str! "0 0 1")),
    .brushPlane (cubeLine (str! "0 1 0") (str! "1 1 0") (str! "0 1 1")),
    .brushPlane (cubeLine (str! "0 0 0") (str! "0 0 1") (str! "1 0 0")),
    .brushPlane (cubeLine (str! "0 0 1") (str! "0 1 1") (str! "1 0 1")),
    .brushPlane (cubeLine (str! "0 0 0") (str! "1 0 0") (str! "0 1 0")),
    .closeBrace,
    .openBrace,
    .brushPlane (cubeLine (str! "3 0 0") (str! "3 0 1") (str! "3 1 0")),
    .brushPlane (cubeLine (str! "2 0 0") (str! "2 1 0") (str! "2 0 1")),
    .brushPlane (cubeLine (str! "0 1 0") (str! "1 1 0") (str! "0 1 1")),
    .brushPlane (cubeLine (str! "0 0 0") (str! "0 0 1") (str! "1 0 0")),
    .brushPlane (cubeLine (str! "0 0 1") (str! "0 1 1") (str! "1 0 1")),
    .brushPlane (cubeLine (str! "0 0 0") (str! "1 0 0") (str! "0 1 0")),
    .closeBrace,
    .closeBrace]

set_option maxRecDepth 100000 in
theorem rim_tokens : Tokenizer.run (Platform.bareCR) rimMap = .ok rimTokens := by decide

set_option maxRecDepth 100000 in
theorem rim_parse : ∃ paths, Parser.run (F := ℝ) rimTokens = .ok (paths, [plankWorld [clipNear, clipFar]]) := ⟨_, rfl⟩

theorem rim_loads : LoadsAs rimMap [plankWorld [clipNear, clipFar]] := by
  obtain ⟨paths, h⟩ := rim_parse
  exact ⟨_, _, rim_tokens, h⟩

theorem rim_run : ∃ nodes, Quarch.run 1 id { stepConfig with mapFile := some rimMap } = .ok nodes := by
  refine C92_enough 1 id (fun _ => .refl _) { stepConfig with mapFile := some rimMap } [plankWorld [clipNear, clipFar]]
    ⟨⟨_, rfl, (C92_text _ _).1 rim_loads⟩, ⟨[], _, [], rfl, rfl, fun e he => by simp at he⟩, ?_, ?_, ?_, ?_⟩ (Nat.le_refl _)
  · exact (geo_succeeds stepConfig.textureInfo _).1 (mapOut_isOk.2 fun e _ => buildEntity_real _ e)
  · intro e he _
    cases List.mem_singleton.1 he
    exact ⟨_, rfl⟩
  · intro e he _ _ k hk s hs
    exfalso
    simp only [List.mem_cons, List.not_mem_nil, or_false] at he hk
    subst he
    rcases hk with rfl | rfl <;> revert hs <;> simp [plankWorld, stepWorld]
  · apply no_loop_of_unique
    exact .cons (fun b hb => by cases hb) .nil

theorem rim_meshes : AllMeshes stepConfig.quarchitectGameData .convex ∧ MeshesAre stepConfig.quarchitectGameData .convex := by
  refine ⟨⟨fun d hd pd bd hdd _ => ?_, fun l hl => by cases hl⟩, ⟨fun d hd pd bd hdd _ => ?_, fun l hl => by cases hl⟩⟩ <;>
    simp only [stepConfig, List.mem_cons, List.not_mem_nil, or_false] at hd <;> rcases hd with rfl | rfl <;> cases hdd <;> rfl

theorem rim_proper : ∀ e ∈ [plankWorld [clipNear, clipFar]], Anchored [plankWorld [clipNear, clipFar]] e → ∀ br ∈ e.brushes, ProperBrush br.planes := by
  intro e he _ br hbr
  cases List.mem_singleton.1 he
  simp only [plankWorld, List.mem_cons, List.not_mem_nil, or_false] at hbr
  rcases hbr with rfl | rfl
  · exact clipNear_proper
  · exact clipFar_proper

theorem rim_apart : Untouching { stepConfig with mapFile := some rimMap } [plankWorld [clipNear, clipFar]] := by
  intro e he _ br hbr _ e' he' _ br' hbr' _ x h1 h2
  cases List.mem_singleton.1 he
  cases List.mem_singleton.1 he'
  simp only [plankWorld, List.mem_cons, List.not_mem_nil, or_false] at hbr hbr'
  rcases hbr with rfl | rfl <;> rcases hbr' with rfl | rfl
  · rfl
  · linarith [(clipNear_inside x h1).2.1, (clipFar_inside x h2).1]
  · linarith [(clipNear_inside x h2).2.1, (clipFar_inside x h1).1]
  · rfl

theorem clipNear_solid : SolidAs { stepConfig with mapFile := some rimMap } (plankWorld [clipNear, clipFar]) clipNear .convex := by
  refine .inr ⟨?_, ⟨_, _, _, ⟨str! "worldspawn", rfl, [], _, rfl, rfl, by simp⟩, rfl, rfl⟩⟩
  rintro t ⟨_, ht, hall⟩
  have h := hall _ List.mem_cons_self
  have h' : knownTexture stepConfig.textureInfo (stepPlane ⟨1, 0, 0⟩ ⟨1, 0, 1⟩ ⟨1, 1, 0⟩) = some (str! "brick") := rfl
  rw [h'] at h
  cases h
  rcases ht with ht | ht <;> exact absurd ht (by decide)

/-- C148 from end to end: the map loads and exactly the surface of the two boxes is drawn; a point inside a box is solid and not
drawn. -/
example : ∃ nodes, Quarch.run 1 id { stepConfig with mapFile := some rimMap } = .ok nodes ∧
    (∀ x, Drawn nodes x ↔ OnRim (InSolid nodes) x) ∧ InSolid nodes ⟨1 / 2, 1 / 2, 1 / 2⟩ ∧ ¬ Drawn nodes ⟨1 / 2, 1 / 2, 1 / 2⟩ := by
  obtain ⟨nodes, h⟩ := rim_run
  have hd := C148_surface 1 id (fun _ => .refl _) { stepConfig with mapFile := some rimMap } nodes h rimMap rfl _
    rim_loads rim_proper rim_meshes.1 rim_meshes.2 (fun _ _ _ _ _ _ _ _ _ _ => ⟨List.not_mem_nil, List.not_mem_nil⟩) rim_apart
  have filled := C88_filled 1 id (fun _ => .refl _) { stepConfig with mapFile := some rimMap } nodes h rimMap rfl _
    rim_loads rim_proper
  have inside : ∀ x : V3 ℝ, Close (1 / 4) x ⟨1 / 2, 1 / 2, 1 / 2⟩ → InSolid nodes x := fun x hx => (filled _).2 ⟨_,
    List.mem_singleton.2 rfl, .world rfl, clipNear, by simp [plankWorld], clipNear_solid, by
      obtain ⟨a, b, c⟩ := hx
      rw [abs_le] at a b c
      simp only at a b c
      simp only [clipNear, List.mem_cons, List.not_mem_nil, or_false, forall_eq_or_imp, forall_eq, WithinR, zero_mul]
      norm_num [rawNormal, stepPlane, crossR, subR, dotR]
      refine ⟨?_, ?_, ?_, ?_, ?_, ?_⟩ <;> linarith [a.1, a.2, b.1, b.2, c.1, c.2]⟩
  refine ⟨nodes, h, hd, inside _ (by norm_num [Close]), fun hx => ?_⟩
  obtain ⟨y, hy, hn⟩ := ((hd _).1 hx).2 (1 / 4) (by norm_num)
  exact hn (inside y hy)

end
end Quarch
