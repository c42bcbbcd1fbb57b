import Verif.Props.Padded
import Verif.Props.MovingExamples
/-
The map with the unit cube, and the same with a seventh face at x = 3, for C134.
-/
set_option linter.unusedSectionVars false
namespace Quarch
open Spec Scene Geo

section
attribute [local instance] refPlatform stepText

/-- The unit cube with a superfluous face at x = 3, and a lamp. -/
def padMap : Str :=
  str! "{\n\"classname\" \"worldspawn\"\n{\n( 1 0 0 ) ( 1 0 1 ) ( 1 1 0 ) brick [ 0 1 0 0 ] [ 0 0 1 0 ] 0 0.015625 0.015625\n( 0 0 0 ) ( 0 1 0 ) ( 0 0 1 ) brick [ 0 1 0 0 ] [ 0 0 1 0 ] 0 0.015625 0.015625\n( 0 1 0 ) ( 1 1 0 ) ( 0 1 1 ) brick [ 0 1 0 0 ] [ 0 0 1 0 ] 0 0.015625 0.015625\n( 0 0 0 ) ( 0 0 1 ) ( 1 0 0 ) brick [ 0 1 0 0 ] [ 0 0 1 0 ] 0 0.015625 0.015625\n( 0 0 1 ) ( 0 1 1 ) ( 1 0 1 ) brick [ 0 1 0 0 ] [ 0 0 1 0 ] 0 0.015625 0.015625\n( 0 0 0 ) ( 1 0 0 ) ( 0 1 0 ) brick [ 0 1 0 0 ] [ 0 0 1 0 ] 0 0.015625 0.015625\n( 3 0 0 ) ( 3 0 1 ) ( 3 1 0 ) brick [ 0 1 0 0 ] [ 0 0 1 0 ] 0 0.015625 0.015625\n}\n}\n{\n\"classname\" \"lamp\"\n\"origin\" \"0 1 0\"\n}\n"

def padTokens : List Token :=
  [.openBrace, .property (str! "classname") (str! "worldspawn"), .openBrace,
    .brushPlane (cubeLine (str! "1 0 0") (str! "1 0 1") (str! "1 1 0")),
    .brushPlane (cubeLine (str! "0 0 0") (str! "0 1 0") (str! "0 0 1")),
    .brushPlane (cubeLine (str! "0 1 0") (str! "1 1 0") (str! "0 1 1")),
    .brushPlane (cubeLine (str! "0 0 0") (str! "0 0 1") (str! "1 0 0")),
    .brushPlane (cubeLine (str! "0 0 1") (str! "0 1 1") (str! "1 0 1")),
    .brushPlane (cubeLine (str! "0 0 0") (str! "1 0 0") (str! "0 1 0")),
    .brushPlane (cubeLine (str! "3 0 0") (str! "3 0 1") (str! "3 1 0")),
    .closeBrace, .closeBrace, .openBrace, .property (str! "classname") (str! "lamp"),
    .property (str! "origin") (str! "0 1 0"), .closeBrace]

set_option maxRecDepth 100000 in
theorem pad_tokens : Tokenizer.run (Platform.bareCR) padMap = .ok padTokens := by decide

noncomputable def padFace : BrushPlane ℝ := stepPlane ⟨3, 0, 0⟩ ⟨3, 0, 1⟩ ⟨3, 1, 0⟩

set_option maxRecDepth 100000 in
theorem pad_parse : ∃ paths, Parser.run (F := ℝ) padTokens =
    .ok (paths, [stepWorld (Cube.planes ++ [padFace]), stepLamp (str! "0 1 0")]) := ⟨_, rfl⟩

theorem pad_loads : LoadsAs padMap [stepWorld (Cube.planes ++ [padFace]), stepLamp (str! "0 1 0")] := by
  obtain ⟨paths, h⟩ := pad_parse
  exact ⟨_, _, pad_tokens, h⟩

theorem pad_padded : List.Forall₂ Padded [stepWorld Cube.planes, stepLamp (str! "0 1 0")]
    [stepWorld (Cube.planes ++ [padFace]), stepLamp (str! "0 1 0")] := by
  refine .cons ⟨rfl, .cons (.inr ⟨Cube.planes, padFace, [], (List.append_nil _).symm, rfl, ?_, Cube.xp, ?_, rfl⟩) .nil⟩
    (.cons ⟨rfl, .nil⟩ .nil)
  · intro x hx
    rw [List.append_nil, Cube.inside] at hx
    have : rawNormal padFace = ⟨1, 0, 0⟩ := by simp [rawNormal, padFace, stepPlane, crossR, subR]
    rw [this]
    simp only [padFace, stepPlane, dotR, subR]
    norm_num at hx ⊢
    linarith [hx.1, hx.2.1]
  · simp [Cube.planes]

noncomputable def padConfig : Config ℝ := { stepConfig with mapFile := some padMap }

theorem pad_config : padConfig.mapFile = some padMap := rfl

theorem step_config : stepConfig.mapFile = some stepMap := rfl

theorem pad_run : ∃ nodes, Quarch.run 2 id padConfig = .ok nodes := by
  refine C92_enough 2 id (fun _ => .refl _) padConfig [stepWorld (Cube.planes ++ [padFace]), stepLamp (str! "0 1 0")]
    ⟨⟨_, rfl, (C92_text _ _).1 pad_loads⟩, ⟨[], _, _, rfl, rfl, fun e he => ?_⟩, ?_, ?_, ?_, ?_⟩ (Nat.le_refl _)
  · cases List.mem_singleton.1 he
    decide
  · exact (geo_succeeds stepConfig.textureInfo _).1 (mapOut_isOk.2 fun e _ => buildEntity_real _ e)
  · intro e he _
    rw [List.mem_cons, List.mem_singleton] at he
    rcases he with rfl | rfl
    · exact ⟨_, rfl⟩
    · exact ⟨str! "lamp", by decide⟩
  · intro e he _ _ k hk s hs
    exfalso
    simp only [List.mem_cons, List.not_mem_nil, or_false] at he hk
    rcases he with rfl | rfl <;> rcases hk with rfl | rfl <;> revert hs <;> simp [stepWorld, stepLamp]
  · apply no_loop_of_unique
    refine .cons (fun b hb id h => ?_) (.cons (fun b hb => by cases hb) .nil)
    cases h

/-- C134 from end to end: both maps load, and look and feel the same. -/
example : ∃ nodes nodes', Quarch.run 2 id stepConfig = .ok nodes ∧
    Quarch.run 2 id padConfig = .ok nodes' ∧
    ∀ x, (Drawn nodes' x ↔ Drawn nodes x) ∧ (InSolid nodes' x ↔ InSolid nodes x) := by
  obtain ⟨nodes, h⟩ := step_run
  obtain ⟨nodes', h'⟩ := pad_run
  exact ⟨nodes, nodes', h, h', fun x =>
    ⟨C134_picture 2 2 id id (fun _ => .refl _) (fun _ => .refl _) stepConfig padConfig rfl rfl rfl nodes nodes' h h' stepMap padMap
      step_config pad_config _ _ step_loads pad_loads pad_padded x,
    C134_convex 2 2 id id (fun _ => .refl _) (fun _ => .refl _) stepConfig padConfig rfl rfl nodes nodes' h h' stepMap padMap
      step_config pad_config _ _ step_loads pad_loads pad_padded x⟩⟩

end
end Quarch
