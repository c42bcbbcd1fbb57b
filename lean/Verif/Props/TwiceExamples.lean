import Verif.Props.Twice
import Verif.Props.PaddedExamples
/-
The map with the unit cube, and the same with the face at x = 1 written twice, for C135.
-/
set_option linter.unusedSectionVars false
namespace Quarch
open Spec Scene Geo

section
attribute [local instance] refPlatform stepText

/-- The unit cube with the face at x = 1 written twice, and a lamp. -/
def twinMap : Str :=
  str! "{\n\"classname\" \"worldspawn\"\n{\n( 1 0 0 ) ( 1 0 1 ) ( 1 1 0 ) brick [ 0 1 0 0 ] [ 0 0 1 0 ] 0 0.015625 0.015625\n( 0 0 0 ) ( 0 1 0 ) ( 0 0 1 ) brick [ 0 1 0 0 ] [ 0 0 1 0 ] 0 0.015625 0.015625\n( 0 1 0 ) ( 1 1 0 ) ( 0 1 1 ) brick [ 0 1 0 0 ] [ 0 0 1 0 ] 0 0.015625 0.015625\n( 0 0 0 ) ( 0 0 1 ) ( 1 0 0 ) brick [ 0 1 0 0 ] [ 0 0 1 0 ] 0 0.015625 0.015625\n( 0 0 1 ) ( 0 1 1 ) ( 1 0 1 ) brick [ 0 1 0 0 ] [ 0 0 1 0 ] 0 0.015625 0.015625\n( 0 0 0 ) ( 1 0 0 ) ( 0 1 0 ) brick [ 0 1 0 0 ] [ 0 0 1 0 ] 0 0.015625 0.015625\n( 1 0 0 ) ( 1 0 1 ) ( 1 1 0 ) brick [ 0 1 0 0 ] [ 0 0 1 0 ] 0 0.015625 0.015625\n}\n}\n{\n\"classname\" \"lamp\"\n\"origin\" \"0 1 0\"\n}\n"

def twinTokens : List Token :=
  [.openBrace, .property (str! "classname") (str! "worldspawn"), .openBrace,
    .brushPlane (cubeLine (str! "1 0 0") (str! "1 0 1") (str! "1 1 0")),
    .brushPlane (cubeLine (str! "0 0 0") (str! "0 1 0") (str! "0 0 1")),
    .brushPlane (cubeLine (str! "0 1 0") (str! "1 1 0") (str! "0 1 1")),
    .brushPlane (cubeLine (str! "0 0 0") (str! "0 0 1") (str! "1 0 0")),
    .brushPlane (cubeLine (str! "0 0 1") (str! "0 1 1") (str! "1 0 1")),
    .brushPlane (cubeLine (str! "0 0 0") (str! "1 0 0") (str! "0 1 0")),
    .brushPlane (cubeLine (str! "1 0 0") (str! "1 0 1") (str! "1 1 0")),
    .closeBrace, .closeBrace, .openBrace, .property (str! "classname") (str! "lamp"),
    .property (str! "origin") (str! "0 1 0"), .closeBrace]

set_option maxRecDepth 100000 in
theorem twin_tokens : Tokenizer.run (Platform.bareCR) twinMap = .ok twinTokens := by decide

set_option maxRecDepth 100000 in
theorem twin_parse : ∃ paths, Parser.run (F := ℝ) twinTokens =
    .ok (paths, [stepWorld (Cube.planes ++ [Cube.xp]), stepLamp (str! "0 1 0")]) := ⟨_, rfl⟩

theorem twin_loads : LoadsAs twinMap [stepWorld (Cube.planes ++ [Cube.xp]), stepLamp (str! "0 1 0")] := by
  obtain ⟨paths, h⟩ := twin_parse
  exact ⟨_, _, twin_tokens, h⟩

theorem twin_twice : List.Forall₂ Twice [stepWorld Cube.planes, stepLamp (str! "0 1 0")]
    [stepWorld (Cube.planes ++ [Cube.xp]), stepLamp (str! "0 1 0")] := by
  refine .cons ⟨rfl, .cons ⟨fun p hp => ⟨p, List.mem_append_left _ hp, ⟨rfl, rfl, rfl⟩, rfl⟩, fun p hp => ⟨p, ?_, ⟨rfl, rfl, rfl⟩, rfl⟩⟩ .nil⟩
    (.cons ⟨rfl, .nil⟩ .nil)
  rcases List.mem_append.1 hp with hp | hp
  · exact hp
  · rw [List.mem_singleton.1 hp]
    simp [Cube.planes]

theorem twin_proper : ∀ e ∈ [stepWorld Cube.planes, stepLamp (str! "0 1 0")],
    Anchored [stepWorld Cube.planes, stepLamp (str! "0 1 0")] e → ∀ br ∈ e.brushes, ProperBrush br.planes := by
  intro e he _ br hbr
  rw [List.mem_cons, List.mem_singleton] at he
  rcases he with rfl | rfl
  · cases List.mem_singleton.1 hbr
    exact Cube.proper
  · exact absurd hbr (by simp [stepLamp])

noncomputable def twinConfig : Config ℝ := { stepConfig with mapFile := some twinMap }

theorem twin_config : twinConfig.mapFile = some twinMap := rfl

theorem twin_run : ∃ nodes, Quarch.run 2 id twinConfig = .ok nodes := by
  refine C92_enough 2 id (fun _ => .refl _) twinConfig [stepWorld (Cube.planes ++ [Cube.xp]), stepLamp (str! "0 1 0")]
    ⟨⟨_, rfl, (C92_text _ _).1 twin_loads⟩, ⟨[], _, _, rfl, rfl, fun e he => ?_⟩, ?_, ?_, ?_, ?_⟩ (Nat.le_refl _)
  · cases List.mem_singleton.1 he
    decide
  · exact (geo_succeeds stepConfig.textureInfo _).1 (mapOut_isOk.2 fun e _ => buildEntity_real _ e)
  · intro e he _
    rw [List.mem_cons, List.mem_singleton] at he
    rcases he with rfl | rfl
    · exact ⟨_, rfl⟩
    · exact ⟨str! "lamp", by decide⟩
  · intro e he _ _ k hk s hs
    exfalso
    simp only [List.mem_cons, List.not_mem_nil, or_false] at he hk
    rcases he with rfl | rfl <;> rcases hk with rfl | rfl <;> revert hs <;> simp [stepWorld, stepLamp]
  · apply no_loop_of_unique
    refine .cons (fun b hb id h => ?_) (.cons (fun b hb => by cases hb) .nil)
    cases h

/-- C135 from end to end: both maps load, and look and feel the same. -/
example : ∃ nodes nodes', Quarch.run 2 id stepConfig = .ok nodes ∧ Quarch.run 2 id twinConfig = .ok nodes' ∧
    ∀ x, (Drawn nodes' x ↔ Drawn nodes x) ∧ (InSolid nodes' x ↔ InSolid nodes x) := by
  obtain ⟨nodes, h⟩ := step_run
  obtain ⟨nodes', h'⟩ := twin_run
  exact ⟨nodes, nodes', h, h', fun x =>
    ⟨C135_picture 2 2 id id (fun _ => .refl _) (fun _ => .refl _) stepConfig twinConfig rfl rfl rfl nodes nodes' h h' stepMap
      twinMap step_config twin_config _ _ step_loads twin_loads twin_twice twin_proper x,
    (C135_solid 2 2 id id (fun _ => .refl _) (fun _ => .refl _) stepConfig twinConfig rfl rfl nodes nodes' h h' stepMap twinMap
      step_config twin_config _ _ step_loads twin_loads twin_twice twin_proper x).1⟩⟩

/-- The centre of the brush: seven times the new one is six times the old one and the centre of the face. -/
example (textures : TextureInfo) (entity : Entity ℝ) : ∃ face geo geo',
    buildPlane textures entity (Cube.planes ++ []) Cube.xp = .ok face ∧
    buildBrush textures entity ⟨Cube.planes ++ []⟩ = .ok geo ∧ buildBrush textures entity ⟨Cube.planes ++ [Cube.xp]⟩ = .ok geo' ∧
    smulR 7 geo'.center = addR (smulR 6 geo.center) face.center := by
  obtain ⟨face, hf⟩ := buildPlane_real textures entity (Cube.planes ++ []) Cube.xp
  obtain ⟨geo, h⟩ := buildBrush_real textures entity ⟨Cube.planes ++ []⟩
  obtain ⟨geo', h'⟩ := buildBrush_real textures entity ⟨Cube.planes ++ [Cube.xp]⟩
  refine ⟨face, geo, geo', hf, h, h', ?_⟩
  have := C135_center textures entity Cube.planes [] Cube.xp Cube.xp (by simp [Cube.planes]) ⟨rfl, rfl, rfl⟩ face hf geo geo' h h'
  have e : ((Cube.planes.length : ℝ) + (([] : List (BrushPlane ℝ)).length : ℝ)) = 6 := by
    simp [Cube.planes]
  rw [e] at this
  norm_num at this
  exact this

end
end Quarch
