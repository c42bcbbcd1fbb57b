import Verif.Props.Few
import Verif.Props.TwiceExamples
/-
A map with the unit cube and a brush with only three faces, and one with the latter only, for C138.
-/
set_option linter.unusedSectionVars false
namespace Quarch
open Spec Scene Geo

section
attribute [local instance] refPlatform stepText

/-- The faces of the cube at x = 1, y = 1 and z = 1. -/
noncomputable def nookFaces : List (BrushPlane ℝ) := [Cube.xp, Cube.yp, Cube.zp]

theorem nook_few : AtMostThree nookFaces := by
  refine ⟨Cube.xp, Cube.yp, Cube.zp, fun p hp => ?_⟩
  simp only [nookFaces, List.mem_cons, List.not_mem_nil, or_false] at hp
  rcases hp with rfl | rfl | rfl
  · exact .inl ⟨rfl, rfl, rfl⟩
  · exact .inr (.inl ⟨rfl, rfl, rfl⟩)
  · exact .inr (.inr ⟨rfl, rfl, rfl⟩)

/-- Its face at x = 1 is built, without a triangle. -/
example (textures : TextureInfo) (entity : Entity ℝ) : ∃ geo, buildPlane textures entity nookFaces Cube.xp = .ok geo ∧
    geo.vertices.length ≤ 1 ∧ geo.indices = [] := by
  obtain ⟨geo, h⟩ := buildPlane_real textures entity nookFaces Cube.xp
  exact ⟨geo, h, C138_face textures entity nookFaces nook_few Cube.xp (by simp [nookFaces]) geo h⟩

def nookMap : Str :=
  str! "{\n\"classname\" \"worldspawn\"\n{\n( 1 0 0 ) ( 1 0 1 ) ( 1 1 0 ) brick [ 0 1 0 0 ] [ 0 0 1 0 ] 0 0.015625 0.015625\n( 0 0 0 ) ( 0 1 0 ) ( 0 0 1 ) brick [ 0 1 0 0 ] [ 0 0 1 0 ] 0 0.015625 0.015625\n( 0 1 0 ) ( 1 1 0 ) ( 0 1 1 ) brick [ 0 1 0 0 ] [ 0 0 1 0 ] 0 0.015625 0.015625\n( 0 0 0 ) ( 0 0 1 ) ( 1 0 0 ) brick [ 0 1 0 0 ] [ 0 0 1 0 ] 0 0.015625 0.015625\n( 0 0 1 ) ( 0 1 1 ) ( 1 0 1 ) brick [ 0 1 0 0 ] [ 0 0 1 0 ] 0 0.015625 0.015625\n( 0 0 0 ) ( 1 0 0 ) ( 0 1 0 ) brick [ 0 1 0 0 ] [ 0 0 1 0 ] 0 0.015625 0.015625\n}\n{\n( 1 0 0 ) ( 1 0 1 ) ( 1 1 0 ) brick [ 0 1 0 0 ] [ 0 0 1 0 ] 0 0.015625 0.015625\n( 0 1 0 ) ( 1 1 0 ) ( 0 1 1 ) brick [ 0 1 0 0 ] [ 0 0 1 0 ] 0 0.015625 0.015625\n( 0 0 1 ) ( 0 1 1 ) ( 1 0 1 ) brick [ 0 1 0 0 ] [ 0 0 1 0 ] 0 0.015625 0.015625\n}\n}\n"

def nookTokens : List Token :=
  [.openBrace, .property (str! "classname") (str! "worldspawn"),
    .openBrace,
    .brushPlane (cubeLine (str! "1 0 0") (str! "1 0 1") (str! "1 1 0")),
    .brushPlane (cubeLine (str! "0 0 0") (str! "0 1 0") (str! "0 0 1")),
    .brushPlane (cubeLine (str! "0 1 0") (str! "1 1 0") (str! "0 1 1")),
    .brushPlane (cubeLine (str! "0 0 0") (str! "0 0 1") (str! "1 0 0")),
    .brushPlane (cubeLine (str! "0 0 1") (str! "0 1 1") (str! "1 0 1")),
    .brushPlane (cubeLine (str! "0 0 0") (str! "1 0 0") (str! "0 1 0")),
    .closeBrace,
    .openBrace,
    .brushPlane (cubeLine (str! "1 0 0") (str! "1 0 1") (str! "1 1 0")),
    .brushPlane (cubeLine (str! "0 1 0") (str! "1 1 0") (str! "0 1 1")),
    .brushPlane (cubeLine (str! "0 0 1") (str! "0 1 1") (str! "1 0 1")),
    .closeBrace,
    .closeBrace]

set_option maxRecDepth 100000 in
theorem nook_tokens : Tokenizer.run (Platform.bareCR) nookMap = .ok nookTokens := by decide

noncomputable def nookWorld : Entity ℝ := { stepWorld Cube.planes with brushes := [⟨Cube.planes⟩, ⟨nookFaces⟩] }

set_option maxRecDepth 100000 in
theorem nook_parse : ∃ paths, Parser.run (F := ℝ) nookTokens = .ok (paths, [nookWorld]) := ⟨_, rfl⟩

theorem nook_loads : LoadsAs nookMap [nookWorld] := by
  obtain ⟨paths, h⟩ := nook_parse
  exact ⟨_, _, nook_tokens, h⟩

noncomputable def nookConfig : Config ℝ := { stepConfig with mapFile := some nookMap }

theorem nook_config : nookConfig.mapFile = some nookMap := rfl

theorem nook_run : ∃ nodes, Quarch.run 1 id nookConfig = .ok nodes := by
  refine C92_enough 1 id (fun _ => .refl _) nookConfig [nookWorld]
    ⟨⟨_, rfl, (C92_text _ _).1 nook_loads⟩, ⟨[], _, [], rfl, rfl, fun e he => by simp at he⟩, ?_, ?_, ?_, ?_⟩ (Nat.le_refl _)
  · exact (geo_succeeds stepConfig.textureInfo _).1 (mapOut_isOk.2 fun e _ => buildEntity_real _ e)
  · intro e he _
    cases List.mem_singleton.1 he
    exact ⟨_, rfl⟩
  · intro e he _ _ k hk s hs
    exfalso
    simp only [List.mem_cons, List.not_mem_nil, or_false] at he hk
    subst he
    rcases hk with rfl | rfl <;> revert hs <;> simp [nookWorld, stepWorld]
  · apply no_loop_of_unique
    exact .cons (fun b hb => by cases hb) .nil

theorem nook_brushes : ∀ e ∈ [nookWorld], Anchored [nookWorld] e → ∀ br ∈ e.brushes,
    AtMostThree br.planes ∨ ProperBrush br.planes := by
  intro e he _ br hbr
  cases List.mem_singleton.1 he
  simp only [nookWorld, List.mem_cons, List.not_mem_nil, or_false] at hbr
  rcases hbr with rfl | rfl
  · exact .inr Cube.proper
  · exact .inl nook_few

/-- C138 from end to end: the map with the cube and the brush with three faces loads, and only the cube is drawn, though the
other brush contains for example all points with negative coordinates. -/
example : ∃ nodes, Quarch.run 1 id nookConfig = .ok nodes ∧ ∀ x, Drawn nodes x → ∀ p ∈ Cube.planes, WithinR 0 p x := by
  obtain ⟨nodes, h⟩ := nook_run
  refine ⟨nodes, h, fun x hx => ?_⟩
  obtain ⟨e, he, _, br, hbr, hn, p, _, _, _, hf⟩ := (C138_picture 1 id (fun _ => .refl _) nookConfig nodes h nookMap
    nook_config [nookWorld] nook_loads nook_brushes x).1 hx
  cases List.mem_singleton.1 he
  simp only [nookWorld, List.mem_cons, List.not_mem_nil, or_false] at hbr
  rcases hbr with rfl | rfl
  · exact hf.2
  · exact absurd nook_few hn

def cornerOnlyMap : Str :=
  str! "{\n\"classname\" \"worldspawn\"\n{\n( 1 0 0 ) ( 1 0 1 ) ( 1 1 0 ) brick [ 0 1 0 0 ] [ 0 0 1 0 ] 0 0.015625 0.015625\n( 0 1 0 ) ( 1 1 0 ) ( 0 1 1 ) brick [ 0 1 0 0 ] [ 0 0 1 0 ] 0 0.015625 0.015625\n( 0 0 1 ) ( 0 1 1 ) ( 1 0 1 ) brick [ 0 1 0 0 ] [ 0 0 1 0 ] 0 0.015625 0.015625\n}\n}\n"

def cornerOnlyTokens : List Token :=
  [.openBrace, .property (str! "classname") (str! "worldspawn"),
    .openBrace,
    .brushPlane (cubeLine (str! "1 0 0") (str! "1 0 1") (str! "1 1 0")),
    .brushPlane (cubeLine (str! "0 1 0") (str! "1 1 0") (str! "0 1 1")),
    .brushPlane (cubeLine (str! "0 0 1") (str! "0 1 1") (str! "1 0 1")),
    .closeBrace,
    .closeBrace]

set_option maxRecDepth 100000 in
theorem cornerOnly_tokens : Tokenizer.run (Platform.bareCR) cornerOnlyMap = .ok cornerOnlyTokens := by decide

noncomputable def cornerOnlyWorld : Entity ℝ := { stepWorld Cube.planes with brushes := [⟨nookFaces⟩] }

set_option maxRecDepth 100000 in
theorem cornerOnly_parse : ∃ paths, Parser.run (F := ℝ) cornerOnlyTokens = .ok (paths, [cornerOnlyWorld]) := ⟨_, rfl⟩

theorem cornerOnly_loads : LoadsAs cornerOnlyMap [cornerOnlyWorld] := by
  obtain ⟨paths, h⟩ := cornerOnly_parse
  exact ⟨_, _, cornerOnly_tokens, h⟩

noncomputable def cornerOnlyConfig : Config ℝ := { stepConfig with mapFile := some cornerOnlyMap }

theorem cornerOnly_config : cornerOnlyConfig.mapFile = some cornerOnlyMap := rfl

theorem cornerOnly_run : ∃ nodes, Quarch.run 1 id cornerOnlyConfig = .ok nodes := by
  refine C92_enough 1 id (fun _ => .refl _) cornerOnlyConfig [cornerOnlyWorld]
    ⟨⟨_, rfl, (C92_text _ _).1 cornerOnly_loads⟩, ⟨[], _, [], rfl, rfl, fun e he => by simp at he⟩, ?_, ?_, ?_, ?_⟩ (Nat.le_refl _)
  · exact (geo_succeeds stepConfig.textureInfo _).1 (mapOut_isOk.2 fun e _ => buildEntity_real _ e)
  · intro e he _
    cases List.mem_singleton.1 he
    exact ⟨_, rfl⟩
  · intro e he _ _ k hk s hs
    exfalso
    simp only [List.mem_cons, List.not_mem_nil, or_false] at he hk
    subst he
    rcases hk with rfl | rfl <;> revert hs <;> simp [cornerOnlyWorld, stepWorld]
  · apply no_loop_of_unique
    exact .cons (fun b hb => by cases hb) .nil

/-- With the brush with three faces alone, every convex shape has at most one point. -/
example : ∃ nodes, Quarch.run 1 id cornerOnlyConfig = .ok nodes ∧ ∀ o shapes, Occurs (.collision o (.convex shapes)) nodes →
    ∀ shape ∈ shapes, shape.points.length ≤ 1 := by
  obtain ⟨nodes, h⟩ := cornerOnly_run
  refine ⟨nodes, h, fun o shapes hocc shape hs => C138_convex 1 id (fun _ => .refl _) cornerOnlyConfig nodes h cornerOnlyMap cornerOnly_config
    [cornerOnlyWorld] cornerOnly_loads ?_ o shapes shape hocc hs⟩
  intro e he _ br hbr
  cases List.mem_singleton.1 he
  cases List.mem_singleton.1 hbr
  exact nook_few

end
end Quarch
