import Verif.Props.Log
import Verif.Props.TreeExamples
/-
C94 on a concrete map: the lines of its load, and of loads that fail at each stage.
-/
namespace Quarch
open Spec Output Scene
attribute [local instance] refPlatform intArith

theorem scene_load : ∃ nodes, runFile 2 id (some (utf8Bytes sceneMap)) sceneConfig = .ok nodes := by
  obtain ⟨s, _, c, a, l1, l2, a1, a2, h, _⟩ := scene_nodes 0
  refine ⟨_, Eq.trans ?_ h⟩
  unfold runFile
  rw [(C76_utf8_only _ sceneMap).2 rfl]
  rfl

/-- The lines of the load of the example map. -/
theorem scene_printed : (runLog plainStyle 2 id (some (utf8Bytes sceneMap)) sceneConfig).1 = opening (str! "1") ++
    [.out (str! "Visual type: Mesh"), .err (str! "Failed to get forge entity for classname Some(\"worldspawn\")"),
     .out (str! "No entity definition for classname \"group\""),
     .out (str! "No entity definition for classname \"group\""),
     .out (str! "No entity definition for classname \"door\""),
     .out (str! "No entity definition for classname \"door\""),
     .err (str! "Failed to get forge entity for classname Some(\"door\")"),
     .err (str! "Failed to get forge entity for classname Some(\"group\")")] := by
  obtain ⟨paths, hp⟩ := scene_parse
  obtain ⟨nodes, h⟩ := scene_load
  have hr : Scene.run 2 sceneConfig.quarchitectGameData sceneConfig.forgeGameData sceneConfig.textureBlacklist sceneData
      (id [(str! "*water0", []), (str! "*slime0", [])]) = .ok nodes := by
    rw [← scene_run, ← h]
    unfold runFile
    rw [(C76_utf8_only _ sceneMap).2 rfl]
    rfl
  have h1 := (C76_utf8_only (some (utf8Bytes sceneMap)) sceneMap).2 rfl
  have ht : sceneConfig.textureInfo = exampleTextures := rfl
  have h2 : Tokenizer.run Platform.bareCR sceneMap = .ok sceneTokens := scene_tokens
  have h4 : Geo.run sceneConfig.textureInfo sceneEntities = .ok sceneGeo := by rw [ht]; exact scene_geo
  have hl := run_lines (style := plainStyle) (depth := 2) (order := id) h1 h2 hp h4 scene_layers
  have h5 : (layerFilterLog (sceneEntities.zip sceneGeo)).1 = _ :=
    layerFilterLog_lines (w := sceneWorld) (g := ⟨⟨1, 1, 1⟩, [sceneBoxGeo]⟩) (List.mem_cons_self ..) rfl scene_layers
  have ht : sceneData.take 1 = [(sceneWorld, ⟨⟨1, 1, 1⟩, [sceneBoxGeo]⟩)] := rfl
  have hcount : [sceneBoxGeo].countP (fun b => ¬ AllFaces (str! "*water0") b ∧ ¬ AllFaces (str! "*slime0") b) = 1 := by
    decide
  have hone : showNat 1 = str! "1" := by rw [showNat]; rfl
  obtain ⟨_, _, _, _, hw, _⟩ := scene_world 1
  have h6 : (entityVisualLog plainStyle sceneConfig.quarchitectGameData sceneConfig.textureBlacklist sceneWorld
      ⟨⟨1, 1, 1⟩, [sceneBoxGeo]⟩).1 = [.out (str! "Visual type: Mesh")] := rfl
  have h7 : (entityCollisionLog plainStyle sceneConfig.quarchitectGameData sceneWorld
      ⟨⟨1, 1, 1⟩, [sceneBoxGeo]⟩).1 = [] := rfl
  have h8 : members sceneData sceneWorld = [] := rfl
  have h9 : (entityPropertiesLog plainStyle sceneConfig.forgeGameData sceneWorld).1 =
      [.err (str! "Failed to get forge entity for classname Some(\"worldspawn\")")] := rfl
  rw [hl, h5, scene_lines hr, ht, hcount, hone]
  simp only [List.map_cons, List.map_nil, List.flatten_cons, List.flatten_nil, List.append_nil]
  rw [build_lines hw, h6, h7, h8, h9]
  rfl

-- C94_printed: a load that succeeds
theorem scene_logged : ∃ lines nodes, runLog plainStyle 2 id (some (utf8Bytes sceneMap)) sceneConfig = (lines, .ok nodes) := by
  obtain ⟨nodes, h⟩ := scene_load
  exact ⟨_, nodes, Prod.ext rfl (by rw [C94_same_result]; exact h)⟩

-- C94_warned_iff, C94_unknown_iff: the door has no definition and is reached
example : MapIs sceneMap sceneEntities ∧ (∀ d ∈ sceneConfig.quarchitectGameData.entities, d.classname ≠ str! "door") ∧
    ∃ e ∈ sceneEntities, Anchored sceneEntities e ∧ e.properties (str! "classname") = some (str! "door") := by
  obtain ⟨paths, hp⟩ := scene_parse
  refine ⟨(C92_text _ _).1 ⟨_, _, scene_tokens, hp⟩, by decide, _, List.mem_cons_of_mem _ (List.mem_cons_of_mem _
    (List.mem_cons_self ..)), .under (p := pointEntity Int [(str! "classname", str! "group"), (str! "_tb_id", str! "1"),
      (str! "origin", str! "5 6 7")]) (by simp [sceneEntities]) ⟨rfl, rfl⟩ (.top rfl), rfl⟩

-- C94_stages: no file; a property line with two quotes; an entity that is not closed; a map without a worldspawn
example : (runLog plainStyle 2 id none sceneConfig).1 = (opening []).take 2 := rfl

example : (runLog plainStyle 2 id (some (utf8Bytes (textOf [⟨str! "\"a\"", false⟩] []))) sceneConfig).1 =
    (opening []).take 3 :=
  ((C94_stages plainStyle 2 id _ sceneConfig).2 [⟨str! "\"a\"", false⟩] [] (by simp [Line.WF]) (by decide) rfl).1
    ⟨str! "\"a\"", by decide, by decide, by decide⟩

example : (runLog plainStyle 2 id (some (utf8Bytes (textOf [⟨str! "}", false⟩] []))) sceneConfig).1 =
    (opening []).take 4 := by
  refine ((C94_stages plainStyle 2 id _ sceneConfig).2 [⟨str! "}", false⟩] [] (by simp [Line.WF]) (by decide) rfl).2.1
    (by decide) ?_
  rintro ⟨entities, h⟩
  obtain ⟨tokens, paths, h1, h2⟩ := (C92_text _ _).2 h
  cases h1
  cases h2

example : (runLog plainStyle 2 id (some (utf8Bytes (textOf [] []))) sceneConfig).1 = (opening []).take 5 := by
  refine (((C94_stages plainStyle 2 id _ sceneConfig).2 [] [] (by simp) (by decide) rfl).2.2 [] ?_).1
    (.inr (by decide))
  exact (C92_text _ _).1 ⟨_, _, rfl, rfl⟩

end Quarch
