import Verif.Props.Size
import Verif.Props.GeoSize
import Verif.Props.TreeExamples
/-
Example for C131.
-/
namespace Quarch
open Spec Scene

attribute [local instance] refPlatform intArith

-- C131: the map with a cube, a group and a door: unique ids, five actors, nine nodes
example : LoadsAs sceneMap sceneEntities ∧ UniqueIds sceneEntities ∧ sceneEntities.length = 3 ∧
    ∃ nodes, Quarch.run 2 id sceneConfig = .ok nodes ∧ (actorsOf nodes).length = 5 ∧ nodeCounts nodes = 9 := by
  obtain ⟨paths, hp⟩ := scene_parse
  refine ⟨⟨_, _, scene_tokens, hp⟩, ?_, rfl, ?_⟩
  · unfold UniqueIds sceneEntities
    simp only [List.pairwise_cons, List.mem_cons, List.not_mem_nil, or_false, forall_eq_or_imp, forall_eq,
      false_imp_iff, implies_true, List.Pairwise.nil, and_true]
    refine ⟨⟨fun id h => ?_, fun id h => ?_⟩, fun id h => ?_⟩
    · cases h
    · cases h
    · exact fun h' => nomatch h'
  · obtain ⟨s, _, c, a, l1, l2, a1, a2, h, _⟩ := scene_nodes 0
    refine ⟨_, h, rfl, ?_⟩
    simp [nodeCounts, nodeCount]

-- C131: the cube of that map has six planes, hence 216; the scene has at least its 24 vertices
example : planeCubes sceneEntities = 216 ∧ ∃ nodes, Quarch.run 2 id sceneConfig = .ok nodes ∧
    24 ≤ tallies visualVertices collisionVertices nodes := by
  obtain ⟨s, hs, c, a, l1, l2, a1, a2, h, _⟩ := scene_nodes 0
  refine ⟨rfl, _, h, ?_⟩
  simp [tallies, tally, visualVertices, collisionVertices, hs]

-- C131: twenty levels, 41 entities, more than two million actors
example : (doubling 20).length ≤ 44100 ∧ ∃ entities : List (Entity Int), LoadsAs (doubling 20) entities ∧
    entities.length = 41 ∧ ∀ config : Config Int, config.mapFile = some (doubling 20) →
      ∃ nodes, Quarch.run 41 id config = .ok nodes ∧ 2097151 ≤ (actorsOf nodes).length := by
  obtain ⟨h1, es, h2, h3, _, _, h4⟩ := C131_exponential (F := Int) 20
  exact ⟨h1, es, h2, h3, fun config hm => h4 41 id config (fun _ => .refl _) hm (by decide)⟩

end Quarch
