import Verif.Props.GeoSize
import Verif.Props.DrawnExamples
import Verif.Props.RenderedExamples
/-
Examples for C131: the cube in exact arithmetic, the bevelled block in single precision.
-/
namespace Quarch
open Spec Scene

section
attribute [local instance] refPlatform cubeText

-- C131: six planes, so at most 72 vertices and 216 indices
example : UniqueIds [cubeEntity] ∧ ∃ nodes, Quarch.run 1 id (cubeConfig ⟨[], []⟩ .concave) = .ok nodes ∧
    tallies visualVertices collisionVertices nodes ≤ 72 ∧ tallies visualIndices collisionIndices nodes ≤ 216 := by
  obtain ⟨nodes, h⟩ := cube_run ⟨[], []⟩ .concave
  refine ⟨List.pairwise_singleton _ _, nodes, h, ?_⟩
  refine C131_exact 1 id (fun _ => .refl _) _ cubeMap rfl [cubeEntity] cube_loads (List.pairwise_singleton _ _) ?_ nodes h
  intro e he
  cases List.mem_singleton.1 he
  exact cube_proper _ he (.world rfl)

end

section
attribute [local instance] wholeLib wholeLib_accurate refPlatform

-- C131 in single precision: seven planes, so at most 98 vertices
example : ∃ nodes, Quarch.run 1 id (bevelConfig .convex) = .ok nodes ∧
    tallies visualVertices collisionVertices nodes ≤ 98 := by
  obtain ⟨nodes, hn, _⟩ := C123_loads 1 id (fun _ => .refl _) (bevelConfig .convex) bevelMap rfl [bevelEntity]
    ((C92_text _ _).1 bevel_loads) bevel_isFirm bevel_world bevel_named bevel_ids bevel_tree (by simp)
  exact ⟨nodes, hn, (C131_single 1 id (fun _ => .refl _) _ bevelMap rfl [bevelEntity] bevel_loads
    (List.pairwise_singleton _ _) bevel_isFirm nodes hn).1⟩

end
end Quarch
