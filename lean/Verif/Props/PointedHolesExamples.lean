import Verif.Props.PointedHoles
import Verif.Props.PointedExamples
/-
C127 and C128: examples with a pyramid, four of whose faces meet at the top.
-/
namespace Quarch
open Quarch.Spec Quarch.Spec.F32 Quarch.Geo Scene

section
attribute [local instance] wholeLib refPlatform
local instance : AccurateAtan2 := wholeLib_accurate

/-- The pyramid has a mesh, with a triangle near the middle of a slanted face, and it has no holes; it faces outwards. -/
example : ∃ nodes, Quarch.run 1 id (pyramidConfig .concave) = .ok nodes ∧
    (∃ x, Drawn32 nodes x ∧ Close (1 / 2000) x ⟨4, -6, 2⟩) ∧
    (∀ a b, DrawnSide vec nodes a b → ∃ a' b', DrawnSide vec nodes b' a' ∧ Close (1 / 1000) a' a ∧ Close (1 / 1000) b' b) ∧
    (∀ a b, SolidSide vec nodes a b → ∃ a' b', SolidSide vec nodes b' a' ∧ Close (1 / 1000) a' a ∧ Close (1 / 1000) b' b) ∧
    ∀ o v s a b c, Occurs (.visual o v) nodes → s ∈ surfaces v → TriangleOf s.vertices s.indices a b c →
      ¬ Close (1 / 1000) (vec a) (vec b) → ¬ Close (1 / 1000) (vec a) (vec c) → ¬ Close (1 / 1000) (vec b) (vec c) →
      ∃ p ∈ pyramid.map singleFace, FacesTo (triOf p).normal (vec a) (vec b) (vec c) := by
  obtain ⟨nodes, hn, h⟩ := C125_loads 1 id (fun _ => .refl _) (pyramidConfig .concave) pyramidMap rfl [pyramidEntity]
    ((C92_text _ _).1 pyramid_loads) pyramid_isPointed pyramid_world pyramid_named pyramid_ids pyramid_tree (by simp)
  obtain ⟨h1, h2⟩ := h pyramid_anchored (pyramid_shown _)
  obtain ⟨nodes', hn', h3, h4⟩ := C127_pointed_loads 1 id (fun _ => .refl _) (pyramidConfig .concave) pyramidMap rfl
    [pyramidEntity] ((C92_text _ _).1 pyramid_loads) pyramid_isPointed pyramid_world pyramid_named pyramid_ids pyramid_tree (by simp)
  rw [hn] at hn'; cases hn'
  refine ⟨nodes, hn, h2 _ ⟨_, List.mem_singleton.2 rfl, _, List.mem_singleton.2 rfl, ?_⟩, h3 (pyramid_shown _), h4,
    fun o v s a b c hocc hs hT n1 n2 n3 => ?_⟩
  · refine (border_pyramid _).2 ⟨(in_pyramid _).2 ?_, ?_⟩ <;> norm_num
  · obtain ⟨e, he, -, br, hbr, p, hp, -, x, y, z, -, -, -, -, hor⟩ := C128_drawn_pointed 1 id (fun _ => .refl _) (pyramidConfig .concave) nodes hn
      pyramidMap rfl [pyramidEntity] pyramid_loads (fun e he _ br hbr p _ _ => pyramid_isPointed e he br hbr) o v s a b c hocc hs hT
    cases List.mem_singleton.1 he
    cases List.mem_singleton.1 hbr
    exact ⟨p, hp, ((hor.resolve_left n1).resolve_left n2).resolve_left n3 |>.1⟩

end
end Quarch
