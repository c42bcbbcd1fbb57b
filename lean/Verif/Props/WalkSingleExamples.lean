import Verif.Props.WalkSingle
import Verif.Props.PointedExamples
/-
A walk into a pyramid, for C145.
-/
set_option linter.unusedSectionVars false
namespace Quarch
open Quarch.Spec Quarch.Spec.F32 Quarch.Geo Scene

section
attribute [local instance] wholeLib wholeLib_accurate refPlatform

/-- C145 from end to end: the map with the pyramid loads, there are points in its shape, the shape is far from a point above it,
and the walk from there into the shape comes near something that is drawn. -/
example : ∃ nodes, Quarch.run 1 id (pyramidConfig .convex) = .ok nodes ∧
    ∃ b, InSolid32 nodes b ∧ (∀ x, Close (1 / 2000) x ⟨0, 0, 20⟩ → ¬ InSolid32 nodes x) ∧
      ∃ t ∈ Set.Icc (0 : ℝ) 1, ∃ x, Drawn32 nodes x ∧ Close (1 / 1000) x (straight ⟨0, 0, 20⟩ b t) := by
  obtain ⟨nodes, hn, _⟩ := C125_solid_loads 1 id (fun _ => .refl _) (pyramidConfig .convex) pyramidMap rfl [pyramidEntity]
    ((C92_text _ _).1 pyramid_loads) pyramid_isPointed pyramid_world pyramid_named pyramid_ids pyramid_tree (by simp)
  obtain ⟨f1, f2⟩ := C125_filled 1 id (fun _ => .refl _) (pyramidConfig .convex) nodes hn pyramidMap rfl [pyramidEntity]
    pyramid_loads fun e he _ => pyramid_isPointed e he
  obtain ⟨b, hb, _⟩ := f2 ⟨0, 0, 0⟩ ⟨pyramidEntity, by simp, pyramid_anchored _ (by simp), ⟨pyramid.map singleFace⟩,
    List.mem_singleton.2 rfl, pyramid_solid .convex _ (by simp) _ (List.mem_singleton.2 rfl), (in_pyramid _).2 (by norm_num)⟩
  have far : ∀ x, Close (1 / 2000) x ⟨0, 0, 20⟩ → ¬ InSolid32 nodes x := by
    intro x hx hs
    obtain ⟨y, ⟨e, he, _, br, hbr, _, hy⟩, hc⟩ := f1 x hs
    cases List.mem_singleton.1 he
    cases List.mem_singleton.1 hbr
    obtain ⟨_, h1, h2, _⟩ := (in_pyramid y).1 hy
    have k1 := abs_le.1 hx.2.2
    have k2 := abs_le.1 hc.2.2
    simp only at k1
    linarith [k1.1, k2.2]
  refine ⟨nodes, hn, b, hb, far, C145_drawn 1 id (fun _ => .refl _) (pyramidConfig .convex) nodes hn pyramidMap rfl
    [pyramidEntity] pyramid_loads (fun e he _ => pyramid_isPointed e he) ⟨fun d hd pd bd h _ => ?_, fun l hl => by cases hl⟩
    (fun _ _ _ _ _ _ _ _ _ _ => ⟨List.not_mem_nil, List.not_mem_nil⟩) _ (straight_walk _ _) (.inl ⟨?_, ?_⟩)⟩
  · cases List.mem_singleton.1 hd
    cases h; rfl
  · rw [straight_start]; exact far
  · rw [straight_end]; exact hb

/-- C145 with concave collision: whoever falls into the pyramid comes near a triangle of its shape. -/
example : ∃ nodes, Quarch.run 1 id (pyramidConfig .concave) = .ok nodes ∧
    ∃ t ∈ Set.Icc (0 : ℝ) 1, ∃ x, OnSolid32 nodes x ∧ Close (1 / 2000) x (straight ⟨0, 0, 20⟩ ⟨0, 0, 0⟩ t) := by
  obtain ⟨nodes, hn, _⟩ := C125_solid_loads 1 id (fun _ => .refl _) (pyramidConfig .concave) pyramidMap rfl [pyramidEntity]
    ((C92_text _ _).1 pyramid_loads) pyramid_isPointed pyramid_world pyramid_named pyramid_ids pyramid_tree (by simp)
  refine ⟨nodes, hn, C145_concave 1 id (fun _ => .refl _) (pyramidConfig .concave) nodes hn pyramidMap rfl
    [pyramidEntity] pyramid_loads (fun e he _ => pyramid_isPointed e he) pyramidEntity (by simp) (pyramid_anchored _ (by simp))
    ⟨pyramid.map singleFace⟩ (List.mem_singleton.2 rfl) (pyramid_solid .concave _ (by simp) _ (List.mem_singleton.2 rfl)) _
    (straight_walk _ _) fun hh => ?_⟩
  rw [straight_start, straight_end] at hh
  have := (in_pyramid _).1 (hh.2 ((in_pyramid _).2 (by norm_num)))
  norm_num at this

end
end Quarch
