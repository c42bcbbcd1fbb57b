import Verif.Props.Holes
import Verif.Props.RenderedExamples
import Verif.Props.DrawnExamples
/-
Examples for C127: the cube in exact arithmetic and the bevelled block in single precision.
-/
set_option linter.unusedSectionVars false
namespace Quarch
open Quarch.Spec Quarch.Geo Scene Spec.F32 Spec.Box

section
attribute [local instance] refPlatform cubeText

theorem side_of_drawn {nodes : List (Node ℝ)} {x : V3 ℝ} (h : Drawn nodes x) : ∃ a b, DrawnSide id nodes a b := by
  obtain ⟨o, v, s, a, b, c, hocc, hs, hT, hx⟩ := h
  exact ⟨a, b, o, v, s, hocc, hs, listed_iff.2 ⟨a, b, c, hT, .inl ⟨rfl, rfl⟩⟩⟩

/-- The mesh of the cube has triangles, and with each side of a triangle the opposite one. -/
example : ∃ nodes, Quarch.run 1 id (cubeConfig ⟨[], []⟩) = .ok nodes ∧ (∃ a b, DrawnSide id nodes a b) ∧
    ∀ a b, DrawnSide id nodes a b → DrawnSide id nodes b a := by
  obtain ⟨nodes, h⟩ := cube_run ⟨[], []⟩
  have hshow : ∀ e ∈ [cubeEntity], ∀ br ∈ e.brushes, ∀ p ∈ br.planes, ShownFace (cubeConfig ⟨[], []⟩) e br p := by
    intro e he br hbr p hp
    cases List.mem_singleton.1 he
    cases List.mem_singleton.1 hbr
    exact (cube_shown _ p hp).2 ⟨by simp, by simp⟩
  have key := C87_everything 1 id (fun _ => .refl _) _ nodes h cubeMap rfl [cubeEntity] cube_loads
    (fun e he br hbr => by
      cases List.mem_singleton.1 he
      cases List.mem_singleton.1 hbr
      exact Cube.proper)
    (fun e he => by cases List.mem_singleton.1 he; exact .world rfl) hshow
  refine ⟨nodes, h, side_of_drawn (x := ⟨1 / 2, 1 / 3, 1⟩) ((key _).2 ⟨cubeEntity, by simp, ⟨Cube.planes⟩,
    List.mem_singleton.2 rfl, ?_, Cube.zp, by simp [Cube.planes], ?_⟩), ?_⟩
  · rw [Cube.inside]; norm_num
  · norm_num [OnPlane, Cube.face, Cube.zp, rawNormal, dotR, crossR, subR]
  · exact C127_drawn 1 id (fun _ => .refl _) _ nodes h cubeMap rfl [cubeEntity] cube_loads fun e he ha br hbr p hp _ =>
      ⟨cube_proper e he ha br hbr, hshow e he br hbr⟩

/-- The same for concave collision. -/
example : ∃ nodes, Quarch.run 1 id (cubeConfig ⟨[], []⟩ .concave) = .ok nodes ∧ (∃ a b, SolidSide id nodes a b) ∧
    ∀ a b, SolidSide id nodes a b → SolidSide id nodes b a := by
  obtain ⟨nodes, h⟩ := cube_run ⟨[], []⟩ .concave
  have key := C88_covered 1 id (fun _ => .refl _) _ nodes h cubeMap rfl [cubeEntity] cube_loads cube_proper
  have hd : OnSolid nodes ⟨1 / 2, 1 / 3, 1⟩ := by
    refine (key _).2 ⟨cubeEntity, by simp, .world rfl, ⟨Cube.planes⟩, List.mem_singleton.2 rfl,
      cube_solid _ _, ?_, Cube.zp, by simp [Cube.planes], ?_⟩
    · rw [Cube.inside]; norm_num
    · norm_num [OnPlane, Cube.face, Cube.zp, rawNormal, dotR, crossR, subR]
  obtain ⟨o, shapes, s, hs, hocc, a, b, c, hT, -⟩ := hd
  exact ⟨nodes, h, ⟨a, b, o, shapes, s, hocc, hs, listed_iff.2 ⟨a, b, c, hT, .inl ⟨rfl, rfl⟩⟩⟩,
    C127_solid 1 id (fun _ => .refl _) _ nodes h cubeMap rfl [cubeEntity] cube_loads fun e he ha br hbr _ =>
      cube_proper e he ha br hbr⟩

end

section
attribute [local instance] refPlatform wholeLib wholeLib_accurate

/-- The mesh of the bevelled block has triangles, and with each side of a triangle nearly the opposite one; so have its
concave shapes. -/
example : ∃ nodes, Quarch.run 1 id (bevelConfig .concave) = .ok nodes ∧ (∃ a b, DrawnSide vec nodes a b) ∧
    (∃ a b, SolidSide vec nodes a b) ∧
    (∀ a b, DrawnSide vec nodes a b →
      ∃ a' b', DrawnSide vec nodes b' a' ∧ Close (1 / 1000) a' a ∧ Close (1 / 1000) b' b) ∧
    ∀ a b, SolidSide vec nodes a b →
      ∃ a' b', SolidSide vec nodes b' a' ∧ Close (1 / 1000) a' a ∧ Close (1 / 1000) b' b := by
  obtain ⟨nodes, hn, h⟩ := C123_loads 1 id (fun _ => .refl _) (bevelConfig .concave) bevelMap rfl [bevelEntity]
    ((C92_text _ _).1 bevel_loads) bevel_isFirm bevel_world bevel_named bevel_ids bevel_tree (by simp)
  obtain ⟨nodes', hn', h'⟩ := C124_loads 1 id (fun _ => .refl _) (bevelConfig .concave) bevelMap rfl [bevelEntity]
    ((C92_text _ _).1 bevel_loads) bevel_isFirm bevel_world bevel_named bevel_ids bevel_tree (by simp)
  rw [hn] at hn'; cases hn'
  obtain ⟨nodes', hn', k1, k2⟩ := C127_loads 1 id (fun _ => .refl _) (bevelConfig .concave) bevelMap rfl [bevelEntity]
    ((C92_text _ _).1 bevel_loads) bevel_isFirm bevel_world bevel_named bevel_ids bevel_tree (by simp)
  rw [hn] at hn'; cases hn'
  have hb : OnBorder32 (bevel.map singleFace) ⟨12, 12, 0⟩ := by
    refine (border_bevel _).2 ⟨(in_bevel _).2 ?_, ?_⟩ <;> norm_num
  obtain ⟨x, ⟨o, v, s, a, b, c, hocc, hs, hT, -⟩, -⟩ := (h bevel_anchored (bevel_shown _)).2 _
    ⟨_, List.mem_singleton.2 rfl, _, List.mem_singleton.2 rfl, hb⟩
  obtain ⟨y, ⟨o', shapes, s', hs', hocc', a', b', c', hT', -⟩, -⟩ := ((h' bevel_anchored).2 (bevel_solid _)).2 _
    ⟨_, List.mem_singleton.2 rfl, _, List.mem_singleton.2 rfl, hb⟩
  exact ⟨nodes, hn, ⟨vec a, vec b, o, v, s, hocc, hs, listed_iff.2 ⟨a, b, c, hT, .inl ⟨rfl, rfl⟩⟩⟩,
    ⟨vec a', vec b', o', shapes, s', hocc', hs', listed_iff.2 ⟨a', b', c', hT', .inl ⟨rfl, rfl⟩⟩⟩,
    k1 (bevel_shown _), k2⟩

end

section
attribute [local instance] refPlatform decimalLib

local instance : DecimalText := decimalLib_reads
local instance : QuadrantAtan2 := decimalLib_quadrant

/-- In single precision the mesh of the cube is closed exactly. -/
example : ∃ nodes, Quarch.run 1 id boxConfig = .ok nodes ∧ (∃ a b, DrawnSide vec nodes a b) ∧
    ∀ a b, DrawnSide vec nodes a b → DrawnSide vec nodes b a := by
  obtain ⟨planes, hm⟩ := boxMap_is
  have hl := (C92_text _ _).2 hm
  obtain ⟨nodes, hn, h⟩ := C91_loads 1 id (fun _ => .refl _) boxConfig cubeMap rfl boxFile boxFile_text
    (fun block hb faces hf => by
      cases List.mem_singleton.1 hb
      simp only [boxItems, List.mem_cons, reduceCtorEq, false_or, List.not_mem_nil, or_false, Spec.Item.brush.injEq] at hf
      subst hf
      exact ⟨unitBox, boxFaces_text⟩) _ hm ⟨[], _, [], rfl, rfl, by simp⟩
    (fun e he => by cases List.mem_singleton.1 he; exact ⟨_, rfl⟩)
    (fun e he k hk s hs => by
      cases List.mem_singleton.1 he
      simp only [List.mem_cons, List.not_mem_nil, or_false] at hk
      rcases hk with rfl | rfl <;> cases hs) (no_loop_of_unique (List.pairwise_singleton _ _)) (by simp)
  have hshow : ∀ e ∈ [(⟨fun key => lastValue key boxItems, [⟨planes⟩]⟩ : Entity F32)], ∀ br ∈ e.brushes, ∀ p ∈ br.planes,
      ShownFace boxConfig e br p := by
    intro e he br hbr p hp
    cases List.mem_singleton.1 he
    cases List.mem_singleton.1 hbr
    refine .inr ⟨?_, ⟨_, _, _, ⟨str! "worldspawn", rfl, [], [], rfl, rfl, by simp⟩, rfl, rfl⟩, ⟨p, hp, ?_⟩, ?_⟩
    · rintro t ⟨_, _, hall⟩
      cases hall p hp
    · intro t ht; cases ht
    · intro t ht; cases ht
  have hd : Drawn32 nodes ⟨1 / 2, 1 / 3, 1⟩ := by
    refine (h (fun e he => by cases List.mem_singleton.1 he; exact .world rfl) hshow _).2
      ⟨boxItems, by simp [boxFile, MapFile.blocks], boxFaces, by simp [boxItems], unitBox, boxFaces_text, .z, true, ?_⟩
    refine ⟨by simp [Axis.of, unitBox, GridBox.side], fun c => ?_⟩
    cases c <;> norm_num [Axis.of, unitBox]
  obtain ⟨o, v, s, a, b, c, hocc, hs, hT, -⟩ := hd
  refine ⟨nodes, hn, ⟨vec a, vec b, o, v, s, hocc, hs, listed_iff.2 ⟨a, b, c, hT, .inl ⟨rfl, rfl⟩⟩⟩, ?_⟩
  refine (C127_boxes 1 id (fun _ => .refl _) boxConfig nodes hn cubeMap rfl _ hl fun e he _ br hbr => ?_).1
    fun e he _ br hbr p _ _ => hshow e he br hbr
  have k := C91_text cubeMap boxFile boxFile_text _ hl
  obtain ⟨e', he', hbe⟩ := forall₂_left k (a := boxItems) (by simp [boxFile, MapFile.blocks])
  cases List.mem_singleton.1 he'
  obtain ⟨br', hbr', hfb⟩ := forall₂_left hbe (a := boxFaces) (by simp [boxItems, Spec.Item.faces?])
  cases List.mem_singleton.1 hbr'
  cases List.mem_singleton.1 he
  cases List.mem_singleton.1 hbr
  exact ⟨unitBox, hfb _ boxFaces_text⟩

end
end Quarch
