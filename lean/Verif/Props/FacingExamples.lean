import Verif.Props.Facing
import Verif.Props.RenderedExamples
import Verif.Props.DrawnExamples
/-
Examples for C128: the cube in exact arithmetic and the bevelled block in single precision.
-/
set_option linter.unusedSectionVars false
namespace Quarch
open Quarch.Spec Quarch.Geo Scene Spec.F32

section
attribute [local instance] refPlatform cubeText

/-- The mesh of the cube has triangles; all go clockwise seen from where the normals at their corners point to. -/
example : ∃ nodes, Quarch.run 1 id (cubeConfig ⟨[], []⟩) = .ok nodes ∧ (∃ x, Drawn nodes x) ∧
    ∀ o v s i j k, Occurs (.visual o v) nodes → s ∈ surfaces v → IndexTriple s.indices i j k →
      ∃ a b c, s.vertices[i]? = some a ∧ s.vertices[j]? = some b ∧ s.vertices[k]? = some c ∧
        ∀ m ∈ [i, j, k], ∃ n, s.normals[m]? = some n ∧ lenR n = 1 ∧ FacesTo n a b c := by
  obtain ⟨nodes, h⟩ := cube_run ⟨[], []⟩
  have key := C87_everything 1 id (fun _ => .refl _) _ nodes h cubeMap rfl [cubeEntity] cube_loads
    (fun e he br hbr => by
      cases List.mem_singleton.1 he
      cases List.mem_singleton.1 hbr
      exact Cube.proper)
    (fun e he => by cases List.mem_singleton.1 he; exact .world rfl)
    (fun e he br hbr p hp => by
      cases List.mem_singleton.1 he
      cases List.mem_singleton.1 hbr
      exact (cube_shown _ p hp).2 ⟨by simp, by simp⟩)
  refine ⟨nodes, h, ⟨⟨1 / 2, 1 / 3, 1⟩, (key _).2 ⟨cubeEntity, by simp, ⟨Cube.planes⟩, List.mem_singleton.2 rfl, ?_, Cube.zp,
    by simp [Cube.planes], ?_⟩⟩, ?_⟩
  · rw [Cube.inside]; norm_num
  · norm_num [OnPlane, Cube.face, Cube.zp, rawNormal, dotR, crossR, subR]
  · refine C128_normals 1 id (fun _ => .refl _) _ nodes h cubeMap rfl [cubeEntity] cube_loads
      (fun e he ha br hbr => ⟨cube_proper e he ha br hbr, ?_⟩) ?_
    · cases List.mem_singleton.1 he
      cases List.mem_singleton.1 hbr
      simp only [Cube.planes, List.pairwise_cons, List.forall_mem_cons, List.not_mem_nil, IsEmpty.forall_iff, implies_true,
        List.Pairwise.nil, and_true]
      norm_num [unitR, smulR, lenR, dotR, rawNormal, crossR, subR, Cube.face, Cube.xp, Cube.xn, Cube.yp, Cube.yn, Cube.zp,
        Cube.zn]
    · intro e he _
      cases List.mem_singleton.1 he
      exact (by decide : (if str! "_phong" = str! "classname" then some (str! "worldspawn") else none) ≠ some (str! "1"))

end

section
attribute [local instance] refPlatform wholeLib wholeLib_accurate

/-- The triangles of the mesh of the bevelled block face outwards in single precision. -/
example : ∃ nodes, Quarch.run 1 id (bevelConfig .concave) = .ok nodes ∧ (∃ x, Drawn32 nodes x) ∧ (∃ x, OnSolid32 nodes x) ∧
    (∀ o v s a b c, Occurs (.visual o v) nodes → s ∈ surfaces v → TriangleOf s.vertices s.indices a b c →
      ∃ p ∈ bevel.map singleFace, FacesTo (triOf p).normal (vec a) (vec b) (vec c)) ∧
    ∀ o shapes s a b c, Occurs (.collision o (.concave shapes)) nodes → s ∈ shapes → TriangleOf s.vertices s.indices a b c →
      ∃ p ∈ bevel.map singleFace, FacesTo (triOf p).normal (vec a) (vec b) (vec c) := by
  obtain ⟨nodes, hn, h⟩ := C123_loads 1 id (fun _ => .refl _) (bevelConfig .concave) bevelMap rfl [bevelEntity]
    ((C92_text _ _).1 bevel_loads) bevel_isFirm bevel_world bevel_named bevel_ids bevel_tree (by simp)
  obtain ⟨nodes', hn', h'⟩ := C124_loads 1 id (fun _ => .refl _) (bevelConfig .concave) bevelMap rfl [bevelEntity]
    ((C92_text _ _).1 bevel_loads) bevel_isFirm bevel_world bevel_named bevel_ids bevel_tree (by simp)
  rw [hn] at hn'; cases hn'
  have hb : OnBorder32 (bevel.map singleFace) ⟨12, 12, 0⟩ := by
    refine (border_bevel _).2 ⟨(in_bevel _).2 ?_, ?_⟩ <;> norm_num
  obtain ⟨x, hx, -⟩ := (h bevel_anchored (bevel_shown _)).2 _ ⟨_, List.mem_singleton.2 rfl, _, List.mem_singleton.2 rfl, hb⟩
  obtain ⟨y, hy, -⟩ := ((h' bevel_anchored).2 (bevel_solid _)).2 _
    ⟨_, List.mem_singleton.2 rfl, _, List.mem_singleton.2 rfl, hb⟩
  refine ⟨nodes, hn, ⟨x, hx⟩, ⟨y, hy⟩, fun o v s a b c hocc hs hT => ?_, fun o v s a b c hocc hs hT => ?_⟩
  · obtain ⟨e, he, -, br, hbr, p, hp, -, hf, -⟩ := C128_drawn_firm 1 id (fun _ => .refl _) _ nodes hn bevelMap rfl
      [bevelEntity] bevel_loads (fun e he _ br hbr _ _ _ => bevel_isFirm e he br hbr) o v s a b c hocc hs hT
    cases List.mem_singleton.1 he
    cases List.mem_singleton.1 hbr
    exact ⟨p, hp, hf⟩
  · obtain ⟨e, he, -, br, hbr, -, p, hp, hf, -⟩ := C128_solid_firm 1 id (fun _ => .refl _) _ nodes hn bevelMap rfl
      [bevelEntity] bevel_loads (fun e he _ br hbr _ => bevel_isFirm e he br hbr) o v s a b c hocc hs hT
    cases List.mem_singleton.1 he
    cases List.mem_singleton.1 hbr
    exact ⟨p, hp, hf⟩

end
end Quarch
