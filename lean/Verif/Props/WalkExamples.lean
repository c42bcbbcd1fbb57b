import Verif.Props.Walk
/-
A walk into a cube, for C144.
-/
set_option linter.unusedSectionVars false
namespace Quarch
open Spec Scene Geo

section
attribute [local instance] refPlatform cubeText

/-- Falling into the cube from above. -/
noncomputable def fall (t : ℝ) : V3 ℝ := ⟨1 / 2, 1 / 3, 5 - 9 / 2 * t ^ 2⟩

theorem fall_walk : Walk fall :=
  ⟨continuousOn_const, continuousOn_const,
    (continuous_const.sub (continuous_const.mul (continuous_pow 2))).continuousOn⟩

theorem cube_solidAs (ct : CollisionType) : SolidAs (cubeConfig ⟨[], []⟩ ct) cubeEntity ⟨Cube.planes⟩ ct :=
  .inr ⟨cube_layer _ _, _, _, _, ⟨str! "worldspawn", rfl, [], [], rfl, rfl, by simp⟩, rfl, rfl⟩

theorem fall_start : ¬ ∀ p ∈ Cube.planes, WithinR 0 p (fall 0) := by rw [Cube.inside]; norm_num [fall]
theorem fall_end : ∀ p ∈ Cube.planes, WithinR 0 p (fall 1) := by rw [Cube.inside]; norm_num [fall]

/-- C144 for the cube with convex collision: whoever falls into it passes something that is drawn. -/
example : ∃ nodes, Quarch.run 1 id (cubeConfig ⟨[], []⟩ .convex) = .ok nodes ∧
    ¬ InSolid nodes (fall 0) ∧ InSolid nodes (fall 1) ∧ ∃ t ∈ Set.Icc (0 : ℝ) 1, Drawn nodes (fall t) := by
  obtain ⟨nodes, h⟩ := cube_run ⟨[], []⟩ .convex
  have filled := C88_filled 1 id (fun _ => .refl _) _ nodes h cubeMap rfl [cubeEntity] cube_loads cube_proper
  have h0 : ¬ InSolid nodes (fall 0) := by
    rw [filled]
    rintro ⟨e, he, _, br, hbr, _, hin⟩
    cases List.mem_singleton.1 he
    cases List.mem_singleton.1 hbr
    exact fall_start hin
  have h1 : InSolid nodes (fall 1) := (filled _).2 ⟨cubeEntity, by simp, .world rfl, ⟨Cube.planes⟩,
    List.mem_singleton.2 rfl, cube_solidAs _, fall_end⟩
  refine ⟨nodes, h, h0, h1, C144_drawn 1 id (fun _ => .refl _) _ nodes h cubeMap rfl [cubeEntity] cube_loads cube_proper
    ⟨fun d hd pd bd h _ => ?_, fun l hl => by cases hl⟩ (fun _ _ _ _ _ _ _ _ _ _ => ⟨List.not_mem_nil, List.not_mem_nil⟩)
    fall fall_walk fun hh => h0 (hh.2 h1)⟩
  cases List.mem_singleton.1 hd
  cases h; rfl

/-- C144 for the cube with concave collision: whoever falls into it passes a triangle of the shape. -/
example : ∃ nodes, Quarch.run 1 id (cubeConfig ⟨[], []⟩ .concave) = .ok nodes ∧
    ∃ t ∈ Set.Icc (0 : ℝ) 1, OnSolid nodes (fall t) := by
  obtain ⟨nodes, h⟩ := cube_run ⟨[], []⟩ .concave
  exact ⟨nodes, h, C144_concave 1 id (fun _ => .refl _) _ nodes h cubeMap rfl [cubeEntity] cube_loads cube_proper
    cubeEntity (by simp) (.world rfl) ⟨Cube.planes⟩ (List.mem_singleton.2 rfl) (cube_solidAs _) fall fall_walk
    fun hh => fall_start (hh.2 fall_end)⟩

/-- The walk must not jump: from outside straight into the cube nothing need be drawn. -/
example : ∃ nodes, Quarch.run 1 id (cubeConfig ⟨[], []⟩ .convex) = .ok nodes ∧
    ∃ γ : ℝ → V3 ℝ, ¬ InSolid nodes (γ 0) ∧ InSolid nodes (γ 1) ∧ ∀ t, ¬ Drawn nodes (γ t) := by
  obtain ⟨nodes, h⟩ := cube_run ⟨[], []⟩ .convex
  have filled := C88_filled 1 id (fun _ => .refl _) _ nodes h cubeMap rfl [cubeEntity] cube_loads cube_proper
  have picture := C87_picture 1 id (fun _ => .refl _) _ nodes h cubeMap rfl [cubeEntity] cube_loads cube_proper
  refine ⟨nodes, h, fun t => if t = 1 then fall 1 else fall 0, ?_, ?_, fun t => ?_⟩
  · show ¬ InSolid nodes (if (0 : ℝ) = 1 then fall 1 else fall 0)
    rw [if_neg zero_ne_one, filled]
    rintro ⟨e, he, _, br, hbr, _, hin⟩
    cases List.mem_singleton.1 he
    cases List.mem_singleton.1 hbr
    exact fall_start hin
  · show InSolid nodes (if (1 : ℝ) = 1 then fall 1 else fall 0)
    rw [if_pos rfl]
    exact (filled _).2 ⟨cubeEntity, by simp, .world rfl, ⟨Cube.planes⟩, List.mem_singleton.2 rfl, cube_solidAs _, fall_end⟩
  · rw [picture]
    rintro ⟨e, he, _, br, hbr, p, hp, _, _, h0, hin⟩
    cases List.mem_singleton.1 he
    cases List.mem_singleton.1 hbr
    by_cases ht : t = 1
    · simp only [if_pos ht] at h0
      simp only [Cube.planes, List.mem_cons, List.not_mem_nil, or_false] at hp
      rcases hp with rfl | rfl | rfl | rfl | rfl | rfl <;>
        norm_num [OnPlane, fall, Cube.face, Cube.xp, Cube.xn, Cube.yp, Cube.yn, Cube.zp, Cube.zn, rawNormal, dotR, crossR,
          subR] at h0
    · simp only [if_neg ht] at hin
      exact fall_start hin

end
end Quarch
