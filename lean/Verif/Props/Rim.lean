import Verif.Props.Walls
/-
C148: a map of brushes that do not touch each other is drawn exactly on the surface of what is solid.
-/
set_option linter.unusedSectionVars false
namespace Quarch
namespace Spec
section
variable [RealText] [Platform]

/-- No two different solid brushes have a point in common. -/
def Untouching (config : Config ℝ) (entities : List (Entity ℝ)) : Prop :=
  ∀ e ∈ entities, Anchored entities e → ∀ br ∈ e.brushes, SolidAs config e br .convex →
    ∀ e' ∈ entities, Anchored entities e' → ∀ br' ∈ e'.brushes, SolidAs config e' br' .convex →
      ∀ x, (∀ p ∈ br.planes, WithinR 0 p x) → (∀ p ∈ br'.planes, WithinR 0 p x) → br = br'
end
end Spec
open Quarch.Spec Quarch.Geo Scene

/-- Around a point that is in none of some brushes there is room outside of them. -/
theorem room_outside {x : V3 ℝ} : ∀ l : List (Brush ℝ), (∀ br ∈ l, ¬ ∀ p ∈ br.planes, WithinR 0 p x) →
    ∃ d : ℝ, 0 < d ∧ ∀ y, Close d y x → ∀ br ∈ l, ¬ ∀ p ∈ br.planes, WithinR 0 p y
  | [], _ => ⟨1, one_pos, fun _ _ q hq => by cases hq⟩
  | br :: l, h => by
    obtain ⟨d, hd, k⟩ := room_outside l fun q hq => h q (List.mem_cons_of_mem _ hq)
    have h0 := h br List.mem_cons_self
    simp only [not_forall] at h0
    obtain ⟨p, hp, h0⟩ := h0
    have neg : ∀ y, dotR (smulR (-1) (rawNormal p)) (subR y p.v0) = -dotR (rawNormal p) (subR y p.v0) := fun y => by
      simp only [dotR, smulR, subR]; ring
    have within : ∀ y, WithinR 0 p y ↔ dotR (rawNormal p) (subR y p.v0) ≤ 0 := fun y => by unfold WithinR; rw [zero_mul]
    rw [within, not_le] at h0
    obtain ⟨d', hd', k'⟩ := room_behind (x := x) [(smulR (-1) (rawNormal p), p.v0)] (by
      simp only [List.mem_singleton, forall_eq]
      rw [neg]; linarith)
    refine ⟨min d d', lt_min hd hd', fun y hy q hq => ?_⟩
    have c1 : Close d y x := ⟨hy.1.trans (min_le_left _ _), hy.2.1.trans (min_le_left _ _), hy.2.2.trans (min_le_left _ _)⟩
    have c2 : Close d' y x := ⟨hy.1.trans (min_le_right _ _), hy.2.1.trans (min_le_right _ _), hy.2.2.trans (min_le_right _ _)⟩
    rcases List.mem_cons.1 hq with rfl | hq
    · intro hin
      have := k' y c2 _ (List.mem_singleton.2 rfl)
      rw [neg] at this
      have := (within y).1 (hin p hp)
      linarith
    · exact k y c1 q hq

/-- From a point on a plane there is a step as small as one likes to the front of the plane. -/
theorem step_out {p : BrushPlane ℝ} (hn : NonDegenerate p) {x : V3 ℝ} (h0 : OnPlane p x) {d : ℝ} (hd : 0 < d) :
    ∃ y, Close d y x ∧ ¬ WithinR 0 p y := by
  have hn' : rawNormal p ≠ ⟨0, 0, 0⟩ := hn
  unfold OnPlane at h0
  generalize hN : rawNormal p = n at *
  let N := |n.x| + |n.y| + |n.z| + 1
  have hN0 : 0 < N := by positivity
  have hs : 0 < d / N := div_pos hd hN0
  have b : ∀ {a c : ℝ}, |a| ≤ N → |c + d / N * a - c| ≤ d := fun {a c} ha => by
    rw [add_sub_cancel_left, abs_mul, abs_of_pos hs, div_mul_eq_mul_div, div_le_iff₀ hN0]
    exact mul_le_mul_of_nonneg_left ha hd.le
  have n1 := abs_nonneg n.x
  have n2 := abs_nonneg n.y
  have n3 := abs_nonneg n.z
  refine ⟨addR x (smulR (d / N) n), ⟨b ?_, b ?_, b ?_⟩, fun hw => ?_⟩
  · show |n.x| ≤ |n.x| + |n.y| + |n.z| + 1; linarith
  · show |n.y| ≤ |n.x| + |n.y| + |n.z| + 1; linarith
  · show |n.z| ≤ |n.x| + |n.y| + |n.z| + 1; linarith
  unfold WithinR at hw
  rw [zero_mul, hN] at hw
  have e : dotR n (subR (addR x (smulR (d / N) n)) p.v0) =
      dotR n (subR x p.v0) + d / N * (n.x ^ 2 + n.y ^ 2 + n.z ^ 2) := by
    simp only [dotR, subR, addR, smulR]; ring
  rw [e, h0, zero_add] at hw
  have hz : n.x ^ 2 + n.y ^ 2 + n.z ^ 2 ≤ 0 := not_lt.1 fun hh => absurd (mul_pos hs hh) (not_lt.2 hw)
  have x0 : n.x = 0 := by nlinarith [sq_nonneg n.x, sq_nonneg n.y, sq_nonneg n.z]
  have y0 : n.y = 0 := by nlinarith [sq_nonneg n.x, sq_nonneg n.y, sq_nonneg n.z]
  have z0 : n.z = 0 := by nlinarith [sq_nonneg n.x, sq_nonneg n.y, sq_nonneg n.z]
  apply hn'
  obtain ⟨a, b, c⟩ := n
  simp only at x0 y0 z0
  subst x0 y0 z0
  rfl

section
variable [RealText] [Platform]

/-- C148: if meshes and convex collision go together, no texture of a solid brush is hidden and no two different brushes touch, then
exactly the surface of what is solid is drawn. -/
theorem C148_surface (depth : Nat)
    (order : List (Str × List (BrushGeo ℝ)) → List (Str × List (BrushGeo ℝ))) (horder : ∀ l, (order l).Perm l)
    (config : Config ℝ) (nodes : List (Node ℝ)) (h : Quarch.run depth order config = .ok nodes)
    (text : Str) (ht : config.mapFile = some text) (entities : List (Entity ℝ)) (hl : LoadsAs text entities)
    (hp : ∀ e ∈ entities, Anchored entities e → ∀ br ∈ e.brushes, ProperBrush br.planes)
    (hm : AllMeshes config.quarchitectGameData .convex) (hm' : MeshesAre config.quarchitectGameData .convex)
    (hb : ∀ e ∈ entities, Anchored entities e → ∀ br ∈ e.brushes, SolidAs config e br .convex → ∀ p ∈ br.planes,
      ∀ t, knownTexture config.textureInfo p = some t →
        t ∉ config.textureBlacklist.brush ∧ t ∉ config.textureBlacklist.plane)
    (ha : Untouching config entities) (x : V3 ℝ) : Drawn nodes x ↔ OnRim (InSolid nodes) x := by
  refine ⟨fun hx => ?_, C147_surface depth order horder config nodes h text ht entities hl hp hm hb x⟩
  have filled := C88_filled depth order horder config nodes h text ht entities hl hp
  obtain ⟨e, he, hae, br, hbr, p, hpm, hsh, _, hon⟩ :=
    (C87_picture depth order horder config nodes h text ht entities hl hp x).1 hx
  have hs := shown_solid hm' hsh
  refine ⟨(filled x).2 ⟨e, he, hae, br, hbr, hs, hon.2⟩, fun d hd => ?_⟩
  classical
  -- the other solid brushes
  let others := (entities.flatMap (·.brushes)).filter fun b => decide (¬ ∀ p ∈ b.planes, WithinR 0 p x)
  obtain ⟨d', hd', k⟩ := room_outside (x := x) others fun b hb => by simpa using (List.mem_filter.1 hb).2
  obtain ⟨y, hy, hout⟩ := step_out ((hp e he hae br hbr).points p hpm) hon.1 (lt_min hd hd')
  refine ⟨y, ⟨hy.1.trans (min_le_left _ _), hy.2.1.trans (min_le_left _ _), hy.2.2.trans (min_le_left _ _)⟩, fun hin => ?_⟩
  obtain ⟨e', he', hae', br', hbr', hs', hin'⟩ := (filled y).1 hin
  by_cases hx' : ∀ p ∈ br'.planes, WithinR 0 p x
  · cases ha e he hae br hbr hs e' he' hae' br' hbr' hs' x hon.2 hx'
    exact hout (hin' p hpm)
  · refine k y ⟨hy.1.trans (min_le_right _ _), hy.2.1.trans (min_le_right _ _), hy.2.2.trans (min_le_right _ _)⟩ br' ?_ hin'
    exact List.mem_filter.2 ⟨List.mem_flatMap.2 ⟨e', he', hbr'⟩, by simpa using hx'⟩

end
end Quarch
