import Verif.Spec.Walk
import Verif.Props.DrawnSolid
/-
C144: nothing solid is entered or left without crossing what is drawn.
-/
set_option linter.unusedSectionVars false
namespace Quarch
open Spec Scene Geo Poly

theorem walk_back {γ : ℝ → V3 ℝ} (h : Walk γ) : Walk fun t => γ (1 - t) := by
  have hc : ContinuousOn (fun t : ℝ => 1 - t) (Set.Icc 0 1) := (continuous_const.sub continuous_id).continuousOn
  have hm : Set.MapsTo (fun t : ℝ => 1 - t) (Set.Icc 0 1) (Set.Icc 0 1) := fun t ht =>
    ⟨by linarith [ht.2], by linarith [ht.1]⟩
  exact ⟨h.x.comp hc hm, h.y.comp hc hm, h.z.comp hc hm⟩

/-- A walk into a brush has a moment at which it is on a face of the brush. -/
theorem walk_in {γ : ℝ → V3 ℝ} (h : Walk γ) (planes : List (BrushPlane ℝ)) (h0 : ¬ ∀ p ∈ planes, WithinR 0 p (γ 0))
    (h1 : ∀ p ∈ planes, WithinR 0 p (γ 1)) :
    ∃ t ∈ Set.Icc (0 : ℝ) 1, (∀ p ∈ planes, WithinR 0 p (γ t)) ∧ ∃ p ∈ planes, OnPlane p (γ t) := by
  let f : BrushPlane ℝ → ℝ → ℝ := fun p t => dotR (rawNormal p) (subR (γ t) p.v0)
  have hf : ∀ p, ContinuousOn (f p) (Set.Icc 0 1) := fun p =>
    ((continuousOn_const.mul (h.x.sub continuousOn_const)).add (continuousOn_const.mul (h.y.sub continuousOn_const))).add
      (continuousOn_const.mul (h.z.sub continuousOn_const))
  have within : ∀ p t, WithinR 0 p (γ t) ↔ f p t ≤ 0 := fun p t => by unfold WithinR; rw [zero_mul]
  -- how far in front of the planes the walk is
  have key : ∀ l : List (BrushPlane ℝ), ∃ m : ℝ → ℝ, ContinuousOn m (Set.Icc 0 1) ∧
      (∀ t, m t ≤ 0 ↔ ∀ p ∈ l, f p t ≤ 0) ∧ ∀ t, m t = 0 → ∃ p ∈ l, f p t = 0 := by
    intro l
    induction l with
    | nil => exact ⟨fun _ => -1, continuousOn_const, fun t => by simp, fun t h => by norm_num at h⟩
    | cons p l ih =>
      obtain ⟨m, k1, k2, k3⟩ := ih
      refine ⟨fun t => max (f p t) (m t), (hf p).sup k1, fun t => ?_, fun t ht => ?_⟩
      · simp only [max_le_iff, k2, List.forall_mem_cons]
      · rcases max_choice (f p t) (m t) with e | e
        · exact ⟨p, List.mem_cons_self, e ▸ ht⟩
        · obtain ⟨q, hq, hz⟩ := k3 t (e ▸ ht)
          exact ⟨q, List.mem_cons_of_mem _ hq, hz⟩
  obtain ⟨m, k1, k2, k3⟩ := key planes
  simp only [within] at h0 h1 ⊢
  have m0 : 0 < m 0 := not_le.1 fun hh => h0 ((k2 0).1 hh)
  have m1 : m 1 ≤ 0 := (k2 1).2 h1
  obtain ⟨t, ht, e⟩ := intermediate_value_Icc' (zero_le_one (α := ℝ)) k1 ⟨m1, m0.le⟩
  exact ⟨t, ht, (k2 t).1 e.le, k3 t e⟩

/-- A walk into or out of a brush has a moment at which it is on a face of the brush. -/
theorem walk_across {γ : ℝ → V3 ℝ} (h : Walk γ) (planes : List (BrushPlane ℝ))
    (hx : ¬ ((∀ p ∈ planes, WithinR 0 p (γ 0)) ↔ ∀ p ∈ planes, WithinR 0 p (γ 1))) :
    ∃ t ∈ Set.Icc (0 : ℝ) 1, (∀ p ∈ planes, WithinR 0 p (γ t)) ∧ ∃ p ∈ planes, OnPlane p (γ t) := by
  by_cases h0 : ∀ p ∈ planes, WithinR 0 p (γ 0)
  · have h1 : ¬ ∀ p ∈ planes, WithinR 0 p (γ 1) := fun h1 => hx ⟨fun _ => h1, fun _ => h0⟩
    obtain ⟨t, ht, h2⟩ := walk_in (walk_back h) planes (by simpa using h1) (by simpa using h0)
    exact ⟨1 - t, ⟨by linarith [ht.2], by linarith [ht.1]⟩, h2⟩
  · by_cases h1 : ∀ p ∈ planes, WithinR 0 p (γ 1)
    · exact walk_in h planes h0 h1
    · exact absurd ⟨fun h => absurd h h0, fun h => absurd h h1⟩ hx

section
variable [RealText] [Platform]

/-- C144: with a mesh for everything that has convex collision, and none of the textures of solid brushes hidden, every walk that
starts outside all convex shapes and ends in one, or the other way round, crosses something that is drawn. -/
theorem C144_drawn (depth : Nat)
    (order : List (Str × List (BrushGeo ℝ)) → List (Str × List (BrushGeo ℝ))) (horder : ∀ l, (order l).Perm l)
    (config : Config ℝ) (nodes : List (Node ℝ)) (h : Quarch.run depth order config = .ok nodes)
    (text : Str) (ht : config.mapFile = some text) (entities : List (Entity ℝ)) (hl : LoadsAs text entities)
    (hp : ∀ e ∈ entities, Anchored entities e → ∀ br ∈ e.brushes, ProperBrush br.planes)
    (hm : AllMeshes config.quarchitectGameData .convex)
    (hb : ∀ e ∈ entities, Anchored entities e → ∀ br ∈ e.brushes, SolidAs config e br .convex → ∀ p ∈ br.planes,
      ∀ t, knownTexture config.textureInfo p = some t →
        t ∉ config.textureBlacklist.brush ∧ t ∉ config.textureBlacklist.plane)
    (γ : ℝ → V3 ℝ) (hγ : Walk γ) (hx : ¬ (InSolid nodes (γ 0) ↔ InSolid nodes (γ 1))) :
    ∃ t ∈ Set.Icc (0 : ℝ) 1, Drawn nodes (γ t) := by
  have filled := C88_filled depth order horder config nodes h text ht entities hl hp
  have key : ∃ e ∈ entities, Anchored entities e ∧ ∃ br ∈ e.brushes, SolidAs config e br .convex ∧
      ¬ ((∀ p ∈ br.planes, WithinR 0 p (γ 0)) ↔ ∀ p ∈ br.planes, WithinR 0 p (γ 1)) := by
    by_contra hn
    refine hx ?_
    rw [filled, filled]
    constructor
    · rintro ⟨e, he, ha, br, hbr, hs, hin⟩
      exact ⟨e, he, ha, br, hbr, hs, (Classical.not_not.1 fun hh => hn ⟨e, he, ha, br, hbr, hs, hh⟩).1 hin⟩
    · rintro ⟨e, he, ha, br, hbr, hs, hin⟩
      exact ⟨e, he, ha, br, hbr, hs, (Classical.not_not.1 fun hh => hn ⟨e, he, ha, br, hbr, hs, hh⟩).2 hin⟩
  obtain ⟨e, he, ha, br, hbr, hs, hne⟩ := key
  obtain ⟨t, htt, hin, p, hpm, h0⟩ := walk_across hγ br.planes hne
  have hpb := hp e he ha br hbr
  obtain ⟨g, hg, hw, hg0⟩ := on_wide hpb.solid hpb.points hpm (fun p hpm => (within_zero p (γ t)).1 (hin p hpm)) h0
  exact ⟨t, htt, (C87_picture depth order horder config nodes h text ht entities hl hp (γ t)).2
    ⟨e, he, ha, br, hbr, g, hg, solid_shown hm hg hs (hb e he ha br hbr hs g hg),
      (hasArea_iff (hpb.points _ hg)).2 hw, hg0, hin⟩⟩

/-- C144: a walk into or out of a brush with concave collision crosses the triangles of a concave shape. -/
theorem C144_concave (depth : Nat)
    (order : List (Str × List (BrushGeo ℝ)) → List (Str × List (BrushGeo ℝ))) (horder : ∀ l, (order l).Perm l)
    (config : Config ℝ) (nodes : List (Node ℝ)) (h : Quarch.run depth order config = .ok nodes)
    (text : Str) (ht : config.mapFile = some text) (entities : List (Entity ℝ)) (hl : LoadsAs text entities)
    (hp : ∀ e ∈ entities, Anchored entities e → ∀ br ∈ e.brushes, ProperBrush br.planes)
    (e : Entity ℝ) (he : e ∈ entities) (ha : Anchored entities e) (br : Brush ℝ) (hbr : br ∈ e.brushes)
    (hs : SolidAs config e br .concave) (γ : ℝ → V3 ℝ) (hγ : Walk γ)
    (hx : ¬ ((∀ p ∈ br.planes, WithinR 0 p (γ 0)) ↔ ∀ p ∈ br.planes, WithinR 0 p (γ 1))) :
    ∃ t ∈ Set.Icc (0 : ℝ) 1, OnSolid nodes (γ t) := by
  obtain ⟨t, htt, hin, p, hpm, h0⟩ := walk_across hγ br.planes hx
  exact ⟨t, htt, (C88_covered depth order horder config nodes h text ht entities hl hp (γ t)).2
    ⟨e, he, ha, br, hbr, hs, hin, p, hpm, h0⟩⟩

end
end Quarch
