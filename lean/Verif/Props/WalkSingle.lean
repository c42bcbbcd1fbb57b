import Verif.Props.Walk
import Verif.Props.Pointed
import Verif.Props.Gloss
/-
C145: in single precision, nothing solid is entered or left without coming near what is drawn.
-/
set_option linter.unusedSectionVars false
namespace Quarch
open Quarch.Spec Quarch.Spec.F32 Quarch.Geo Scene

section
variable [F32Lib] [Platform] [AccurateAtan2]

/-- A walk into or out of a brush has a moment at which it is on the border of the brush. -/
theorem walk_border {γ : ℝ → V3 ℝ} (h : Walk γ) {g : Nat} {R : ℝ} {planes : List (BrushPlane F32)} (hf : ClearBody g R planes)
    (hx : ¬ (InBrush32 planes (γ 0) ↔ InBrush32 planes (γ 1))) : ∃ t ∈ Set.Icc (0 : ℝ) 1, OnBorder32 planes (γ t) := by
  have key : ∀ x, InBrush32 planes x ↔ ∀ p ∈ planes.map exactPlane, WithinR 0 p x := fun x => by
    rw [inBrush_iff hf]
    exact forall₂_congr fun p _ => by unfold WithinR Poly.ht; rw [zero_mul]
  obtain ⟨t, ht, hin, p', hp', h0⟩ := walk_across h (planes.map exactPlane) (by rwa [← key, ← key])
  obtain ⟨p, hp, rfl⟩ := List.mem_map.1 hp'
  exact ⟨t, ht, (key _).2 hin, p, hp, (firm_ht_zero hf hp _).1 h0⟩

/-- The straight walk from one point to another. -/
noncomputable def straight (a b : V3 ℝ) (t : ℝ) : V3 ℝ := addR a (smulR t (subR b a))

theorem straight_walk (a b : V3 ℝ) : Walk (straight a b) :=
  ⟨(continuous_const.add (continuous_id.mul continuous_const)).continuousOn,
    (continuous_const.add (continuous_id.mul continuous_const)).continuousOn,
    (continuous_const.add (continuous_id.mul continuous_const)).continuousOn⟩

theorem straight_close {d : ℝ} {a b : V3 ℝ} (h : Close d a b) {t : ℝ} (ht : t ∈ Set.Icc (0 : ℝ) 1) :
    Close d (straight a b t) a := by
  have k : ∀ {x y : ℝ}, |x - y| ≤ d → |x + t * (y - x) - x| ≤ d := by
    intro x y h
    rw [add_sub_cancel_left, abs_mul, abs_of_nonneg ht.1, abs_sub_comm]
    exact (mul_le_of_le_one_left (abs_nonneg _) ht.2).trans h
  exact ⟨k h.1, k h.2.1, k h.2.2⟩

theorem straight_start (a b : V3 ℝ) : straight a b 0 = a := by simp [straight, addR, smulR]
theorem straight_end (a b : V3 ℝ) : straight a b 1 = b := by simp [straight, addR, smulR, subR]

theorem walk_near (depth : Nat)
    (order : List (Str × List (BrushGeo F32)) → List (Str × List (BrushGeo F32))) (horder : ∀ l, (order l).Perm l)
    (config : Config F32) (nodes : List (Node F32)) (h : Quarch.run depth order config = .ok nodes)
    (text : Str) (ht : config.mapFile = some text) (entities : List (Entity F32)) (hl : LoadsAs text entities)
    (hb : ∀ e ∈ entities, Anchored entities e → ∀ br ∈ e.brushes, IsPointed br.planes)
    (hm : AllMeshes config.quarchitectGameData .convex)
    (hn : ∀ e ∈ entities, Anchored entities e → ∀ br ∈ e.brushes, SolidAs config e br .convex → ∀ p ∈ br.planes,
      ∀ t, knownTexture config.textureInfo p = some t →
        t ∉ config.textureBlacklist.brush ∧ t ∉ config.textureBlacklist.plane)
    (γ : ℝ → V3 ℝ) (hγ : Walk γ) (h0 : ∀ x, Close (1 / 2000) x (γ 0) → ¬ InSolid32 nodes x) (h1 : InSolid32 nodes (γ 1)) :
    ∃ t ∈ Set.Icc (0 : ℝ) 1, ∃ x, Drawn32 nodes x ∧ Close (1 / 1000) x (γ t) := by
  obtain ⟨f1, f2⟩ := C125_filled depth order horder config nodes h text ht entities hl hb
  obtain ⟨_, p2⟩ := C125_picture depth order horder config nodes h text ht entities hl hb
  obtain ⟨y, ⟨e, he, ha, br, hbr, hs, hy⟩, hc⟩ := f1 _ h1
  obtain ⟨g, R, hf⟩ := hb e he ha br hbr
  have border : ∀ z, OnBorder32 br.planes z → ∃ x, Drawn32 nodes x ∧ Close (1 / 2000) x z := by
    intro z hz
    obtain ⟨p, hp, har, hon⟩ := firm_wide hf.toClearBody hz
    exact p2 z ⟨e, he, ha, br, hbr, p, hp, solid_shown hm hp hs (hn e he ha br hbr hs p hp), har, hon⟩
  have out : ¬ InBrush32 br.planes (γ 0) := fun hin => by
    obtain ⟨x, hx, hxc⟩ := f2 (γ 0) ⟨e, he, ha, br, hbr, hs, hin⟩
    exact h0 x hxc hx
  by_cases hin : InBrush32 br.planes (γ 1)
  · obtain ⟨t, htt, hbd⟩ := walk_border hγ hf.toClearBody fun hh => out (hh.2 hin)
    obtain ⟨x, hx, k1, k2, k3⟩ := border _ hbd
    exact ⟨t, htt, x, hx, by linarith, by linarith, by linarith⟩
  · obtain ⟨t, htt, hbd⟩ := walk_border (straight_walk (γ 1) y) hf.toClearBody
      (by rw [straight_start, straight_end]; exact fun hh => hin (hh.2 hy))
    obtain ⟨x, hx, hxc⟩ := border _ hbd
    refine ⟨1, ⟨zero_le_one, le_rfl⟩, x, hx, ?_⟩
    have := close_add hxc (straight_close hc htt)
    norm_num at this
    exact this

/-- C145: in single precision, with a mesh for everything that has convex collision and none of the textures of solid brushes
hidden, every walk between a point in a convex shape and a point that is more than 1/2000 of a unit away from all convex shapes,
in either direction, passes within a thousandth of a unit of something that is drawn. -/
theorem C145_drawn (depth : Nat)
    (order : List (Str × List (BrushGeo F32)) → List (Str × List (BrushGeo F32))) (horder : ∀ l, (order l).Perm l)
    (config : Config F32) (nodes : List (Node F32)) (h : Quarch.run depth order config = .ok nodes)
    (text : Str) (ht : config.mapFile = some text) (entities : List (Entity F32)) (hl : LoadsAs text entities)
    (hb : ∀ e ∈ entities, Anchored entities e → ∀ br ∈ e.brushes, IsPointed br.planes)
    (hm : AllMeshes config.quarchitectGameData .convex)
    (hn : ∀ e ∈ entities, Anchored entities e → ∀ br ∈ e.brushes, SolidAs config e br .convex → ∀ p ∈ br.planes,
      ∀ t, knownTexture config.textureInfo p = some t →
        t ∉ config.textureBlacklist.brush ∧ t ∉ config.textureBlacklist.plane)
    (γ : ℝ → V3 ℝ) (hγ : Walk γ)
    (hx : (∀ x, Close (1 / 2000) x (γ 0) → ¬ InSolid32 nodes x) ∧ InSolid32 nodes (γ 1) ∨
      InSolid32 nodes (γ 0) ∧ ∀ x, Close (1 / 2000) x (γ 1) → ¬ InSolid32 nodes x) :
    ∃ t ∈ Set.Icc (0 : ℝ) 1, ∃ x, Drawn32 nodes x ∧ Close (1 / 1000) x (γ t) := by
  rcases hx with ⟨h0, h1⟩ | ⟨h0, h1⟩
  · exact walk_near depth order horder config nodes h text ht entities hl hb hm hn γ hγ h0 h1
  · obtain ⟨t, htt, x, hx⟩ := walk_near depth order horder config nodes h text ht entities hl hb hm hn (fun t => γ (1 - t))
      (walk_back hγ) (by simpa using h1) (by simpa using h0)
    exact ⟨1 - t, ⟨by linarith [htt.2], by linarith [htt.1]⟩, x, hx⟩

/-- C145: in single precision, a walk into or out of a brush with concave collision passes within 1/2000 of a unit of a triangle of
a concave shape. -/
theorem C145_concave (depth : Nat)
    (order : List (Str × List (BrushGeo F32)) → List (Str × List (BrushGeo F32))) (horder : ∀ l, (order l).Perm l)
    (config : Config F32) (nodes : List (Node F32)) (h : Quarch.run depth order config = .ok nodes)
    (text : Str) (ht : config.mapFile = some text) (entities : List (Entity F32)) (hl : LoadsAs text entities)
    (hb : ∀ e ∈ entities, Anchored entities e → ∀ br ∈ e.brushes, IsPointed br.planes)
    (e : Entity F32) (he : e ∈ entities) (ha : Anchored entities e) (br : Brush F32) (hbr : br ∈ e.brushes)
    (hs : SolidAs config e br .concave) (γ : ℝ → V3 ℝ) (hγ : Walk γ)
    (hx : ¬ (InBrush32 br.planes (γ 0) ↔ InBrush32 br.planes (γ 1))) :
    ∃ t ∈ Set.Icc (0 : ℝ) 1, ∃ x, OnSolid32 nodes x ∧ Close (1 / 2000) x (γ t) := by
  obtain ⟨g, R, hf⟩ := hb e he ha br hbr
  obtain ⟨t, htt, hbd⟩ := walk_border hγ hf.toClearBody hx
  exact ⟨t, htt, (C125_covered depth order horder config nodes h text ht entities hl hb).2 _ ⟨e, he, ha, br, hbr, hs, hbd⟩⟩

end
end Quarch
