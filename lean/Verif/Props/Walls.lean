import Verif.Spec.Walls
import Verif.Props.WalkSingle
/-
C147: how a wall is built of brushes does not matter.
-/
set_option linter.unusedSectionVars false
namespace Quarch
namespace Spec
section
variable [RealText] [Platform]

/-- According to the map and the configuration the point is in a brush with convex collision. -/
def SolidPoint (config : Config ℝ) (entities : List (Entity ℝ)) (x : V3 ℝ) : Prop :=
  ∃ e ∈ entities, Anchored entities e ∧ ∃ br ∈ e.brushes, SolidAs config e br .convex ∧ ∀ p ∈ br.planes, WithinR 0 p x
end

/-- The same for maps in single precision, where the numbers in the map are taken exactly. -/
def SolidPoint32 [F32Lib] [Platform] (config : Config F32) (entities : List (Entity F32)) (x : V3 ℝ) : Prop :=
  ∃ e ∈ entities, Anchored entities e ∧ ∃ br ∈ e.brushes, SolidAs config e br .convex ∧ InBrush32 br.planes x
end Spec
open Quarch.Spec Quarch.Spec.F32 Quarch.Geo Scene

/-- Around a point that is strictly behind some planes there is room behind all of them. -/
theorem room_behind {x : V3 ℝ} : ∀ l : List (V3 ℝ × V3 ℝ), (∀ q ∈ l, dotR q.1 (subR x q.2) < 0) →
    ∃ d : ℝ, 0 < d ∧ ∀ y, Close d y x → ∀ q ∈ l, dotR q.1 (subR y q.2) < 0
  | [], _ => ⟨1, one_pos, fun _ _ q hq => by cases hq⟩
  | (n, v) :: l, h => by
    obtain ⟨d, hd, k⟩ := room_behind l fun q hq => h q (List.mem_cons_of_mem _ hq)
    have hx : dotR n (subR x v) < 0 := h _ List.mem_cons_self
    let N := |n.x| + |n.y| + |n.z| + 1
    have hN : 0 < N := by positivity
    refine ⟨min d (-dotR n (subR x v) / N), lt_min hd (div_pos (by linarith) hN), fun y hy q hq => ?_⟩
    rcases List.mem_cons.1 hq with rfl | hq
    · have hc0 : 0 < min d (-dotR n (subR x v) / N) := lt_min hd (div_pos (by linarith) hN)
      have hc : min d (-dotR n (subR x v) / N) ≤ -dotR n (subR x v) / N := min_le_right _ _
      generalize min d (-dotR n (subR x v) / N) = c at *
      rw [le_div_iff₀ hN] at hc
      have e : dotR n (subR y v) = dotR n (subR x v) + (n.x * (y.x - x.x) + n.y * (y.y - x.y) + n.z * (y.z - x.z)) := by
        simp only [dotR, subR]; ring
      have b : ∀ {a s : ℝ}, |s| ≤ c → a * s ≤ c * |a| := fun {a s} hs => by
        refine (le_abs_self _).trans ?_
        rw [abs_mul, mul_comm]
        exact mul_le_mul_of_nonneg_right hs (abs_nonneg _)
      have b1 := b (a := n.x) hy.1
      have b2 := b (a := n.y) hy.2.1
      have b3 := b (a := n.z) hy.2.2
      have : c * N = c * |n.x| + c * |n.y| + c * |n.z| + c := by ring
      show dotR n (subR y v) < 0
      linarith
    · have : Close d y x := ⟨hy.1.trans (min_le_left _ _), hy.2.1.trans (min_le_left _ _), hy.2.2.trans (min_le_left _ _)⟩
      exact k y this q hq

section
variable [RealText] [Platform]

/-- C147 in exact arithmetic: if two maps have brushes at the same points, then the same points are solid, whichever brushes these
are. -/
theorem C147_exact (depth depth' : Nat)
    (order order' : List (Str × List (BrushGeo ℝ)) → List (Str × List (BrushGeo ℝ)))
    (horder : ∀ l, (order l).Perm l) (horder' : ∀ l, (order' l).Perm l)
    (config config' : Config ℝ) (text text' : Str) (ht : config.mapFile = some text) (ht' : config'.mapFile = some text')
    (entities entities' : List (Entity ℝ)) (hl : LoadsAs text entities) (hl' : LoadsAs text' entities')
    (nodes nodes' : List (Node ℝ)) (h : Quarch.run depth order config = .ok nodes)
    (h' : Quarch.run depth' order' config' = .ok nodes')
    (hp : ∀ e ∈ entities, Anchored entities e → ∀ br ∈ e.brushes, ProperBrush br.planes)
    (hp' : ∀ e ∈ entities', Anchored entities' e → ∀ br ∈ e.brushes, ProperBrush br.planes)
    (hm : ∀ x, SolidPoint config entities x ↔ SolidPoint config' entities' x) (x : V3 ℝ) :
    InSolid nodes' x ↔ InSolid nodes x := by
  rw [C88_filled depth order horder config nodes h text ht entities hl hp,
    C88_filled depth' order' horder' config' nodes' h' text' ht' entities' hl' hp']
  exact (hm x).symm

/-- C147 in exact arithmetic: the whole surface of what is solid is drawn, if everything that has convex collision has a mesh and
no texture of a solid brush is hidden. -/
theorem C147_surface (depth : Nat)
    (order : List (Str × List (BrushGeo ℝ)) → List (Str × List (BrushGeo ℝ))) (horder : ∀ l, (order l).Perm l)
    (config : Config ℝ) (nodes : List (Node ℝ)) (h : Quarch.run depth order config = .ok nodes)
    (text : Str) (ht : config.mapFile = some text) (entities : List (Entity ℝ)) (hl : LoadsAs text entities)
    (hp : ∀ e ∈ entities, Anchored entities e → ∀ br ∈ e.brushes, ProperBrush br.planes)
    (hm : AllMeshes config.quarchitectGameData .convex)
    (hb : ∀ e ∈ entities, Anchored entities e → ∀ br ∈ e.brushes, SolidAs config e br .convex → ∀ p ∈ br.planes,
      ∀ t, knownTexture config.textureInfo p = some t →
        t ∉ config.textureBlacklist.brush ∧ t ∉ config.textureBlacklist.plane)
    (x : V3 ℝ) (hx : OnRim (InSolid nodes) x) : Drawn nodes x := by
  have filled := C88_filled depth order horder config nodes h text ht entities hl hp
  obtain ⟨h0, h1⟩ := hx
  obtain ⟨e, he, ha, br, hbr, hs, hin⟩ := (filled x).1 h0
  have within : ∀ p y, WithinR 0 p y ↔ dotR (rawNormal p) (subR y p.v0) ≤ 0 := fun p y => by unfold WithinR; rw [zero_mul]
  by_cases hon : ∃ p ∈ br.planes, OnPlane p x
  · obtain ⟨p, hpm, hp0⟩ := hon
    have hpb := hp e he ha br hbr
    obtain ⟨g, hg, hw, hg0⟩ := Poly.on_wide hpb.solid hpb.points hpm (fun p hpm => (within p x).1 (hin p hpm)) hp0
    exact (C87_picture depth order horder config nodes h text ht entities hl hp x).2
      ⟨e, he, ha, br, hbr, g, hg, solid_shown hm hg hs (hb e he ha br hbr hs g hg),
        (hasArea_iff (hpb.points _ hg)).2 hw, hg0, hin⟩
  · obtain ⟨d, hd, k⟩ := room_behind (x := x) (br.planes.map fun p => (rawNormal p, p.v0)) (by
      rw [List.forall_mem_map]
      exact fun p hpm => lt_of_le_of_ne ((within p x).1 (hin p hpm)) fun h0 => hon ⟨p, hpm, h0⟩)
    obtain ⟨y, hy, hn⟩ := h1 d hd
    refine absurd ((filled y).2 ⟨e, he, ha, br, hbr, hs, fun p hpm => (within p y).2 ?_⟩) hn
    exact (k y hy _ (List.mem_map_of_mem (f := fun p : BrushPlane ℝ => (rawNormal p, p.v0)) hpm)).le

end

section
variable [F32Lib] [Platform] [AccurateAtan2]

theorem agrees_meet {A A' B : V3 ℝ → Prop} (h : Agrees (1 / 2000) A B) (h' : Agrees (1 / 2000) A' B) :
    Agrees (1 / 1000) A' A := by
  have e : (1 / 2000 + 1 / 2000 : ℝ) = 1 / 1000 := by norm_num
  constructor
  · intro x hx
    obtain ⟨y, hy, hc⟩ := h'.1 x hx
    obtain ⟨z, hz, hc'⟩ := h.2 y hy
    exact ⟨z, hz, e ▸ close_add hc (close_symm hc')⟩
  · intro x hx
    obtain ⟨y, hy, hc⟩ := h.1 x hx
    obtain ⟨z, hz, hc'⟩ := h'.2 y hy
    exact ⟨z, hz, e ▸ close_add hc' (close_symm hc)⟩

/-- C147 in single precision: if two maps of pointed brushes have brushes at the same points, then what is solid agrees up to a
thousandth of a unit, whichever brushes these are. -/
theorem C147_single (depth depth' : Nat)
    (order order' : List (Str × List (BrushGeo F32)) → List (Str × List (BrushGeo F32)))
    (horder : ∀ l, (order l).Perm l) (horder' : ∀ l, (order' l).Perm l)
    (config config' : Config F32) (text text' : Str) (ht : config.mapFile = some text) (ht' : config'.mapFile = some text')
    (entities entities' : List (Entity F32)) (hl : LoadsAs text entities) (hl' : LoadsAs text' entities')
    (nodes nodes' : List (Node F32)) (h : Quarch.run depth order config = .ok nodes)
    (h' : Quarch.run depth' order' config' = .ok nodes')
    (hb : ∀ e ∈ entities, Anchored entities e → ∀ br ∈ e.brushes, IsPointed br.planes)
    (hb' : ∀ e ∈ entities', Anchored entities' e → ∀ br ∈ e.brushes, IsPointed br.planes)
    (hm : ∀ x, SolidPoint32 config entities x ↔ SolidPoint32 config' entities' x) :
    Agrees (1 / 1000) (InSolid32 nodes') (InSolid32 nodes) := by
  have f := C125_filled depth order horder config nodes h text ht entities hl hb
  obtain ⟨f1, f2⟩ := C125_filled depth' order' horder' config' nodes' h' text' ht' entities' hl' hb'
  refine agrees_meet f ⟨fun x hx => ?_, fun y hy => f2 y ((hm y).1 hy)⟩
  obtain ⟨y, hy, hc⟩ := f1 x hx
  exact ⟨y, (hm y).2 hy, hc⟩

/-- C147 in single precision: near every point of the surface of what the map says is solid, something is drawn. -/
theorem C147_surface_single (depth : Nat)
    (order : List (Str × List (BrushGeo F32)) → List (Str × List (BrushGeo F32))) (horder : ∀ l, (order l).Perm l)
    (config : Config F32) (nodes : List (Node F32)) (h : Quarch.run depth order config = .ok nodes)
    (text : Str) (ht : config.mapFile = some text) (entities : List (Entity F32)) (hl : LoadsAs text entities)
    (hb : ∀ e ∈ entities, Anchored entities e → ∀ br ∈ e.brushes, IsPointed br.planes)
    (hm : AllMeshes config.quarchitectGameData .convex)
    (hn : ∀ e ∈ entities, Anchored entities e → ∀ br ∈ e.brushes, SolidAs config e br .convex → ∀ p ∈ br.planes,
      ∀ t, knownTexture config.textureInfo p = some t →
        t ∉ config.textureBlacklist.brush ∧ t ∉ config.textureBlacklist.plane)
    (y : V3 ℝ) (hy : OnRim (SolidPoint32 config entities) y) : ∃ x, Drawn32 nodes x ∧ Close (1 / 2000) x y := by
  obtain ⟨⟨e, he, ha, br, hbr, hs, hin⟩, h1⟩ := hy
  obtain ⟨g, R, hf⟩ := hb e he ha br hbr
  by_cases hon : ∃ p ∈ br.planes, (triOf p).above y = 0
  · obtain ⟨p, hp, har, hf0⟩ := firm_wide hf.toClearBody ⟨hin, hon⟩
    exact (C125_picture depth order horder config nodes h text ht entities hl hb).2 y
      ⟨e, he, ha, br, hbr, p, hp, solid_shown hm hp hs (hn e he ha br hbr hs p hp), har, hf0⟩
  · obtain ⟨d, hd, k⟩ := room_behind (x := y) (br.planes.map fun p => ((triOf p).normal, (triOf p).1)) (by
      rw [List.forall_mem_map]
      exact fun p hpm => lt_of_le_of_ne (hin p hpm) fun h0 => hon ⟨p, hpm, h0⟩)
    obtain ⟨z, hz, hnz⟩ := h1 d hd
    exact absurd ⟨e, he, ha, br, hbr, hs, fun p hpm => (k z hz _
      (List.mem_map_of_mem (f := fun p : BrushPlane F32 => ((triOf p).normal, (triOf p).1)) hpm)).le⟩ hnz

end
end Quarch
