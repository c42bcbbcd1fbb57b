import Verif.Props.Surface
import Verif.Proofs.Tree
/-
C51: nodes of worldspawn layers.
-/
set_option linter.unusedSectionVars false
namespace Quarch
open Spec Scene

namespace Spec
/-- Exactly one layer definition has the texture. -/
def TheLayer (ls : List WorldspawnLayer) (t : Str) (layer : WorldspawnLayer) : Prop :=
  ∃ pre post, ls = pre ++ layer :: post ∧ layer.texture = t ∧
    (∀ x ∈ pre, x.texture ≠ t) ∧ ∀ x ∈ post, x.texture ≠ t

/-- The layer has mesh visuals and some face with the texture has a corner. -/
def LayerVisible {F : Type} (layer : WorldspawnLayer) (t : Str) (brushes : List (BrushGeo F)) : Prop :=
  layer.visualType = .mesh ∧ ∃ b ∈ brushes, ∃ p ∈ b.planes, p.texture = some t ∧ p.vertices ≠ []

/-- The layer has convex collision, or concave collision and some face has a corner. -/
def LayerSolid {F : Type} (layer : WorldspawnLayer) (brushes : List (BrushGeo F)) : Prop :=
  layer.collisionType = .convex ∨
    (layer.collisionType = .concave ∧ ∃ b ∈ brushes, ∃ p ∈ b.planes, p.vertices ≠ [])
end Spec

section
variable {F : Type} [Arith F]

theorem filter_single {ls : List WorldspawnLayer} {t : Str} {layer : WorldspawnLayer} :
    ls.filter (fun l => l.texture == t) = [layer] ↔ TheLayer ls t layer := by
  unfold TheLayer
  induction ls with
  | nil => simp
  | cons x xs ih =>
    by_cases hx : x.texture = t
    · rw [List.filter_cons_of_pos (by simpa using hx)]
      constructor
      · intro h
        obtain ⟨rfl, h'⟩ := List.cons.inj h
        refine ⟨[], xs, rfl, hx, by simp, ?_⟩
        intro y hy
        have := List.filter_eq_nil_iff.1 h' y hy
        simpa using this
      · rintro ⟨pre, post, e1, e2, e3, e4⟩
        cases pre with
        | nil =>
          obtain ⟨rfl, rfl⟩ := List.cons.inj e1
          rw [List.filter_eq_nil_iff.2 (fun y hy => by simpa using e4 y hy)]
        | cons y pre =>
          obtain ⟨rfl, _⟩ := List.cons.inj e1
          exact absurd hx (e3 x (by simp))
    · rw [List.filter_cons_of_neg (by simpa using hx), ih]
      constructor
      · rintro ⟨pre, post, e1, e2, e3, e4⟩
        refine ⟨x :: pre, post, by rw [e1]; rfl, e2, ?_, e4⟩
        intro y hy
        rcases List.mem_cons.1 hy with rfl | hy
        · exact hx
        · exact e3 y hy
      · rintro ⟨pre, post, e1, e2, e3, e4⟩
        cases pre with
        | nil =>
          obtain ⟨rfl, _⟩ := List.cons.inj e1
          exact absurd e2 hx
        | cons y pre =>
          obtain ⟨rfl, e1'⟩ := List.cons.inj e1
          exact ⟨pre, post, e1', e2, fun z hz => e3 z (by simp [hz]), e4⟩

theorem hidden_default {b : BrushGeo F} {p : PlaneGeo F} (hp : p ∈ b.planes) :
    ¬ Hidden TextureBlacklist.default b := by
  intro h
  have := h p hp
  unfold knownIn TextureBlacklist.default at this
  split at this <;> simp at this

/-- Visual part of a layer. -/
theorem layerVisual_ok [LawfulEq F] (layer : WorldspawnLayer) (t : Str) (brushes : List (BrushGeo F))
    (hf : Fanned brushes) :
    (¬ LayerVisible layer t brushes ∧ layerVisual layer t brushes = .ok .none) ∨
    (LayerVisible layer t brushes ∧ ∃ s, layerVisual layer t brushes = .ok (.mesh [s]) ∧
      textureSurface ⟨V3.zero, brushes⟩ TextureBlacklist.default (some t) = .ok (some s)) := by
  unfold LayerVisible layerVisual
  cases layer.visualType with
  | none => left; simp
  | mesh =>
    have hi := surface_iff ⟨V3.zero, brushes⟩ TextureBlacklist.default hf (some t)
    obtain ⟨parts, _, h⟩ := textureSurface_ok (g := ⟨V3.zero, brushes⟩) TextureBlacklist.default (some t) hf
    have hk : (∃ b ∈ brushes, ¬ Hidden TextureBlacklist.default b ∧
          ∃ p ∈ b.planes, p.texture = some t ∧ p.vertices ≠ []) ↔
        ∃ b ∈ brushes, ∃ p ∈ b.planes, p.texture = some t ∧ p.vertices ≠ [] := by
      constructor
      · rintro ⟨b, hb, _, h⟩; exact ⟨b, hb, h⟩
      · rintro ⟨b, hb, p, hp, h⟩; exact ⟨b, hb, hidden_default hp, p, hp, h⟩
    simp only at hi
    rw [hk] at hi
    rcases h with ⟨_, h⟩ | ⟨_, s, h, _⟩
    · left
      refine ⟨?_, by rw [h]; rfl⟩
      rintro ⟨_, hv⟩
      obtain ⟨s, hs⟩ := hi.2 hv
      rw [h] at hs; cases hs
    · right
      exact ⟨⟨rfl, hi.1 ⟨s, h⟩⟩, s, by rw [h]; rfl, h⟩

/-- Collision part of a layer. -/
theorem layerCollision_ok [LawfulEq F] (layer : WorldspawnLayer) (brushes : List (BrushGeo F))
    (hf : Fanned brushes) :
    (¬ LayerSolid layer brushes ∧ layerCollision layer brushes = .ok .none) ∨
    (LayerSolid layer brushes ∧ ∃ k, layerCollision layer brushes = .ok k ∧ k ≠ .none ∧
      collisionOf layer.collisionType ⟨V3.zero, brushes⟩ = .ok k) := by
  unfold LayerSolid layerCollision
  cases layer.collisionType with
  | none => left; simp [collisionOf]
  | convex => right; exact ⟨.inl rfl, _, rfl, by simp [convexCollision], rfl⟩
  | concave =>
    rcases C41_concave ⟨V3.zero, brushes⟩ hf with ⟨h, h'⟩ | ⟨h, s, h', _⟩
    · left
      refine ⟨?_, h'⟩
      rintro (hc | ⟨_, b, hb, p, hp, hv⟩)
      · cases hc
      · exact hv (h b hb p hp)
    · right
      exact ⟨.inr ⟨rfl, h⟩, _, h', by simp, h'⟩

/-- C51: building a layer never fails, and it gives a node exactly when exactly one layer definition has its
texture and that definition yields geometry. The node is at the origin and has the name, type and component
of that definition; its children are, if the definition asks for them, one visual node with one surface with
the layer's texture (the surface of C34 and C36 for the layer's brushes) and one collision node (the shapes
of C40 and C41). (A layer definition with convex collision yields a node even when the map has no such
brush.) -/
theorem C51_layer_node [LawfulEq F] (gd : GameData F) (t : Str) (brushes : List (BrushGeo F))
    (hf : Fanned brushes) :
    ∃ o, buildLayer gd (t, brushes) = .ok o ∧
      (o.isSome = true ↔ ∃ layer, TheLayer gd.worldspawnLayers t layer ∧
        (LayerVisible layer t brushes ∨ LayerSolid layer brushes)) ∧
      ∀ n, o = some n → ∃ layer a vis col, TheLayer gd.worldspawnLayers t layer ∧
        n = .actor V3.zero a (vis ++ col) ∧
        a.name = layer.name ∧ a.entityType = layer.entityType ∧
        (∀ s, a.componentClass = some s ↔ layer.componentType = .script s) ∧
        a.propertyApplicationType = .properties ∧ (∀ k, a.properties k = none) ∧
        (LayerVisible layer t brushes → ∃ s, vis = [.visual V3.zero (.mesh [s])] ∧ WellFormed s ∧
          textureSurface ⟨V3.zero, brushes⟩ TextureBlacklist.default (some t) = .ok (some s)) ∧
        (¬ LayerVisible layer t brushes → vis = []) ∧
        (LayerSolid layer brushes → ∃ k, col = [.collision V3.zero k] ∧
          collisionOf layer.collisionType ⟨V3.zero, brushes⟩ = .ok k) ∧
        (¬ LayerSolid layer brushes → col = []) := by
  unfold buildLayer
  split
  · rename_i layer hl
    have hT := filter_single.1 hl
    have huniq : ∀ l', TheLayer gd.worldspawnLayers t l' → l' = layer := by
      intro l' h
      have := filter_single.2 h
      simp only at hl
      rw [hl] at this
      cases this; rfl
    have hcomp : ∀ s, componentClass layer.componentType = some s ↔ layer.componentType = .script s := by
      intro s
      cases layer.componentType <;> simp [componentClass]
    rcases layerVisual_ok layer t brushes hf with ⟨hv, ev⟩ | ⟨hv, s, ev, es⟩ <;>
    rcases layerCollision_ok layer brushes hf with ⟨hc, ec⟩ | ⟨hc, k, ec, hk, ek⟩
    · simp only [ev, ec, Outcome.ok_bind]
      refine ⟨none, rfl, ?_, by simp⟩
      simp only [Option.isSome_none, Bool.false_eq_true, false_iff]
      rintro ⟨l', h, h'⟩
      rw [huniq l' h] at h'
      rcases h' with h' | h'
      · exact hv h'
      · exact hc h'
    · simp only [ev, ec, Outcome.ok_bind]
      have hck : collisionChildren V3.zero k = [.collision V3.zero k] := by
        cases k <;> first | rfl | exact absurd rfl hk
      rw [hck]
      refine ⟨_, rfl, ?_, ?_⟩
      · refine ⟨fun _ => ⟨layer, hT, .inr hc⟩, fun _ => rfl⟩
      · rintro n hn
        cases hn
        exact ⟨layer, _, [], _, hT, rfl, rfl, rfl, hcomp, rfl, fun _ => rfl, fun h => absurd h hv,
          fun _ => rfl, fun _ => ⟨k, rfl, ek⟩, fun h => absurd hc h⟩
    · simp only [ev, ec, Outcome.ok_bind]
      refine ⟨_, rfl, ?_, ?_⟩
      · refine ⟨fun _ => ⟨layer, hT, .inl hv⟩, fun _ => rfl⟩
      · rintro n hn
        cases hn
        exact ⟨layer, _, [_], [], hT, rfl, rfl, rfl, hcomp, rfl, fun _ => rfl,
          fun _ => ⟨s, rfl, textureSurface_wellFormed hf es, es⟩, fun h => absurd hv h,
          fun h => absurd h hc, fun _ => rfl⟩
    · simp only [ev, ec, Outcome.ok_bind]
      have hck : collisionChildren V3.zero k = [.collision V3.zero k] := by
        cases k <;> first | rfl | exact absurd rfl hk
      rw [hck]
      refine ⟨_, rfl, ?_, ?_⟩
      · refine ⟨fun _ => ⟨layer, hT, .inl hv⟩, fun _ => rfl⟩
      · rintro n hn
        cases hn
        exact ⟨layer, _, [_], [_], hT, rfl, rfl, rfl, hcomp, rfl, fun _ => rfl,
          fun _ => ⟨s, rfl, textureSurface_wellFormed hf es, es⟩, fun h => absurd hv h,
          fun _ => ⟨k, rfl, ek⟩, fun h => absurd hc h⟩
  · rename_i hl
    refine ⟨none, rfl, ?_, by simp⟩
    simp only [Option.isSome_none, Bool.false_eq_true, false_iff]
    rintro ⟨l', h, _⟩
    exact hl l' (filter_single.2 h)

end

section Examples
attribute [local instance] refPlatform intArith

/-- A water layer with mesh visuals and convex collision. -/
def waterLayer : WorldspawnLayer := ⟨str! "Water", str! "*water0", .cls (str! "Area"), .none, .mesh, .convex⟩

/-- A one-triangle water brush. -/
def waterBrush : BrushGeo Int :=
  let v (x y : Int) : Vertex Int := ⟨⟨x, y, 0⟩, ⟨0, 0, 1⟩, (⟨1, 0, 0⟩, 1), none, none⟩
  ⟨⟨0, 0, 0⟩, [⟨⟨0, 0, 0⟩, [v 0 0, v 1 0, v 0 1], [0, 1, 2], some (str! "*water0")⟩]⟩

-- the hypotheses of `C51_layer_node` and both alternatives of its condition
example : Fanned [waterBrush] ∧ TheLayer [waterLayer] (str! "*water0") waterLayer ∧
    LayerVisible waterLayer (str! "*water0") [waterBrush] ∧ LayerSolid waterLayer [waterBrush] ∧
    (match buildLayer (F := Int) ⟨[], [waterLayer]⟩ (str! "*water0", [waterBrush]) with
      | .ok (some (.actor _ a [.visual _ (.mesh [s]), .collision _ (.convex [c])])) =>
        decide (a.name = str! "Water" ∧ s.indices = [0, 1, 2] ∧ c.points.length = 3)
      | _ => false) = true := by
  refine ⟨?_, ⟨[], [], rfl, rfl, by simp, by simp⟩, ⟨rfl, waterBrush, by simp, _, List.mem_singleton.2 rfl, rfl, by simp⟩,
    .inl rfl, by decide⟩
  intro b hb p hp
  simp only [List.mem_cons, List.not_mem_nil, or_false] at hb
  subst hb
  simp only [waterBrush, List.mem_cons, List.not_mem_nil, or_false] at hp
  subst hp
  exact ⟨rfl, fun t ht => by
      have : t = 0 := by simp at ht; omega
      subst this; exact ⟨rfl, rfl, rfl⟩⟩

-- two definitions with the texture: no node
example : (match buildLayer (F := Int) ⟨[], [waterLayer, waterLayer]⟩ (str! "*water0", [waterBrush]) with
      | .ok none => true
      | _ => false) = true := by decide

end Examples
end Quarch
