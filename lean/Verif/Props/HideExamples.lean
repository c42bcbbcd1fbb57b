import Verif.Props.Hide
import Verif.Props.TreeExamples
/-
Concrete configurations for C98 and C99.
-/
set_option linter.unusedSectionVars false
namespace Quarch
open Spec Scene

section Example
attribute [local instance] refPlatform intArith

theorem scene_loads : LoadsAs sceneMap sceneEntities := by
  obtain ⟨paths, hp⟩ := scene_parse
  exact ⟨_, _, scene_tokens, hp⟩

def lampClass : EntityDef Int := ⟨str! "lamp", .point ⟨.cls (str! "Lamp"), .none, .properties, Map.empty⟩⟩
def lampDeclared : Forge.Entity Int := ⟨.pointClass, [], str! "lamp", [], []⟩
def lavaLayer : WorldspawnLayer := ⟨str! "lava", str! "*lava0", .placeholder, .none, .mesh, .none⟩

-- `C98_unused`: a lamp, lava and two hidden textures, none of them in the map
example : Quarch.run 2 id (extended sceneConfig [lampClass] [lavaLayer] [lampDeclared] [str! "clip"] [str! "skip"]) =
    Quarch.run 2 id sceneConfig := by
  refine C98_unused 2 id (fun l => .refl l) sceneConfig sceneMap rfl sceneEntities scene_loads _ _ _ _ _ ?_ ?_ ?_ ?_
  · simp only [forall_eq, sceneEntities, List.mem_cons, List.not_mem_nil, or_false,
      forall_eq_or_imp]
    decide
  · decide
  · simp only [forall_eq, sceneEntities, List.mem_cons, List.not_mem_nil, or_false,
      forall_eq_or_imp]
    decide
  · simp only [sceneEntities, List.mem_cons, List.not_mem_nil, or_false, forall_eq_or_imp, List.cons_append,
      List.nil_append, forall_eq]
    decide

-- `C98_only_what_is_used`: declared properties of the definition of the worldspawn itself have no effect
example : Quarch.run 2 id { sceneConfig with quarchitectGameData := { sceneConfig.quarchitectGameData with
      entities := [⟨str! "worldspawn", .brush ⟨.placeholder, .none, .properties,
        Map.insert Map.empty (str! "message") (.string (str! "hello"))⟩ ⟨.mesh, .convex⟩⟩] } } =
    Quarch.run 2 id sceneConfig := by
  refine C98_only_what_is_used 2 id (fun l => .refl l) _ sceneConfig sceneMap rfl rfl sceneEntities scene_loads
    ⟨fun _ _ _ _ _ _ => rfl, fun _ _ _ _ _ _ => Iff.rfl, fun _ _ _ _ _ _ => Iff.rfl, ?_,
      fun e _ => ⟨fun d hd => ⟨d, hd, rfl⟩, fun d hd => ⟨d, hd⟩⟩, fun _ _ => rfl⟩
  intro e he name _
  constructor
  · intro d hd
    rw [← findDef_iff] at hd
    unfold findDef at hd
    by_cases hn : name = str! "worldspawn"
    · subst hn
      cases hd
      exact ⟨_, findDef_iff.1 rfl, .brush rfl rfl rfl⟩
    · simp only [List.find?_cons, List.find?_nil] at hd
      split at hd
      · rename_i hx
        exact absurd (eq_of_beq hx).symm hn
      · cases hd
  · intro d hd
    rw [← findDef_iff] at hd
    unfold findDef sceneConfig at hd
    by_cases hn : name = str! "worldspawn"
    · subst hn
      exact ⟨_, findDef_iff.1 rfl⟩
    · simp only [List.find?_cons, List.find?_nil] at hd
      split at hd
      · rename_i hx
        exact absurd (eq_of_beq hx).symm hn
      · cases hd

set_option maxRecDepth 100000 in
theorem scene_surface : (match entityVisual sceneConfig.quarchitectGameData sceneConfig.textureBlacklist sceneWorld
    ⟨⟨1, 1, 1⟩, [sceneBoxGeo]⟩ with
    | .ok (.mesh ss) => ss.map fun s => s.texture
    | _ => []) = [some (str! "stone")] := by decide

/-- The scene of the map, with the texture of its only surface. -/
theorem stone_nodes : ∃ s, s.texture = some (str! "stone") ∧ ∃ c a l1 l2 a1 a2,
    Quarch.run 2 id sceneConfig = .ok
      [.actor ⟨1, 1, 1⟩ a [.visual ⟨1, 1, 1⟩ (.mesh [s]), .collision ⟨1, 1, 1⟩ (.convex [c])],
       .actor ⟨0, 0, 0⟩ l1 [.collision ⟨0, 0, 0⟩ (.convex [])],
       .actor ⟨0, 0, 0⟩ l2 [.collision ⟨0, 0, 0⟩ (.convex [])],
       .actor ⟨5, 6, 7⟩ a1 [.actor ⟨-4, -4, -4⟩ a2 []]] := by
  obtain ⟨s, hs, _⟩ := scene_mesh
  have ht := scene_surface
  rw [hs] at ht
  simp only [List.map_cons, List.map_nil, List.cons.injEq, and_true] at ht
  refine ⟨s, ht, ?_⟩
  have hb : ∃ c a, Scene.buildEntity sceneConfig.quarchitectGameData
      sceneConfig.forgeGameData sceneConfig.textureBlacklist sceneData 2 V3.zero
      (sceneWorld, ⟨⟨1, 1, 1⟩, [sceneBoxGeo]⟩) =
    .ok (.actor ⟨1, 1, 1⟩ a [.visual ⟨1, 1, 1⟩ (.mesh [s]), .collision ⟨1, 1, 1⟩ (.convex [c])]) := by
    unfold Scene.buildEntity
    rw [hs, Outcome.ok_bind]
    have hc : entityCollision sceneConfig.quarchitectGameData sceneWorld ⟨⟨1, 1, 1⟩, [sceneBoxGeo]⟩ =
      .ok (convexCollision ⟨⟨1, 1, 1⟩, [sceneBoxGeo]⟩) := rfl
    rw [hc, Outcome.ok_bind]
    have hf : ((sceneData.drop 1).filter fun child => inGroup sceneWorld child.1) = [] := rfl
    rw [hf, mapOut_nil, Outcome.ok_bind]
    exact ⟨_, _, rfl⟩
  obtain ⟨c, a, hb⟩ := hb
  refine ⟨c, a, ?_⟩
  rw [scene_run]
  unfold Scene.run
  have ht : sceneData.take 1 = [(sceneWorld, ⟨⟨1, 1, 1⟩, [sceneBoxGeo]⟩)] := rfl
  rw [ht, mapOut_cons, hb, Outcome.ok_bind, mapOut_nil, Outcome.ok_bind, Outcome.ok_bind]
  exact ⟨_, _, _, _, rfl⟩

-- `C99_hide_faces`: hiding the only texture leaves the worldspawn with its collision shape; layers and group stay
example : ∃ c a l1 l2 a1 a2, Quarch.run 2 id { sceneConfig with textureBlacklist := ⟨[], [str! "stone"]⟩ } = .ok
      [.actor ⟨1, 1, 1⟩ a [.collision ⟨1, 1, 1⟩ (.convex [c])],
       .actor ⟨0, 0, 0⟩ l1 [.collision ⟨0, 0, 0⟩ (.convex [])],
       .actor ⟨0, 0, 0⟩ l2 [.collision ⟨0, 0, 0⟩ (.convex [])],
       .actor ⟨5, 6, 7⟩ a1 [.actor ⟨-4, -4, -4⟩ a2 []]] := by
  obtain ⟨s, hst, c, a, l1, l2, a1, a2, h⟩ := stone_nodes
  obtain ⟨wn, ls, es, e1, hlen, h'⟩ := C99_hide_faces 2 id sceneConfig sceneMap rfl sceneEntities scene_loads
    [str! "stone"] _ h
  have hs : ¬ Shown [str! "stone"] s := fun h => h _ hst (by simp)
  have hlen' : es.length = 1 := hlen
  rcases es with _ | ⟨e, _ | ⟨_, _⟩⟩
  · cases hlen'
  · rcases ls with _ | ⟨x, _ | ⟨y, _ | ⟨z, ls⟩⟩⟩
    · simp at e1
    · simp at e1
    · simp only [List.cons_append, List.nil_append, List.cons.injEq, and_true] at e1
      obtain ⟨rfl, rfl, rfl, rfl⟩ := e1
      refine ⟨c, a, l1, l2, a1, a2, h'.trans ?_⟩
      simp [bare, bareAll, hs]
    · simp at e1
  · cases hlen'

end Example
end Quarch
