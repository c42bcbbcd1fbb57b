import Verif.Spec.Hide
import Verif.Props.Used
/-
C99: hiding more face textures takes their surfaces away and changes nothing else.
-/
set_option linter.unusedSectionVars false
namespace Quarch
open Spec Scene

section
variable {F : Type} [Arith F]

theorem bareAll_append (hidden : List Str) : ∀ a b : List (Node F),
    bareAll hidden (a ++ b) = bareAll hidden a ++ bareAll hidden b
  | [], _ => rfl
  | n :: a, b => by
    rw [List.cons_append, bareAll, bareAll, bareAll_append hidden a b, List.append_assoc]

/-- The surface of a texture has that texture. -/
theorem surface_texture {g : EntityGeo F} {bl : TextureBlacklist} {t : Option Str} {s : MeshSurface F}
    (h : textureSurface g bl t = .ok (some s)) : s.texture = t := by
  unfold textureSurface at h
  obtain ⟨⟨vs, is⟩, _, h⟩ := Outcome.bind_eq_ok.1 h
  simp only at h
  split at h
  · cases h
  · cases h; rfl

theorem uniqueTextures_more (bl : TextureBlacklist) (more : List Str) : ∀ l : List Str,
    uniqueTextures ⟨bl.brush, bl.plane ++ more⟩ l = (uniqueTextures bl l).filter fun t => t ∉ more
  | [] => rfl
  | t :: rest => by
    unfold uniqueTextures
    rw [List.filter_append, uniqueTextures_more bl more rest]
    congr 1
    have h1 : (⟨bl.brush, bl.plane ++ more⟩ : TextureBlacklist).isBlacklistedPlane t =
        (bl.isBlacklistedPlane t || decide (t ∈ more)) := by
      rw [Bool.eq_iff_iff]
      unfold TextureBlacklist.isBlacklistedPlane
      simp
    rw [h1]
    by_cases h2 : (rest.find? fun comp => comp == t).isNone = true
    · by_cases h3 : bl.isBlacklistedPlane t = true
      · simp [h3]
      · by_cases h4 : t ∈ more <;> simp [h2, h3, h4]
    · simp [h2]

/-- Visual geometry without hidden surfaces. -/
def bareVisual (hidden : List Str) : VisualGeometry F → VisualGeometry F
  | .none => .none
  | .mesh ss => if ss.filter (fun s => Shown hidden s) = [] then .none else .mesh (ss.filter fun s => Shown hidden s)

theorem surfaces_more {g : EntityGeo F} {bl : TextureBlacklist} (more : List Str) :
    ∀ {l : List (Option Str)} {r : List (Option (MeshSurface F))}, mapOut (textureSurface g bl) l = .ok r →
    ∃ r', mapOut (textureSurface g bl) (l.filter fun t => ∀ x ∈ t, x ∉ more) = .ok r' ∧
      r'.filterMap id = (r.filterMap id).filter fun s => Shown more s := by
  intro l
  induction l with
  | nil => intro r h; cases h; exact ⟨[], rfl, rfl⟩
  | cons t l ih =>
    intro r h
    rw [mapOut_cons] at h
    obtain ⟨o, h1, h⟩ := Outcome.bind_eq_ok.1 h
    obtain ⟨r, h2, h⟩ := Outcome.bind_eq_ok.1 h
    cases h
    obtain ⟨r', h3, h4⟩ := ih h2
    by_cases ht : ∀ x ∈ t, x ∉ more
    · rw [List.filter_cons_of_pos (by simpa using ht), mapOut_cons, h1, Outcome.ok_bind, h3]
      refine ⟨o :: r', rfl, ?_⟩
      cases o with
      | none => simpa using h4
      | some s =>
        have hs : Shown more s := by
          intro x hx
          rw [surface_texture h1] at hx
          exact ht x hx
        have e1 : (some s :: r).filterMap id = s :: r.filterMap id := rfl
        have e2 : (some s :: r').filterMap id = s :: r'.filterMap id := rfl
        rw [e1, e2, List.filter_cons_of_pos (by simp [hs]), h4]
    · rw [List.filter_cons_of_neg (by simpa using ht)]
      refine ⟨r', h3, ?_⟩
      cases o with
      | none => simpa using h4
      | some s =>
        have hs : ¬ Shown more s := by
          intro hs
          apply ht
          intro x hx
          exact hs x (by rw [surface_texture h1]; exact hx)
        have e1 : (some s :: r).filterMap id = s :: r.filterMap id := rfl
        rw [e1, List.filter_cons_of_neg (by simp [hs]), h4]

theorem brushVisual_more {bl : TextureBlacklist} (more : List Str) {e : Entity F} {g : EntityGeo F} {bd : BrushData}
    {v : VisualGeometry F} (h : brushVisual e g bd bl = .ok v) :
    brushVisual e g bd ⟨bl.brush, bl.plane ++ more⟩ = .ok (bareVisual more v) := by
  unfold brushVisual at h ⊢
  cases hv : bd.visualType with
  | none => rw [hv] at h; cases h; rfl
  | mesh =>
    rw [hv] at h
    simp only at h ⊢
    obtain ⟨ss, h1, h⟩ := Outcome.bind_eq_ok.1 h
    obtain ⟨r', h2, h3⟩ := surfaces_more more h1
    have hbl : textureSurface g ⟨bl.brush, bl.plane ++ more⟩ = textureSurface g bl := by
      funext t
      rfl
    have hl : ∀ l : List Str, (l.map some ++ [none]).filter (fun t => ∀ x ∈ t, x ∉ more) =
        (l.filter fun t => t ∉ more).map some ++ [none] := by
      intro l
      rw [List.filter_append, List.filter_map]
      congr 1
      congr 1
      apply List.filter_congr
      intro t _
      simp
    rw [hl] at h2
    rw [hbl, uniqueTextures_more, h2, Outcome.ok_bind, h3]
    cases hss : ss.filterMap id with
    | nil => rw [hss] at h; cases h; rfl
    | cons s rest =>
      rw [hss] at h
      cases h
      simp only [bareVisual]
      cases hf : (s :: rest).filter fun s => Shown more s with
      | nil => simp
      | cons _ _ => simp

theorem entityVisual_more {gd : GameData F} {bl : TextureBlacklist} (more : List Str) {e : Entity F} {g : EntityGeo F}
    {v : VisualGeometry F} (h : entityVisual gd bl e g = .ok v) :
    entityVisual gd ⟨bl.brush, bl.plane ++ more⟩ e g = .ok (bareVisual more v) := by
  unfold entityVisual at h ⊢
  cases hn : e.properties.get? (str! "classname") with
  | none => rw [hn] at h; cases h
  | some name =>
    rw [hn] at h
    simp only at h ⊢
    cases hd : findDef gd name with
    | none => rw [hd] at h; cases h; rfl
    | some d =>
      rw [hd] at h
      simp only at h ⊢
      cases hdd : d.data with
      | point p => rw [hdd] at h; cases h; rfl
      | brush p b => rw [hdd] at h; exact brushVisual_more more h

theorem bare_visualChildren (more : List Str) (o : V3 F) (v : VisualGeometry F) :
    visualChildren o (bareVisual more v) = bareAll more (visualChildren o v) := by
  cases v with
  | none => rfl
  | mesh ss =>
    by_cases h : ss.filter (fun s => Shown more s) = []
    · simp only [bareVisual, visualChildren, bareAll, bare, if_pos h]
      rfl
    · simp only [bareVisual, visualChildren, bareAll, bare, if_neg h]
      rfl

theorem bare_collisionChildren (more : List Str) (o : V3 F) (c : CollisionGeometry F) :
    collisionChildren o c = bareAll more (collisionChildren o c) := by
  cases c <;> simp [collisionChildren, bareAll, bare]

/-- The node of an entity after hiding textures. -/
theorem buildEntity_more {gd : GameData F} {fgd : Forge.GameData F} {bl : TextureBlacklist} (more : List Str)
    {data : List (Entity F × EntityGeo F)} : ∀ {depth : Nat} {o : V3 F} {d : Entity F × EntityGeo F} {n : Node F},
    buildEntity gd fgd bl data depth o d = .ok n →
    ∃ n', bare more n = [n'] ∧ buildEntity gd fgd ⟨bl.brush, bl.plane ++ more⟩ data depth o d = .ok n' := by
  intro depth
  induction depth with
  | zero => intro o d n h; unfold buildEntity at h; cases h
  | succ depth ih =>
    rintro o ⟨e, g⟩ n h
    obtain ⟨_, v, c, ents, name, props, e0, h1, h2, h3, h4, h5, rfl⟩ := buildEntity_ok h
    cases e0
    have hk : ∀ {l : List (Entity F × EntityGeo F)} {ents : List (Node F)},
        List.Forall₂ (fun child n => buildEntity gd fgd bl data depth (V3.neg g.center) child = .ok n) l ents →
        mapOut (fun child => buildEntity gd fgd ⟨bl.brush, bl.plane ++ more⟩ data depth (V3.neg g.center) child) l =
          .ok (bareAll more ents) := by
      intro l ents hl
      induction hl with
      | nil => rfl
      | cons hx _ ihl =>
        obtain ⟨n', a1, a2⟩ := ih hx
        rw [mapOut_cons, a2, Outcome.ok_bind, ihl, Outcome.ok_bind, bareAll, a1]
        rfl
    refine ⟨_, rfl, ?_⟩
    unfold buildEntity
    have hkk := hk h3
    unfold members at hkk
    have hn : Outcome.unwrap (e.properties.get? (str! "classname")) = .ok name := unwrap_eq_ok.2 h4
    rw [entityVisual_more more h1, Outcome.ok_bind, h2, Outcome.ok_bind, hkk, Outcome.ok_bind, hn, Outcome.ok_bind, h5,
      Outcome.ok_bind, bareAll_append, bareAll_append, ← bare_visualChildren, ← bare_collisionChildren]

variable [Platform]

/-- C99: blacklisting more face textures takes the surfaces with these textures out of the nodes of entities, and
visual nodes that have none left, and changes nothing else. In particular nodes of layers keep theirs. -/
theorem C99_hide_faces (depth : Nat) (order : List (Str × List (BrushGeo F)) → List (Str × List (BrushGeo F)))
    (config : Config F) (text : Str) (hm : config.mapFile = some text) (entities : List (Entity F))
    (hl : LoadsAs text entities) (more : List Str) (nodes : List (Node F))
    (h : Quarch.run depth order config = .ok nodes) :
    ∃ wn ls es, nodes = wn :: (ls ++ es) ∧ es.length = entities.countP (fun e => TopLevel e) ∧
      Quarch.run depth order { config with textureBlacklist :=
        ⟨config.textureBlacklist.brush, config.textureBlacklist.plane ++ more⟩ } =
        .ok (bare more wn ++ ls ++ bareAll more es) := by
  obtain ⟨hall, w, wn, ls, es, hw, e1, hwn, hls, hes⟩ := (run_list hm hl).1 h
  refine ⟨wn, ls.filterMap id, es, e1, ?_, ?_⟩
  · rw [← hes.length_eq, List.countP_eq_length_filter]
  · have hk : ∀ {l : List (Entity F)} {es : List (Node F)},
        List.Forall₂ (fun e n => buildEntity config.quarchitectGameData config.forgeGameData config.textureBlacklist
          (worldOf config.textureInfo w :: (others entities).map fun e => (e, geoOf config.textureInfo e)) depth V3.zero
          (e, geoOf config.textureInfo e) = .ok n) l es →
        List.Forall₂ (fun e n => buildEntity config.quarchitectGameData config.forgeGameData
          ⟨config.textureBlacklist.brush, config.textureBlacklist.plane ++ more⟩
          (worldOf config.textureInfo w :: (others entities).map fun e => (e, geoOf config.textureInfo e)) depth V3.zero
          (e, geoOf config.textureInfo e) = .ok n) l (bareAll more es) := by
      intro l es hl
      induction hl with
      | nil => exact .nil
      | cons hx _ ihl =>
        obtain ⟨n', a1, a2⟩ := buildEntity_more more hx
        rw [bareAll, a1]
        exact .cons a2 ihl
    obtain ⟨n', a1, a2⟩ := buildEntity_more more hwn
    rw [run_list (config := { config with textureBlacklist :=
      ⟨config.textureBlacklist.brush, config.textureBlacklist.plane ++ more⟩ }) hm hl]
    exact ⟨hall, w, n', ls, bareAll more es, hw, by rw [a1]; simp, a2, hls, hk hes⟩

end
end Quarch
