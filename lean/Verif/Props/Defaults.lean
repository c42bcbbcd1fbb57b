import Verif.Model.Constructors
import Verif.Props.Used
import Verif.Props.Real
/-
C110: default values.
-/
set_option linter.unusedSectionVars false
namespace Quarch
open Quarch.Spec Scene

section
variable {F : Type} [Arith F] [Platform]

/-- The configuration with other entity definitions. -/
def Spec.withClasses (config : Config F) (defs : List (EntityDef F)) : Config F :=
  { config with quarchitectGameData := { config.quarchitectGameData with entities := defs } }

/-- The configuration with other layer definitions. -/
def Spec.withLayers (config : Config F) (layers : List WorldspawnLayer) : Config F :=
  { config with quarchitectGameData := { config.quarchitectGameData with worldspawnLayers := layers } }

/-- A definition of a class, that is not defined otherwise, with default data. -/
def DefaultData (data : EntityData F) : Prop :=
  data = .point PointData.default ∨ data = .brush PointData.default BrushData.default

theorem find_default (gd : GameData F) {pre post : List (EntityDef F)} {c : Str} {data : EntityData F}
    (hc : ∀ d ∈ pre ++ post, d.classname ≠ c) (name : Str) :
    (name = c ∧ findDef { gd with entities := pre ++ ⟨c, data⟩ :: post } name = some ⟨c, data⟩ ∧
      findDef { gd with entities := pre ++ post } name = none) ∨
    findDef { gd with entities := pre ++ ⟨c, data⟩ :: post } name = findDef { gd with entities := pre ++ post } name := by
  unfold findDef
  simp only [List.find?_append, List.find?_cons]
  by_cases h : name = c
  · subst h
    left
    have h1 : pre.find? (fun d => d.classname == name) = none := by
      rw [List.find?_eq_none]
      intro d hd
      simpa using hc d (by simp [hd])
    have h2 : post.find? (fun d => d.classname == name) = none := by
      rw [List.find?_eq_none]
      intro d hd
      simpa using hc d (by simp [hd])
    simp [h1, h2]
  · right
    have : (c == name) = false := by simpa using fun e => h e.symm
    simp only [this]

theorem default_same (gd : GameData F) (fgd : Forge.GameData F) (bl : TextureBlacklist) {pre post : List (EntityDef F)}
    {c : Str} {data : EntityData F} (hc : ∀ d ∈ pre ++ post, d.classname ≠ c) (hd : DefaultData data) (e : Entity F)
    (g : EntityGeo F) :
    entityVisual { gd with entities := pre ++ ⟨c, data⟩ :: post } bl e g =
        entityVisual { gd with entities := pre ++ post } bl e g ∧
      entityCollision { gd with entities := pre ++ ⟨c, data⟩ :: post } e g =
        entityCollision { gd with entities := pre ++ post } e g ∧
      entityType { gd with entities := pre ++ ⟨c, data⟩ :: post } e = entityType { gd with entities := pre ++ post } e ∧
      entityComponentClass { gd with entities := pre ++ ⟨c, data⟩ :: post } e =
        entityComponentClass { gd with entities := pre ++ post } e ∧
      entityPropertyApplicationType { gd with entities := pre ++ ⟨c, data⟩ :: post } e =
        entityPropertyApplicationType { gd with entities := pre ++ post } e ∧
      entityProperties fgd e = entityProperties fgd e := by
  unfold entityVisual entityCollision entityType entityComponentClass entityPropertyApplicationType
  cases e.properties.get? (str! "classname") with
  | none => exact ⟨rfl, rfl, rfl, rfl, rfl, rfl⟩
  | some name =>
    rcases find_default gd (data := data) hc name with ⟨-, h1, h2⟩ | h
    · simp only [h1, h2]
      rcases hd with rfl | rfl
      · exact ⟨rfl, rfl, rfl, rfl, rfl, trivial⟩
      · exact ⟨rfl, rfl, rfl, rfl, rfl, trivial⟩
    · simp only [h, and_self]

/-- C110: defining a class with default data, as a point or as a brush, has no effect on any load: entities of classes
without a definition are treated in the same way. -/
theorem C110_class (depth : Nat) (order : List (Str × List (BrushGeo F)) → List (Str × List (BrushGeo F)))
    (config : Config F) (pre post : List (EntityDef F)) (c : Str) (data : EntityData F) (hd : DefaultData data)
    (hc : ∀ d ∈ pre ++ post, d.classname ≠ c) :
    Quarch.run depth order (withClasses config (pre ++ ⟨c, data⟩ :: post)) =
      Quarch.run depth order (withClasses config (pre ++ post)) := by
  have key : ∀ (entityData : List (Entity F × EntityGeo F)) (layers : List (Str × List (BrushGeo F))),
      Scene.run depth { config.quarchitectGameData with entities := pre ++ ⟨c, data⟩ :: post } config.forgeGameData
        config.textureBlacklist entityData layers =
      Scene.run depth { config.quarchitectGameData with entities := pre ++ post } config.forgeGameData
        config.textureBlacklist entityData layers := by
    intro entityData layers
    have hb := buildEntity_congr (data := entityData) (fgd := config.forgeGameData) (fgd' := config.forgeGameData)
      (bl := config.textureBlacklist) (bl' := config.textureBlacklist)
      (gd := { config.quarchitectGameData with entities := pre ++ ⟨c, data⟩ :: post })
      (gd' := { config.quarchitectGameData with entities := pre ++ post })
      (fun d _ => default_same config.quarchitectGameData config.forgeGameData config.textureBlacklist hc hd d.1 d.2)
      depth V3.zero
    unfold Scene.run
    rw [mapOut_congr (fun d hd => hb d (List.mem_of_mem_take hd)),
      mapOut_congr (l := (entityData.drop 1).filter _)
        (fun d hd => hb d (List.mem_of_mem_drop (List.mem_filter.1 hd).1))]
    refine Outcome.bind_congr fun ws _ => ?_
    rw [mapOut_congr (g := buildLayer { config.quarchitectGameData with entities := pre ++ post }) fun t _ => ?_]
    unfold buildLayer
    rfl
  unfold Quarch.run withClasses
  cases config.mapFile with
  | none => rfl
  | some text =>
    exact Outcome.bind_congr fun tokens _ => Outcome.bind_congr fun r _ => Outcome.bind_congr fun g _ =>
      Outcome.bind_congr fun d _ => key d.1 (order d.2)

/-- C110: a default layer definition has no effect on any load. -/
theorem C110_layer (depth : Nat) (order : List (Str × List (BrushGeo F)) → List (Str × List (BrushGeo F)))
    (horder : ∀ l, (order l).Perm l) (config : Config F) (pre post : List WorldspawnLayer) :
    Quarch.run depth order (withLayers config (pre ++ WorldspawnLayer.default :: post)) =
      Quarch.run depth order (withLayers config (pre ++ post)) := by
  cases hm : config.mapFile with
  | none =>
    unfold Quarch.run withLayers
    simp only [hm]
  | some text =>
    by_cases hl : ∃ entities : List (Entity F), LoadsAs text entities
    · obtain ⟨entities, hl⟩ := hl
      refine C98_only_what_is_used depth order horder _ _ text hm hm entities hl ⟨fun _ _ _ _ _ _ => rfl, ?_, ?_, ?_, ?_, ?_⟩
      · exact fun _ _ _ _ _ _ => .rfl
      · exact fun _ _ _ _ _ _ => .rfl
      · exact fun _ _ _ _ => ⟨fun d h => ⟨d, h, sameKind_refl _⟩, fun d h => ⟨d, h⟩⟩
      · exact fun e _ => ⟨fun d h => ⟨d, h, rfl⟩, fun d h => ⟨d, h⟩⟩
      · intro t ht
        have hne : WorldspawnLayer.default.texture ≠ t := by
          simp only [List.mem_cons, List.not_mem_nil, or_false] at ht
          rcases ht with rfl | rfl <;> decide
        simp [withLayers, hne]
    · unfold Quarch.run withLayers
      simp only [hm]
      exact Outcome.bind_congr fun tokens h1 => Outcome.bind_congr fun r h2 => absurd ⟨r.2, tokens, r.1, h1, h2⟩ hl

end

/-- C110: the default header and directory entry are what twelve and thirty-two zero bytes are read as. -/
theorem C110_zero_bytes (rest : Wad.Bytes) :
    Wad.headerParser (List.replicate 12 0 ++ rest) = some (rest, Wad.Header.default) ∧
      Wad.entryParser (List.replicate 32 0 ++ rest) = some (rest, Wad.Entry.default) := by
  constructor <;> rfl

/-- C110: default definition entries have these texts. -/
theorem C110_text {F : Type} [Arith F] (checks : Bool) :
    (Forge.Choice.default : Forge.Choice F).toStr = str! "0 : \"\"" ∧
    (Forge.Property.default : Forge.Property F).toStr checks = .ok (str! "(integer) : \"\" : 0 : \"\"") ∧
    (Forge.Entity.default : Forge.Entity F).toStr checks = .ok (str! "@BaseClass =  : \"\"\n[\n]") ∧
    (Forge.GameData.default : Forge.GameData F).toStr checks = .ok (str! "// \n\n\n") := by
  have h0 : showInt 0 = str! "0" := by
    show showNat 0 = _
    unfold showNat
    decide
  refine ⟨?_, ?_, rfl, rfl⟩
  · unfold Forge.Choice.toStr Forge.Choice.default
    simp only [h0]
    rfl
  · unfold Forge.Property.toStr Forge.Property.default
    simp only [h0]
    rfl

/-- C110: the default colour is white. -/
theorem C110_white [RealText] [Platform] : (Color.default : Color ℝ).toStr = rgbText 255 255 255 := by
  obtain ⟨r, g, b, hr, hg, hb, h1, h2, h3, h⟩ := C70_color_text (Color.default : Color ℝ)
    ⟨zero_le_one, le_rfl⟩ ⟨zero_le_one, le_rfl⟩ ⟨zero_le_one, le_rfl⟩
  have key : ∀ n : Nat, n ≤ 255 → 255 * (1 : ℝ) < n + 1 → n = 255 := by
    intro n hn h
    have : (255 : ℝ) < ((n + 1 : Nat) : ℝ) := by push_cast; linarith
    have := Nat.cast_lt.1 (by exact_mod_cast this : ((255 : Nat) : ℝ) < ((n + 1 : Nat) : ℝ))
    omega
  rw [h, key r hr h1.2, key g hg h2.2, key b hb h3.2]

section
attribute [local instance] Spec.intArith

/-- Two classes, and a third one with default data between them. -/
example : let lamp : EntityDef Int := .mkPoint (str! "lamp") (.mkClass (str! "Lamp")) .none .properties Map.empty
    let door : EntityDef Int := .mkBrush (str! "door") (.mkPrefab (str! "Door")) .none .properties Map.empty .mesh .convex
    ∀ d ∈ [lamp] ++ [door], d.classname ≠ str! "sign" := by
  intro lamp door d hd
  simp only [List.cons_append, List.nil_append, List.mem_cons, List.not_mem_nil, or_false] at hd
  rcases hd with rfl | rfl <;> decide

example : Wad.entryParser (List.replicate 32 0 ++ [7, 8, 9]) = some ([7, 8, 9], Wad.Entry.default) :=
  (C110_zero_bytes [7, 8, 9]).2

end

end Quarch
