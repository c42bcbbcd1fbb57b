import Verif.Spec.Loads
/-
What a load takes from its configuration (C98). Written without the functions of the scene builder.
-/
namespace Quarch.Spec
section
variable {F : Type} [Arith F]

/-- The definitions say the same about the node of an entity: what it is, and which geometry it has. Their names and
declared properties are left out. -/
inductive SameKind : EntityData F → EntityData F → Prop
  | point {p p' : PointData F} : p.entityType = p'.entityType → p.componentType = p'.componentType →
      p.propertyApplicationType = p'.propertyApplicationType → SameKind (.point p) (.point p')
  | brush {p p' : PointData F} {b : BrushData} : p.entityType = p'.entityType → p.componentType = p'.componentType →
      p.propertyApplicationType = p'.propertyApplicationType → SameKind (.brush p b) (.brush p' b)

/-- The definitions declare the same properties. Descriptions, metadata and the kind of class are left out. -/
def SameDeclared (d d' : Forge.Entity F) : Prop :=
  d.properties.map (fun p => (p.name, p.data)) = d'.properties.map fun p => (p.name, p.data)

/-- The configurations say the same about everything the entities mention. -/
structure SameUsed (config config' : Config F) (entities : List (Entity F)) : Prop where
  /-- The sizes of the textures of faces. -/
  sizes : ∀ e ∈ entities, ∀ b ∈ e.brushes, ∀ p ∈ b.planes,
    config.textureInfo p.texture = config'.textureInfo p.texture
  /-- Whether they hide a brush. -/
  brushes : ∀ e ∈ entities, ∀ b ∈ e.brushes, ∀ p ∈ b.planes,
    (p.texture ∈ config.textureBlacklist.brush ↔ p.texture ∈ config'.textureBlacklist.brush)
  /-- Whether they hide a face. -/
  faces : ∀ e ∈ entities, ∀ b ∈ e.brushes, ∀ p ∈ b.planes,
    (p.texture ∈ config.textureBlacklist.plane ↔ p.texture ∈ config'.textureBlacklist.plane)
  /-- The first definition of each class. -/
  classes : ∀ e ∈ entities, ∀ name, e.properties (str! "classname") = some name →
    (∀ d, FirstDef config.quarchitectGameData name d →
      ∃ d', FirstDef config'.quarchitectGameData name d' ∧ SameKind d.data d'.data) ∧
    (∀ d', FirstDef config'.quarchitectGameData name d' → ∃ d, FirstDef config.quarchitectGameData name d)
  /-- The first declaration of each class. -/
  declared : ∀ e ∈ entities,
    (∀ d, FirstForge config.forgeGameData e d →
      ∃ d', FirstForge config'.forgeGameData e d' ∧ SameDeclared d d') ∧
    (∀ d', FirstForge config'.forgeGameData e d' → ∃ d, FirstForge config.forgeGameData e d)
  /-- The layers for water and slime. -/
  layers : ∀ t ∈ [str! "*water0", str! "*slime0"],
    config.quarchitectGameData.worldspawnLayers.filter (fun l => l.texture = t) =
      config'.quarchitectGameData.worldspawnLayers.filter fun l => l.texture = t

end
end Quarch.Spec
