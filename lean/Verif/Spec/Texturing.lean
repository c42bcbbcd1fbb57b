import Verif.Spec.Local
/-
Maps with the same solids but other textures (C100). Written without the functions of the scene builder.
-/
namespace Quarch.Spec

/-- The sort looks at the elements only through the comparison. This holds for `sort_by` because it is generic in the
type of elements. -/
class NaturalSort [Platform] : Prop where
  map : ∀ {α β : Type} (f : α → β) (cmp : β → β → Ordering) (l : List α),
    Platform.sortBy cmp (l.map f) = (Platform.sortBy (fun a b => cmp (f a) (f b)) l).map f

section
variable {F : Type}

/-- The keys that decide the place of an entity in the tree and what it is. -/
def placeKeys : List Str :=
  [str! "classname", str! "origin", str! "_tb_id", str! "_tb_group", str! "_tb_type", str! "_tb_name"]

/-- The key decides the place of an entity, or some class declares a property of this name. -/
def Significant (fgd : Forge.GameData F) (key : Str) : Prop :=
  key ∈ placeKeys ∨ ∃ d ∈ fgd.definitions, ∃ p ∈ d.properties, p.name = key

/-- The faces have the same three points, and if one has the texture of water or slime, so has the other. -/
structure SamePoints (p p' : BrushPlane F) : Prop where
  v0 : p.v0 = p'.v0
  v1 : p.v1 = p'.v1
  v2 : p.v2 = p'.v2
  liquid : ∀ t ∈ [str! "*water0", str! "*slime0"], (p.texture = t ↔ p'.texture = t)

/-- The entities agree on significant properties and on the points of all faces. -/
structure SameSolid (fgd : Forge.GameData F) (e e' : Entity F) : Prop where
  properties : ∀ key, Significant fgd key → e.properties key = e'.properties key
  brushes : List.Forall₂ (fun b b' : Brush F => List.Forall₂ SamePoints b.planes b'.planes) e.brushes e'.brushes

mutual
/-- The node without visual nodes at any depth. -/
def unseen : Node F → List (Node F)
  | .actor o a cs => [.actor o a (unseenAll cs)]
  | .visual _ _ => []
  | .collision o c => [.collision o c]
/-- The same for a list of nodes. -/
def unseenAll : List (Node F) → List (Node F)
  | [] => []
  | n :: ns => unseen n ++ unseenAll ns
end

end
end Quarch.Spec
