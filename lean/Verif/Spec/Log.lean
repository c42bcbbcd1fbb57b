import Verif.Model.Log
import Verif.Spec.Tree
import Verif.Spec.Output
import Verif.Spec.Number
/-
The lines a load writes, in terms of the entities of the map.
-/
namespace Quarch.Spec
open Output

/-- Written about collision geometry that is a triangle mesh. -/
def gathering : LogLine := .out (str! "Gathering concave collision geometry")

section
variable {F : Type}

/-- Written when the build of an entity with this classname starts. -/
inductive Entering (gd : GameData F) (name : Str) : List LogLine → Prop
  | undefined (q : Str) : (∀ d ∈ gd.entities, d.classname ≠ name) → Quoted name q →
      Entering gd name [.out (str! "No entity definition for classname " ++ q),
        .out (str! "No entity definition for classname " ++ q)]
  | point (d : EntityDef F) (p : PointData F) : FirstDef gd name d → d.data = .point p → Entering gd name []
  | brush (d : EntityDef F) (p : PointData F) (b : BrushData) (v : Str) : FirstDef gd name d → d.data = .brush p b →
      (b.visualType = .none ∧ v = str! "None") ∨ (b.visualType = .mesh ∧ v = str! "Mesh") →
      Entering gd name (.out (str! "Visual type: " ++ v) ::
        if b.collisionType = .concave then [gathering] else [])

/-- Written when the build of an entity with this classname ends. -/
inductive Leaving (fgd : Forge.GameData F) (name : Str) : List LogLine → Prop
  | known : (∃ d ∈ fgd.definitions, d.className = name) → Leaving fgd name []
  | unknown (q : Str) : (∀ d ∈ fgd.definitions, d.className ≠ name) → Quoted name q →
      Leaving fgd name [.err (str! "Failed to get forge entity for classname Some(" ++ q ++ str! ")")]

/-- Written about an entity: around everything written about the entities in its group, in order. -/
inductive Told (gd : GameData F) (fgd : Forge.GameData F) (others : List (Entity F)) : Entity F → List LogLine → Prop
  | mk {e : Entity F} {name : Str} {before after : List LogLine} {inner : List (List LogLine)} :
      e.properties (str! "classname") = some name → Entering gd name before →
      List.Forall₂ (Told gd fgd others) (others.filter fun c => Under e c) inner → Leaving fgd name after →
      Told gd fgd others e (before ++ inner.flatten ++ after)

/-- Written about the layer with this texture and these brushes: twice the same line for a triangle mesh that is not
empty. -/
inductive LayerTold (ls : List WorldspawnLayer) (t : Str) (brushes : List (BrushGeo F)) : List LogLine → Prop
  | notOne (q : Str) : ls.countP (fun l => l.texture = t) ≠ 1 → Quoted t q → LayerTold ls t brushes
      [.out (str! "Worldspawn layer data for texture " ++ q ++ str! " is not a singleton")]
  | silent (l : WorldspawnLayer) : ls.countP (fun l => l.texture = t) = 1 → l ∈ ls → l.texture = t →
      l.collisionType ≠ .concave → LayerTold ls t brushes []
  | empty (l : WorldspawnLayer) : ls.countP (fun l => l.texture = t) = 1 → l ∈ ls → l.texture = t →
      l.collisionType = .concave → (∀ b ∈ brushes, ∀ p ∈ b.planes, p.vertices = []) → LayerTold ls t brushes [gathering]
  | mesh (l : WorldspawnLayer) : ls.countP (fun l => l.texture = t) = 1 → l ∈ ls → l.texture = t →
      l.collisionType = .concave → (∃ b ∈ brushes, ∃ p ∈ b.planes, p.vertices ≠ []) →
      LayerTold ls t brushes [gathering, gathering]

/-- The first lines of a load, `count` being the number in the sixth. -/
def opening (count : Str) : List LogLine :=
  [.out (str! "TODO-3: Profile performance cost centers against ad_sepulcher.map, multithread with rayon"),
   .out (str! "Parse map"), .out (str! "TODO-3: Rewrite with nom"), .out (str! "TODO-3: Rewrite with nom"),
   .out (str! "Running geo builder"),
   .out (str! "Worldspawn Brush Geo: " ++ count ++ str! ", Worldspawn Layer Geo: 2"),
   .out (str! "TODO-2: Implement godot group assignment"), .out (str! "TODO-1: Make TB groups optional"),
   .out (str! "TODO-1: Implement group node type assignment")]

end
end Quarch.Spec
