import Verif.Model.Lib
import Verif.Spec.Face
import Verif.Spec.Text
import Verif.Spec.Grammar
import Verif.Spec.Geo
import Verif.Spec.NaN
import Verif.Spec.Props
import Verif.Spec.Tree
/-
What a map file says, from its text to its entities, and which files can be loaded (C91, C92). Written without the
reading functions.
-/
namespace Quarch.Spec

/-- The text is a map file with the given structure. -/
def TextIs [Platform] (text : Str) (f : MapFile) : Prop :=
  ∃ ls final ts, text = textOf ls final ∧ (∀ l ∈ ls, l.WF) ∧ '\n' ∉ final ∧
    List.Forall₂ Classifies (contents Platform.bareCR ls final) ts ∧ f.toks = ts.filter (fun t => !isJunk t)

section
variable {F : Type} [Arith F] [Platform]

/-- The text lists these entities: the last value of every key, the brushes with their faces in order. -/
def MapIs (text : Str) (entities : List (Entity F)) : Prop :=
  ∃ f, TextIs text f ∧ List.Forall₂ Denotes f.blocks entities

/-- All that is asked of a map with these entities. -/
structure Loadable (config : Config F) (entities : List (Entity F)) : Prop where
  /-- The file is there, is text, and lists these entities. -/
  text : ∃ text, config.mapFile = some text ∧ MapIs text entities
  /-- There is one worldspawn. -/
  world : ∃ pre w post, entities = pre ++ w :: post ∧ w.properties (str! "classname") = some (str! "worldspawn") ∧
    ∀ e ∈ pre ++ post, e.properties (str! "classname") ≠ some (str! "worldspawn")
  /-- The normal of a face with plain UVs and any corner at all has a largest component (it is not NaN). -/
  faces : ∀ e ∈ entities, ∀ b ∈ e.brushes, ∀ p ∈ b.planes, (∃ u v, p.uv = .quake u v) →
    (∃ x, Found b.planes p x) → HasLargest (faceNormal p)
  /-- The entities reached from the top level have a classname. -/
  named : ∀ e ∈ entities, Anchored entities e → ∃ name, e.properties (str! "classname") = some name
  /-- If they have a definition, their group numbers are integers. -/
  ids : ∀ e ∈ entities, Anchored entities e → (∃ d, FirstForge config.forgeGameData e d) →
    ∀ k ∈ [str! "_tb_id", str! "_tb_group"], ∀ s, e.properties k = some s → ∃ i, ReadsI32 s i
  /-- They are not nested in themselves. -/
  tree : ¬ Loop entities

end
end Quarch.Spec
