import Verif.Model.SceneTree
/-
A scene without the surfaces of some textures (C99). Written without the functions of the scene builder.
-/
namespace Quarch.Spec
section
variable {F : Type}

/-- The surface has no texture or one that is not hidden. -/
def Shown (hidden : List Str) (s : MeshSurface F) : Prop := ∀ t, s.texture = some t → t ∉ hidden

instance (hidden : List Str) (s : MeshSurface F) : Decidable (Shown hidden s) :=
  match h : s.texture with
  | none => .isTrue fun t ht => by rw [h] at ht; cases ht
  | some t => if ht : t ∈ hidden then .isFalse fun hs => hs t h ht
    else .isTrue fun t' ht' => by rw [h] at ht'; cases ht'; exact ht

mutual
/-- The node without the hidden surfaces at any depth; nothing is left of a visual node without surfaces. -/
def bare (hidden : List Str) : Node F → List (Node F)
  | .actor o a cs => [.actor o a (bareAll hidden cs)]
  | .visual o (.mesh ss) =>
    if ss.filter (fun s => Shown hidden s) = [] then [] else [.visual o (.mesh (ss.filter fun s => Shown hidden s))]
  | .visual o .none => [.visual o .none]
  | .collision o c => [.collision o c]
/-- The same for a list of nodes. -/
def bareAll (hidden : List Str) : List (Node F) → List (Node F)
  | [] => []
  | n :: ns => bare hidden n ++ bareAll hidden ns
end

end
end Quarch.Spec
