import Verif.Model.LayerFilter
import Verif.Proofs.Basic
import Verif.Spec.Instances
/-
C17–C18: the worldspawn entity and its layers.
-/
namespace Quarch
open LayerFilter

section
variable {F : Type}

namespace Spec
/-- The entity has the classname `worldspawn`. -/
def IsWorld (e : Entity F) : Prop := e.properties (str! "classname") = some (str! "worldspawn")

instance (e : Entity F) : Decidable (IsWorld e) := by unfold IsWorld; infer_instance

/-- Every face of the brush has the (known) texture `t`. -/
def AllFaces (t : Str) (b : BrushGeo F) : Prop := ∀ p ∈ b.planes, p.texture = some t

instance (t : Str) (b : BrushGeo F) : Decidable (AllFaces t b) := by unfold AllFaces; infer_instance
end Spec
open Spec

theorem byLayer_eq (t : Str) : byLayer (F := F) t = fun b => decide (AllFaces t b) := by
  funext b
  rw [Bool.eq_iff_iff, decide_eq_true_eq]
  unfold byLayer AllFaces
  rw [List.all_eq_true]
  refine forall₂_congr fun p _ => ?_
  cases p.texture with
  | none => simp
  | some s => simp

theorem isWorldspawn_iff (e : Entity F) : isWorldspawn e = decide (IsWorld e) := by
  rw [Bool.eq_iff_iff, decide_eq_true_eq]
  unfold isWorldspawn IsWorld Entity.getProperty Map.get?
  generalize e.properties (str! "classname") = o
  cases o with
  | none => simp
  | some c => simp

/-- C17: the step aborts unless exactly one entity has classname `worldspawn`; it never returns an
error and always ends. -/
theorem C17_aborts_unless_one_worldspawn (data : List (Entity F × EntityGeo F)) :
    ((∃ m, LayerFilter.run data = .panic m) ↔ data.countP (fun d => IsWorld d.1) ≠ 1) ∧
    ((∃ r, LayerFilter.run data = .ok r) ↔ data.countP (fun d => IsWorld d.1) = 1) := by
  have hc : data.countP (fun d => decide (IsWorld d.1)) = (data.filter fun d => isWorldspawn d.1).length := by
    rw [List.countP_eq_length_filter]
    simp only [isWorldspawn_iff]
  rw [hc]
  unfold LayerFilter.run
  simp only [List.partition_eq_filter_filter]
  generalize data.filter (fun d => isWorldspawn d.1) = ws
  match ws with
  | [] => simp
  | [x] => simp
  | x :: y :: zs => simp

/-- C17: with exactly one worldspawn it becomes the first entity and all other entities follow unchanged
in file order; of worldspawn only the brush list may change. -/
theorem C17_worldspawn_first (pre post : List (Entity F × EntityGeo F)) (w : Entity F) (g : EntityGeo F)
    (hw : IsWorld w) (hother : ∀ d ∈ pre ++ post, ¬ IsWorld d.1) :
    ∃ rest layers, LayerFilter.run (pre ++ (w, g) :: post) =
      .ok ((w, { g with brushes := rest }) :: (pre ++ post), layers) := by
  have h1 : ∀ l : List (Entity F × EntityGeo F), (∀ d ∈ l, ¬ IsWorld d.1) →
      l.filter (fun d => isWorldspawn d.1) = [] ∧ l.filter (not ∘ fun d => isWorldspawn d.1) = l := by
    intro l hl
    refine ⟨List.filter_eq_nil_iff.2 ?_, List.filter_eq_self.2 ?_⟩
    · intro d hd; simp [isWorldspawn_iff, hl d hd]
    · intro d hd; simp [isWorldspawn_iff, hl d hd]
  obtain ⟨a1, a2⟩ := h1 pre fun d hd => hother d (by simp [hd])
  obtain ⟨b1, b2⟩ := h1 post fun d hd => hother d (by simp [hd])
  refine ⟨(splitLayers layerTextures g.brushes).1, (splitLayers layerTextures g.brushes).2, ?_⟩
  unfold LayerFilter.run
  simp only [List.partition_eq_filter_filter, List.filter_append, a1, a2,
    List.filter_cons, isWorldspawn_iff w, hw, b1, b2, decide_true, if_true, List.nil_append,
    Function.comp_apply, Bool.not_true, Bool.false_eq_true, if_false]

/-- C18: the brushes of worldspawn are split by the texture of all their faces; order is kept. -/
theorem C18_split_by_texture (data : List (Entity F × EntityGeo F)) (w : Entity F) (g : EntityGeo F)
    (hmem : (w, g) ∈ data) (hw : IsWorld w)
    (result : List (Entity F × EntityGeo F)) (layers : List (Str × List (BrushGeo F)))
    (h : LayerFilter.run data = .ok (result, layers)) :
    layers =
      [(str! "*water0", g.brushes.filter fun b => AllFaces (str! "*water0") b),
       (str! "*slime0", g.brushes.filter fun b => AllFaces (str! "*slime0") b ∧ ¬ AllFaces (str! "*water0") b)] ∧
    result.head? = some (w, ⟨g.center, g.brushes.filter fun b =>
      ¬ AllFaces (str! "*water0") b ∧ ¬ AllFaces (str! "*slime0") b⟩) := by
  unfold LayerFilter.run at h
  simp only [List.partition_eq_filter_filter] at h
  split at h
  · rename_i entity geo hws
    have hm : (w, g) ∈ data.filter fun d => isWorldspawn d.1 := by
      rw [List.mem_filter]; exact ⟨hmem, by simp [isWorldspawn_iff, hw]⟩
    rw [hws, List.mem_singleton] at hm
    cases hm
    injection h with h
    injection h with h1 h2
    subst h1; subst h2
    simp only [splitLayers, layerTextures, List.foldl_cons, List.foldl_nil,
      List.partition_eq_filter_filter, List.nil_append, List.cons_append, List.filter_filter,
      byLayer_eq, Function.comp_def, List.head?_cons]
    constructor
    · refine congrArg₂ _ rfl (congrArg₂ _ (congrArg _ ?_) rfl)
      apply List.filter_congr
      intro b _
      by_cases h1 : AllFaces (str! "*water0") b <;> by_cases h2 : AllFaces (str! "*slime0") b <;>
        simp [h1, h2]
    · congr 3
      apply List.filter_congr
      intro b _
      by_cases h1 : AllFaces (str! "*water0") b <;> by_cases h2 : AllFaces (str! "*slime0") b <;>
        simp [h1, h2]
  · cases h

/-- C18: no brush is lost or duplicated. -/
theorem C18_nothing_lost (data : List (Entity F × EntityGeo F)) (w : Entity F) (g : EntityGeo F)
    (hmem : (w, g) ∈ data) (hw : IsWorld w)
    (result : List (Entity F × EntityGeo F)) (layers : List (Str × List (BrushGeo F)))
    (h : LayerFilter.run data = .ok (result, layers)) :
    ∃ g', result.head? = some (w, g') ∧ g'.center = g.center ∧
      (g'.brushes ++ layers.flatMap (·.2)).Perm g.brushes := by
  obtain ⟨h1, h2⟩ := C18_split_by_texture data w g hmem hw result layers h
  refine ⟨_, h2, rfl, ?_⟩
  subst h1
  simp only [List.flatMap_cons, List.flatMap_nil, List.append_nil]
  clear h h2 hmem
  generalize g.brushes = bs
  induction bs with
  | nil => exact .refl _
  | cons b bs ih =>
    by_cases h1 : AllFaces (str! "*water0") b <;> by_cases h2 : AllFaces (str! "*slime0") b <;>
      simp only [List.filter_cons, h1, h2, not_true, not_false_iff, and_true,
        and_false, decide_true, decide_false, if_true, if_false, Bool.false_eq_true]
    · exact List.perm_middle.trans (ih.cons b)
    · exact List.perm_middle.trans (ih.cons b)
    · rw [← List.append_assoc]
      refine List.perm_middle.trans (List.Perm.cons b ?_)
      rw [List.append_assoc]; exact ih
    · exact ih.cons b

/-- C18: a brush belongs to both layers' textures only if it has no faces; such a brush goes to water. -/
theorem spec_C18_both_layers_iff_no_faces (b : BrushGeo F) :
    (AllFaces (str! "*water0") b ∧ AllFaces (str! "*slime0") b) ↔ b.planes = [] := by
  unfold AllFaces
  constructor
  · rintro ⟨h1, h2⟩
    cases hp : b.planes with
    | nil => rfl
    | cons p ps =>
      have e1 := h1 p (by simp [hp])
      have e2 := h2 p (by simp [hp])
      rw [e1] at e2
      exact absurd e2 (by decide)
  · intro h; simp [h]

end

section Examples
open Spec

/-- Worldspawn with four brushes (water, slime, no faces, mixed) between two other entities. -/
def layerExample : List (Entity Int × EntityGeo Int) :=
  let z : V3 Int := ⟨0, 0, 0⟩
  let face (t : Option Str) : PlaneGeo Int := ⟨z, [], [], t⟩
  let cls (c : Str) : Entity Int := ⟨fun k => if k = str! "classname" then some c else none, []⟩
  [(cls (str! "light"), ⟨z, []⟩),
   (cls (str! "worldspawn"), ⟨z, [⟨z, [face (some (str! "*water0")), face (some (str! "*water0"))]⟩,
      ⟨z, [face (some (str! "*slime0"))]⟩, ⟨z, []⟩,
      ⟨z, [face (some (str! "*water0")), face none]⟩]⟩),
   (cls (str! "door"), ⟨z, []⟩)]

example : layerExample.countP (fun d => IsWorld d.1) = 1 := by decide

example : ∃ r, LayerFilter.run layerExample = .ok r := (C17_aborts_unless_one_worldspawn _).2.2 (by decide)

example : (match LayerFilter.run layerExample with
    | .ok (r, layers) => some (r.map fun d => d.2.brushes.length, layers.map fun l => l.2.length)
    | _ => none) = some ([1, 0, 0], [2, 1]) := by decide

-- hypotheses of `C17_worldspawn_first` and `C18_split_by_texture`
example : (∀ d ∈ [layerExample[0]] ++ [layerExample[2]], ¬ IsWorld d.1) ∧ IsWorld layerExample[1].1 := by
  decide

end Examples
end Quarch
