import Verif.Spec.Props
import Verif.Proofs.Num
import Verif.Proofs.Tree
/-
Reading property values.
-/
set_option linter.unusedSectionVars false
namespace Quarch
open Spec Scene

section
variable {F : Type} [Arith F]

theorem triple_iff {s : Str} {x y z : F} :
    (parseFloat (splitOn ' ' s)[0]? = some x ∧ parseFloat (splitOn ' ' s)[1]? = some y ∧
      parseFloat (splitOn ' ' s)[2]? = some z) ↔ ReadsTriple s x y z := by
  constructor
  · rintro ⟨h0, h1, h2⟩
    obtain ⟨ws, hne, hsp, hj⟩ := spec_C27_every_string s
    have hs := splitOn_joinSpace hne hsp
    rw [hj] at hs
    rw [hs] at h0 h1 h2
    unfold parseFloat at h0 h1 h2
    match ws with
    | [] => cases h0
    | [a] => cases h1
    | [a, b] => cases h2
    | a :: b :: c :: rest =>
      exact ⟨a, b, c, rest, hsp a (by simp), hsp b (by simp), hsp c (by simp),
        fun w hw => hsp w (by simp [hw]), hj.symm, h0, h1, h2⟩
  · rintro ⟨a, b, c, rest, ha, hb, hc, hr, rfl, h0, h1, h2⟩
    rw [splitOn_joinSpace (by simp) (by
      intro w hw
      simp only [List.mem_cons] at hw
      rcases hw with rfl | rfl | rfl | hw
      · exact ha
      · exact hb
      · exact hc
      · exact hr w hw)]
    exact ⟨h0, h1, h2⟩

theorem parseVector3_iff {s : Str} {v : V3 F} : parseVector3 s = some v ↔ ReadsTriple s v.x v.y v.z := by
  rw [← triple_iff]
  unfold parseVector3
  simp only
  split
  · rename_i h; simp [h]
  · rename_i x hx
    split
    · rename_i h; simp [h]
    · rename_i y hy
      split
      · rename_i h; simp [h]
      · rename_i z hz
        rw [hx, hy, hz]
        cases v
        simp

theorem parseColor_iff {s : Str} {v : Color F} : parseColor s = some v ↔ ReadsTriple s v.r v.g v.b := by
  rw [← triple_iff]
  unfold parseColor
  simp only
  split
  · rename_i h; simp [h]
  · rename_i x hx
    split
    · rename_i h; simp [h]
    · rename_i y hy
      split
      · rename_i h; simp [h]
      · rename_i z hz
        rw [hx, hy, hz]
        cases v
        simp

theorem valueOr_getD {α : Type} {reads : Str → α → Prop} {parse : Str → Option α}
    (h : ∀ s x, parse s = some x ↔ reads s x) (value : Option Str) (d : α) :
    ValueOr reads value d ((value.bind parse).getD d) := by
  unfold ValueOr
  cases value with
  | none => right; exact ⟨fun s y h => (nomatch h), rfl⟩
  | some s =>
    simp only [Option.bind_some]
    cases hp : parse s with
    | some x => left; exact ⟨s, rfl, (h s x).1 hp⟩
    | none =>
      right
      refine ⟨?_, rfl⟩
      rintro t y ht hr
      cases ht
      rw [(h s y).2 hr] at hp
      cases hp

theorem propertyValue_delivers {data : Forge.PropertyData F} (value : Option Str) (h : NotFlags data) :
    Delivers data value (propertyValue data value) := by
  cases data with
  | integer d => exact ⟨_, rfl, valueOr_getD (fun _ _ => parseI32_iff) _ _⟩
  | float d => exact ⟨_, rfl, valueOr_getD (fun _ _ => Iff.rfl) _ _⟩
  | vector3 d => exact ⟨_, rfl, valueOr_getD (fun _ _ => parseVector3_iff) _ _⟩
  | string d =>
    refine ⟨_, rfl, ?_⟩
    have := valueOr_getD (parse := some) (reads := fun s t => t = s)
      (fun s x => by simp [eq_comm]) value d
    cases value <;> exact this
  | color d => exact ⟨_, rfl, valueOr_getD (fun _ _ => parseColor_iff) _ _⟩
  | choices _ d => exact ⟨_, rfl, valueOr_getD (fun _ _ => parseI32_iff) _ _⟩
  | flags _ d => cases h
  | targetSource => rfl
  | targetDestination => rfl

end
end Quarch
