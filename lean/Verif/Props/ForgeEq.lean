import Verif.Model.Constructors
import Verif.Spec.Instances
/-
C82: equality and hashing of definition entries.
-/
set_option linter.unusedSectionVars false
namespace Quarch
open Forge

section
variable {F : Type} [Arith F]

/-- C82: two definition entries compare equal exactly if their class names are the same. -/
theorem C82_equal_iff (a b : Forge.Entity F) : a.beq b = true ↔ a.className = b.className := by
  unfold Forge.Entity.beq
  exact beq_iff_eq

/-- C82: the comparison is reflexive, symmetric and transitive, as `Eq` requires. -/
theorem C82_equivalence : Equivalence fun a b : Forge.Entity F => a.beq b = true := by
  simp only [C82_equal_iff]
  exact ⟨fun _ => rfl, fun h => h.symm, fun h h' => h.trans h'⟩

/-- C82: entries that compare equal hash equally, whatever the hash function and its state; with a hash function
that tells texts apart, entries that compare unequal hash differently. -/
theorem C82_hash {H : Type} (hashName : Str → H → H) (a b : Forge.Entity F) (state : H) :
    (a.beq b = true → a.hash hashName state = b.hash hashName state) ∧
    ((∀ s t, hashName s state = hashName t state → s = t) → a.beq b = false →
      a.hash hashName state ≠ b.hash hashName state) := by
  refine ⟨fun h => ?_, fun hi hf he => ?_⟩
  · show hashName a.className state = hashName b.className state
    rw [(C82_equal_iff a b).1 h]
  · have := (C82_equal_iff a b).2 (hi _ _ he)
    rw [hf] at this
    cases this

end

section
attribute [local instance] Spec.intArith

/-- A point entry and a solid entry with the same name, different contents. -/
def lampPoint : Forge.Entity Int := .new .pointClass [.mkColor ⟨1, 0, 0⟩] (str! "lamp") (str! "a light") []
def lampSolid : Forge.Entity Int := .new .solidClass [] (str! "lamp") (str! "a lit block")
  [.new (str! "power") [] [] (.integer 3)]

example : lampPoint.beq lampSolid = true ∧ lampPoint ≠ lampSolid := by decide
example : lampPoint.hash (· :: ·) [] = lampSolid.hash (· :: ·) [] :=
  (C82_hash (· :: ·) lampPoint lampSolid []).1 (by decide)
example : lampPoint.hash (· :: ·) [] ≠ (Forge.Entity.default : Forge.Entity Int).hash (· :: ·) [] :=
  (C82_hash (· :: ·) lampPoint _ []).2 (fun _ _ h => (List.cons.inj h).1) (by decide)

end
end Quarch
