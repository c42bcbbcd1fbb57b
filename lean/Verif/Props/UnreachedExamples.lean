import Verif.Props.Unreached
/-
Examples for C133 and C53.
-/
namespace Quarch
open Spec Scene

section
variable {F : Type} [Arith F] [LawfulEq F] [Platform]

/-- The worldspawn, an entity in a group that is not there and without classname, and one in the group of the latter. -/
def strayProps : List (List (Str × Str)) :=
  [[(str! "classname", str! "worldspawn")], [(str! "_tb_group", str! "7"), (str! "_tb_id", str! "8")],
    [(str! "_tb_group", str! "8")]]

theorem stray_plain : ∀ ps ∈ strayProps, ∀ p ∈ ps, ('"' ∉ p.1 ∧ '"' ∉ p.2) ∧ '\n' ∉ p.1 ∧ '\n' ∉ p.2 := by decide

/-- Reached is only the worldspawn. -/
theorem stray_reached {e : Entity F} (he : e ∈ strayProps.map (pointOf (F := F)))
    (ha : Anchored (strayProps.map pointOf) e) : e = pointOf [(str! "classname", str! "worldspawn")] := by
  have key : ∀ e : Entity F, Anchored (strayProps.map pointOf) e → groupOf e ≠ some (str! "7") ∧ groupOf e ≠ some (str! "8") ∨
      e.properties (str! "classname") = some (str! "worldspawn") := by
    intro e ha
    induction ha with
    | world h => exact .inr h
    | top h => exact .inl (by rw [h]; simp)
    | under hp hu _ ih =>
      simp only [strayProps, List.map_cons, List.map_nil, List.mem_cons, List.not_mem_nil, or_false] at hp
      rcases hp with rfl | rfl | rfl
      · have := hu.2 ▸ hu.1
        cases this
      · rcases ih with ih | ih
        · exact absurd rfl ih.1
        · cases ih
      · have := hu.2 ▸ hu.1
        cases this
  have h := key e ha
  simp only [strayProps, List.map_cons, List.map_nil, List.mem_cons, List.not_mem_nil, or_false] at he
  rcases he with rfl | rfl | rfl
  · rfl
  · rcases h with h | h
    · exact absurd rfl h.1
    · cases h
  · rcases h with h | h
    · exact absurd rfl h.2
    · cases h

-- C133: under every configuration the map gives the scene of the worldspawn alone
example (config : Config F) : ∃ nodes,
    Quarch.run 3 id { config with mapFile := some (pointMap strayProps) } = .ok nodes ∧
    Quarch.run 3 id { config with mapFile := some (pointMap (strayProps.take 1)) } = .ok nodes := by
  have hmap : MapIs (F := F) (pointMap strayProps) (strayProps.map pointOf) := pointMap_is stray_plain
  have hmap' : MapIs (F := F) (pointMap (strayProps.take 1)) ((strayProps.take 1).map pointOf) :=
    pointMap_is fun ps hps => stray_plain ps (List.mem_of_mem_take hps)
  have hload : Loadable { config with mapFile := some (pointMap strayProps) } (strayProps.map (pointOf (F := F))) := by
    refine ⟨⟨_, rfl, hmap⟩, ⟨[], _, _, rfl, rfl, ?_⟩, ?_, ?_, ?_, ?_⟩
    · intro e he
      simp only [List.nil_append, List.mem_cons, List.not_mem_nil, or_false, List.map_cons, List.map_nil] at he
      rcases he with rfl | rfl <;> exact fun h => nomatch h
    · intro e he b hb
      obtain ⟨ps, _, rfl⟩ := List.mem_map.1 he
      cases hb
    · intro e he ha
      rw [stray_reached he ha]
      exact ⟨_, rfl⟩
    · intro e he ha _ k hk s hs
      rw [stray_reached he ha] at hs
      simp only [List.mem_cons, List.not_mem_nil, or_false] at hk
      rcases hk with rfl | rfl <;> cases hs
    · refine no_loop_of_unique ?_
      simp only [strayProps, List.map_cons, List.map_nil]
      unfold UniqueIds
      simp only [List.pairwise_cons, List.mem_cons, List.not_mem_nil, or_false, forall_eq_or_imp, forall_eq,
        false_imp_iff, implies_true, List.Pairwise.nil, and_true]
      exact ⟨⟨(fun id h => nomatch h), (fun id h => nomatch h)⟩, (fun id _ h => nomatch h)⟩
  obtain ⟨nodes, h⟩ := C92_enough 3 id (fun _ => .refl _) _ _ hload (by simp [strayProps])
  refine ⟨nodes, h, ?_⟩
  refine C133_removed 3 id config _ _ _ (fun e => e.properties (str! "_tb_group") == none) ((C92_text _ _).2 hmap)
    ((C92_text _ _).2 hmap') ?_ nodes h
  intro e he ha
  rw [stray_reached he ha]
  rfl

/-- A group, and in it an entity without classname. -/
def namelessProps : List (List (Str × Str)) :=
  [[(str! "classname", str! "worldspawn")], [(str! "classname", str! "group"), (str! "_tb_id", str! "8")],
    [(str! "_tb_group", str! "8")]]

-- C53: it stops the load
example (depth : Nat) (config : Config F) :
    (Quarch.run depth id { config with mapFile := some (pointMap namelessProps) }).aborts = true := by
  have hmap : MapIs (F := F) (pointMap namelessProps) (namelessProps.map pointOf) := pointMap_is (by decide)
  refine C53_reached depth id _ _ rfl _ ((C92_text _ _).2 hmap) (pointOf [(str! "_tb_group", str! "8")]) ?_ ?_ rfl
  · simp [namelessProps]
  · exact .under (p := pointOf [(str! "classname", str! "group"), (str! "_tb_id", str! "8")]) (by simp [namelessProps])
      ⟨rfl, rfl⟩ (.top rfl)

end
end Quarch
