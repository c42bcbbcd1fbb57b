import Verif.Props.Tree
import Verif.Props.TreeExamples
import Verif.Props.Local
import Verif.Props.Alike
/-
C52: exactly which results of a load are possible.
-/
set_option linter.unusedSectionVars false
namespace Quarch
open Quarch.Spec Scene

section
variable {F : Type} [Arith F] [Platform]

theorem perm_two {α : Type} {a b : α} {l : List α} (h : l.Perm [a, b]) : l = [a, b] ∨ l = [b, a] := by
  have hl := h.length_eq
  match l, hl with
  | [x, y], _ =>
    have hx := h.mem_iff (a := x)
    simp only [List.mem_cons, true_or, List.not_mem_nil, or_false, true_iff] at hx
    rcases hx with rfl | rfl
    · left; rw [List.perm_singleton.1 (List.perm_cons x |>.1 h).symm.symm]
    · right; rw [List.perm_singleton.1 ((List.perm_cons x).1 (h.trans (.swap _ _ _)))]

theorem ok_unique {α β : Type} {f : α → Outcome β} {l : List α} {m m' : List β}
    (h : List.Forall₂ (fun a b => f a = .ok b) l m) (h' : List.Forall₂ (fun a b => f a = .ok b) l m') : m = m' :=
  forall₂_unique (fun a b b' hb hb' => by rw [hb] at hb'; cases hb'; rfl) h h'

/-- The two layers, and the two possible results. -/
theorem run_two [LawfulEq F] {depth : Nat}
    {order : List (Str × List (BrushGeo F)) → List (Str × List (BrushGeo F))} (horder : ∀ l, (order l).Perm l)
    {config : Config F} {nodes : List (Node F)} (h : Quarch.run depth order config = .ok nodes) :
    ∃ wn o1 o2 es b1 b2, buildLayer config.quarchitectGameData (str! "*water0", b1) = .ok o1 ∧
      buildLayer config.quarchitectGameData (str! "*slime0", b2) = .ok o2 ∧
      Quarch.run depth id config = .ok (wn :: ([o1, o2].filterMap id ++ es)) ∧
      Quarch.run depth List.reverse config = .ok (wn :: ([o2, o1].filterMap id ++ es)) ∧
      ∀ order' : List (Str × List (BrushGeo F)) → List (Str × List (BrushGeo F)), (∀ l, (order' l).Perm l) →
        ∃ os, (os = [o1, o2] ∨ os = [o2, o1]) ∧ Quarch.run depth order' config = .ok (wn :: (os.filterMap id ++ es)) := by
  have any : ∀ order' : List (Str × List (BrushGeo F)) → List (Str × List (BrushGeo F)), (∀ l, (order' l).Perm l) →
      ∃ nodes, Quarch.run depth order' config = .ok nodes := by
    intro order' ho
    rcases C52_deterministic_partial depth order order' horder ho config with ⟨wn, ls, ls', es, -, h', -⟩ | ⟨-, h'⟩
    · exact ⟨_, h'⟩
    · exact absurd h (h' nodes)
  obtain ⟨nodes, h⟩ := any id fun _ => .refl _
  obtain ⟨text, P, w0, g, Q, rest, layers, -, -, -, hm, hl, -⟩ := run_parts h
  obtain ⟨hall, w, wn, ls, es, hw, rfl, hwn, hls, hes⟩ := (run_list hm hl).1 h
  rw [splitLayers_form] at hls
  obtain ⟨o1, o2, rfl⟩ : ∃ o1 o2, ls = [o1, o2] := by
    cases hls with
    | cons _ hls => cases hls with
      | cons _ hls => cases hls; exact ⟨_, _, rfl⟩
  simp only [id_eq, List.forall₂_cons, List.forall₂_nil_right_iff, and_true] at hls
  refine ⟨wn, o1, o2, es, _, _, hls.1, hls.2, h, ?_, fun order' ho => ?_⟩
  · refine (run_list hm hl).2 ⟨hall, w, wn, [o2, o1], es, hw, rfl, hwn, ?_, hes⟩
    rw [splitLayers_form]
    exact .cons hls.2 (.cons hls.1 .nil)
  · obtain ⟨nodes', hn⟩ := any order' ho
    obtain ⟨-, w', wn', ls', es', hw', rfl, hwn', hls', hes'⟩ := (run_list hm hl).1 hn
    rw [hw] at hw'; cases hw'
    rw [hwn] at hwn'; cases hwn'
    rw [ok_unique hes' hes] at hn
    refine ⟨ls', ?_, hn⟩
    rw [splitLayers_form] at hls'
    rcases perm_two (ho _) with e | e <;> rw [e] at hls'
    · left; exact ok_unique hls' (.cons hls.1 (.cons hls.2 .nil))
    · right; exact ok_unique hls' (.cons hls.2 (.cons hls.1 .nil))

/-- C52 (partial): if a load succeeds for one order of the hash map, there are a worldspawn node, at most two layer nodes and
entity nodes such that the possible results are exactly: the worldspawn node, the layer nodes in any order, the entity nodes.
Missing: that only one order of the layer nodes is possible, see `C52_order_matters`. -/
theorem C52_results_partial [LawfulEq F] (depth : Nat)
    (order : List (Str × List (BrushGeo F)) → List (Str × List (BrushGeo F))) (horder : ∀ l, (order l).Perm l)
    (config : Config F) (nodes : List (Node F)) (h : Quarch.run depth order config = .ok nodes) :
    ∃ wn ls es, ls.length ≤ 2 ∧ ∀ nodes', (∃ order' : List (Str × List (BrushGeo F)) → List (Str × List (BrushGeo F)),
      (∀ l, (order' l).Perm l) ∧ Quarch.run depth order' config = .ok nodes') ↔
      ∃ ls', List.Perm ls' ls ∧ nodes' = wn :: (ls' ++ es) := by
  obtain ⟨wn, o1, o2, es, -, -, -, -, ha, hb, hany⟩ := run_two horder h
  refine ⟨wn, [o1, o2].filterMap id, es, by cases o1 <;> cases o2 <;> simp, fun nodes' => ⟨?_, ?_⟩⟩
  · rintro ⟨order', ho, hn⟩
    obtain ⟨os, hos, hn'⟩ := hany order' ho
    rw [hn] at hn'; cases hn'
    refine ⟨_, ?_, rfl⟩
    rcases hos with rfl | rfl
    · exact .refl _
    · exact (List.Perm.swap _ _ _).filterMap _
  · rintro ⟨ls', hp, rfl⟩
    have : ls' = [o1, o2].filterMap id ∨ ls' = [o2, o1].filterMap id := by
      cases o1 <;> cases o2 <;> simp at hp ⊢ <;> try exact hp
      exact perm_two hp
    rcases this with rfl | rfl
    · exact ⟨id, fun _ => .refl _, ha⟩
    · exact ⟨List.reverse, fun l => List.reverse_perm l, hb⟩

/-- C52 (partial): the order does not matter at all if there is not exactly one layer definition for water, or not exactly one
for slime. -/
theorem C52_one_layer_partial [LawfulEq F] (depth : Nat)
    (order order' : List (Str × List (BrushGeo F)) → List (Str × List (BrushGeo F)))
    (h1 : ∀ l, (order l).Perm l) (h2 : ∀ l, (order' l).Perm l) (config : Config F)
    (hone : ∃ t ∈ [str! "*water0", str! "*slime0"],
      config.quarchitectGameData.worldspawnLayers.countP (fun l => l.texture = t) ≠ 1) :
    Quarch.run depth order config = Quarch.run depth order' config := by
  rcases C52_deterministic_partial depth order order' h1 h2 config with ⟨_, _, _, _, h, -, -⟩ | ⟨h, -⟩
  · obtain ⟨wn, o1, o2, es, b1, b2, hb1, hb2, -, -, hany⟩ := run_two h1 h
    have none_of : ∀ {t : Str} {b : List (BrushGeo F)} {o : Option (Node F)},
        config.quarchitectGameData.worldspawnLayers.countP (fun l => l.texture = t) ≠ 1 →
        buildLayer config.quarchitectGameData (t, b) = .ok o → o = none := by
      intro t b o hc hb
      rw [List.countP_eq_length_filter] at hc
      unfold buildLayer at hb
      split at hb
      · rename_i layer hl
        exfalso
        refine hc ?_
        have : config.quarchitectGameData.worldspawnLayers.filter (fun l => decide (l.texture = t)) = [layer] := by
          rw [← hl]
          refine List.filter_congr fun l _ => ?_
          rw [Bool.eq_iff_iff]; simp
        rw [this]; rfl
      · cases hb; rfl
    have same : [o2, o1].filterMap id = [o1, o2].filterMap id := by
      obtain ⟨t, ht, hc⟩ := hone
      simp only [List.mem_cons, List.not_mem_nil, or_false] at ht
      rcases ht with rfl | rfl
      · rw [none_of hc hb1]; cases o2 <;> rfl
      · rw [none_of hc hb2]; cases o1 <;> rfl
    obtain ⟨os, hos, e⟩ := hany order h1
    obtain ⟨os', hos', e'⟩ := hany order' h2
    rw [e, e']
    rcases hos with rfl | rfl <;> rcases hos' with rfl | rfl <;> simp only [same]
  · exact h

end

section
attribute [local instance] refPlatform intArith

/-- The hypotheses of `C52_results_partial` are met. -/
example : ∃ nodes, Quarch.run (0 + 2) id sceneConfig = .ok nodes ∧ ∃ wn ls es, ls.length ≤ 2 ∧ ∀ nodes',
    (∃ order', (∀ l, (order' l).Perm l) ∧ Quarch.run (0 + 2) order' sceneConfig = .ok nodes') ↔
      ∃ ls', List.Perm ls' ls ∧ nodes' = wn :: (ls' ++ es) := by
  obtain ⟨nodes, h⟩ : ∃ nodes, Quarch.run (0 + 2) id sceneConfig = .ok nodes := by
    obtain ⟨s, -, c, a, l1, l2, a1, a2, h, -⟩ := scene_nodes 0
    exact ⟨_, h⟩
  have key := C52_results_partial (0 + 2) id (fun _ => .refl _) sceneConfig nodes h
  exact ⟨nodes, h, key⟩

/-- With only one layer definition there is only one result. -/
example (order order' : List (Str × List (BrushGeo Int)) → List (Str × List (BrushGeo Int)))
    (h1 : ∀ l, (order l).Perm l) (h2 : ∀ l, (order' l).Perm l) :
    Quarch.run 3 order { sceneConfig with quarchitectGameData := ⟨[], (twoLayers (F := Int)).worldspawnLayers.take 1⟩ } =
      Quarch.run 3 order' { sceneConfig with quarchitectGameData := ⟨[], (twoLayers (F := Int)).worldspawnLayers.take 1⟩ } :=
  C52_one_layer_partial 3 order order' h1 h2 _ ⟨str! "*slime0", by simp, by decide⟩

end
end Quarch
