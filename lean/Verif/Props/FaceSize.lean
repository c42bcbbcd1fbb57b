import Verif.Props.Sealed
import Verif.Props.Seams
/-
C132: how many corners and triangles a face has.
-/
set_option linter.unusedSectionVars false
namespace Quarch
open Spec Geo Poly

/-- Three points on two planes that are not parallel are on a line. -/
theorem two_planes {f g : BrushPlane ℝ} (hn : crossR (rawNormal f) (rawNormal g) ≠ zeroR) {a b c : V3 ℝ}
    (fa : ht f a = 0) (fb : ht f b = 0) (fc : ht f c = 0) (ga : ht g a = 0) (gb : ht g b = 0) (gc : ht g c = 0) :
    tri (rawNormal f) a b c = 0 := by
  have key : ∀ u, dotR (rawNormal f) u = 0 → dotR (rawNormal g) u = 0 →
      smulR (dotR (crossR (rawNormal f) (rawNormal g)) (crossR (rawNormal f) (rawNormal g))) u =
        smulR (dotR (crossR (rawNormal f) (rawNormal g)) u) (crossR (rawNormal f) (rawNormal g)) := by
    intro u h1 h2
    generalize rawNormal f = n at h1 ⊢
    generalize rawNormal g = p at h2 ⊢
    have hx : crossR (crossR n p) u = zeroR := by
      apply V3.ext' <;> simp only [crossR, zeroR, dotR] at h1 h2 ⊢
      · linear_combination p.x * h1 - n.x * h2
      · linear_combination p.y * h1 - n.y * h2
      · linear_combination p.z * h1 - n.z * h2
    generalize crossR n p = k at hx ⊢
    have e1 := congrArg V3.x hx
    have e2 := congrArg V3.y hx
    have e3 := congrArg V3.z hx
    simp only [crossR, zeroR] at e1 e2 e3
    apply V3.ext' <;> simp only [smulR, dotR]
    · linear_combination k.z * e2 - k.y * e3
    · linear_combination k.x * e3 - k.z * e1
    · linear_combination k.y * e1 - k.x * e2
  have hu := key (subR b a) (by rw [ht_sub, fb, fa, sub_zero]) (by rw [ht_sub, gb, ga, sub_zero])
  have hw := key (subR c a) (by rw [ht_sub, fc, fa, sub_zero]) (by rw [ht_sub, gc, ga, sub_zero])
  have hk := self_ne hn
  have : dotR (crossR (smulR (dotR (crossR (rawNormal f) (rawNormal g)) (crossR (rawNormal f) (rawNormal g))) (subR b a))
      (smulR (dotR (crossR (rawNormal f) (rawNormal g)) (crossR (rawNormal f) (rawNormal g))) (subR c a))) (rawNormal f) = 0 := by
    rw [hu, hw]
    simp only [dotR, crossR, smulR]; ring
  generalize dotR (crossR (rawNormal f) (rawNormal g)) (crossR (rawNormal f) (rawNormal g)) = d at hk this
  have e : d * d * tri (rawNormal f) a b c = 0 := by
    rw [← this]
    simp only [tri, dotR, crossR, smulR]; ring
  rcases mul_eq_zero.1 e with h | h
  · exact absurd h (mul_pos hk hk).ne'
  · exact h

/-- Two consecutive corners span an edge. -/
theorem edge_of_turns {planes : List (BrushPlane ℝ)} {f : BrushPlane ℝ} {pts : List (V3 ℝ)} (hnd : pts.Nodup)
    (htn : Turns (rawNormal f) pts) (hco : ∀ x, x ∈ pts ↔ Corner planes f x) (h3 : 3 ≤ pts.length) {m : Nat} {a b : V3 ℝ}
    (ha : pts[m]? = some a) (hb : pts[next pts.length m]? = some b) : Edge planes f a b := by
  have hm : m < pts.length := (List.getElem?_eq_some_iff.1 ha).1
  have hne : m ≠ next pts.length m := by unfold next; split <;> omega
  refine ⟨(hco a).1 (List.mem_of_getElem? ha), (hco b).1 (List.mem_of_getElem? hb), ?_, ?_, ?_⟩
  · rintro rfl
    exact hne ((List.getElem?_inj hm hnd).1 (ha.trans hb.symm))
  · intro c hc
    obtain ⟨k, hk⟩ := List.mem_iff_getElem?.1 ((hco c).2 hc)
    by_cases h1 : k = m
    · subst h1; rw [hk] at ha; cases ha; rw [tri_left]
    · by_cases h2 : k = next pts.length m
      · rw [h2, hb] at hk; cases hk; rw [tri_right]
      · exact (turns_side htn ha hb k hk h1 h2).le
  · obtain ⟨k, hk, h1, h2⟩ : ∃ k < pts.length, k ≠ m ∧ k ≠ next pts.length m := by
      unfold next
      split
      · rcases Nat.eq_zero_or_pos m with rfl | hp
        · exact ⟨2, by omega, by omega, by omega⟩
        · exact ⟨0, by omega, by omega, by omega⟩
      · exact ⟨1, by omega, by omega, by omega⟩
    have hc : pts[k]? = some (pts[k]'hk) := List.getElem?_eq_getElem _
    exact ⟨_, (hco _).1 (List.mem_of_getElem? hc), turns_side htn ha hb k hc h1 h2⟩

/-- A face has fewer corners than the solid has planes. -/
theorem corner_count {planes : List (BrushPlane ℝ)} (hb : Bounded planes) (hsol : Solid planes)
    (hnon : ∀ p ∈ planes, NonDegenerate p) {f : BrushPlane ℝ} (hf : f ∈ planes) {pts : List (V3 ℝ)} (hnd : pts.Nodup)
    (htn : Turns (rawNormal f) pts) (hco : ∀ x, x ∈ pts ↔ Corner planes f x) : pts.length + 1 ≤ planes.length := by
  classical
  have hpos : 0 < planes.length := List.length_pos_of_mem hf
  rcases Nat.lt_or_ge pts.length 3 with hlt | h3
  · rcases Nat.eq_zero_or_pos pts.length with h0 | hp
    · omega
    obtain ⟨x, hx⟩ := List.exists_mem_of_length_pos hp
    obtain ⟨_, _, p, hpm, q, hqm, hdet, _, _⟩ := (hco x).1 hx
    have d1 : f ≠ p := by
      rintro rfl; apply hdet; simp only [detR, dotR, crossR]; ring
    have d2 : f ≠ q := by
      rintro rfl; apply hdet; simp only [detR, dotR, crossR]; ring
    have d3 : p ≠ q := by
      rintro rfl; apply hdet; simp only [detR, dotR, crossR]; ring
    have hs : [f, p, q].Nodup := by simp [d1, d2, d3]
    have := (hs.subperm (l₂ := planes) (by
      intro y hy
      simp only [List.mem_cons, List.not_mem_nil, or_false] at hy
      rcases hy with rfl | rfl | rfl <;> assumption)).length_le
    simp only [List.length_cons, List.length_nil] at this
    omega
  have hget : ∀ m : Fin pts.length, ∃ g ∈ planes, g ≠ f ∧ ∃ a b, pts[m.1]? = some a ∧ pts[next pts.length m.1]? = some b ∧
      crossR (rawNormal f) (rawNormal g) ≠ zeroR ∧ ht g a = 0 ∧ ht g b = 0 := by
    rintro ⟨m, hm⟩
    have hn : next pts.length m < pts.length := by unfold next; split <;> omega
    have he := edge_of_turns hnd htn hco h3 (List.getElem?_eq_getElem hm) (List.getElem?_eq_getElem hn)
    obtain ⟨g, hg, hc, he'⟩ := edge_shared hb hsol hnon hf he
    refine ⟨g, hg, ?_, _, _, List.getElem?_eq_getElem hm, List.getElem?_eq_getElem hn, hc, he'.right.2.1, he'.left.2.1⟩
    rintro rfl
    apply hc
    apply V3.ext' <;> simp only [crossR, zeroR] <;> ring
  choose F hF hne A B hA hB hcr hFA hFB using hget
  have onf : ∀ {i : Nat} {x : V3 ℝ}, pts[i]? = some x → ht f x = 0 := fun h => ((hco _).1 (List.mem_of_getElem? h)).2.1
  have hinj : Function.Injective F := by
    intro m m' e
    by_contra hmm
    have hmm' : m.1 ≠ m'.1 := fun h => hmm (Fin.ext h)
    have hline : ∀ {k : Nat} {c : V3 ℝ}, pts[k]? = some c → ht (F m) c = 0 → k ≠ m.1 → k ≠ next pts.length m.1 → False := by
      intro k c hc hz h1 h2
      have := turns_side htn (hA m) (hB m) k hc h1 h2
      rw [two_planes (hcr m) (onf (hA m)) (onf (hB m)) (onf hc) (hFA m) (hFB m) hz] at this
      exact lt_irrefl _ this
    by_cases h1 : m'.1 = next pts.length m.1
    · refine hline (hB m') (by rw [e]; exact hFB m') ?_ ?_
      · have h4 := m.2
        rw [h1]
        unfold next
        split_ifs <;> omega
      · rw [← h1]
        have h4 := m'.2
        unfold next
        split <;> omega
    · exact hline (hA m') (by rw [e]; exact hFA m') (Ne.symm hmm') h1
  have hnod : (f :: List.ofFn F).Nodup := by
    rw [List.nodup_cons]
    refine ⟨?_, List.nodup_ofFn.2 hinj⟩
    intro h
    obtain ⟨i, hi⟩ := (List.mem_ofFn' F f).1 h
    exact hne i hi
  have := (hnod.subperm (l₂ := planes) (by
    intro y hy
    rcases List.mem_cons.1 hy with rfl | hy
    · exact hf
    · obtain ⟨i, rfl⟩ := (List.mem_ofFn' F y).1 hy
      exact hF i)).length_le
  rw [List.length_cons, List.length_ofFn] at this
  exact this

theorem fan_length (n : Nat) : (fanIndices n).length = 3 * (n - 2) := by
  unfold fanIndices
  split
  · rw [Nat.sub_eq_zero_of_le (by omega)]; rfl
  · rw [List.length_flatMap]
    simp
    omega

section
variable {F : Type} [Arith F] [Platform]

theorem unique_le (phong : Bool) (l : List (Vertex F)) : (uniqueVertices phong l).length ≤ l.length := by
  induction l with
  | nil => simp [uniqueVertices]
  | cons v l ih =>
    rw [uniqueVertices, List.length_append, List.length_cons]
    have : (uniqueVertex phong v l).toList.length ≤ 1 := by
      cases uniqueVertex phong v l <;> simp
    omega

/-- C132: in any arithmetic, a face of a brush with `n` planes has at most `n²` corners, and its triangles are two
fewer than its corners, if there are that many. -/
theorem C132_any (textures : TextureInfo) (entity : Entity F) (planes : List (BrushPlane F)) (plane : BrushPlane F)
    (geo : PlaneGeo F) (h : buildPlane textures entity planes plane = .ok geo) :
    geo.vertices.length ≤ planes.length * planes.length ∧ geo.indices.length = 3 * (geo.vertices.length - 2) := by
  obtain ⟨pvs, localV, h1, _, rfl, e2, e3, _⟩ := buildPlane_ok h
  refine ⟨?_, by rw [e3]; exact fan_length _⟩
  obtain ⟨ovs, rfl, hov⟩ := planeVertices_pairs h1
  have h2 := hov.length_eq
  have h3 := unique_le (isPhong entity) (ovs.filterMap id)
  have h4 := List.length_filterMap_le id ovs
  rw [e2, List.length_map, (Platform.sortBy_perm _ _).length_eq, List.length_map]
  have h5 : (pairs planes).length = planes.length * planes.length := by
    unfold pairs
    rw [List.length_flatMap]
    simp
  omega

end

section
variable [RealText] [Platform]

/-- C132: in exact arithmetic, a face of a proper brush has fewer corners than the brush has planes. -/
theorem C132_exact (textures : TextureInfo) (entity : Entity ℝ) (planes : List (BrushPlane ℝ)) (hp : ProperBrush planes)
    (plane : BrushPlane ℝ) (hm : plane ∈ planes) (geo : PlaneGeo ℝ) (h : buildPlane textures entity planes plane = .ok geo) :
    geo.vertices.length < planes.length := by
  have := corner_count (proper_bounded hp) hp.solid hp.points hm (C20_exact_corners _ _ _ _ _ h).1 (proper_turns hp hm h)
    (proper_corner hp hm h)
  rw [List.length_map] at this
  exact this

end

section
variable [F32Lib] [Platform] [AccurateAtan2]

/-- C132: the same in single precision for a firm brush (the one of C119). -/
theorem C132_single (textures : TextureInfo) (entity : Entity F32) {g : Nat} {R : ℝ} (planes : List (BrushPlane F32))
    (hf : FirmBrush g R planes) (plane : BrushPlane F32) (hm : plane ∈ planes) (geo : PlaneGeo F32)
    (h : buildPlane textures entity planes plane = .ok geo) : geo.vertices.length < planes.length := by
  obtain ⟨xs, hnd, hcl, htn, hco⟩ := firm_outline hf hm h
  have := corner_count (firm_bounded hf.toClearBody) (firm_solid hf.toClearBody) (firm_points hf.toClearBody)
    (List.mem_map_of_mem hm) hnd htn hco
  rw [← hcl.length_eq, List.length_map, List.length_map] at this
  exact this

end
end Quarch
