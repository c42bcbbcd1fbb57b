import Verif.Model.SceneTree
import Verif.Proofs.Geo
/-
The vertex-merging loop `filter_vertices` and the index arithmetic of the gather functions.
-/
set_option linter.unusedSectionVars false
namespace Quarch
open Spec Scene

section
variable {F : Type} [Arith F]

/-- Index of the first vertex at the position of vertex `v`. -/
def firstPos (V : List (Vertex F)) (v : Vertex F) : Option Nat :=
  V.findIdx? fun comp => samePos comp v

/-- Where index `i` is sent by the loop. -/
def remap (V : List (Vertex F)) (keep : VertexPred F) (i : Nat) : Nat :=
  match V[i]? with
  | none => i
  | some v => if keep i v V then i else (firstPos V v).getD i

/-- A dropped vertex has an earlier kept vertex at its position, the first one there. -/
def Merges (V : List (Vertex F)) (keep : VertexPred F) : Prop :=
  ∀ i v, V[i]? = some v → keep i v V = false →
    ∃ k w, k < i ∧ firstPos V v = some k ∧ V[k]? = some w ∧ keep k w V = true

theorem findIdx?_some {α : Type} {p : α → Bool} {l : List α} {k : Nat} (h : l.findIdx? p = some k) :
    (∃ x, l[k]? = some x ∧ p x = true) ∧ ∀ j x, j < k → l[j]? = some x → p x = false := by
  rw [List.findIdx?_eq_some_iff_getElem] at h
  obtain ⟨hk, h1, h2⟩ := h
  refine ⟨⟨l[k], List.getElem?_eq_getElem hk, h1⟩, ?_⟩
  intro j x hj hx
  have hjl : j < l.length := by omega
  rw [List.getElem?_eq_getElem hjl] at hx
  cases hx
  simpa using h2 j hj

theorem findIdx?_exists {α : Type} {p : α → Bool} {l : List α} {j : Nat} {x : α}
    (hx : l[j]? = some x) (hp : p x = true) : ∃ k, k ≤ j ∧ l.findIdx? p = some k := by
  cases h : l.findIdx? p with
  | none =>
    rw [List.findIdx?_eq_none_iff] at h
    have := h x (List.mem_of_getElem? hx)
    rw [hp] at this; cases this
  | some k =>
    refine ⟨k, ?_, rfl⟩
    obtain ⟨_, h2⟩ := findIdx?_some h
    by_contra hlt
    have := h2 j x (by omega) hx
    rw [hp] at this; cases this

theorem noneOrGe_false {position : Option Nat} {i : Nat} :
    noneOrGe position i = false ↔ ∃ k, position = some k ∧ k < i := by
  cases position <;> simp [noneOrGe]

theorem samePos_trans [LawfulEq F] {a b c : Vertex F} (h : samePos a b = true) (h' : samePos b c = true) :
    samePos a c = true := V3.beq_trans h h'

theorem sameVertex_pos {a b : Vertex F} (h : sameVertex a b = true) : samePos a b = true := by
  unfold sameVertex at h
  simp only [Bool.and_eq_true] at h
  exact h.1.1.1.1

/-- Both predicates only drop a vertex if an earlier one is at the same position. -/
theorem merges_of [LawfulEq F] {V : List (Vertex F)} {keep : VertexPred F}
    {same : Vertex F → Vertex F → Bool}
    (hk : ∀ i v, keep i v V = noneOrGe (V.findIdx? fun comp => same comp v) i)
    (hs : ∀ a b, same a b = true → samePos a b = true) : Merges V keep := by
  intro i v hv hd
  rw [hk, noneOrGe_false] at hd
  obtain ⟨j, hj, hji⟩ := hd
  obtain ⟨⟨x, hx, hxv⟩, _⟩ := findIdx?_some hj
  obtain ⟨k, hkj, hf⟩ := findIdx?_exists (p := fun comp => samePos comp v) hx (hs _ _ hxv)
  obtain ⟨⟨w, hw, hwv⟩, hfirst⟩ := findIdx?_some hf
  refine ⟨k, w, by omega, hf, hw, ?_⟩
  cases hkeep : keep k w V with
  | true => rfl
  | false =>
    rw [hk, noneOrGe_false] at hkeep
    obtain ⟨l, hl, hlk⟩ := hkeep
    obtain ⟨⟨y, hy, hyw⟩, _⟩ := findIdx?_some hl
    have := hfirst l y hlk hy
    rw [samePos_trans (hs _ _ hyw) hwv] at this
    cases this

theorem merges_unique [LawfulEq F] (V : List (Vertex F)) : Merges V vertexUnique :=
  merges_of (same := sameVertex) (fun _ _ => rfl) fun _ _ h => sameVertex_pos h

theorem merges_uniquePosition [LawfulEq F] (V : List (Vertex F)) : Merges V vertexUniquePosition :=
  merges_of (same := samePos) (fun _ _ => rfl) fun _ _ h => h

theorem remap_of_merges {V : List (Vertex F)} {keep : VertexPred F} (h : Merges V keep) {i : Nat}
    {v : Vertex F} (hv : V[i]? = some v) :
    remap V keep i ≤ i ∧ ∃ w, V[remap V keep i]? = some w ∧ keep (remap V keep i) w V = true ∧
      (keep i v V = true → remap V keep i = i) ∧
      (keep i v V = false → firstPos V v = some (remap V keep i) ∧ remap V keep i < i) := by
  unfold remap
  rw [hv]
  simp only
  cases hk : keep i v V with
  | true => simpa using ⟨v, hv, hk⟩
  | false =>
    obtain ⟨k, w, h1, h2, h3, h4⟩ := h i v hv hk
    simp only [Bool.false_eq_true, if_false, h2, Option.getD_some]
    exact ⟨by omega, w, h3, h4, by simp, fun _ => ⟨trivial, h1⟩⟩

/-- Indices of the kept vertices, in order. -/
def keptIdx (V : List (Vertex F)) (keep : VertexPred F) (m : Nat) : List Nat :=
  (List.range m).filter fun i => match V[i]? with
    | some v => keep i v V
    | none => false

theorem filterLoop {V : List (Vertex F)} {keep : VertexPred F} (h : Merges V keep) (I : List Nat) :
    ∀ m, m ≤ V.length → foldOut (filterStep V keep) ⟨I, [], []⟩ (V.zipIdx.take m) =
      .ok ⟨I.map fun i => if i < m then remap V keep i else i, keptIdx V keep m,
        (keptIdx V keep m).filterMap fun i => V[i]?⟩ := by
  intro m
  induction m with
  | zero => intro _; simp [keptIdx]
  | succ m ih =>
    intro hm
    have hlt : m < V.zipIdx.length := by simp; omega
    rw [List.take_succ_eq_append_getElem hlt, foldOut_append, ih (by omega), Outcome.ok_bind,
      foldOut_cons]
    have hz : V.zipIdx[m] = (V[m], m) := by simp
    have hVm : V[m]? = some V[m] := List.getElem?_eq_getElem (by omega)
    rw [hz]
    simp only [foldOut_nil, Outcome.bind_ok, filterStep]
    obtain ⟨hle, w, hw, hkw, h1, h2⟩ := remap_of_merges h hVm
    have hr : keptIdx V keep (m + 1) = keptIdx V keep m ++ if keep m V[m] V then [m] else [] := by
      unfold keptIdx
      rw [List.range_succ, List.filter_append, List.filter_cons, List.filter_nil, hVm]
    split
    · rename_i hk
      rw [hr, if_pos hk]
      simp only [List.filterMap_append, List.filterMap_cons, hVm, List.filterMap_nil]
      congr 2
      apply List.map_congr_left
      intro i _
      by_cases hi : i < m
      · rw [if_pos hi, if_pos (by omega)]
      · rw [if_neg hi]
        split
        · have : i = m := by omega
          subst this
          exact (h1 hk).symm
        · rfl
    · rename_i hk
      have hk' : keep m V[m] V = false := by simpa using hk
      obtain ⟨hf, hlt⟩ := h2 hk'
      unfold firstPos at hf
      rw [hr, if_neg hk, hf]
      simp only [Outcome.unwrap_some, Outcome.ok_bind, List.append_nil, List.map_map]
      congr 2
      apply List.map_congr_left
      intro i _
      simp only [Function.comp_apply]
      by_cases hi : i < m
      · obtain ⟨hle', _⟩ := remap_of_merges h (List.getElem?_eq_getElem (show i < V.length by omega))
        have h3 : i < m + 1 := by omega
        have h4 : remap V keep i ≠ m := by omega
        simp only [if_pos hi, if_pos h3, if_neg h4]
      · rw [if_neg hi]
        by_cases he : i = m
        · subst he; simp
        · rw [if_neg he, if_neg (by omega)]

theorem keptIdx_mem {V : List (Vertex F)} {keep : VertexPred F} {i : Nat} :
    i ∈ keptIdx V keep V.length ↔ ∃ v, V[i]? = some v ∧ keep i v V = true := by
  unfold keptIdx
  rw [List.mem_filter, List.mem_range]
  constructor
  · rintro ⟨h1, h2⟩
    rw [List.getElem?_eq_getElem h1] at h2 ⊢
    exact ⟨_, rfl, h2⟩
  · rintro ⟨v, h1, h2⟩
    refine ⟨(List.getElem?_eq_some_iff.1 h1).1, ?_⟩
    rw [h1]; exact h2

/-- The vertices that are kept. -/
def keptV (V : List (Vertex F)) (keep : VertexPred F) : List (Vertex F) :=
  (keptIdx V keep V.length).filterMap fun i => V[i]?

theorem keptV_get {V : List (Vertex F)} {keep : VertexPred F} (n : Nat) :
    (keptV V keep)[n]? = ((keptIdx V keep V.length)[n]?).bind fun i => V[i]? := by
  unfold keptV
  have h : ∀ l : List Nat, (∀ i ∈ l, ∃ v, V[i]? = some v) →
      ∀ n : Nat, (l.filterMap fun i => V[i]?)[n]? = (l[n]?).bind fun i => V[i]? := by
    intro l
    induction l with
    | nil => intro _ n; simp
    | cons a l ih =>
      intro hl n
      obtain ⟨v, hv⟩ := hl a (by simp)
      rw [List.filterMap_cons_some (f := fun i => V[i]?) hv]
      cases n with
      | zero => simp [hv]
      | succ n => simpa using ih (fun i hi => hl i (by simp [hi])) n
  exact h _ (fun i hi => by obtain ⟨v, hv, _⟩ := keptIdx_mem.1 hi; exact ⟨v, hv⟩) n

/-- What the merge returns: the kept vertices, and for every index the place of the vertex it was
redirected to. -/
theorem filterVertices_ok {V : List (Vertex F)} {keep : VertexPred F} (h : Merges V keep) {I : List Nat}
    (hI : ∀ i ∈ I, i < V.length) :
    ∃ J, filterVertices V I keep = .ok (keptV V keep, J) ∧
      List.Forall₂ (fun i j => ∃ v w, V[i]? = some v ∧ (keptV V keep)[j]? = some w ∧
        V[remap V keep i]? = some w) I J := by
  unfold filterVertices
  have hl := filterLoop h I V.length (Nat.le_refl _)
  rw [List.take_of_length_le (by simp)] at hl
  rw [hl, Outcome.ok_bind]
  refine ⟨_, rfl, ?_⟩
  clear hl
  induction I with
  | nil => exact .nil
  | cons i I ih =>
    have hi : i < V.length := hI i (by simp)
    obtain ⟨_, w, hw, hkw, _⟩ := remap_of_merges h (List.getElem?_eq_getElem hi)
    have hmem : remap V keep i ∈ keptIdx V keep V.length := keptIdx_mem.2 ⟨w, hw, hkw⟩
    obtain ⟨n, hn, e⟩ := List.getElem_of_mem hmem
    obtain ⟨j, _, hj⟩ := findIdx?_exists (p := fun comp => comp == remap V keep i)
      (List.getElem?_eq_getElem hn) (by simp [e])
    obtain ⟨⟨x, hx, hxe⟩, _⟩ := findIdx?_some hj
    have hx' : x = remap V keep i := by simpa using hxe
    rw [List.map_cons, if_pos hi, List.filterMap_cons_some (f := fun index =>
      (keptIdx V keep V.length).findIdx? fun comp => comp == index) hj]
    refine .cons ⟨V[i], w, List.getElem?_eq_getElem hi, ?_, hw⟩ (ih fun k hk => hI k (by simp [hk]))
    rw [keptV_get, hx, hx']
    exact hw

/-- The kept vertices are pairwise different, each before each later one. -/
theorem keptV_pairwise {V : List (Vertex F)} {keep : VertexPred F} {same : Vertex F → Vertex F → Bool}
    (hk : ∀ i v, keep i v V = noneOrGe (V.findIdx? fun comp => same comp v) i) :
    (keptV V keep).Pairwise fun a b => same a b = false := by
  unfold keptV
  have hp : (keptIdx V keep V.length).Pairwise (· < ·) :=
    List.Pairwise.sublist List.filter_sublist List.pairwise_lt_range
  rw [List.pairwise_filterMap]
  refine hp.imp_of_mem ?_
  intro i j hi hj hij a ha b hb
  obtain ⟨b', hb', hkb⟩ := keptIdx_mem.1 hj
  rw [hb] at hb'
  cases hb'
  cases hs : same a b with
  | false => rfl
  | true =>
    obtain ⟨k, hkj, hf⟩ := findIdx?_exists (p := fun comp => same comp b) ha hs
    rw [hk, hf] at hkb
    simp only [noneOrGe, decide_eq_true_eq] at hkb
    omega

/-- Every vertex is kept or an equal one is. -/
theorem keptV_covers {V : List (Vertex F)} {keep : VertexPred F} {same : Vertex F → Vertex F → Bool}
    (hk : ∀ i v, keep i v V = noneOrGe (V.findIdx? fun comp => same comp v) i)
    (ht : ∀ a b c, same a b = true → same b c = true → same a c = true) :
    ∀ v ∈ V, ∃ w ∈ keptV V keep, w = v ∨ same w v = true := by
  intro v hv
  obtain ⟨i, hi, rfl⟩ := List.getElem_of_mem hv
  have hVi : V[i]? = some V[i] := List.getElem?_eq_getElem hi
  cases hkeep : keep i V[i] V with
  | true =>
    exact ⟨V[i], List.mem_filterMap.2 ⟨i, keptIdx_mem.2 ⟨_, hVi, hkeep⟩, hVi⟩, .inl rfl⟩
  | false =>
    rw [hk, noneOrGe_false] at hkeep
    obtain ⟨k, hf, hki⟩ := hkeep
    obtain ⟨⟨w, hw, hwv⟩, hfirst⟩ := findIdx?_some hf
    refine ⟨w, List.mem_filterMap.2 ⟨k, keptIdx_mem.2 ⟨w, hw, ?_⟩, hw⟩, .inr hwv⟩
    cases hkw : keep k w V with
    | true => rfl
    | false =>
      rw [hk, noneOrGe_false] at hkw
      obtain ⟨l, hl, hlk⟩ := hkw
      obtain ⟨⟨y, hy, hyw⟩, _⟩ := findIdx?_some hl
      have := hfirst l y hlk hy
      rw [ht _ _ _ hyw hwv] at this
      cases this

theorem keptV_mem {V : List (Vertex F)} {keep : VertexPred F} {v : Vertex F} (h : v ∈ keptV V keep) :
    v ∈ V := by
  obtain ⟨i, _, hi⟩ := List.mem_filterMap.1 h
  exact List.mem_of_getElem? hi

theorem keptV_eq_nil {V : List (Vertex F)} {keep : VertexPred F} (h : Merges V keep) :
    keptV V keep = [] ↔ V = [] := by
  constructor
  · intro hn
    cases hV : V with
    | nil => rfl
    | cons v V' =>
      have h0 : V[0]? = some v := by rw [hV]; rfl
      obtain ⟨_, w, hw, hkw, _⟩ := remap_of_merges h h0
      have : w ∈ keptV V keep := List.mem_filterMap.2 ⟨_, keptIdx_mem.2 ⟨w, hw, hkw⟩, hw⟩
      rw [hn] at this; cases this
  · rintro rfl; rfl

theorem optBeq_trans {α : Type} {eq : α → α → Bool}
    (ht : ∀ a b c, eq a b = true → eq b c = true → eq a c = true) (a b c : Option α)
    (h : optBeq eq a b = true) (h' : optBeq eq b c = true) : optBeq eq a c = true := by
  cases a <;> cases b <;> cases c <;> simp_all [optBeq]
  exact ht _ _ _ h h'

theorem optBeq_symm {α : Type} {eq : α → α → Bool}
    (hs : ∀ a b, eq a b = true → eq b a = true) (a b : Option α)
    (h : optBeq eq a b = true) : optBeq eq b a = true := by
  cases a <;> cases b <;> simp_all [optBeq]

theorem sameVertex_trans [LawfulEq F] {a b c : Vertex F} (h : sameVertex a b = true)
    (h' : sameVertex b c = true) : sameVertex a c = true := by
  unfold sameVertex at *
  simp only [Bool.and_eq_true] at *
  obtain ⟨⟨⟨⟨h1, h2⟩, h3⟩, h4⟩, h5⟩ := h
  obtain ⟨⟨⟨⟨k1, k2⟩, k3⟩, k4⟩, k5⟩ := h'
  refine ⟨⟨⟨⟨V3.beq_trans h1 k1, V3.beq_trans h2 k2⟩, ?_⟩, ?_⟩, ?_⟩
  · unfold tanBeq at *
    simp only [Bool.and_eq_true] at *
    exact ⟨V3.beq_trans h3.1 k3.1, LawfulEq.trans _ _ _ h3.2 k3.2⟩
  · refine optBeq_trans (fun a b c h h' => ?_) _ _ _ h4 k4
    unfold V2.beq at *
    simp only [Bool.and_eq_true] at *
    exact ⟨LawfulEq.trans _ _ _ h.1 h'.1, LawfulEq.trans _ _ _ h.2 h'.2⟩
  · refine optBeq_trans (fun a b c h h' => ?_) _ _ _ h5 k5
    unfold Color.beq at *
    simp only [Bool.and_eq_true] at *
    exact ⟨⟨LawfulEq.trans _ _ _ h.1.1 h'.1.1, LawfulEq.trans _ _ _ h.1.2 h'.1.2⟩,
      LawfulEq.trans _ _ _ h.2 h'.2⟩

theorem sameVertex_symm [LawfulEq F] {a b : Vertex F} (h : sameVertex a b = true) :
    sameVertex b a = true := by
  unfold sameVertex at *
  simp only [Bool.and_eq_true] at *
  obtain ⟨⟨⟨⟨h1, h2⟩, h3⟩, h4⟩, h5⟩ := h
  refine ⟨⟨⟨⟨V3.beq_symm h1, V3.beq_symm h2⟩, ?_⟩, ?_⟩, ?_⟩
  · unfold tanBeq at *
    simp only [Bool.and_eq_true] at *
    exact ⟨V3.beq_symm h3.1, LawfulEq.symm _ _ h3.2⟩
  · refine optBeq_symm (fun a b h => ?_) _ _ h4
    unfold V2.beq at *
    simp only [Bool.and_eq_true] at *
    exact ⟨LawfulEq.symm _ _ h.1, LawfulEq.symm _ _ h.2⟩
  · refine optBeq_symm (fun a b h => ?_) _ _ h5
    unfold Color.beq at *
    simp only [Bool.and_eq_true] at *
    exact ⟨⟨LawfulEq.symm _ _ h.1.1, LawfulEq.symm _ _ h.1.2⟩, LawfulEq.symm _ _ h.2⟩

end
end Quarch
