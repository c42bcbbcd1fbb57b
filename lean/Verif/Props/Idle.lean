import Verif.Spec.Idle
import Verif.Props.Moving
/-
C134: a face that does not touch its brush changes nothing but the centre.
-/
set_option linter.unusedSectionVars false
namespace Quarch
open Spec Geo

section
variable {F : Type} [Arith F]

/-- An element without a result can be left out. -/
theorem mapOut_skip {α β γ : Type} {f : α → Outcome β} {k : List β → γ} {c : β → γ → γ} (hc : ∀ y ys, k (y :: ys) = c y (k ys))
    {q : α} {y : β} (hq : f q = .ok y) (hy : ∀ z, c y z = z) (pre post : List α) :
    ((mapOut f (pre ++ q :: post)).bind fun ys => .ok (k ys)) = (mapOut f (pre ++ post)).bind fun ys => .ok (k ys) := by
  induction pre with
  | nil =>
    rw [List.nil_append, mapOut_cons, hq, Outcome.ok_bind]
    cases h : mapOut f post <;> simp [hc, hy, h]
  | cons x pre ih =>
    rw [List.cons_append, List.cons_append, mapOut_cons, mapOut_cons]
    cases hx : f x with
    | ok z =>
      have e : ∀ A : Outcome (List β), (((Outcome.ok z).bind fun y => A.bind fun ys => .ok (y :: ys)).bind fun ys => .ok (k ys)) =
          (A.bind fun ys => .ok (k ys)).bind fun g => .ok (c z g) := by
        intro A
        cases A <;> simp [hc]
      rw [e, e, ih]
    | err _ => rfl
    | panic _ => rfl
    | overflow => rfl

variable {pre post : List (BrushPlane F)} {q : BrushPlane F}
  (h1 : ∀ p p1 p2 x, Meet p p1 p2 x → p = q ∨ p1 = q ∨ p2 = q → ¬ ∀ r ∈ pre ++ q :: post, Behind r x)
  (h2 : ∀ x, (∀ r ∈ pre ++ post, Behind r x) → Behind q x)

include h1 in
theorem vertex_idle {texture : Option Texture} {entity : Entity F} {p p1 p2 : BrushPlane F}
    (h : p = q ∨ p1 = q ∨ p2 = q) : buildPlaneVertex texture entity (pre ++ q :: post) p p1 p2 = .ok none := by
  unfold buildPlaneVertex
  split
  · rename_i x hx
    rw [if_neg]
    intro hh
    exact h1 p p1 p2 x (intersect_eq_some.1 hx) h (inHull_iff.1 hh)
  · rfl

include h2 in
theorem vertex_other {texture : Option Texture} {entity : Entity F} {p p1 p2 : BrushPlane F} :
    buildPlaneVertex texture entity (pre ++ q :: post) p p1 p2 = buildPlaneVertex texture entity (pre ++ post) p p1 p2 := by
  have e : ∀ x, inHull x (pre ++ q :: post) = inHull x (pre ++ post) := by
    intro x
    rw [Bool.eq_iff_iff, inHull_iff, inHull_iff]
    constructor
    · intro h r hr
      refine h r ?_
      rcases List.mem_append.1 hr with hr | hr <;> simp [hr]
    · intro h r hr
      rcases List.mem_append.1 hr with hr | hr
      · exact h r (by simp [hr])
      · rcases List.mem_cons.1 hr with rfl | hr
        · exact h2 x h
        · exact h r (by simp [hr])
  unfold buildPlaneVertex
  simp only [e]

theorem row_none {texture : Option Texture} {entity : Entity F} {planes l : List (BrushPlane F)} {p p1 : BrushPlane F}
    (h : ∀ p2, buildPlaneVertex texture entity planes p p1 p2 = .ok none) :
    ((mapOut (fun p2 => buildPlaneVertex texture entity planes p p1 p2) l).bind fun vs => .ok (vs.filterMap id)) = .ok [] := by
  induction l with
  | nil => rfl
  | cons a l ih =>
    rw [mapOut_cons, h, Outcome.ok_bind]
    revert ih
    generalize mapOut _ l = A
    intro ih
    cases A with
    | ok vs => exact ih
    | err _ => cases ih
    | panic _ => cases ih
    | overflow => cases ih

include h1 h2 in
/-- The corners of the other faces. -/
theorem planeVertices_idle {texture : Option Texture} {entity : Entity F} {p : BrushPlane F} :
    planeVertices texture entity (pre ++ q :: post) p = planeVertices texture entity (pre ++ post) p := by
  unfold planeVertices
  rw [mapOut_skip (f := fun p1 => (mapOut (fun p2 => buildPlaneVertex texture entity (pre ++ q :: post) p p1 p2)
      (pre ++ q :: post)).bind fun vs => .ok (vs.filterMap id)) (k := List.flatten) (c := fun y z => y ++ z) (fun _ _ => rfl)
    (y := []) (row_none fun p2 => vertex_idle h1 (.inr (.inl rfl))) (fun _ => rfl)]
  congr 1
  apply mapOut_congr
  intro p1 _
  rw [mapOut_skip (f := fun p2 => buildPlaneVertex texture entity (pre ++ q :: post) p p1 p2) (k := List.filterMap id) (c := fun y z => y.toList ++ z) (fun y ys => by cases y <;> rfl) (y := none)
    (vertex_idle h1 (.inr (.inr rfl))) (fun _ => rfl)]
  congr 1
  apply mapOut_congr
  intro p2 _
  exact vertex_other h2

include h1 in
theorem planeVertices_none {texture : Option Texture} {entity : Entity F} :
    planeVertices texture entity (pre ++ q :: post) q = .ok [] := by
  unfold planeVertices
  have : ∀ l : List (BrushPlane F), (mapOut (fun p1 => (mapOut (fun p2 => buildPlaneVertex texture entity (pre ++ q :: post) q p1 p2)
      (pre ++ q :: post)).bind fun vs => .ok (vs.filterMap id)) l).bind (fun vss => .ok vss.flatten) =
      (.ok [] : Outcome (List (Vertex F))) := by
    intro l
    induction l with
    | nil => rfl
    | cons a l ih =>
      rw [mapOut_cons, row_none fun p2 => vertex_idle h1 (.inl rfl), Outcome.ok_bind]
      revert ih
      generalize mapOut _ l = A
      intro ih
      cases A with
      | ok vs => exact ih
      | err _ => cases ih
      | panic _ => cases ih
      | overflow => cases ih
  exact this _

variable [Platform]

include h1 h2 in
theorem buildPlane_idle {textures : TextureInfo} {entity : Entity F} {p : BrushPlane F} :
    buildPlane textures entity (pre ++ q :: post) p = buildPlane textures entity (pre ++ post) p := by
  unfold buildPlane
  simp only [planeVertices_idle h1 h2]

include h1 in
theorem buildPlane_none {textures : TextureInfo} {entity : Entity F} :
    ∃ t, buildPlane textures entity (pre ++ q :: post) q = .ok ⟨mean [], [], [], t⟩ := by
  unfold buildPlane
  simp only [planeVertices_none h1, Outcome.ok_bind]
  have e : ∀ c : V3 F, windVertices q c [] = [] := by
    intro c
    unfold windVertices
    have := (Platform.sortBy_perm (windCmp q) []).length_eq
    simp only [List.map_nil]
    rw [List.length_nil, List.length_eq_zero_iff] at this
    rw [this]
    rfl
  exact ⟨_, by simp only [uniqueVertices, List.map_nil, e]; rfl⟩

end

section
variable [RealText] [Platform]
variable {pre post : List (BrushPlane ℝ)} {q : BrushPlane ℝ}

theorem stays_behind (h : StaysClear q (pre ++ post)) (x : V3 ℝ) (hx : ∀ r ∈ pre ++ post, Behind r x) : Behind q x := by
  rw [behind_real]
  have := h x fun p hp => behind_real.1 (hx p hp)
  unfold WithinR
  have h2 : 0 ≤ lenR (rawNormal q) := Real.sqrt_nonneg _
  linarith [mul_nonneg (by norm_num : (0 : ℝ) ≤ 1 / 1000) h2]

theorem stays_meet (h : StaysClear q (pre ++ post)) (p p1 p2 : BrushPlane ℝ) (x : V3 ℝ) (hm : Meet p p1 p2 x)
    (hq : p = q ∨ p1 = q ∨ p2 = q) : ¬ ∀ r ∈ pre ++ q :: post, Behind r x := by
  intro hb
  have h1 := h x fun p hp => behind_real.1 (hb p (by rcases List.mem_append.1 hp with hp | hp <;> simp [hp]))
  obtain ⟨_, o0, o1, o2⟩ := meet_real.1 hm
  have ho : OnPlane q x := by
    rcases hq with rfl | rfl | rfl
    · exact o0
    · exact o1
    · exact o2
  unfold OnPlane at ho
  linarith

/-- C134: a face that does not touch its brush has no corner, and the others are built as if it were not there. -/
theorem C134_faces (textures : TextureInfo) (entity : Entity ℝ) (pre post : List (BrushPlane ℝ)) (q : BrushPlane ℝ)
    (h : StaysClear q (pre ++ post)) :
    (∀ p ∈ pre ++ post, buildPlane textures entity (pre ++ q :: post) p = buildPlane textures entity (pre ++ post) p) ∧
      ∃ geo, buildPlane textures entity (pre ++ q :: post) q = .ok geo ∧ geo.vertices = [] ∧ geo.indices = [] ∧
        geo.center = zeroR := by
  refine ⟨fun p _ => buildPlane_idle (stays_meet h) (stays_behind h), ?_⟩
  obtain ⟨t, ht⟩ := buildPlane_none (textures := textures) (entity := entity) (stays_meet h)
  refine ⟨_, ht, rfl, rfl, ?_⟩
  show mean [] = zeroR
  rw [mean_real]
  simp [sumR, smulR, zeroR]

/-- C134: but the centre of the brush moves towards the origin of the map: with `n` other faces to `n / (n + 1)` of where it
was. -/
theorem C134_center (textures : TextureInfo) (entity : Entity ℝ) (pre post : List (BrushPlane ℝ)) (q : BrushPlane ℝ)
    (h : StaysClear q (pre ++ post)) (geo geo' : BrushGeo ℝ) (hb : buildBrush textures entity ⟨pre ++ post⟩ = .ok geo)
    (hb' : buildBrush textures entity ⟨pre ++ q :: post⟩ = .ok geo') :
    geo'.center = smulR ((pre.length + post.length : ℝ) / (pre.length + post.length + 1)) geo.center := by
  obtain ⟨hf, gq, hq, _, _, hc⟩ := C134_faces textures entity pre post q h
  unfold buildBrush at hb hb'
  obtain ⟨gs, h3, hb⟩ := Outcome.bind_eq_ok.1 hb
  obtain ⟨gs', h4, hb'⟩ := Outcome.bind_eq_ok.1 hb'
  cases hb
  cases hb'
  simp only at h3 h4 ⊢
  have hsplit : ∃ ga gb, gs = ga ++ gb ∧ gs' = ga ++ gq :: gb ∧ ga.length = pre.length ∧ gb.length = post.length := by
    rw [mapOut_append] at h3 h4
    obtain ⟨ga, a1, h3⟩ := Outcome.bind_eq_ok.1 h3
    obtain ⟨gb, a2, h3⟩ := Outcome.bind_eq_ok.1 h3
    cases h3
    rw [mapOut_congr (l := pre) fun p hp => hf p (by simp [hp]), a1, Outcome.ok_bind, mapOut_cons, hq, Outcome.ok_bind,
      mapOut_congr (l := post) fun p hp => hf p (by simp [hp]), a2] at h4
    cases h4
    exact ⟨ga, gb, rfl, rfl, (mapOut_eq_ok.1 a1).length_eq.symm, (mapOut_eq_ok.1 a2).length_eq.symm⟩
  obtain ⟨ga, gb, rfl, rfl, l1, l2⟩ := hsplit
  rw [mean_real, mean_real]
  have hsum : sumR ((ga ++ gq :: gb).map (·.center)) = sumR ((ga ++ gb).map (·.center)) := by
    simp [sumR, hc, zeroR]
  rw [hsum]
  simp only [List.map_append, List.map_cons, List.length_append, List.length_cons, List.length_map, l1, l2]
  rcases Nat.eq_zero_or_pos (pre.length + post.length) with h0 | h0
  · obtain ⟨e1, e2⟩ : pre.length = 0 ∧ post.length = 0 := by omega
    have e3 : ga = [] := List.length_eq_zero_iff.1 (l1.trans e1)
    have e4 : gb = [] := List.length_eq_zero_iff.1 (l2.trans e2)
    simp [e1, e2, e3, e4, sumR, smulR]
  · generalize sumR _ = s
    have e1 : max (pre.length + (post.length + 1)) 1 = pre.length + post.length + 1 := by omega
    have e2 : max (pre.length + post.length) 1 = pre.length + post.length := by omega
    rw [e1, e2]
    have h5 : ((pre.length : ℝ) + post.length) ≠ 0 := by exact_mod_cast h0.ne'
    have h6 : ((pre.length : ℝ) + post.length + 1) ≠ 0 := by positivity
    simp only [smulR, V3.mk.injEq]
    push_cast
    refine ⟨?_, ?_, ?_⟩ <;> field_simp

theorem stays_move {q : BrushPlane ℝ} {planes : List (BrushPlane ℝ)} (h : StaysClear q planes) (t : V3 ℝ) :
    StaysClear (movePlane t q) (planes.map (movePlane t)) := by
  intro x hx
  have e : ∀ v : V3 ℝ, subR x (addR v t) = subR (subR x t) v := by
    intro v
    simp only [subR, addR, V3.mk.injEq]
    refine ⟨?_, ?_, ?_⟩ <;> ring
  have e2 : ∀ p : BrushPlane ℝ, (movePlane t p).v0 = addR p.v0 t := fun _ => rfl
  rw [rawNormal_move, e2, e]
  refine h _ fun p hp => ?_
  have := hx _ (List.mem_map_of_mem hp)
  unfold WithinR at this ⊢
  rwa [rawNormal_move, e2, e] at this

/-- The centre of a brush all of whose faces have corners moves with it. -/
theorem brush_moves {textures : TextureInfo} {entity : Entity ℝ} {planes : List (BrushPlane ℝ)} (t : V3 ℝ) (hne : planes ≠ [])
    (hc : ∀ p ∈ planes, ∃ x, Found planes p x) {geo geo' : BrushGeo ℝ} (hb : buildBrush textures entity ⟨planes⟩ = .ok geo)
    (hb' : buildBrush textures entity ⟨planes.map (movePlane t)⟩ = .ok geo') : geo'.center = addR geo.center t := by
  unfold buildBrush at hb hb'
  obtain ⟨gs, h3, hb⟩ := Outcome.bind_eq_ok.1 hb
  obtain ⟨gs', h4, hb'⟩ := Outcome.bind_eq_ok.1 hb'
  cases hb
  cases hb'
  simp only at h3 h4 ⊢
  have h3 := mapOut_eq_ok.1 h3
  have h4 := mapOut_eq_ok.1 h4
  rw [List.forall₂_map_left_iff] at h4
  have key : ∀ {l : List (BrushPlane ℝ)} {gs gs' : List (PlaneGeo ℝ)}, (∀ p ∈ l, p ∈ planes) →
      List.Forall₂ (fun p g => buildPlane textures entity planes p = .ok g) l gs →
      List.Forall₂ (fun p g => buildPlane textures entity (planes.map (movePlane t)) (movePlane t p) = .ok g) l gs' →
      gs'.map (·.center) = (gs.map (·.center)).map (Rigid.similar (shift t)).move := by
    intro l
    induction l with
    | nil =>
      intro gs gs' _ h h'
      cases h
      cases h'
      rfl
    | cons p l ih =>
      intro gs gs' hl h h'
      cases h with
      | cons a h =>
        cases h' with
        | cons a' h' =>
          simp only [List.map_cons]
          rw [ih (fun p hp => hl p (by simp [hp])) h h', Rigid.similar_move, shift_move, C28_center _ _ _ _ t _ _ a a']
          intro hv
          obtain ⟨x, hx⟩ := hc p (hl p (by simp))
          have := ((C20_exact_corners _ _ _ _ _ a).2 x).2 (found_real.1 hx)
          rw [hv] at this
          cases this
  have hg : gs.map (·.center) ≠ [] := by
    intro h0
    have := h3.length_eq
    rw [List.map_eq_nil_iff.1 h0] at this
    exact hne (List.length_eq_zero_iff.1 this)
  show mean _ = addR (mean _) t
  rw [key (fun _ h => h) h3 h4, ← shift_move, ← Rigid.similar_move]
  exact mean_turn hg

/-- C134: and a brush with such a face is not moved by what its faces are moved by: its centre falls behind. -/
theorem C134_moved (textures : TextureInfo) (entity : Entity ℝ) (pre post : List (BrushPlane ℝ)) (q : BrushPlane ℝ)
    (h : StaysClear q (pre ++ post)) (hne : pre ++ post ≠ []) (hc : ∀ p ∈ pre ++ post, ∃ x, Found (pre ++ post) p x)
    (t : V3 ℝ) (geo geo' : BrushGeo ℝ) (hb : buildBrush textures entity ⟨pre ++ q :: post⟩ = .ok geo)
    (hb' : buildBrush textures entity ⟨(pre ++ q :: post).map (movePlane t)⟩ = .ok geo') :
    geo'.center = addR geo.center (smulR ((pre.length + post.length : ℝ) / (pre.length + post.length + 1)) t) := by
  obtain ⟨g1, h1⟩ := buildBrush_real textures entity ⟨pre ++ post⟩
  obtain ⟨g2, h2⟩ := buildBrush_real textures entity ⟨(pre ++ post).map (movePlane t)⟩
  have e1 := C134_center textures entity pre post q h g1 geo h1 hb
  have e2 := brush_moves t hne hc h1 h2
  rw [List.map_append, List.map_cons] at hb'
  rw [List.map_append] at h2
  have hm := stays_move h t
  rw [List.map_append] at hm
  have e3 := C134_center textures entity (pre.map (movePlane t)) (post.map (movePlane t)) (movePlane t q) hm g2 geo' h2 hb'
  rw [e3, e1, e2, List.length_map, List.length_map]
  simp only [smulR, addR, V3.mk.injEq]
  refine ⟨?_, ?_, ?_⟩ <;> ring

end
end Quarch
