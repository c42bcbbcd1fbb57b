import Verif.Proofs.Polytope
import Verif.Props.RealWind
import Verif.Props.RealExamples
/-
C78: the triangles of a brush form a closed surface.
-/
set_option linter.unusedSectionVars false
namespace Quarch
namespace Spec

/-- A brush that is a convex body and is not borderline for the tolerances of the program: three planes are
either dependent or clearly independent, and where three of them meet is either inside or clearly outside. -/
structure ProperBrush (planes : List (BrushPlane ℝ)) : Prop where
  points : ∀ p ∈ planes, NonDegenerate p
  spread : ∀ p ∈ planes, ∀ q ∈ planes, ∀ r ∈ planes, unitDet p q r = 0 ∨ 1 / 1000 ≤ |unitDet p q r|
  clear : ∀ p ∈ planes, ∀ q ∈ planes, ∀ r ∈ planes, unitDet p q r ≠ 0 → ∀ x, OnPlane p x → OnPlane q x →
    OnPlane r x → (∀ s ∈ planes, WithinR (1 / 1000) s x) → ∀ s ∈ planes, WithinR 0 s x
  solid : ∃ y, ∀ p ∈ planes, dotR (rawNormal p) (subR y p.v0) < 0
  bounded : ∃ R : ℝ, ∀ x, (∀ p ∈ planes, WithinR 0 p x) → |x.x| ≤ R ∧ |x.y| ≤ R ∧ |x.z| ≤ R

/-- The brush has the directed triangle side from `a` to `b`: side `s` of triangle `t` of face `i`. -/
def Side {F : Type} (geo : BrushGeo F) (i t s : Nat) (a b : V3 F) : Prop :=
  s < 3 ∧ ∃ face m n v w, geo.planes[i]? = some face ∧ face.indices[3 * t + s]? = some m ∧
    face.indices[3 * t + (s + 1) % 3]? = some n ∧ face.vertices[m]? = some v ∧ face.vertices[n]? = some w ∧
    v.pos = a ∧ w.pos = b

end Spec

open Spec Geo Poly

/-! ### polygons -/

/-- Corners in order: all triples turn the same way. -/
def Turns (n : V3 ℝ) (pts : List (V3 ℝ)) : Prop :=
  ∀ (i j k : Nat) (a b c : V3 ℝ), i < j → j < k → pts[i]? = some a → pts[j]? = some b → pts[k]? = some c → tri n a b c < 0

theorem tri_rot (n a b c : V3 ℝ) : tri n b c a = tri n a b c := by
  simp only [tri, dotR, crossR, subR]; ring

theorem tri_swap (n a b c : V3 ℝ) : tri n b a c = -tri n a b c := by
  simp only [tri, dotR, crossR, subR]; ring

theorem tri_left (n a b : V3 ℝ) : tri n a b a = 0 := by
  simp only [tri, dotR, crossR, subR]; ring

theorem tri_right (n a b : V3 ℝ) : tri n a b b = 0 := by
  simp only [tri, dotR, crossR, subR]; ring

/-- The corner after corner `m` of `n`. -/
def next (n m : Nat) : Nat := if m + 1 < n then m + 1 else 0

/-- All corners are on one side of the line through two consecutive ones. -/
theorem turns_side {n : V3 ℝ} {pts : List (V3 ℝ)} (ht : Turns n pts) {m : Nat} {a b c : V3 ℝ}
    (ha : pts[m]? = some a) (hb : pts[next pts.length m]? = some b) (k : Nat) (hc : pts[k]? = some c)
    (h1 : k ≠ m) (h2 : k ≠ next pts.length m) : tri n a b c < 0 := by
  have hk : k < pts.length := (List.getElem?_eq_some_iff.1 hc).1
  have hm : m < pts.length := (List.getElem?_eq_some_iff.1 ha).1
  unfold next at hb h2
  split at hb <;> rename_i hlt
  · rw [if_pos hlt] at h2
    rcases lt_or_gt_of_ne h1 with h | h
    · rw [tri_rot n c a b]
      exact ht k m (m + 1) c a b h (by omega) hc ha hb
    · exact ht m (m + 1) k a b c (by omega) (by omega) ha hb hc
  · rw [if_neg hlt] at h2
    rw [← tri_rot n a b c]
    exact ht 0 k m b c a (by omega) (by omega) hb hc ha

/-- Two corners with all corners on one side of the line through them are consecutive. -/
theorem turns_next {n : V3 ℝ} {pts : List (V3 ℝ)} (ht : Turns n pts) {i j : Nat} {a b : V3 ℝ} (hij : i ≠ j)
    (ha : pts[i]? = some a) (hb : pts[j]? = some b) (hside : ∀ c ∈ pts, tri n a b c ≤ 0) :
    j = next pts.length i := by
  have hi : i < pts.length := (List.getElem?_eq_some_iff.1 ha).1
  have hj : j < pts.length := (List.getElem?_eq_some_iff.1 hb).1
  unfold next
  rcases lt_or_gt_of_ne hij with h | h
  · rw [if_pos (by omega)]
    by_contra hne
    have hc : pts[i + 1]? = some (pts[i + 1]'(by omega)) := List.getElem?_eq_getElem _
    have h1 := ht i (i + 1) j _ _ _ (by omega) (by omega) ha hc hb
    have h2 := hside _ (List.mem_of_getElem? hc)
    have h3 := tri_rot n a b (pts[i + 1]'(by omega))
    have h4 := tri_swap n (pts[i + 1]'(by omega)) b a
    have h5 := tri_rot n a (pts[i + 1]'(by omega)) b
    linarith
  · have hlast : ¬ i + 1 < pts.length := by
      intro hlt
      have hc : pts[i + 1]? = some (pts[i + 1]'hlt) := List.getElem?_eq_getElem _
      have h1 := ht j i (i + 1) _ _ _ h (by omega) hb ha hc
      have h2 := hside _ (List.mem_of_getElem? hc)
      rw [tri_swap] at h1
      linarith
    rw [if_neg hlast]
    by_contra hne
    have hc : pts[0]? = some (pts[0]'(by omega)) := List.getElem?_eq_getElem _
    have h1 := ht 0 j i _ _ _ (by omega) h hc hb ha
    have h2 := hside _ (List.mem_of_getElem? hc)
    have h3 := tri_rot n (pts[0]'(by omega)) b a
    have h4 := tri_swap n a b (pts[0]'(by omega))
    linarith

/-! ### triangles -/

/-- The sides of the triangles of a face in terms of corner numbers. -/
inductive FanSide (n : Nat) : Nat → Nat → Nat → Nat → Prop
  | first (t) (h : t + 2 < n) : FanSide n t 0 0 (t + 1)
  | second (t) (h : t + 2 < n) : FanSide n t 1 (t + 1) (t + 2)
  | third (t) (h : t + 2 < n) : FanSide n t 2 (t + 2) 0

section
variable {F : Type} [Arith F] [Platform]

/-- Faces of a brush and what they were built from. -/
theorem brush_face {textures : TextureInfo} {entity : Entity F} {brush : Brush F} {geo : BrushGeo F}
    (h : buildBrush textures entity brush = .ok geo) :
    geo.planes.length = brush.planes.length ∧
    ∀ (i : Nat) (plane : BrushPlane F) (face : PlaneGeo F), brush.planes[i]? = some plane → geo.planes[i]? = some face →
      buildPlane textures entity brush.planes plane = .ok face := by
  unfold buildBrush at h
  obtain ⟨pgs, h1, h2⟩ := Outcome.bind_eq_ok.1 h
  cases h2
  have h3 := mapOut_eq_ok.1 h1
  refine ⟨h3.length_eq.symm, ?_⟩
  intro i plane face hi hf
  obtain ⟨l1, e1⟩ := List.getElem?_eq_some_iff.1 hi
  obtain ⟨l2, e2⟩ := List.getElem?_eq_some_iff.1 hf
  have := (List.forall₂_iff_get.1 h3).2 i l1 l2
  simpa [e1, e2] using this

theorem side_iff {textures : TextureInfo} {entity : Entity F} {brush : Brush F} {geo : BrushGeo F}
    (h : buildBrush textures entity brush = .ok geo) (i t s : Nat) (a b : V3 F) :
    Side geo i t s a b ↔ ∃ plane face m n, brush.planes[i]? = some plane ∧ geo.planes[i]? = some face ∧
      buildPlane textures entity brush.planes plane = .ok face ∧ FanSide face.vertices.length t s m n ∧
      (face.vertices.map (·.pos))[m]? = some a ∧ (face.vertices.map (·.pos))[n]? = some b := by
  obtain ⟨hlen, hface⟩ := brush_face h
  constructor
  · rintro ⟨hs, face, m, n, v, w, hf, hm, hn, hv, hw, rfl, rfl⟩
    obtain ⟨l, e⟩ := List.getElem?_eq_some_iff.1 hf
    have hpl : brush.planes[i]? = some (brush.planes[i]'(by omega)) := List.getElem?_eq_getElem _
    have hb := hface i _ face hpl hf
    have hfan := C19_fan _ _ _ _ _ hb
    have ht : t < face.vertices.length - 2 := by
      have := (List.getElem?_eq_some_iff.1 hm).1
      rw [hfan.1] at this
      omega
    obtain ⟨f0, f1, f2⟩ := hfan.2 t ht
    refine ⟨_, face, m, n, hpl, hf, hb, ?_, by rw [List.getElem?_map, hv]; rfl, by rw [List.getElem?_map, hw]; rfl⟩
    have h3 : s = 0 ∨ s = 1 ∨ s = 2 := by omega
    rcases h3 with rfl | rfl | rfl
    · rw [show 3 * t + 0 = 3 * t by omega, f0] at hm
      rw [show (0 + 1) % 3 = 1 by rfl, f1] at hn
      cases hm; cases hn
      exact .first t (by omega)
    · rw [f1] at hm
      rw [show (1 + 1) % 3 = 2 by rfl, f2] at hn
      cases hm; cases hn
      exact .second t (by omega)
    · rw [f2] at hm
      rw [show 3 * t + (2 + 1) % 3 = 3 * t by omega, f0] at hn
      cases hm; cases hn
      exact .third t (by omega)
  · rintro ⟨plane, face, m, n, hpl, hf, hb, hs, ha, hb'⟩
    have hfan := C19_fan _ _ _ _ _ hb
    rw [List.getElem?_map, Option.map_eq_some_iff] at ha hb'
    obtain ⟨v, hv, rfl⟩ := ha
    obtain ⟨w, hw, rfl⟩ := hb'
    cases hs with
    | first h1 =>
      obtain ⟨f0, f1, f2⟩ := hfan.2 t (by omega)
      exact ⟨by omega, face, _, _, v, w, hf, f0, f1, hv, hw, rfl, rfl⟩
    | second h1 =>
      obtain ⟨f0, f1, f2⟩ := hfan.2 t (by omega)
      exact ⟨by omega, face, _, _, v, w, hf, f1, f2, hv, hw, rfl, rfl⟩
    | third h1 =>
      obtain ⟨f0, f1, f2⟩ := hfan.2 t (by omega)
      exact ⟨by omega, face, _, _, v, w, hf, f2, f0, hv, hw, rfl, rfl⟩

end

/-- A side between consecutive corners. -/
theorem fan_next {n m : Nat} (hn : 3 ≤ n) (hm : m < n) : ∃ t s, FanSide n t s m (next n m) := by
  unfold next
  split
  · cases m with
    | zero => exact ⟨0, 0, .first 0 (by omega)⟩
    | succ k => exact ⟨k, 1, .second k (by omega)⟩
  · obtain ⟨k, rfl⟩ : ∃ k, m = k + 2 := ⟨m - 2, by omega⟩
    exact ⟨k, 2, .third k (by omega)⟩

/-- A side of a triangle is the reverse of another one or goes to the next corner. -/
theorem fan_reverse {n t s m k : Nat} (h : FanSide n t s m k) :
    (∃ t' s', FanSide n t' s' k m) ∨ k = next n m := by
  cases h with
  | first h =>
    cases t with
    | zero => right; unfold next; rw [if_pos (by omega)]
    | succ t => exact .inl ⟨t, 2, .third t (by omega)⟩
  | second h => right; unfold next; rw [if_pos (by omega)]
  | third h =>
    by_cases hlt : t + 2 + 1 < n
    · exact .inl ⟨t + 1, 0, .first (t + 1) (by omega)⟩
    · right; unfold next; rw [if_neg hlt]

theorem fan_bounds {n t s m k : Nat} (h : FanSide n t s m k) : 3 ≤ n ∧ m < n ∧ k < n ∧ m ≠ k := by
  cases h <;> refine ⟨?_, ?_, ?_, ?_⟩ <;> omega

theorem fan_inj {n t s t' s' m k : Nat} (h : FanSide n t s m k) (h' : FanSide n t' s' m k) : t = t' ∧ s = s' := by
  generalize hm : m = m' at h'
  generalize hk : k = k' at h'
  cases h <;> cases h' <;> constructor <;> omega

/-- The third corner of the triangle is to the right of its side. -/
theorem fan_third {nn : V3 ℝ} {pts : List (V3 ℝ)} (htn : Turns nn pts) {t s m k : Nat} {a b : V3 ℝ}
    (h : FanSide pts.length t s m k) (ha : pts[m]? = some a) (hb : pts[k]? = some b) : ∃ c ∈ pts, tri nn a b c < 0 := by
  cases h with
  | first h =>
    have hc : pts[t + 2]? = some (pts[t + 2]'h) := List.getElem?_eq_getElem _
    exact ⟨_, List.mem_of_getElem? hc, htn 0 (t + 1) (t + 2) _ _ _ (by omega) (by omega) ha hb hc⟩
  | second h =>
    have hc : pts[0]? = some (pts[0]'(by omega)) := List.getElem?_eq_getElem _
    refine ⟨_, List.mem_of_getElem? hc, ?_⟩
    rw [tri_rot]
    exact htn 0 (t + 1) (t + 2) _ _ _ (by omega) (by omega) hc ha hb
  | third h =>
    have hc : pts[t + 1]? = some (pts[t + 1]'(by omega)) := List.getElem?_eq_getElem _
    refine ⟨_, List.mem_of_getElem? hc, ?_⟩
    rw [← tri_rot]
    exact htn 0 (t + 1) (t + 2) _ _ _ (by omega) (by omega) hb hc ha

section
variable [RealText] [Platform]

theorem within_zero (p : BrushPlane ℝ) (x : V3 ℝ) : WithinR 0 p x ↔ ht p x ≤ 0 := by
  unfold WithinR ht; rw [zero_mul]

/-- The corners of a face of a proper brush. -/
theorem proper_corner {textures : TextureInfo} {entity : Entity ℝ} {planes : List (BrushPlane ℝ)}
    (hp : ProperBrush planes) {plane : BrushPlane ℝ} (hm : plane ∈ planes) {geo : PlaneGeo ℝ}
    (h : buildPlane textures entity planes plane = .ok geo) (x : V3 ℝ) :
    x ∈ geo.vertices.map (·.pos) ↔ Corner planes plane x := by
  rw [(C20_exact_corners _ _ _ _ _ h).2 x]
  have hdet : ∀ p ∈ planes, ∀ q ∈ planes, (unitDet plane p q ≠ 0 ↔
      detR (rawNormal plane) (rawNormal p) (rawNormal q) ≠ 0) := by
    intro p h1 q h2
    have a := (lenR_pos (hp.points _ hm)).ne'
    have b := (lenR_pos (hp.points _ h1)).ne'
    have c := (lenR_pos (hp.points _ h2)).ne'
    unfold unitDet
    rw [div_ne_zero_iff]
    exact ⟨fun h => h.1, fun h => ⟨h, mul_ne_zero (mul_ne_zero a b) c⟩⟩
  constructor
  · rintro ⟨⟨p, h1, q, h2, hd, h3, h4, h5⟩, hin⟩
    have hne : unitDet plane p q ≠ 0 := by intro e; rw [e] at hd; norm_num at hd
    exact ⟨fun s hs => (within_zero s x).1 (hp.clear _ hm p h1 q h2 hne x h3 h4 h5 hin s hs), h3, p, h1, q, h2,
      (hdet p h1 q h2).1 hne, h4, h5⟩
  · rintro ⟨hin, h3, p, h1, q, h2, hd, h4, h5⟩
    have hle : ∀ s ∈ planes, WithinR (1 / 1000) s x := by
      intro s hs
      have := hin s hs
      have hl := lenR_nonneg (rawNormal s)
      unfold WithinR
      unfold ht at this
      have : 0 ≤ 1 / 1000 * lenR (rawNormal s) := by positivity
      linarith
    refine ⟨?_, hle⟩
    have h6 := (hp.spread _ hm p h1 q h2).resolve_left ((hdet p h1 q h2).2 hd)
    rcases le_total 0 (unitDet plane p q) with hs | hs
    · rw [abs_of_nonneg hs] at h6
      exact ⟨p, h1, q, h2, h6, h3, h4, h5⟩
    · rw [abs_of_nonpos hs, ← unitDet_swap] at h6
      exact ⟨q, h2, p, h1, h6, h3, h5, h4⟩

theorem proper_turns {textures : TextureInfo} {entity : Entity ℝ} {planes : List (BrushPlane ℝ)}
    (hp : ProperBrush planes) {plane : BrushPlane ℝ} (hm : plane ∈ planes) {geo : PlaneGeo ℝ}
    (h : buildPlane textures entity planes plane = .ok geo) :
    Turns (rawNormal plane) (geo.vertices.map (·.pos)) := by
  have hconv := C25_exact_corners_convex _ _ _ _ _ h fun v hv p hpm =>
    (within_zero p v.pos).2 (((proper_corner hp hm h v.pos).1 (List.mem_map_of_mem hv)).1 p hpm)
  intro i j k a b c hij hjk ha hb hc
  have hk : k < geo.vertices.length := by
    have := (List.getElem?_eq_some_iff.1 hc).1
    simpa using this
  have h1 := C25_all_triples_clockwise _ _ _ _ _ h hconv i j k hij hjk hk
  rw [List.getElem?_map, List.getElem?_eq_getElem (by omega)] at ha hb hc
  simp only [Option.map_some, Option.some.injEq] at ha hb hc
  rw [ha, hb, hc] at h1
  exact h1

theorem proper_bounded {planes : List (BrushPlane ℝ)} (hp : ProperBrush planes) : Bounded planes := by
  obtain ⟨R, hR⟩ := hp.bounded
  exact ⟨R, fun x hx => hR x fun p hpm => (within_zero p x).2 (hx p hpm)⟩

/-- C78: every side of every triangle of a proper brush is, in the opposite direction, a side of a triangle of
the brush: the triangles leave no gap. -/
theorem C78_watertight (textures : TextureInfo) (entity : Entity ℝ) (brush : Brush ℝ) (geo : BrushGeo ℝ)
    (h : buildBrush textures entity brush = .ok geo) (hp : ProperBrush brush.planes) (i t s : Nat) (a b : V3 ℝ)
    (hs : Side geo i t s a b) : ∃ i' t' s', Side geo i' t' s' b a := by
  obtain ⟨f, face, m, n, hpl, hf, hb, hfs, ha, hb'⟩ := (side_iff h i t s a b).1 hs
  rcases fan_reverse hfs with ⟨t', s', hr⟩ | hnext
  · exact ⟨i, t', s', (side_iff h i t' s' b a).2 ⟨f, face, n, m, hpl, hf, hb, hr, hb', ha⟩⟩
  · have hfm := List.mem_of_getElem? hpl
    have htn := proper_turns hp hfm hb
    have hco := proper_corner hp hfm hb
    have hnd := (C20_exact_corners _ _ _ _ _ hb).1
    obtain ⟨b3, bm, bn, bne⟩ := fan_bounds hfs
    have hab : a ≠ b := by
      rintro rfl
      exact bne ((List.getElem?_inj (by simpa using bm) hnd).1 (ha.trans hb'.symm))
    have hedge : Edge brush.planes f a b := by
      refine ⟨(hco a).1 (List.mem_of_getElem? ha), (hco b).1 (List.mem_of_getElem? hb'), hab, ?_, ?_⟩
      · intro c hc
        obtain ⟨k, hk⟩ := List.mem_iff_getElem?.1 ((hco c).2 hc)
        by_cases h1 : k = m
        · subst h1; rw [hk] at ha; cases ha; rw [tri_left]
        · by_cases h2 : k = n
          · subst h2; rw [hk] at hb'; cases hb'; rw [tri_right]
          · refine (turns_side htn ha (b := b) ?_ k hk h1 ?_).le
            · rw [List.length_map, ← hnext]; exact hb'
            · rw [List.length_map, ← hnext]; exact h2
      · obtain ⟨c, hc, hlt⟩ := fan_third htn (t := t) (s := s) (by simpa using hfs) ha hb'
        exact ⟨c, (hco c).1 hc, hlt⟩
    obtain ⟨g, hg, _, he⟩ := edge_shared (proper_bounded hp) hp.solid hp.points hfm hedge
    obtain ⟨j, hj⟩ := List.mem_iff_getElem?.1 hg
    obtain ⟨hlen, hface⟩ := brush_face h
    have hjl := (List.getElem?_eq_some_iff.1 hj).1
    have hgf : geo.planes[j]? = some (geo.planes[j]'(by omega)) := List.getElem?_eq_getElem _
    generalize geo.planes[j]'(by omega) = face' at hgf
    have hb2 := hface j g face' hj hgf
    have htn2 := proper_turns hp hg hb2
    have hco2 := proper_corner hp hg hb2
    obtain ⟨ib, hib⟩ := List.mem_iff_getElem?.1 ((hco2 b).2 he.left)
    obtain ⟨ia, hia⟩ := List.mem_iff_getElem?.1 ((hco2 a).2 he.right)
    have hne : ib ≠ ia := by
      rintro rfl; rw [hib] at hia; cases hia; exact hab rfl
    have hnx := turns_next htn2 hne hib hia fun c hc => he.side c ((hco2 c).1 hc)
    rw [List.length_map] at hnx
    have h1 : ib < face'.vertices.length := by simpa using (List.getElem?_eq_some_iff.1 hib).1
    have h2 : ia < face'.vertices.length := by simpa using (List.getElem?_eq_some_iff.1 hia).1
    obtain ⟨c, hc, hlt⟩ := he.third
    obtain ⟨ic, hic⟩ := List.mem_iff_getElem?.1 ((hco2 c).2 hc)
    have h3 : ic < face'.vertices.length := by simpa using (List.getElem?_eq_some_iff.1 hic).1
    have n1 : ic ≠ ia := by
      rintro rfl; rw [hic] at hia; cases hia; rw [tri_right] at hlt; exact lt_irrefl _ hlt
    have n2 : ic ≠ ib := by
      rintro rfl; rw [hic] at hib; cases hib; rw [tri_left] at hlt; exact lt_irrefl _ hlt
    obtain ⟨t', s', hfs'⟩ := fan_next (n := face'.vertices.length) (m := ib) (by omega) h1
    rw [← hnx] at hfs'
    exact ⟨j, t', s', (side_iff h j t' s' b a).2 ⟨g, face', ib, ia, hj, hgf, hb2, hfs', hib, hia⟩⟩

/-- C78: and it is a side of one triangle only, if no plane is given twice: the triangles do not overlap along a
side. -/
theorem C78_once (textures : TextureInfo) (entity : Entity ℝ) (brush : Brush ℝ) (geo : BrushGeo ℝ)
    (h : buildBrush textures entity brush = .ok geo) (hp : ProperBrush brush.planes)
    (hd : brush.planes.Pairwise fun p q => ¬ ∀ x, OnPlane p x ↔ OnPlane q x) (i t s i' t' s' : Nat) (a b : V3 ℝ)
    (hs : Side geo i t s a b) (hs' : Side geo i' t' s' a b) : i = i' ∧ t = t' ∧ s = s' := by
  obtain ⟨f, face, m, n, hpl, hf, hb, hfs, ha, hb'⟩ := (side_iff h i t s a b).1 hs
  obtain ⟨g, face', m', n', hpl', hf', hbg, hfs', ha', hb''⟩ := (side_iff h i' t' s' a b).1 hs'
  have chord : ∀ (f : BrushPlane ℝ) (face : PlaneGeo ℝ) (t s m n : Nat), f ∈ brush.planes →
      buildPlane textures entity brush.planes f = .ok face → FanSide face.vertices.length t s m n →
      (face.vertices.map (·.pos))[m]? = some a → (face.vertices.map (·.pos))[n]? = some b →
      Chord brush.planes f a b := by
    intro f face t s m n hfm hb hfs ha hb'
    have hco := proper_corner hp hfm hb
    have hnd := (C20_exact_corners _ _ _ _ _ hb).1
    obtain ⟨b3, bm, bn, bne⟩ := fan_bounds hfs
    obtain ⟨c, hc, hlt⟩ := fan_third (proper_turns hp hfm hb) (t := t) (s := s) (by simpa using hfs) ha hb'
    refine ⟨(hco a).1 (List.mem_of_getElem? ha), (hco b).1 (List.mem_of_getElem? hb'), ?_, c, (hco c).1 hc, hlt⟩
    rintro rfl
    exact bne ((List.getElem?_inj (by simpa using bm) hnd).1 (ha.trans hb'.symm))
  have hfm := List.mem_of_getElem? hpl
  have hgm := List.mem_of_getElem? hpl'
  have hsame := (chord_once hp.solid hp.points hfm hgm (chord f face t s m n hfm hb hfs ha hb')
    (chord g face' t' s' m' n' hgm hbg hfs' ha' hb'')).1
  have hii : i = i' := by
    obtain ⟨l, e⟩ := List.getElem?_eq_some_iff.1 hpl
    obtain ⟨l', e'⟩ := List.getElem?_eq_some_iff.1 hpl'
    rcases lt_trichotomy i i' with hlt | he | hlt
    · have := List.pairwise_iff_getElem.1 hd i i' l l' hlt
      rw [e, e'] at this
      exact absurd hsame this
    · exact he
    · have := List.pairwise_iff_getElem.1 hd i' i l' l hlt
      rw [e, e'] at this
      exact absurd (fun x => (hsame x).symm) this
  subst hii
  rw [hf] at hf'
  cases hf'
  have hnd := (C20_exact_corners _ _ _ _ _ hb).1
  obtain ⟨_, bm, bn, _⟩ := fan_bounds hfs
  have e1 := (List.getElem?_inj (by simpa using bm) hnd).1 (ha.trans ha'.symm)
  have e2 := (List.getElem?_inj (by simpa using bn) hnd).1 (hb'.trans hb''.symm)
  subst e1 e2
  exact ⟨rfl, fan_inj hfs hfs'⟩

end
end Quarch
