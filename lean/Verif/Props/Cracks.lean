import Verif.Spec.Cracks
import Verif.Proofs.SoftFace
import Verif.Proofs.Tetra
import Verif.Props.BoxMapExamples
/-
C109: brushes without gaps in exact arithmetic can have gaps in single precision.
-/
set_option linter.unusedSectionVars false
namespace Quarch
open Quarch.Spec Quarch.Geo

/-! ### sides of triangles -/

section
variable {F : Type} [Arith F] [Platform] {textures : TextureInfo} {entity : Entity F} {brush : Brush F} {geo : BrushGeo F}

/-- The faces of a brush are built from the planes of the brush. -/
theorem face_built (h : buildBrush textures entity brush = .ok geo) :
    List.Forall₂ (fun p face => buildPlane textures entity brush.planes p = .ok face) brush.planes geo.planes := by
  unfold buildBrush at h
  obtain ⟨pgs, h1, h2⟩ := Outcome.bind_eq_ok.1 h
  cases h2
  exact mapOut_eq_ok.1 h1

theorem triSide_iff (h : buildBrush textures entity brush = .ok geo) (real : V3 F → V3 ℝ) (a b : V3 ℝ) :
    TriSide real geo a b ↔ ∃ face ∈ geo.planes, ∃ t s m n, FanSide face.vertices.length t s m n ∧
      (face.vertices.map fun v => real v.pos)[m]? = some a ∧ (face.vertices.map fun v => real v.pos)[n]? = some b := by
  have hall := face_built h
  constructor
  · rintro ⟨face, hf, t, s, m, n, v, w, hs, hm, hn, hv, hw, rfl, rfl⟩
    obtain ⟨p, -, hb⟩ := forall₂_right hall hf
    have hfan := C19_fan _ _ _ _ _ hb
    have ht : t < face.vertices.length - 2 := by
      have := (List.getElem?_eq_some_iff.1 hm).1
      rw [hfan.1] at this
      omega
    obtain ⟨f0, f1, f2⟩ := hfan.2 t ht
    refine ⟨face, hf, t, s, m, n, ?_, by rw [List.getElem?_map, hv]; rfl, by rw [List.getElem?_map, hw]; rfl⟩
    have h3 : s = 0 ∨ s = 1 ∨ s = 2 := by omega
    rcases h3 with rfl | rfl | rfl
    · rw [show 3 * t + 0 = 3 * t by omega, f0] at hm
      rw [show (0 + 1) % 3 = 1 by rfl, f1] at hn
      cases hm; cases hn
      exact .first t (by omega)
    · rw [f1] at hm
      rw [show (1 + 1) % 3 = 2 by rfl, f2] at hn
      cases hm; cases hn
      exact .second t (by omega)
    · rw [f2] at hm
      rw [show 3 * t + (2 + 1) % 3 = 3 * t by omega, f0] at hn
      cases hm; cases hn
      exact .third t (by omega)
  · rintro ⟨face, hf, t, s, m, n, hs, ha, hb'⟩
    obtain ⟨p, -, hb⟩ := forall₂_right hall hf
    have hfan := C19_fan _ _ _ _ _ hb
    rw [List.getElem?_map, Option.map_eq_some_iff] at ha hb'
    obtain ⟨v, hv, rfl⟩ := ha
    obtain ⟨w, hw, rfl⟩ := hb'
    cases hs with
    | first h1 =>
      obtain ⟨f0, f1, f2⟩ := hfan.2 t (by omega)
      exact ⟨face, hf, t, 0, _, _, v, w, by omega, f0, f1, hv, hw, rfl, rfl⟩
    | second h1 =>
      obtain ⟨f0, f1, f2⟩ := hfan.2 t (by omega)
      exact ⟨face, hf, t, 1, _, _, v, w, by omega, f1, f2, hv, hw, rfl, rfl⟩
    | third h1 =>
      obtain ⟨f0, f1, f2⟩ := hfan.2 t (by omega)
      exact ⟨face, hf, t, 2, _, _, v, w, by omega, f2, f0, hv, hw, rfl, rfl⟩

end

/-! ### a tetrahedron in single precision -/

namespace Spec.F32
open Soft

/-- The corners of a face. -/
def softCorners (r : Bool) (ts : List IntFace) (t : IntFace) : Option (List (V3 Soft)) :=
  ((corners (ts.map (softFace r)) (softFace r t)).bind uniq).map fun u => recentred (Soft.mean u) u

/-- No corner of one list has the position of a corner of the other list. -/
def apart (l m : List (V3 Soft)) : Bool := l.all fun v => m.all fun w => same v w == some false

/-- The corners of one list have different positions. -/
def spreadOut : List (V3 Soft) → Bool
  | [] => true
  | v :: l => apart [v] l && spreadOut l

theorem softCorners_positions [F32Lib] [Platform] {ts : List IntFace} {planes : List (BrushPlane F32)}
    (hb : List.Forall₂ SingleFace ts planes) {t : IntFace} {p : BrushPlane F32} (ht : SingleFace t p) {l : List (V3 Soft)}
    (hl : softCorners F32Lib.recip ts t = some l) (hn : l.length < 2 ^ 24) {textures : TextureInfo} {entity : Entity F32}
    {geo : PlaneGeo F32} (h : buildPlane textures entity planes p = .ok geo) :
    ∃ w, w.Perm l ∧ List.Forall₂ DenV w (geo.vertices.map (·.pos)) := by
  have hs : List.Forall₂ DenP (ts.map (softFace F32Lib.recip)) planes := by
    rw [List.forall₂_map_left_iff]
    exact hb.imp fun _ _ h => denP_face h
  unfold softCorners at hl
  obtain ⟨u, hu, rfl⟩ := Option.map_eq_some_iff.1 hl
  obtain ⟨k, hk, hu⟩ := Option.bind_eq_some_iff.1 hu
  exact face_positions hs (denP_face ht) hk hu (by unfold recentred at hn; simpa using hn) h

theorem apart_ne [F32Lib] {l m w z : List (V3 Soft)} {a b : List (V3 F32)} (hw : w.Perm l) (ha : List.Forall₂ DenV w a)
    (hz : z.Perm m) (hb : List.Forall₂ DenV z b) (h : apart l m = true) {x y : V3 F32} (hx : x ∈ a) (hy : y ∈ b) :
    vec x ≠ vec y := by
  obtain ⟨v, hv, dv⟩ := forall₂_right ha hx
  obtain ⟨u, hu, du⟩ := forall₂_right hb hy
  unfold apart at h
  have := List.all_eq_true.1 (List.all_eq_true.1 h v (hw.mem_iff.1 hv)) u (hz.mem_iff.1 hu)
  have := (same_beq dv du (by simpa using this)).2.1
  intro e
  simpa using this.2 e

theorem spreadOut_pairwise [F32Lib] {l : List (V3 Soft)} (h : spreadOut l = true) :
    l.Pairwise fun v u => ∀ x y : V3 F32, DenV v x → DenV u y → vec x ≠ vec y := by
  induction l with
  | nil => exact .nil
  | cons v l ih =>
    simp only [spreadOut, Bool.and_eq_true] at h
    refine .cons (fun u hu x y dv du => ?_) (ih h.2)
    exact apart_ne (.refl _) (.cons dv .nil) (.refl _) (.cons du .nil)
      (show apart [v] [u] = true by
        have := h.1
        simp only [apart, List.all_cons, List.all_nil, Bool.and_true, List.all_eq_true] at this ⊢
        exact this u hu) (by simp) (by simp)

theorem forall₂_pairwise {α β : Type} {R : α → β → Prop} {P : α → α → Prop} {Q : β → β → Prop}
    (h : ∀ a b x y, R a x → R b y → P a b → Q x y) {l : List α} {m : List β} (hl : List.Forall₂ R l m)
    (hp : l.Pairwise P) : m.Pairwise Q := by
  induction hl with
  | nil => exact .nil
  | cons h1 h2 ih =>
    rw [List.pairwise_cons] at hp ⊢
    refine ⟨fun y hy => ?_, ih hp.2⟩
    obtain ⟨b, hb, hr⟩ := forall₂_right h2 hy
    exact h _ _ _ _ h1 hr (hp.1 b hb)

theorem spreadOut_nodup [F32Lib] {l w : List (V3 Soft)} {a : List (V3 F32)} (hw : w.Perm l) (ha : List.Forall₂ DenV w a)
    (h : spreadOut l = true) : (a.map vec).Nodup := by
  have hp := hw.symm.pairwise (spreadOut_pairwise h) (fun {v u} k x y dv du e => k y x du dv e.symm)
  rw [List.Nodup, List.pairwise_map]
  exact forall₂_pairwise (fun _ _ x y hx hy k => k x y hx hy) ha hp

/-- The corners of the wedge: three for each face, and those of the last face are nowhere else. -/
def wedgeOk (r : Bool) : Bool :=
  match wedge.map (softCorners r wedge) with
  | [some l0, some l1, some l2, some l3] => l0.length == 3 && l1.length == 3 && l2.length == 3 && l3.length == 3 &&
      spreadOut l3 && apart l3 l0 && apart l3 l1 && apart l3 l2
  | _ => false

set_option maxRecDepth 100000 in
theorem wedge_ok (r : Bool) : wedgeOk r = true := by cases r <;> rfl

end Spec.F32

open Spec.F32 in
/-- C109: a small tetrahedron with corners on the 16-unit grid comes apart in single precision: all its faces are shown,
but the last face shares no corner with the other faces. -/
theorem C109_cracked [F32Lib] [Platform] (textures : TextureInfo) (entity : Entity F32) (brush : Brush F32)
    (hb : List.Forall₂ SingleFace wedge brush.planes) :
    ∃ f0 f1 f2 last center, buildBrush textures entity brush = .ok ⟨center, [f0, f1, f2, last]⟩ ∧
      (∀ face ∈ [f0, f1, f2, last], face.vertices.length = 3 ∧ face.indices = [0, 1, 2]) ∧
      (last.vertices.map fun v => vec v.pos).Nodup ∧
      ∀ face ∈ [f0, f1, f2], ∀ v ∈ last.vertices, ∀ w ∈ face.vertices, vec v.pos ≠ vec w.pos := by
  have hok : ∀ p ∈ brush.planes, ∃ g, buildPlane textures entity brush.planes p = .ok g := by
    intro p hp
    obtain ⟨t, ht, h⟩ := forall₂_right hb hp
    refine (buildPlane_isOk textures entity brush.planes p).2 fun _ _ => ?_
    rw [hasLargest_iff]
    revert h
    have key : Near t.1 t.2.1 t.2.2 ∧ ¬ OnLine t.1 t.2.1 t.2.2 := by
      simp only [wedge, List.mem_cons, List.not_mem_nil, or_false] at ht
      refine ⟨?_, fun h => ?_⟩
      · rintro (_ | _ | _) <;> rcases ht with rfl | rfl | rfl | rfl <;> decide
      · have h1 := h .x
        have h2 := h .y
        have h3 := h .z
        rcases ht with rfl | rfl | rfl | rfl <;> revert h1 h2 h3 <;> decide
    intro h
    exact spec_C96_direction h key.1 key.2
  obtain ⟨pgs, hm⟩ := mapOut_isOk.2 hok
  have hm' := mapOut_eq_ok.1 hm
  have hbr : buildBrush textures entity brush = .ok ⟨mean (pgs.map (·.center)), pgs⟩ := by
    unfold buildBrush
    rw [hm, Outcome.ok_bind]
  obtain ⟨planes⟩ := brush
  simp only at hb hm'
  have hw := wedge_ok F32Lib.recip
  unfold wedgeOk at hw
  split at hw
  case h_2 => cases hw
  rename_i l0 l1 l2 l3 hl
  simp only [Bool.and_eq_true, beq_iff_eq] at hw
  obtain ⟨⟨⟨⟨⟨⟨⟨n0, n1⟩, n2⟩, n3⟩, hs⟩, ha0⟩, ha1⟩, ha2⟩ := hw
  have hb0 := hb
  unfold wedge at hb hl
  simp only [List.map_cons, List.map_nil, List.cons.injEq, and_true] at hl
  obtain ⟨e0, e1, e2, e3⟩ := hl
  obtain ⟨p0, _, g0, hb1, rfl⟩ := List.forall₂_cons_left_iff.1 hb
  obtain ⟨p1, _, g1, hb2, rfl⟩ := List.forall₂_cons_left_iff.1 hb1
  obtain ⟨p2, _, g2, hb3, rfl⟩ := List.forall₂_cons_left_iff.1 hb2
  obtain ⟨p3, _, g3, hb4, rfl⟩ := List.forall₂_cons_left_iff.1 hb3
  obtain rfl := List.forall₂_nil_left_iff.1 hb4
  clear hb hb1 hb2 hb3 hb4
  obtain ⟨f0, _, k0, hm1, rfl⟩ := List.forall₂_cons_left_iff.1 hm'
  obtain ⟨f1, _, k1, hm2, rfl⟩ := List.forall₂_cons_left_iff.1 hm1
  obtain ⟨f2, _, k2, hm3, rfl⟩ := List.forall₂_cons_left_iff.1 hm2
  obtain ⟨last, _, k3, hm4, rfl⟩ := List.forall₂_cons_left_iff.1 hm3
  obtain rfl := List.forall₂_nil_left_iff.1 hm4
  refine ⟨f0, f1, f2, last, _, hbr, ?_⟩
  obtain ⟨w0, q0, r0⟩ := softCorners_positions hb0 g0 e0 (by rw [n0]; norm_num) k0
  obtain ⟨w1, q1, r1⟩ := softCorners_positions hb0 g1 e1 (by rw [n1]; norm_num) k1
  obtain ⟨w2, q2, r2⟩ := softCorners_positions hb0 g2 e2 (by rw [n2]; norm_num) k2
  obtain ⟨w3, q3, r3⟩ := softCorners_positions hb0 g3 e3 (by rw [n3]; norm_num) k3
  have len : ∀ {p : BrushPlane F32} {f : PlaneGeo F32} {planes} {w l : List (V3 Soft)}, w.Perm l →
      List.Forall₂ DenV w (f.vertices.map (·.pos)) → l.length = 3 → buildPlane textures entity planes p = .ok f →
      f.vertices.length = 3 ∧ f.indices = [0, 1, 2] := by
    intro p f planes w l hw hf hl hb
    have h3 : f.vertices.length = 3 := by
      have := hf.length_eq
      rw [hw.length_eq, hl, List.length_map] at this
      exact this.symm
    obtain ⟨_, _, _, _, _, _, hi, _⟩ := buildPlane_ok hb
    refine ⟨h3, ?_⟩
    rw [hi, h3]
    rfl
  refine ⟨?_, ?_, ?_⟩
  · intro face hf
    simp only [List.mem_cons, List.not_mem_nil, or_false] at hf
    rcases hf with rfl | rfl | rfl | rfl
    exacts [len q0 r0 n0 k0, len q1 r1 n1 k1, len q2 r2 n2 k2, len q3 r3 n3 k3]
  · have := spreadOut_nodup q3 r3 hs
    rwa [List.map_map] at this
  · intro face hf v hv w hw
    simp only [List.mem_cons, List.not_mem_nil, or_false] at hf
    have hv' := List.mem_map_of_mem (f := fun v => v.pos) hv
    have hw' := List.mem_map_of_mem (f := fun v => v.pos) hw
    rcases hf with rfl | rfl | rfl
    exacts [apart_ne q3 r3 q0 r0 ha0 hv' hw', apart_ne q3 r3 q1 r1 ha1 hv' hw', apart_ne q3 r3 q2 r2 ha2 hv' hw']

/-! ### the same tetrahedron in exact arithmetic -/

/-- C109: in exact arithmetic the tetrahedron is a proper brush. -/
theorem spec_C109_proper (planes : List (BrushPlane ℝ)) (hb : List.Forall₂ RealFace wedge planes) : ProperBrush planes := by
  let _ : RealText := ⟨fun _ => none, fun _ => []⟩
  let _ : Platform := refPlatform
  unfold wedge at hb
  simp only at hb
  obtain ⟨p0, _, f0, hb1, rfl⟩ := List.forall₂_cons_left_iff.1 hb
  obtain ⟨p1, _, f1, hb2, rfl⟩ := List.forall₂_cons_left_iff.1 hb1
  obtain ⟨p2, _, f2, hb3, rfl⟩ := List.forall₂_cons_left_iff.1 hb2
  obtain ⟨p3, _, f3, hb4, rfl⟩ := List.forall₂_cons_left_iff.1 hb3
  obtain rfl := List.forall₂_nil_left_iff.1 hb4
  have ht : TetraFaces _ _ _ _ p0 p1 p2 p3 := ⟨f0, f1, f2, f3⟩
  obtain ⟨a0, b0, c0⟩ := f0
  obtain ⟨a1, b1, c1⟩ := f1
  obtain ⟨a2, b2, c2⟩ := f2
  obtain ⟨a3, b3, c3⟩ := f3
  have n0 : rawNormal p0 = ⟨768, -1024, 2304⟩ := by
    simp only [rawNormal, a0, b0, c0, crossR, subR]; norm_num
  have n1 : rawNormal p1 = ⟨-768, -768, -2304⟩ := by
    simp only [rawNormal, a1, b1, c1, crossR, subR]; norm_num
  have n2 : rawNormal p2 = ⟨1536, 1536, -768⟩ := by
    simp only [rawNormal, a2, b2, c2, crossR, subR]; norm_num
  have n3 : rawNormal p3 = ⟨-1536, 256, 768⟩ := by
    simp only [rawNormal, a3, b3, c3, crossR, subR]; norm_num
  have q0 : dotR (rawNormal p0) (rawNormal p0) ≤ 2636 ^ 2 := by simp only [n0, dotR]; norm_num
  have q1 : dotR (rawNormal p1) (rawNormal p1) ≤ 2548 ^ 2 := by simp only [n1, dotR]; norm_num
  have q2 : dotR (rawNormal p2) (rawNormal p2) ≤ 2305 ^ 2 := by simp only [n2, dotR]; norm_num
  have q3 : dotR (rawNormal p3) (rawNormal p3) ≤ 1737 ^ 2 := by simp only [n3, dotR]; norm_num
  refine tetra_proper ht (by simp only [volume6, detR, dotR, crossR, subR]; norm_num) ?_ ?_ ?_ ?_
  · exact unitDet_ge (d := 7398752256) (by simp only [n0, n1, n2, detR, dotR, crossR]; norm_num) q0 q1 q2 (by norm_num)
      (by norm_num) (by norm_num) (by norm_num) (by norm_num)
  · exact unitDet_ge (d := 7398752256) (by simp only [n0, n1, n3, detR, dotR, crossR]; norm_num) q0 q3 q1 (by norm_num)
      (by norm_num) (by norm_num) (by norm_num) (by norm_num)
  · exact unitDet_ge (d := 7398752256) (by simp only [n0, n2, n3, detR, dotR, crossR]; norm_num) q0 q2 q3 (by norm_num)
      (by norm_num) (by norm_num) (by norm_num) (by norm_num)
  · exact unitDet_ge (d := 7398752256) (by simp only [n1, n2, n3, detR, dotR, crossR]; norm_num) q1 q3 q2 (by norm_num)
      (by norm_num) (by norm_num) (by norm_num) (by norm_num)

/-- C109: in exact arithmetic the tetrahedron has no gaps. -/
theorem C109_exact : ClosedExactly wedge := by
  intro _ _ textures entity brush geo hb h a b ⟨face, hf, t, s, m, n, v, w, hs, h1, h2, h3, h4, h5, h6⟩
  obtain ⟨i, hi⟩ := List.getElem?_of_mem hf
  obtain ⟨i', t', s', hs', face', m', n', v', w', k1, k2, k3, k4, k5, k6, k7⟩ :=
    C78_watertight textures entity brush geo h (spec_C109_proper _ hb) i t s a b
      ⟨hs, face, m, n, v, w, hi, h1, h2, h3, h4, h5, h6⟩
  exact ⟨face', List.mem_of_getElem? k1, t', s', m', n', v', w', hs', k2, k3, k4, k5, k6, k7⟩

/-! ### the claim -/

section
open Spec.F32

theorem wedge_small {t : IntFace} (ht : t ∈ wedge) (a : Axis) : (a.of t.1).natAbs ≤ 2 ^ 20 ∧
    (a.of t.2.1).natAbs ≤ 2 ^ 20 ∧ (a.of t.2.2).natAbs ≤ 2 ^ 20 := by
  simp only [wedge, List.mem_cons, List.not_mem_nil, or_false] at ht
  cases a <;> rcases ht with rfl | rfl | rfl | rfl <;> decide

theorem wedge_single [F32Lib] : List.Forall₂ SingleFace wedge (wedge.map singleFace) :=
  forall₂_map_self fun _ ht => singleFace_is (wedge_small ht)

/-- The tetrahedron in single precision. -/
example [F32Lib] [Platform] (textures : TextureInfo) (entity : Entity F32) :
    ∃ f0 f1 f2 last center, buildBrush textures entity ⟨wedge.map singleFace⟩ = .ok ⟨center, [f0, f1, f2, last]⟩ ∧
      ∀ face ∈ [f0, f1, f2], ∀ v ∈ last.vertices, ∀ w ∈ face.vertices, vec v.pos ≠ vec w.pos := by
  obtain ⟨f0, f1, f2, last, c, h, -, -, hd⟩ := C109_cracked textures entity ⟨wedge.map singleFace⟩ wedge_single
  exact ⟨f0, f1, f2, last, c, h, hd⟩

end

/-- A face of three corners which shares no corner with the other faces leaves a gap. -/
theorem gap_of_apart {F : Type} {real : V3 F → V3 ℝ} {f0 f1 f2 last : PlaneGeo F} {center : V3 F}
    (h3 : last.vertices.length = 3 ∧ last.indices = [0, 1, 2]) (hn : (last.vertices.map fun v => real v.pos).Nodup)
    (ha : ∀ face ∈ [f0, f1, f2], ∀ v ∈ last.vertices, ∀ w ∈ face.vertices, real v.pos ≠ real w.pos) :
    ∃ a b, TriSide real ⟨center, [f0, f1, f2, last]⟩ a b ∧ ¬ TriSide real ⟨center, [f0, f1, f2, last]⟩ b a := by
  obtain ⟨hl, hi⟩ := h3
  obtain ⟨v0, v1, v2, hv⟩ := List.length_eq_three.1 hl
  rw [hv] at hn
  simp only [List.map_cons, List.map_nil, List.nodup_cons, List.mem_cons, List.not_mem_nil, or_false, not_or,
    not_false_eq_true, and_true, List.nodup_nil] at hn
  refine ⟨real v0.pos, real v1.pos, ⟨last, by simp, 0, 0, 0, 1, v0, v1, by omega, by rw [hi]; rfl, by rw [hi]; rfl,
    by rw [hv]; rfl, by rw [hv]; rfl, rfl, rfl⟩, ?_⟩
  rintro ⟨face, hf, t, s, m, n, v, w, hs, k1, k2, k3, k4, k5, k6⟩
  have m0 : v0 ∈ last.vertices := by rw [hv]; simp
  simp only [List.mem_cons, List.not_mem_nil, or_false] at hf
  rcases hf with rfl | rfl | rfl | rfl
  · exact ha _ (by simp) v0 m0 w (List.mem_of_getElem? k4) k6.symm
  · exact ha _ (by simp) v0 m0 w (List.mem_of_getElem? k4) k6.symm
  · exact ha _ (by simp) v0 m0 w (List.mem_of_getElem? k4) k6.symm
  · rw [hi] at k1 k2
    rw [hv] at k3 k4
    have ht : t = 0 := by
      have := (List.getElem?_eq_some_iff.1 k1).1
      simp only [List.length_cons, List.length_nil] at this
      omega
    subst ht
    have h3 : s = 0 ∨ s = 1 ∨ s = 2 := by omega
    rcases h3 with rfl | rfl | rfl
    · cases k1; cases k2; cases k3; cases k4
      exact hn.1.1 k5
    · cases k1; cases k2; cases k3; cases k4
      exact hn.1.2 k6.symm
    · cases k1; cases k2; cases k3; cases k4
      exact hn.2 k5.symm

attribute [local instance] decimalLib refPlatform in
/-- C109 is false: brushes without gaps in exact arithmetic can have gaps in single precision. -/
theorem C109_false : ¬ ∀ ts, ClosedExactly ts → ClosedInSingle ts := by
  intro h
  have : QuadrantAtan2 := decimalLib_quadrant
  obtain ⟨f0, f1, f2, last, c, hg, h3, hn, ha⟩ :=
    C109_cracked (fun _ => none) ⟨Map.empty, []⟩ ⟨wedge.map singleFace⟩ wedge_single
  obtain ⟨a, b, h1, h2⟩ := gap_of_apart (center := c) (h3 last (by simp)) hn ha
  exact h2 (h wedge C109_exact (fun _ => none) ⟨Map.empty, []⟩ ⟨wedge.map singleFace⟩ _ wedge_single hg a b h1)

/-! ### boxes -/

namespace Spec.Box

/-- From `n` to `m` along an edge of a side of a box, clockwise when looking at the outside of the side. -/
def Step (b : GridBox) (a : Axis) (up : Bool) (n m : V3 Int) : Prop :=
  ∃ e y f z, idet a up e y f z = 1 ∧ a.of n = b.side a up ∧ a.of m = b.side a up ∧ e.of n = b.side e (!y) ∧
    e.of m = b.side e y ∧ f.of n = b.side f z ∧ f.of m = b.side f z

theorem idet_other {a e f : Axis} {up y z : Bool} (h : idet a up e y f z = 1) : idet f z e (!y) a up = 1 := by
  revert h
  cases a <;> cases e <;> cases f <;> cases up <;> cases y <;> cases z <;> decide

/-- The other side at an edge has the edge in the opposite direction. -/
theorem Step.other {b : GridBox} {a : Axis} {up : Bool} {n m : V3 Int} (h : Step b a up n m) :
    ∃ f z, Step b f z m n := by
  obtain ⟨e, y, f, z, hd, h1, h2, h3, h4, h5, h6⟩ := h
  exact ⟨f, z, e, !y, a, up, idet_other hd, h6, h5, by rw [Bool.not_not]; exact h4, h3, h2, h1⟩

theorem idet_turn {a d c : Axis} {up s t : Bool} (h : idet a up d s c t = 1) : idet a up c (!t) d s = 1 ∧
    idet a up d (!s) c (!t) = 1 ∧ idet a up c t d (!s) = 1 := by
  revert h
  cases a <;> cases d <;> cases c <;> cases up <;> cases s <;> cases t <;> decide

theorem idet_axes {a d c : Axis} {up s t : Bool} (h : idet a up d s c t = 1) : a ≠ d ∧ a ≠ c ∧ d ≠ c := by
  revert h
  cases a <;> cases d <;> cases c <;> cases up <;> cases s <;> cases t <;> decide

theorem axes_two {a d c e f : Axis} (h : a ≠ d ∧ a ≠ c ∧ d ≠ c) (h' : a ≠ e ∧ a ≠ f ∧ e ≠ f) :
    (e = d ∧ f = c) ∨ (e = c ∧ f = d) := by
  revert h h'
  cases a <;> cases d <;> cases c <;> cases e <;> cases f <;> decide

theorem idet_flip (a d c : Axis) (up t : Bool) : idet a up d true c t = -idet a up d false c t ∧
    idet a up d t c true = -idet a up d t c false := by
  cases a <;> cases d <;> cases c <;> cases up <;> cases t <;> decide

theorem idet_same {a d c : Axis} {up s t y z : Bool} (h : idet a up d s c t = 1) (h' : idet a up d y c z = 1) :
    (y = s ∧ z = t) ∨ (y = !s ∧ z = !t) := by
  have h1 := (idet_flip a d c up true).1
  have h2 := (idet_flip a d c up false).1
  have h3 := (idet_flip a d c up true).2
  have h4 := (idet_flip a d c up false).2
  cases s <;> cases t <;> cases y <;> cases z <;> first | decide | (exfalso; omega)

theorem idet_two {a d c e f : Axis} {up s t y z : Bool} (h : idet a up d s c t = 1) (h' : idet a up e y f z = 1) :
    (e = d ∧ f = c ∧ y = s ∧ z = t) ∨ (e = c ∧ f = d ∧ y = !t ∧ z = s) ∨ (e = d ∧ f = c ∧ y = !s ∧ z = !t) ∨
      (e = c ∧ f = d ∧ y = t ∧ z = !s) := by
  rcases axes_two (idet_axes h) (idet_axes h') with ⟨rfl, rfl⟩ | ⟨rfl, rfl⟩
  · rcases idet_same h h' with ⟨rfl, rfl⟩ | ⟨rfl, rfl⟩ <;> simp
  · rcases idet_same (idet_turn h).1 h' with ⟨rfl, rfl⟩ | ⟨rfl, rfl⟩ <;> simp

/-- The corners of a side in their order. -/
structure Wound (b : GridBox) (a : Axis) (up : Bool) (ns : List (V3 Int)) (d c : Axis) (s t : Bool) : Prop where
  det : idet a up d s c t = 1
  corners : ∃ n0 n1 n2 n3, ns = [n0, n1, n2, n3] ∧
    (a.of n0 = b.side a up ∧ d.of n0 = b.side d (!s) ∧ c.of n0 = b.side c t) ∧
    (a.of n1 = b.side a up ∧ d.of n1 = b.side d s ∧ c.of n1 = b.side c t) ∧
    (a.of n2 = b.side a up ∧ d.of n2 = b.side d s ∧ c.of n2 = b.side c (!t)) ∧
    (a.of n3 = b.side a up ∧ d.of n3 = b.side d (!s) ∧ c.of n3 = b.side c (!t))

theorem wound_step {b : GridBox} {a : Axis} {up : Bool} {ns : List (V3 Int)} {d c : Axis} {s t : Bool}
    (h : Wound b a up ns d c s t) {k : Nat} {n m : V3 Int} (hn : ns[k]? = some n) (hm : ns[next 4 k]? = some m) :
    Step b a up n m := by
  obtain ⟨hd, n0, n1, n2, n3, rfl, ⟨a0, d0, c0⟩, ⟨a1, d1, c1⟩, ⟨a2, d2, c2⟩, a3, d3, c3⟩ := h
  obtain ⟨t1, t2, t3⟩ := idet_turn hd
  match k with
  | 0 => cases hn; cases hm; exact ⟨d, s, c, t, hd, a0, a1, d0, d1, c0, c1⟩
  | 1 => cases hn; cases hm; exact ⟨c, !t, d, s, t1, a1, a2, by rw [Bool.not_not]; exact c1, c2, d1, d2⟩
  | 2 => cases hn; cases hm; exact ⟨d, !s, c, !t, t2, a2, a3, by rw [Bool.not_not]; exact d2, d3, c2, c3⟩
  | 3 => cases hn; cases hm; exact ⟨c, t, d, !s, t3, a3, a0, c3, c0, d3, d0⟩
  | k + 4 => simp at hn

theorem V3.ext_of {n m : V3 Int} {a d c : Axis} (h : a ≠ d ∧ a ≠ c ∧ d ≠ c) (ha : a.of n = a.of m) (hd : d.of n = d.of m)
    (hc : c.of n = c.of m) : n = m := by
  obtain ⟨x, y, z⟩ := n
  obtain ⟨x', y', z'⟩ := m
  revert h ha hd hc
  cases a <;> cases d <;> cases c <;> simp +contextual [Axis.of]

theorem step_wound {b : GridBox} {a : Axis} {up : Bool} {ns : List (V3 Int)} {d c : Axis} {s t : Bool}
    (h : Wound b a up ns d c s t) {n m : V3 Int} (hs : Step b a up n m) :
    ∃ k, k < 4 ∧ ns[k]? = some n ∧ ns[next 4 k]? = some m := by
  obtain ⟨hd, n0, n1, n2, n3, rfl, ⟨a0, d0, c0⟩, ⟨a1, d1, c1⟩, ⟨a2, d2, c2⟩, a3, d3, c3⟩ := h
  obtain ⟨e, y, f, z, hd', h1, h2, h3, h4, h5, h6⟩ := hs
  have ax := idet_axes hd
  rcases idet_two hd hd' with ⟨rfl, rfl, rfl, rfl⟩ | ⟨rfl, rfl, rfl, rfl⟩ | ⟨rfl, rfl, rfl, rfl⟩ | ⟨rfl, rfl, rfl, rfl⟩
  · rw [V3.ext_of ax (h1.trans a0.symm) (h3.trans d0.symm) (h5.trans c0.symm),
      V3.ext_of ax (h2.trans a1.symm) (h4.trans d1.symm) (h6.trans c1.symm)]
    exact ⟨0, by omega, rfl, rfl⟩
  · rw [Bool.not_not] at h3
    rw [V3.ext_of ax (h1.trans a1.symm) (h5.trans d1.symm) (h3.trans c1.symm),
      V3.ext_of ax (h2.trans a2.symm) (h6.trans d2.symm) (h4.trans c2.symm)]
    exact ⟨1, by omega, rfl, rfl⟩
  · rw [Bool.not_not] at h3
    rw [V3.ext_of ax (h1.trans a2.symm) (h3.trans d2.symm) (h5.trans c2.symm),
      V3.ext_of ax (h2.trans a3.symm) (h4.trans d3.symm) (h6.trans c3.symm)]
    exact ⟨2, by omega, rfl, rfl⟩
  · rw [V3.ext_of ax (h1.trans a3.symm) (h5.trans d3.symm) (h3.trans c3.symm),
      V3.ext_of ax (h2.trans a0.symm) (h6.trans d0.symm) (h4.trans c0.symm)]
    exact ⟨3, by omega, rfl, rfl⟩

end Spec.Box

section
open Spec.Box
variable [F32Lib] [QuadrantAtan2] [Platform]

theorem side_wound (textures : TextureInfo) (entity : Entity F32) {planes : List (BrushPlane F32)} {b : GridBox}
    (hb : b.IsAligned planes) {p : BrushPlane F32} (hp : p ∈ planes) {a : Axis} {up : Bool}
    (hs : IsSide b.g a up (b.side a up) p) {face : PlaneGeo F32} (h : buildPlane textures entity planes p = .ok face) :
    ∃ ns d c s t, (face.vertices.map fun v => vec v.pos) = ns.map b.point ∧ Wound b a up ns d c s t := by
  obtain ⟨d, hd, he⟩ := aligned_edge hb hp hs
  obtain ⟨geo, h', n0, n1, n2, n3, c, s, t, hdet, hperm, hv, k0, k1, k2, k3⟩ :=
    face_wound textures entity planes p b hb.1 a up hs d hd he
  rw [h] at h'
  cases h'
  have key : ∀ n ∈ [n0, n1, n2, n3], a.of n = b.side a up := fun n hn => (rect_mem.1 (hperm.mem_iff.1 hn)).1
  exact ⟨[n0, n1, n2, n3], d, c, s, t, hv, hdet, n0, n1, n2, n3, rfl, ⟨key _ (by simp), k0⟩, ⟨key _ (by simp), k1⟩,
    ⟨key _ (by simp), k2⟩, key _ (by simp), k3⟩

/-- C109: boxes on a grid have no gaps in single precision. -/
theorem C109_box (textures : TextureInfo) (entity : Entity F32) (brush : Brush F32) (b : GridBox)
    (hb : b.IsAligned brush.planes) :
    ∃ geo, buildBrush textures entity brush = .ok geo ∧ ∀ x y, TriSide vec geo x y → TriSide vec geo y x := by
  obtain ⟨geo, h, -⟩ := C90_brush textures entity brush b hb.1
  refine ⟨geo, h, fun x y hxy => ?_⟩
  let _ : RealText := ⟨fun _ => none, fun _ => []⟩
  have hall := face_built h
  rw [triSide_iff h] at hxy ⊢
  obtain ⟨face, hf, t, s, m, n, hs, hx, hy⟩ := hxy
  rcases fan_reverse hs with ⟨t', s', hr⟩ | hnext
  · exact ⟨face, hf, t', s', n, m, hr, hy, hx⟩
  · obtain ⟨p, hp, hbp⟩ := forall₂_right hall hf
    obtain ⟨a, up, hside⟩ := hb.1.1 p hp
    obtain ⟨ns, d, c, s1, t1, hv, hw⟩ := side_wound textures entity hb hp hside hbp
    have l4 : face.vertices.length = 4 := by
      have := congrArg List.length hv
      obtain ⟨-, _, _, _, _, rfl, -⟩ := hw
      simpa using this
    rw [l4] at hnext
    subst hnext
    rw [hv, List.getElem?_map, Option.map_eq_some_iff] at hx hy
    obtain ⟨i, hi, rfl⟩ := hx
    obtain ⟨j, hj, rfl⟩ := hy
    obtain ⟨f, z, hst⟩ := (wound_step hw hi hj).other
    obtain ⟨q, hq, hqs⟩ := hb.1.2 f z
    obtain ⟨face', hf', hbq⟩ := forall₂_left hall hq
    obtain ⟨ns', d', c', s2, t2, hv', hw'⟩ := side_wound textures entity hb hq hqs hbq
    have l4' : face'.vertices.length = 4 := by
      have := congrArg List.length hv'
      obtain ⟨-, _, _, _, _, rfl, -⟩ := hw'
      simpa using this
    obtain ⟨k, hk, e1, e2⟩ := step_wound hw' hst
    obtain ⟨t3, s3, hfan⟩ := fan_next (n := 4) (m := k) (by omega) hk
    exact ⟨face', hf', t3, s3, k, next 4 k, by rw [l4']; exact hfan, by rw [hv', List.getElem?_map, e1]; rfl,
      by rw [hv', List.getElem?_map, e2]; rfl⟩

end

/-- C109: boxes have no gaps in single precision if the first two points of every face lie along an axis. Missing: other
brushes, for which the claim is false in general. -/
theorem C109_partial (b : GridBox) (hb : b.g = 0) (ts : List IntFace) (h : BoxFaces b ts)
    (he : ∀ t ∈ ts, ∃ a up d, BoxSide b a up t ∧ d ≠ a ∧ FirstAlong d t) : ClosedInSingle ts := by
  intro _ _ _ textures entity brush geo hf hg
  have hal : b.IsAligned brush.planes := by
    refine ⟨⟨fun p hp => ?_, fun a up => ?_⟩, fun p hp => ?_⟩
    · obtain ⟨t, ht, hs⟩ := forall₂_right hf hp
      obtain ⟨a, up, k⟩ := h.1 t ht
      exact ⟨a, up, isSide_of hb k hs⟩
    · obtain ⟨t, ht, k⟩ := h.2 a up
      obtain ⟨p, hp, hs⟩ := forall₂_left hf ht
      exact ⟨p, hp, isSide_of hb k hs⟩
    · obtain ⟨t, ht, hs⟩ := forall₂_right hf hp
      obtain ⟨a, up, d, k, hd, k1, k2⟩ := he t ht
      exact ⟨a, up, d, isSide_of hb k hs, hd, by rw [hb]; exact ⟨t.1, t.2.1, hs.p0, hs.p1, k1, .inl k2⟩⟩
  obtain ⟨geo', hg', hc⟩ := C109_box textures entity brush b hal
  rw [hg] at hg'
  cases hg'
  exact hc

/-- The box of a new map. -/
example : ClosedInSingle [
    (⟨-64, -64, -16⟩, ⟨-64, -63, -16⟩, ⟨-64, -64, -15⟩), (⟨-64, -64, -16⟩, ⟨-64, -64, -15⟩, ⟨-63, -64, -16⟩),
    (⟨-64, -64, -16⟩, ⟨-63, -64, -16⟩, ⟨-64, -63, -16⟩), (⟨64, 64, 16⟩, ⟨64, 65, 16⟩, ⟨65, 64, 16⟩),
    (⟨64, 64, 16⟩, ⟨65, 64, 16⟩, ⟨64, 64, 17⟩), (⟨64, 64, 16⟩, ⟨64, 64, 17⟩, ⟨64, 65, 16⟩)] := by
  have k1 : BoxSide newGrid .x false (⟨-64, -64, -16⟩, ⟨-64, -63, -16⟩, ⟨-64, -64, -15⟩) :=
    ⟨rfl, rfl, rfl, fun c => by cases c <;> decide, 0, by decide⟩
  have k2 : BoxSide newGrid .y false (⟨-64, -64, -16⟩, ⟨-64, -64, -15⟩, ⟨-63, -64, -16⟩) :=
    ⟨rfl, rfl, rfl, fun c => by cases c <;> decide, 0, by decide⟩
  have k3 : BoxSide newGrid .z false (⟨-64, -64, -16⟩, ⟨-63, -64, -16⟩, ⟨-64, -63, -16⟩) :=
    ⟨rfl, rfl, rfl, fun c => by cases c <;> decide, 0, by decide⟩
  have k4 : BoxSide newGrid .z true (⟨64, 64, 16⟩, ⟨64, 65, 16⟩, ⟨65, 64, 16⟩) :=
    ⟨rfl, rfl, rfl, fun c => by cases c <;> decide, 0, by decide⟩
  have k5 : BoxSide newGrid .y true (⟨64, 64, 16⟩, ⟨65, 64, 16⟩, ⟨64, 64, 17⟩) :=
    ⟨rfl, rfl, rfl, fun c => by cases c <;> decide, 0, by decide⟩
  have k6 : BoxSide newGrid .x true (⟨64, 64, 16⟩, ⟨64, 64, 17⟩, ⟨64, 65, 16⟩) :=
    ⟨rfl, rfl, rfl, fun c => by cases c <;> decide, 0, by decide⟩
  have edge : ∀ (d : Axis) (t : IntFace), (∀ c : Axis, c ≠ d → c.of t.2.1 = c.of t.1) →
      (d.of t.2.1 - d.of t.1).natAbs = 2 ^ 0 → FirstAlong d t := fun d t h1 h2 => ⟨h1, 0, h2⟩
  refine @C109_partial newGrid rfl _ ⟨fun t ht => ?_, fun a up => ?_⟩ fun t ht => ?_
  · simp only [List.mem_cons, List.not_mem_nil, or_false] at ht
    rcases ht with rfl | rfl | rfl | rfl | rfl | rfl
    exacts [⟨_, _, k1⟩, ⟨_, _, k2⟩, ⟨_, _, k3⟩, ⟨_, _, k4⟩, ⟨_, _, k5⟩, ⟨_, _, k6⟩]
  · cases a <;> cases up
    exacts [⟨_, by simp, k1⟩, ⟨_, by simp, k6⟩, ⟨_, by simp, k2⟩, ⟨_, by simp, k5⟩, ⟨_, by simp, k3⟩, ⟨_, by simp, k4⟩]
  · simp only [List.mem_cons, List.not_mem_nil, or_false] at ht
    rcases ht with rfl | rfl | rfl | rfl | rfl | rfl
    · exact ⟨_, _, .y, k1, by decide, edge _ _ (by intro c; cases c <;> decide) (by decide)⟩
    · exact ⟨_, _, .z, k2, by decide, edge _ _ (by intro c; cases c <;> decide) (by decide)⟩
    · exact ⟨_, _, .x, k3, by decide, edge _ _ (by intro c; cases c <;> decide) (by decide)⟩
    · exact ⟨_, _, .y, k4, by decide, edge _ _ (by intro c; cases c <;> decide) (by decide)⟩
    · exact ⟨_, _, .x, k5, by decide, edge _ _ (by intro c; cases c <;> decide) (by decide)⟩
    · exact ⟨_, _, .z, k6, by decide, edge _ _ (by intro c; cases c <;> decide) (by decide)⟩

end Quarch
