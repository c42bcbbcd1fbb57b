import Verif.Spec.Shown
import Verif.Proofs.Soft
import Verif.Proofs.Real
import Verif.Props.Flat
import Verif.Props.BoxWound
/-
C108: faces that exact arithmetic shows can vanish in single precision.
-/
set_option linter.unusedSectionVars false
namespace Quarch
open Quarch.Spec Quarch.Geo

/-! ### single precision -/

namespace Spec.F32
open Soft

/-- A whole point. -/
def softPoint (n : V3 Int) : V3 Soft := ⟨fin n.x 0, fin n.y 0, fin n.z 0⟩

def softFace (r : Bool) (t : IntFace) : Plane := plane r (softPoint t.1) (softPoint t.2.1) (softPoint t.2.2)

theorem denV_point [F32Lib] {v : V3 F32} {n : V3 Int} (h : GridPoint 0 v n) : DenV (softPoint n) v :=
  ⟨⟨h.x.1, by rw [h.x.2]; simp⟩, ⟨h.y.1, by rw [h.y.2]; simp⟩, ⟨h.z.1, by rw [h.z.2]; simp⟩⟩

theorem denP_face [F32Lib] {t : IntFace} {p : BrushPlane F32} (h : SingleFace t p) :
    DenP (softFace F32Lib.recip t) p :=
  denP_plane (denV_point h.p0) (denV_point h.p1) (denV_point h.p2)

set_option maxRecDepth 100000 in
theorem sliver_atMost (r : Bool) (t : IntFace) (ht : t ∈ sliver) :
    atMost (sliver.map (softFace r)) (softFace r t) ≤ 2 := by
  have key : ∀ r, (sliver.all fun t => Nat.ble (atMost (sliver.map (softFace r)) (softFace r t)) 2) = true := by
    intro r
    cases r <;> rfl
  exact Nat.le_of_ble_eq_true (List.all_eq_true.1 (key r) t ht)

end Spec.F32

open Spec.F32 in
/-- C108: a tetrahedron of ordinary size, with corners on the 16-unit grid, vanishes in single precision: it is
built without error, but no face has a triangle. -/
theorem C108_vanishes [F32Lib] [Platform] (textures : TextureInfo) (entity : Entity F32) (brush : Brush F32)
    (hb : List.Forall₂ SingleFace sliver brush.planes) :
    ∃ geo, buildBrush textures entity brush = .ok geo ∧ geo.planes.length = 4 ∧ ∀ face ∈ geo.planes, face.indices = [] := by
  have hs : List.Forall₂ DenP (sliver.map (softFace F32Lib.recip)) brush.planes := by
    rw [List.forall₂_map_left_iff]
    exact hb.imp fun _ _ h => denP_face h
  have hl : brush.planes.length = 4 := hb.length_eq.symm
  have hok : ∀ p ∈ brush.planes, ∃ g, buildPlane textures entity brush.planes p = .ok g := by
    intro p hp
    obtain ⟨t, ht, h⟩ := forall₂_right hb hp
    refine (buildPlane_isOk textures entity brush.planes p).2 fun _ _ => ?_
    rw [hasLargest_iff]
    revert h
    have key : Near t.1 t.2.1 t.2.2 ∧ ¬ OnLine t.1 t.2.1 t.2.2 := by
      simp only [sliver, List.mem_cons, List.not_mem_nil, or_false] at ht
      refine ⟨?_, fun h => absurd (h .y) ?_⟩
      · rintro (_ | _ | _) <;> rcases ht with rfl | rfl | rfl | rfl <;> decide
      · rcases ht with rfl | rfl | rfl | rfl <;> decide
    intro h
    exact spec_C96_direction h key.1 key.2
  obtain ⟨pgs, hm⟩ := mapOut_isOk.2 hok
  refine ⟨⟨mean (pgs.map (·.center)), pgs⟩, ?_, ?_, ?_⟩
  · unfold buildBrush
    rw [hm, Outcome.ok_bind]
  · rw [mapOut_eq_ok] at hm
    rw [← hm.length_eq, hl]
  · intro face hf
    obtain ⟨p, hp, h⟩ := mapOut_mem hm hf
    obtain ⟨t, ht, hst⟩ := forall₂_right hb hp
    obtain ⟨pvs, lv, h1, -, h3, h4, h5, -⟩ := buildPlane_ok h
    have hle := atMost_vertices hs (denP_face hst) (textures p.texture) entity h1
    have h2 := sliver_atMost F32Lib.recip t ht
    have hu := uniqueVertices_length (isPhong entity) pvs
    have hlen : face.vertices.length ≤ 2 := by
      rw [h4, List.length_map, h3, (Platform.sortBy_perm _ _).length_eq, List.length_map]
      omega
    rw [h5]
    unfold fanIndices
    rw [if_pos (by omega)]

/-! ### exact arithmetic -/

section
variable [RealText] [Platform]

theorem unitDet_ge {p q r : BrushPlane ℝ} {d a b c : ℝ} (hd : detR (rawNormal p) (rawNormal q) (rawNormal r) = d)
    (ha : dotR (rawNormal p) (rawNormal p) ≤ a ^ 2) (hb : dotR (rawNormal q) (rawNormal q) ≤ b ^ 2)
    (hc : dotR (rawNormal r) (rawNormal r) ≤ c ^ 2) (a0 : 0 ≤ a) (b0 : 0 ≤ b) (c0 : 0 ≤ c) (h0 : 0 < d)
    (h : a * b * c ≤ 1000 * d) : 1 / 1000 ≤ unitDet p q r := by
  have la : lenR (rawNormal p) ≤ a := by unfold lenR; exact Real.sqrt_le_iff.2 ⟨a0, ha⟩
  have lb : lenR (rawNormal q) ≤ b := by unfold lenR; exact Real.sqrt_le_iff.2 ⟨b0, hb⟩
  have lc : lenR (rawNormal r) ≤ c := by unfold lenR; exact Real.sqrt_le_iff.2 ⟨c0, hc⟩
  have pa := lenR_nonneg (rawNormal p)
  have pb := lenR_nonneg (rawNormal q)
  have pc := lenR_nonneg (rawNormal r)
  have hne : rawNormal p ≠ zeroR ∧ rawNormal q ≠ zeroR ∧ rawNormal r ≠ zeroR := by
    refine ⟨?_, ?_, ?_⟩ <;> intro e <;> rw [e] at hd <;> simp [detR, dotR, crossR, zeroR] at hd <;> linarith
  have hp : 0 < lenR (rawNormal p) * lenR (rawNormal q) * lenR (rawNormal r) :=
    mul_pos (mul_pos (lenR_pos hne.1) (lenR_pos hne.2.1)) (lenR_pos hne.2.2)
  unfold unitDet
  rw [hd, div_le_div_iff₀ (by norm_num) hp, one_mul]
  have : lenR (rawNormal p) * lenR (rawNormal q) * lenR (rawNormal r) ≤ a * b * c :=
    mul_le_mul (mul_le_mul la lb pb a0) lc pc (mul_nonneg a0 b0)
  linarith

theorem shown_of_three {textures : TextureInfo} {entity : Entity ℝ} {planes : List (BrushPlane ℝ)}
    {plane : BrushPlane ℝ} {geo : PlaneGeo ℝ} (h : buildPlane textures entity planes plane = .ok geo)
    {x y z : V3 ℝ} (hx : Found planes plane x) (hy : Found planes plane y) (hz : Found planes plane z)
    (xy : x ≠ y) (xz : x ≠ z) (yz : y ≠ z) : geo.indices ≠ [] := by
  obtain ⟨-, hm⟩ := corners_real h
  obtain ⟨_, _, _, _, _, _, hi, _⟩ := buildPlane_ok h
  have hs : [x, y, z] ⊆ geo.vertices.map (·.pos) := by
    intro w hw
    simp only [List.mem_cons, List.not_mem_nil, or_false] at hw
    rcases hw with rfl | rfl | rfl
    · exact (hm _).2 hx
    · exact (hm _).2 hy
    · exact (hm _).2 hz
  have hn : [x, y, z].Nodup := by simp [xy, xz, yz]
  have hl := (List.subperm_of_subset hn hs).length_le
  simp only [List.length_cons, List.length_nil, List.length_map] at hl
  rw [hi]
  unfold fanIndices
  rw [if_neg (by omega)]
  obtain ⟨k, hk⟩ : ∃ k, geo.vertices.length - 2 = k + 1 := ⟨geo.vertices.length - 3, by omega⟩
  rw [hk, List.range_succ_eq_map]
  simp

end

/-- C108: in exact arithmetic every face of the tetrahedron is shown. -/
theorem C108_exact : ShownExactly sliver := by
  intro _ _ textures entity brush geo hb h face hf
  obtain ⟨planes, hpl⟩ : ∃ l, l = brush.planes := ⟨_, rfl⟩
  unfold buildBrush at h
  obtain ⟨pgs, hm, h2⟩ := Outcome.bind_eq_ok.1 h
  cases h2
  obtain ⟨p, hp, h⟩ := mapOut_mem hm hf
  rw [← hpl] at hb hp h
  clear hm hf hpl
  unfold sliver at hb
  simp only at hb
  obtain ⟨p0, _, f0, hb1, rfl⟩ := List.forall₂_cons_left_iff.1 hb
  obtain ⟨p1, _, f1, hb2, rfl⟩ := List.forall₂_cons_left_iff.1 hb1
  obtain ⟨p2, _, f2, hb3, rfl⟩ := List.forall₂_cons_left_iff.1 hb2
  obtain ⟨p3, _, f3, hb4, rfl⟩ := List.forall₂_cons_left_iff.1 hb3
  obtain rfl := List.forall₂_nil_left_iff.1 hb4
  obtain ⟨a0, b0, c0⟩ := f0
  obtain ⟨a1, b1, c1⟩ := f1
  obtain ⟨a2, b2, c2⟩ := f2
  obtain ⟨a3, b3, c3⟩ := f3
  have n0 : rawNormal p0 = ⟨110592, -134400, -115200⟩ := by
    simp only [rawNormal, a0, b0, c0, crossR, subR]; norm_num
  have n1 : rawNormal p1 = ⟨-16128, 12800, 19200⟩ := by
    simp only [rawNormal, a1, b1, c1, crossR, subR]; norm_num
  have n2 : rawNormal p2 = ⟨9216, -12800, -19200⟩ := by
    simp only [rawNormal, a2, b2, c2, crossR, subR]; norm_num
  have n3 : rawNormal p3 = ⟨-103680, 134400, 115200⟩ := by
    simp only [rawNormal, a3, b3, c3, crossR, subR]; norm_num
  have q0 : dotR (rawNormal p0) (rawNormal p0) ≤ 208723 ^ 2 := by simp only [n0, dotR]; norm_num
  have q1 : dotR (rawNormal p1) (rawNormal p1) ≤ 28154 ^ 2 := by simp only [n1, dotR]; norm_num
  have q2 : dotR (rawNormal p2) (rawNormal p2) ≤ 24848 ^ 2 := by simp only [n2, dotR]; norm_num
  have q3 : dotR (rawNormal p3) (rawNormal p3) ≤ 205144 ^ 2 := by simp only [n3, dotR]; norm_num
  have d012 : 1 / 1000 ≤ unitDet p0 p1 p2 :=
    unitDet_ge (d := 7644119040000) (by simp only [n0, n1, n2, detR, dotR, crossR]; norm_num) q0 q1 q2 (by norm_num)
      (by norm_num) (by norm_num) (by norm_num) (by norm_num)
  have d031 : 1 / 1000 ≤ unitDet p0 p3 p1 :=
    unitDet_ge (d := 7644119040000) (by simp only [n0, n1, n3, detR, dotR, crossR]; norm_num) q0 q3 q1 (by norm_num)
      (by norm_num) (by norm_num) (by norm_num) (by norm_num)
  have d023 : 1 / 1000 ≤ unitDet p0 p2 p3 :=
    unitDet_ge (d := 7644119040000) (by simp only [n0, n2, n3, detR, dotR, crossR]; norm_num) q0 q2 q3 (by norm_num)
      (by norm_num) (by norm_num) (by norm_num) (by norm_num)
  have d132 : 1 / 1000 ≤ unitDet p1 p3 p2 :=
    unitDet_ge (d := 7644119040000) (by simp only [n1, n2, n3, detR, dotR, crossR]; norm_num) q1 q3 q2 (by norm_num)
      (by norm_num) (by norm_num) (by norm_num) (by norm_num)
  -- the four corners
  have on : ∀ {x : V3 ℝ} {q : BrushPlane ℝ}, dotR (rawNormal q) (subR x q.v0) = 0 → OnPlane q x := fun h => h
  have inside : ∀ x : V3 ℝ, x ∈ [(⟨-128, -272, -272⟩ : V3 ℝ), ⟨272, -176, 0⟩, ⟨272, 112, -336⟩, ⟨-128, -224, -304⟩] →
      ∀ q ∈ [p0, p1, p2, p3], WithinR (1 / 1000) q x := by
    intro x hx q hq
    unfold WithinR
    refine le_trans ?_ (mul_nonneg (by norm_num) (lenR_nonneg _))
    simp only [List.mem_cons, List.not_mem_nil, or_false] at hx hq
    rcases hq with rfl | rfl | rfl | rfl
    · rw [n0, a0]; rcases hx with rfl | rfl | rfl | rfl <;> norm_num [dotR, subR]
    · rw [n1, a1]; rcases hx with rfl | rfl | rfl | rfl <;> norm_num [dotR, subR]
    · rw [n2, a2]; rcases hx with rfl | rfl | rfl | rfl <;> norm_num [dotR, subR]
    · rw [n3, a3]; rcases hx with rfl | rfl | rfl | rfl <;> norm_num [dotR, subR]
  have found : ∀ (x : V3 ℝ) (q r s : BrushPlane ℝ), q ∈ [p0, p1, p2, p3] → r ∈ [p0, p1, p2, p3] → s ∈ [p0, p1, p2, p3] →
      x ∈ [(⟨-128, -272, -272⟩ : V3 ℝ), ⟨272, -176, 0⟩, ⟨272, 112, -336⟩, ⟨-128, -224, -304⟩] →
      OnPlane q x → OnPlane r x → OnPlane s x → 1 / 1000 ≤ unitDet q r s →
      Found [p0, p1, p2, p3] q x ∧ Found [p0, p1, p2, p3] r x ∧ Found [p0, p1, p2, p3] s x := by
    intro x q r s hq hr hs hx oq or os hd
    refine ⟨found_real.2 ⟨⟨r, hr, s, hs, hd, oq, or, os⟩, inside x hx⟩,
      found_real.2 ⟨⟨s, hs, q, hq, ?_, or, os, oq⟩, inside x hx⟩,
      found_real.2 ⟨⟨q, hq, r, hr, ?_, os, oq, or⟩, inside x hx⟩⟩
    · rw [unitDet_rotate]; exact hd
    · rw [unitDet_rotate, unitDet_rotate]; exact hd
  obtain ⟨fa0, fa1, fa2⟩ := found ⟨-128, -272, -272⟩ p0 p1 p2 (by simp) (by simp) (by simp) (by simp)
    (on (by rw [n0, a0]; norm_num [dotR, subR])) (on (by rw [n1, a1]; norm_num [dotR, subR]))
    (on (by rw [n2, a2]; norm_num [dotR, subR])) d012
  obtain ⟨fb0, fb3, fb1⟩ := found ⟨272, -176, 0⟩ p0 p3 p1 (by simp) (by simp) (by simp) (by simp)
    (on (by rw [n0, a0]; norm_num [dotR, subR])) (on (by rw [n3, a3]; norm_num [dotR, subR]))
    (on (by rw [n1, a1]; norm_num [dotR, subR])) d031
  obtain ⟨fc0, fc2, fc3⟩ := found ⟨272, 112, -336⟩ p0 p2 p3 (by simp) (by simp) (by simp) (by simp)
    (on (by rw [n0, a0]; norm_num [dotR, subR])) (on (by rw [n2, a2]; norm_num [dotR, subR]))
    (on (by rw [n3, a3]; norm_num [dotR, subR])) d023
  obtain ⟨fd1, fd3, fd2⟩ := found ⟨-128, -224, -304⟩ p1 p3 p2 (by simp) (by simp) (by simp) (by simp)
    (on (by rw [n1, a1]; norm_num [dotR, subR])) (on (by rw [n3, a3]; norm_num [dotR, subR]))
    (on (by rw [n2, a2]; norm_num [dotR, subR])) d132
  simp only [List.mem_cons, List.not_mem_nil, or_false] at hp
  rcases hp with rfl | rfl | rfl | rfl
  · exact shown_of_three h fa0 fb0 fc0 (by norm_num) (by norm_num) (by norm_num)
  · exact shown_of_three h fa1 fb1 fd1 (by norm_num) (by norm_num) (by norm_num)
  · exact shown_of_three h fa2 fc2 fd2 (by norm_num) (by norm_num) (by norm_num)
  · exact shown_of_three h fb3 fc3 fd3 (by norm_num) (by norm_num) (by norm_num)

/-! ### the claim -/

section
open Spec.F32

/-- A point in whole units in single precision. -/
noncomputable def singlePoint (n : V3 Int) : V3 F32 := ⟨F32.ofReal n.x, F32.ofReal n.y, F32.ofReal n.z⟩

theorem singlePoint_grid {n : V3 Int} (h : ∀ a : Axis, (a.of n).natAbs ≤ 2 ^ 20) : GridPoint 0 (singlePoint n) n := by
  have k : ∀ {i : Int}, i.natAbs ≤ 2 ^ 20 → GridNum 0 (F32.ofReal i) i := fun {i} hi => by
    have := is_ofReal (z := i) (lt_of_le_of_lt hi (by norm_num))
    exact ⟨this.fin, by rw [this.val]; simp⟩
  exact ⟨k (h .x), k (h .y), k (h .z), h⟩

/-- A face with points in whole units in single precision. -/
noncomputable def singleFace [F32Lib] (t : IntFace) : BrushPlane F32 :=
  octFace (singlePoint t.1) (singlePoint t.2.1) (singlePoint t.2.2)

theorem singleFace_is [F32Lib] {t : IntFace} (h : ∀ a : Axis, (a.of t.1).natAbs ≤ 2 ^ 20 ∧ (a.of t.2.1).natAbs ≤ 2 ^ 20 ∧
    (a.of t.2.2).natAbs ≤ 2 ^ 20) : SingleFace t (singleFace t) :=
  ⟨by norm_num, singlePoint_grid fun a => (h a).1, singlePoint_grid fun a => (h a).2.1, singlePoint_grid fun a => (h a).2.2⟩

theorem sliver_small {t : IntFace} (ht : t ∈ sliver) (a : Axis) : (a.of t.1).natAbs ≤ 2 ^ 20 ∧
    (a.of t.2.1).natAbs ≤ 2 ^ 20 ∧ (a.of t.2.2).natAbs ≤ 2 ^ 20 := by
  simp only [sliver, List.mem_cons, List.not_mem_nil, or_false] at ht
  cases a <;> rcases ht with rfl | rfl | rfl | rfl <;> decide

theorem forall₂_map_self {α β : Type} {R : α → β → Prop} {f : α → β} {l : List α} (h : ∀ x ∈ l, R x (f x)) :
    List.Forall₂ R l (l.map f) := by
  rw [List.forall₂_map_right_iff, List.forall₂_same]
  exact h

theorem sliver_single [F32Lib] : List.Forall₂ SingleFace sliver (sliver.map singleFace) :=
  forall₂_map_self fun _ ht => singleFace_is (sliver_small ht)

/-- The tetrahedron in single precision. -/
example [F32Lib] [Platform] (textures : TextureInfo) (entity : Entity F32) :
    ∃ geo, buildBrush textures entity ⟨sliver.map singleFace⟩ = .ok geo ∧ ∀ face ∈ geo.planes, face.indices = [] := by
  obtain ⟨geo, h, -, hg⟩ := C108_vanishes textures entity ⟨sliver.map singleFace⟩ sliver_single
  exact ⟨geo, h, hg⟩

end

attribute [local instance] stepLib refPlatform in
/-- C108 is false: single precision loses faces which exact arithmetic shows. -/
theorem C108_false : ¬ ∀ ts, ShownExactly ts → ShownInSingle ts := by
  intro h
  obtain ⟨geo, hg, hl, hi⟩ := C108_vanishes (fun _ => none) ⟨Map.empty, []⟩ ⟨sliver.map singleFace⟩ sliver_single
  have := h sliver C108_exact (fun _ => none) ⟨Map.empty, []⟩ ⟨sliver.map singleFace⟩ geo sliver_single hg
  obtain ⟨face, hf⟩ := List.exists_mem_of_length_pos (l := geo.planes) (by omega)
  exact this face hf (hi face hf)

theorem isSide_of {b : GridBox} (hb : b.g = 0) [F32Lib] {a : Axis} {up : Bool} {t : IntFace} {p : BrushPlane F32}
    (h : BoxSide b a up t) (hp : SingleFace t p) : IsSide b.g a up (b.side a up) p := by
  obtain ⟨h0, h1, h2, h3, j, hj⟩ := h
  rw [hb]
  refine ⟨t.1, t.2.1, t.2.2, hp.p0, hp.p1, hp.p2, h0, h1, h2, h3, 2 ^ j, ?_, .inl ⟨j, rfl⟩⟩
  rw [hj]
  cases up <;> simp

/-- C108: the sides of a box are shown in single precision. Missing: other brushes, for which the claim is false in
general. -/
theorem C108_partial (b : GridBox) (hb : b.g = 0) (ts : List IntFace) (h : BoxFaces b ts) : ShownInSingle ts := by
  intro _ _ textures entity brush geo hf hg face hm
  have hbr : b.IsBrush brush.planes := by
    refine ⟨fun p hp => ?_, fun a up => ?_⟩
    · obtain ⟨t, ht, hs⟩ := forall₂_right hf hp
      obtain ⟨a, up, k⟩ := h.1 t ht
      exact ⟨a, up, isSide_of hb k hs⟩
    · obtain ⟨t, ht, k⟩ := h.2 a up
      obtain ⟨p, hp, hs⟩ := forall₂_left hf ht
      exact ⟨p, hp, isSide_of hb k hs⟩
  obtain ⟨geo', hg', hF, -⟩ := C90_brush textures entity brush b hbr
  rw [hg] at hg'
  cases hg'
  obtain ⟨p, hp, k⟩ := forall₂_right hF hm
  obtain ⟨a, up, hs⟩ := hbr.1 p hp
  rw [(k a up hs).triangles]
  simp

/-- The box of a new map, as an editor writes it. -/
example : BoxFaces newGrid [
    (⟨-64, -64, -16⟩, ⟨-64, -63, -16⟩, ⟨-64, -64, -15⟩), (⟨-64, -64, -16⟩, ⟨-64, -64, -15⟩, ⟨-63, -64, -16⟩),
    (⟨-64, -64, -16⟩, ⟨-63, -64, -16⟩, ⟨-64, -63, -16⟩), (⟨64, 64, 16⟩, ⟨64, 65, 16⟩, ⟨65, 64, 16⟩),
    (⟨64, 64, 16⟩, ⟨65, 64, 16⟩, ⟨64, 64, 17⟩), (⟨64, 64, 16⟩, ⟨64, 64, 17⟩, ⟨64, 65, 16⟩)] := by
  have k1 : BoxSide newGrid .x false (⟨-64, -64, -16⟩, ⟨-64, -63, -16⟩, ⟨-64, -64, -15⟩) :=
    ⟨rfl, rfl, rfl, fun c => by cases c <;> decide, 0, by decide⟩
  have k2 : BoxSide newGrid .y false (⟨-64, -64, -16⟩, ⟨-64, -64, -15⟩, ⟨-63, -64, -16⟩) :=
    ⟨rfl, rfl, rfl, fun c => by cases c <;> decide, 0, by decide⟩
  have k3 : BoxSide newGrid .z false (⟨-64, -64, -16⟩, ⟨-63, -64, -16⟩, ⟨-64, -63, -16⟩) :=
    ⟨rfl, rfl, rfl, fun c => by cases c <;> decide, 0, by decide⟩
  have k4 : BoxSide newGrid .z true (⟨64, 64, 16⟩, ⟨64, 65, 16⟩, ⟨65, 64, 16⟩) :=
    ⟨rfl, rfl, rfl, fun c => by cases c <;> decide, 0, by decide⟩
  have k5 : BoxSide newGrid .y true (⟨64, 64, 16⟩, ⟨65, 64, 16⟩, ⟨64, 64, 17⟩) :=
    ⟨rfl, rfl, rfl, fun c => by cases c <;> decide, 0, by decide⟩
  have k6 : BoxSide newGrid .x true (⟨64, 64, 16⟩, ⟨64, 64, 17⟩, ⟨64, 65, 16⟩) :=
    ⟨rfl, rfl, rfl, fun c => by cases c <;> decide, 0, by decide⟩
  refine ⟨fun t ht => ?_, fun a up => ?_⟩
  · simp only [List.mem_cons, List.not_mem_nil, or_false] at ht
    rcases ht with rfl | rfl | rfl | rfl | rfl | rfl
    exacts [⟨_, _, k1⟩, ⟨_, _, k2⟩, ⟨_, _, k3⟩, ⟨_, _, k4⟩, ⟨_, _, k5⟩, ⟨_, _, k6⟩]
  · cases a <;> cases up
    exacts [⟨_, by simp, k1⟩, ⟨_, by simp, k6⟩, ⟨_, by simp, k2⟩, ⟨_, by simp, k5⟩, ⟨_, by simp, k3⟩, ⟨_, by simp, k4⟩]

end Quarch
