import Verif.Spec.Seams
import Verif.Props.RealNormal
import Verif.Props.RealExamples
/-
C130: smooth shading at corners of three and of more faces.
-/
set_option linter.unusedSectionVars false
set_option linter.unusedSimpArgs false
namespace Quarch
open Spec Geo

/-! ### the pair of planes that counts -/

/-- All pairs, in order. -/
def pairs {α : Type} (l : List α) : List (α × α) := l.flatMap fun a => l.map fun b => (a, b)

theorem forall₂_split {α β : Type} {R : α → β → Prop} {b : β} {r2 : List β} : ∀ {l : List α} {r1 : List β},
    List.Forall₂ R l (r1 ++ b :: r2) → ∃ l1 a l2, l = l1 ++ a :: l2 ∧ R a b ∧ List.Forall₂ R l2 r2
  | _, [], .cons h t => ⟨[], _, _, rfl, h, t⟩
  | _, _ :: _, .cons _ t => by
    obtain ⟨l1, a, l2, rfl, h1, h2⟩ := forall₂_split t
    exact ⟨_ :: l1, a, l2, rfl, h1, h2⟩

section
variable {F : Type} [Arith F]

theorem uniqueVertices_split {phong : Bool} {l : List (Vertex F)} {u : Vertex F} (h : u ∈ uniqueVertices phong l) :
    ∃ l1 w l2, l = l1 ++ w :: l2 ∧ u = finishNormal phong w ∧ ∀ c ∈ l2, V3.beq c.pos w.pos = false := by
  induction l with
  | nil => simp [uniqueVertices] at h
  | cons a l ih =>
    rw [uniqueVertices, List.mem_append, uniqueVertex_eq] at h
    rcases h with h | h
    · split at h
      · simp at h
      · rename_i hn
        simp only [Option.toList_some, List.mem_singleton] at h
        refine ⟨[], a, l, rfl, h, fun c hc => ?_⟩
        simp only [List.any_eq_true, not_exists, not_and, Bool.not_eq_true] at hn
        exact hn c hc
    · obtain ⟨l1, w, l2, rfl, h1, h2⟩ := ih h
      exact ⟨a :: l1, w, l2, rfl, h1, h2⟩

theorem planeVertices_pairs {texture : Option Texture} {entity : Entity F} {planes : List (BrushPlane F)}
    {plane : BrushPlane F} {pvs : List (Vertex F)} (h : planeVertices texture entity planes plane = .ok pvs) :
    ∃ ovs : List (Option (Vertex F)), pvs = ovs.filterMap id ∧
      List.Forall₂ (fun (q : BrushPlane F × BrushPlane F) o =>
        buildPlaneVertex texture entity planes plane q.1 q.2 = .ok o) (pairs planes) ovs := by
  unfold planeVertices at h
  obtain ⟨vss, h1, h2⟩ := Outcome.bind_eq_ok.1 h
  cases h2
  have key : ∀ (l : List (BrushPlane F)) (vss : List (List (Vertex F))),
      mapOut (fun p1 => (mapOut (fun p2 => buildPlaneVertex texture entity planes plane p1 p2) planes).bind fun vs =>
        .ok (vs.filterMap id)) l = .ok vss →
      ∃ ovs : List (Option (Vertex F)), vss.flatten = ovs.filterMap id ∧
      List.Forall₂ (fun (q : BrushPlane F × BrushPlane F) o =>
        buildPlaneVertex texture entity planes plane q.1 q.2 = .ok o)
        (l.flatMap fun a => planes.map fun b => (a, b)) ovs := by
    intro l vss hl
    replace hl := mapOut_eq_ok.1 hl
    induction hl with
    | nil => exact ⟨[], rfl, .nil⟩
    | @cons p vs l vss h1 _ ih =>
      obtain ⟨ovs, e, hf⟩ := ih
      obtain ⟨os, h3, h4⟩ := Outcome.bind_eq_ok.1 h1
      cases h4
      refine ⟨os ++ ovs, by simp [e], ?_⟩
      rw [List.flatMap_cons]
      refine List.rel_append ?_ hf
      rw [List.forall₂_map_left_iff]
      exact mapOut_eq_ok.1 h3
  exact key planes vss h1

theorem last_pair [Platform] {textures : TextureInfo} {entity : Entity F} {planes : List (BrushPlane F)}
    {plane : BrushPlane F} {geo : PlaneGeo F} (h : buildPlane textures entity planes plane = .ok geo) {v : Vertex F}
    (hv : v ∈ geo.vertices) :
    ∃ w l1 p1 p2 l2, pairs planes = l1 ++ (p1, p2) :: l2 ∧ Meet plane p1 p2 w.pos ∧
      w.normal = vertexNormal entity plane p1 p2 ∧ (∀ p ∈ planes, Behind p w.pos) ∧
      v = { finishNormal (isPhong entity) w with pos := recentre geo.center w.pos } ∧
      ∀ q ∈ l2, ∀ y, Meet plane q.1 q.2 y → (∀ p ∈ planes, Behind p y) → V3.beq y w.pos = false := by
  obtain ⟨pvs, h1, _, h3⟩ := buildPlane_perm h
  obtain ⟨u, hu, rfl⟩ := List.mem_map.1 (h3.mem_iff.1 hv)
  obtain ⟨k1, w, k2, e1, rfl, hlast⟩ := uniqueVertices_split hu
  obtain ⟨ovs, e2, hf⟩ := planeVertices_pairs h1
  rw [e2] at e1
  obtain ⟨o1, o2, rfl, _, e3⟩ := List.filterMap_eq_append_iff.1 e1
  obtain ⟨o3, o, o4, rfl, _, ho, e4⟩ := List.filterMap_eq_cons_iff.1 e3
  simp only [id_eq] at ho
  subst ho
  rw [← List.append_assoc] at hf
  obtain ⟨l1, ⟨p1, p2⟩, l2, hl, hb, hrest⟩ := forall₂_split hf
  obtain ⟨a1, a2, a3, -⟩ := buildPlaneVertex_some hb
  refine ⟨w, l1, p1, p2, l2, hl, a1, a2, a3, by simp, ?_⟩
  intro q hq y hm hbe
  obtain ⟨o, ho, hbo⟩ : ∃ o ∈ o4, buildPlaneVertex (textures plane.texture) entity planes plane q.1 q.2 = .ok o := by
    clear hf hl e1 e2 e3 e4 h3 hu
    induction hrest with
    | nil => simp at hq
    | cons h _ ih =>
      rcases List.mem_cons.1 hq with rfl | hq
      · exact ⟨_, by simp, h⟩
      · obtain ⟨o, ho, hb⟩ := ih hq
        exact ⟨o, by simp [ho], hb⟩
  cases o with
  | none => exact absurd hbe (buildPlaneVertex_none hbo y hm)
  | some c =>
    have := hlast c (by rw [← e4]; exact List.mem_filterMap.2 ⟨_, ho, rfl⟩)
    rwa [meet_unique (buildPlaneVertex_some hbo).1 hm] at this

end

section
variable [RealText] [Platform]

theorem direction_det (p q r : BrushPlane ℝ) : detR (direction p) (direction q) (direction r) =
    1 / lenR (rawNormal p) * (1 / lenR (rawNormal q)) * (1 / lenR (rawNormal r)) *
      detR (rawNormal p) (rawNormal q) (rawNormal r) := by
  simp only [detR, direction, dotR, crossR, smulR]; ring

/-- Independent normals are different. -/
theorem direction_ne {p q r : BrushPlane ℝ} (h : detR (rawNormal p) (rawNormal q) (rawNormal r) ≠ 0) :
    direction p ≠ direction q ∧ direction p ≠ direction r ∧ direction q ≠ direction r ∧
      detR (direction p) (direction q) (direction r) ≠ 0 := by
  have hne : ∀ a : V3 ℝ, a ≠ zeroR → 1 / lenR a ≠ 0 := fun a ha => by
    have := lenR_pos ha
    positivity
  have hp : rawNormal p ≠ zeroR := fun e => h (by rw [e]; simp [detR, dotR, crossR, zeroR])
  have hq : rawNormal q ≠ zeroR := fun e => h (by rw [e]; simp [detR, dotR, crossR, zeroR])
  have hr : rawNormal r ≠ zeroR := fun e => h (by rw [e]; simp [detR, dotR, crossR, zeroR])
  have hd : detR (direction p) (direction q) (direction r) ≠ 0 := by
    rw [direction_det]
    exact mul_ne_zero (mul_ne_zero (mul_ne_zero (hne _ hp) (hne _ hq)) (hne _ hr)) h
  refine ⟨fun e => hd ?_, fun e => hd ?_, fun e => hd ?_, hd⟩ <;> rw [e] <;> simp only [detR, dotR, crossR] <;> ring

/-- The normal of a smoothed corner of three faces. -/
theorem smooth_normal {textures : TextureInfo} {entity : Entity ℝ} {planes : List (BrushPlane ℝ)}
    {f g r : BrushPlane ℝ} {geo : PlaneGeo ℝ} (h : buildPlane textures entity planes f = .ok geo)
    (hphong : entity.properties (str! "_phong") = some (str! "1")) {v : Vertex ℝ} (hv : v ∈ geo.vertices)
    (h3 : OnlyThree planes f g r v.pos) :
    v.normal = unitR (sumR (direction f :: smoothed (phongAngle entity) (direction f) [direction g, direction r])) ∧
    detR (direction f) (direction g) (direction r) ≠ 0 := by
  obtain ⟨p1, hp1, p2, hp2, hd, h1, h2, hn, _⟩ := C29_phong _ _ _ _ _ h hphong v hv
  obtain ⟨n1, n2, n3, hd'⟩ := direction_ne hd
  have e : ∀ p : BrushPlane ℝ, unitR (rawNormal p) = direction p := fun _ => rfl
  rw [hn]
  simp only [e]
  have hperm : ∀ a b, sumR (direction f :: smoothed (phongAngle entity) (direction f) [a, b]) =
      sumR (direction f :: smoothed (phongAngle entity) (direction f) [b, a]) := by
    intro a b
    have hp : (smoothed (phongAngle entity) (direction f) [a, b]).Perm
        (smoothed (phongAngle entity) (direction f) [b, a]) := (List.Perm.swap b a []).filter _
    have hp' := hp.cons (direction f)
    unfold sumR
    rw [(hp'.map _).sum_eq, (hp'.map (fun v : V3 ℝ => v.y)).sum_eq, (hp'.map (fun v : V3 ℝ => v.z)).sum_eq]
  rcases h3 p1 hp1 h1 with a | a | a <;> rcases h3 p2 hp2 h2 with b | b | b
  · exact absurd a.symm n1
  · exact absurd a.symm n1
  · exact absurd a.symm n1
  · exact absurd b.symm n2
  · exact absurd (a.trans b.symm) n3
  · rw [a, b] at hd' ⊢
    exact ⟨rfl, hd'⟩
  · exact absurd b.symm n2
  · rw [a, b] at hd' ⊢
    refine ⟨hperm _ _ ▸ rfl, fun e => hd' ?_⟩
    rw [← neg_eq_zero, ← e]
    simp only [detR, dotR, crossR]; ring
  · exact absurd (a.trans b.symm) n3

/-- The coefficient of a face in the smoothed normal of another. -/
noncomputable def share (angle : Option ℝ) (n m : V3 ℝ) : ℝ :=
  open Classical in if SmoothedOver angle n m then 1 else 0

theorem share_comm (angle : Option ℝ) (n m : V3 ℝ) : share angle n m = share angle m n := by
  have : SmoothedOver angle n m ↔ SmoothedOver angle m n := by
    unfold SmoothedOver
    cases angle with
    | none => exact Iff.rfl
    | some a =>
      have e : dotR n m = dotR m n := by simp only [dotR]; ring
      simp only [e]
  unfold share
  by_cases h : SmoothedOver angle n m
  · rw [if_pos h, if_pos (this.1 h)]
  · rw [if_neg h, if_neg fun h' => h (this.2 h')]

theorem sum_share (angle : Option ℝ) (n a b : V3 ℝ) :
    sumR (n :: smoothed angle n [a, b]) = addR n (addR (smulR (share angle n a) a) (smulR (share angle n b) b)) := by
  unfold smoothed share SmoothedOver
  cases angle with
  | none => simp [sumR, addR, smulR]
  | some t =>
    by_cases c : Real.cos ((t + 1 / 100) * (174533 / 10000000)) < dotR n a <;>
    by_cases d : Real.cos ((t + 1 / 100) * (174533 / 10000000)) < dotR n b <;>
    simp only [List.filter_cons, List.filter_nil, c, d, decide_true, decide_false, if_true, if_false,
      Bool.false_eq_true] <;>
    simp [sumR, addR, smulR]

/-- Sums of independent directions have the same direction only if the coefficients agree. -/
theorem unit_sum {n m r : V3 ℝ} (hd : detR n m r ≠ 0) {a b b' : ℝ} (ha : a = 0 ∨ a = 1) :
    unitR (addR n (addR (smulR a m) (smulR b r))) = unitR (addR m (addR (smulR a n) (smulR b' r))) ↔ a = 1 ∧ b = b' := by
  constructor
  · intro h
    have hS : addR n (addR (smulR a m) (smulR b r)) ≠ zeroR := fun e => hd (by
      have : detR (addR n (addR (smulR a m) (smulR b r))) m r = detR n m r := by
        simp only [detR, dotR, crossR, addR, smulR]; ring
      rw [← this, e]
      simp [detR, dotR, crossR, zeroR])
    have hl := lenR_pos hS
    unfold unitR at h
    generalize lenR (addR n (addR (smulR a m) (smulR b r))) = l at *
    generalize lenR (addR m (addR (smulR a n) (smulR b' r))) = l' at *
    have h1 := congrArg (fun v => detR v m r) h
    have h2 := congrArg (fun v => detR n v r) h
    have h3 := congrArg (fun v => detR n m v) h
    have e1 : ∀ k (c : ℝ) d, detR (smulR k (addR n (addR (smulR c m) (smulR d r)))) m r = k * detR n m r :=
      fun k c d => by simp only [detR, dotR, crossR, addR, smulR]; ring
    have e2 : ∀ k (c : ℝ) d, detR n (smulR k (addR n (addR (smulR c m) (smulR d r)))) r = k * c * detR n m r :=
      fun k c d => by simp only [detR, dotR, crossR, addR, smulR]; ring
    have e3 : ∀ k (c : ℝ) d, detR n m (smulR k (addR n (addR (smulR c m) (smulR d r)))) = k * d * detR n m r :=
      fun k c d => by simp only [detR, dotR, crossR, addR, smulR]; ring
    have f1 : ∀ k (c : ℝ) d, detR (smulR k (addR m (addR (smulR c n) (smulR d r)))) m r = k * c * detR n m r :=
      fun k c d => by simp only [detR, dotR, crossR, addR, smulR]; ring
    have f2 : ∀ k (c : ℝ) d, detR n (smulR k (addR m (addR (smulR c n) (smulR d r)))) r = k * detR n m r :=
      fun k c d => by simp only [detR, dotR, crossR, addR, smulR]; ring
    have f3 : ∀ k (c : ℝ) d, detR n m (smulR k (addR m (addR (smulR c n) (smulR d r)))) = k * d * detR n m r :=
      fun k c d => by simp only [detR, dotR, crossR, addR, smulR]; ring
    simp only [e1, f1, e2, f2, e3, f3] at h1 h2 h3
    have h1 := mul_right_cancel₀ hd h1
    have h2 := mul_right_cancel₀ hd h2
    have h3 := mul_right_cancel₀ hd h3
    have hk : 0 < 1 / l := by positivity
    rcases ha with rfl | rfl
    · rw [mul_zero] at h1; linarith
    · rw [mul_one] at h1
      rw [← h1] at h3
      exact ⟨rfl, mul_left_cancel₀ hk.ne' h3⟩
  · rintro ⟨rfl, rfl⟩
    congr 1
    apply V3.ext' <;> simp only [addR, smulR] <;> ring

/-- C130: at a corner where three faces meet, smooth shading has no seam between two of them, that is, they have the same
normal there, exactly if the two are smoothed over and the third is smoothed over with both or with neither of them. -/
theorem C130_three_faces (textures : TextureInfo) (entity : Entity ℝ) (planes : List (BrushPlane ℝ))
    (f g r : BrushPlane ℝ) (geoF geoG : PlaneGeo ℝ) (hf : buildPlane textures entity planes f = .ok geoF)
    (hg : buildPlane textures entity planes g = .ok geoG)
    (hphong : entity.properties (str! "_phong") = some (str! "1")) (v w : Vertex ℝ) (hv : v ∈ geoF.vertices)
    (hw : w ∈ geoG.vertices) (hpos : v.pos = w.pos) (h3 : OnlyThree planes f g r v.pos) :
    v.normal = w.normal ↔ SmoothedOver (phongAngle entity) (direction f) (direction g) ∧
      (SmoothedOver (phongAngle entity) (direction f) (direction r) ↔
        SmoothedOver (phongAngle entity) (direction g) (direction r)) := by
  have h3' : OnlyThree planes g f r w.pos := fun p hp ho => by
    rw [← hpos] at ho
    rcases h3 p hp ho with h | h | h <;> simp [h]
  obtain ⟨hn, hd⟩ := smooth_normal hf hphong hv h3
  rw [hn, (smooth_normal hg hphong hw h3').1, sum_share, sum_share, share_comm _ (direction g) (direction f)]
  rw [unit_sum hd (by unfold share; split <;> simp)]
  unfold share
  by_cases a : SmoothedOver (phongAngle entity) (direction f) (direction g) <;>
  by_cases b : SmoothedOver (phongAngle entity) (direction f) (direction r) <;>
  by_cases c : SmoothedOver (phongAngle entity) (direction g) (direction r) <;> simp [a, b, c]

/-- C130: without a phong angle all faces meeting at a corner of three faces have the same normal there. -/
theorem C130_no_angle (textures : TextureInfo) (entity : Entity ℝ) (planes : List (BrushPlane ℝ))
    (f g r : BrushPlane ℝ) (geoF geoG : PlaneGeo ℝ) (hf : buildPlane textures entity planes f = .ok geoF)
    (hg : buildPlane textures entity planes g = .ok geoG)
    (hphong : entity.properties (str! "_phong") = some (str! "1"))
    (hangle : (entity.properties (str! "_phong_angle")).bind RealText.parse = none)
    (v w : Vertex ℝ) (hv : v ∈ geoF.vertices)
    (hw : w ∈ geoG.vertices) (hpos : v.pos = w.pos) (h3 : OnlyThree planes f g r v.pos) : v.normal = w.normal := by
  have e : phongAngle entity = none := hangle
  rw [C130_three_faces _ _ _ _ _ _ _ _ hf hg hphong v w hv hw hpos h3, e]
  exact ⟨trivial, Iff.rfl⟩

/-- C130: the two faces that take part in the normal of a corner are those of the last pair, in the order of the file, that
meets the face there: no pair after it does. -/
theorem C130_last_pair (textures : TextureInfo) (entity : Entity ℝ) (planes : List (BrushPlane ℝ))
    (plane : BrushPlane ℝ) (geo : PlaneGeo ℝ) (h : buildPlane textures entity planes plane = .ok geo)
    (hphong : entity.properties (str! "_phong") = some (str! "1")) (v : Vertex ℝ) (hv : v ∈ geo.vertices) :
    ∃ earlier p1 p2 later, (planes.flatMap fun a => planes.map fun b => (a, b)) = earlier ++ (p1, p2) :: later ∧
      1 / 1000 ≤ unitDet plane p1 p2 ∧ OnPlane p1 v.pos ∧ OnPlane p2 v.pos ∧
      v.normal = unitR (sumR (direction plane ::
        smoothed (phongAngle entity) (direction plane) [direction p1, direction p2])) ∧
      ∀ q ∈ later, 1 / 1000 ≤ unitDet plane q.1 q.2 → OnPlane q.1 v.pos → ¬ OnPlane q.2 v.pos := by
  obtain ⟨w, l1, p1, p2, l2, hl, hm, hn, hb, hvw, hlast⟩ := last_pair h hv
  have hpos : v.pos = w.pos := by rw [hvw]; simp only [recentre_real]
  obtain ⟨hd, h0, h1, h2⟩ := meet_real.1 hm
  refine ⟨l1, p1, p2, l2, hl, hd, by rw [hpos]; exact h1, by rw [hpos]; exact h2, ?_, ?_⟩
  · obtain ⟨q1, _, q2, _, hd', _, _, hn', hlen⟩ := C29_phong _ _ _ _ _ h hphong v hv
    -- the normal before it is normalised once more
    have hp : isPhong entity = true := by
      unfold isPhong Entity.getProperty Map.get?
      simpa using hphong
    have hfn : ∀ p : BrushPlane ℝ, p.normal = direction p := fun p => by
      show p.normal = unitR (rawNormal p)
      rw [← normalize_unitR]; rfl
    have hw : w.normal = unitR (sumR (direction plane ::
        smoothed (phongAngle entity) (direction plane) [direction p1, direction p2])) := by
      rw [hn]
      unfold vertexNormal
      rw [hp, if_pos rfl]
      unfold phongNormal
      simp only [hfn, ← normalize_unitR (sumR _)]
      rw [show (entity.getProperty (str! "_phong_angle")).bind (Arith.parse (F := ℝ)) = phongAngle entity from rfl]
      cases ha : phongAngle entity with
      | none =>
        simp only []
        congr 1
        simp [smoothed, sumR, addR]
        refine ⟨?_, ?_, ?_⟩ <;> ring
      | some a =>
        simp only []
        congr 1
        simp only [ar_lt, ar_dot]
        have hcos : Arith.cos (Arith.mul (Arith.add a Arith.hundredth) Arith.oneDegree) =
          Real.cos ((a + 1 / 100) * (174533 / 10000000)) := rfl
        rw [hcos]
        unfold smoothed
        by_cases c1 : Real.cos ((a + 1 / 100) * (174533 / 10000000)) < dotR (direction plane) (direction p1) <;>
          by_cases c2 : Real.cos ((a + 1 / 100) * (174533 / 10000000)) < dotR (direction plane) (direction p2) <;>
          simp only [List.filter_cons, List.filter_nil, c1, c2, decide_true, decide_false, if_true, if_false,
            Bool.false_eq_true] <;>
          (simp [sumR, addR]; try (refine ⟨?_, ?_, ?_⟩ <;> ring))
    have hne : detR (rawNormal plane) (rawNormal p1) (rawNormal p2) ≠ 0 := fun e => by
      unfold unitDet at hd
      rw [e] at hd
      norm_num at hd
    have hS : sumR (direction plane ::
        smoothed (phongAngle entity) (direction plane) [direction p1, direction p2]) ≠ zeroR := by
      rw [sum_share]
      intro e
      refine (direction_ne hne).2.2.2 ?_
      have e' : detR (direction plane) (direction p1) (direction p2) = detR (addR (direction plane)
          (addR (smulR (share (phongAngle entity) (direction plane) (direction p1)) (direction p1))
            (smulR (share (phongAngle entity) (direction plane) (direction p2)) (direction p2))))
          (direction p1) (direction p2) := by
        simp only [detR, dotR, crossR, addR, smulR]; ring
      rw [e', e]
      simp [detR, dotR, crossR, zeroR]
    have hunit : lenR w.normal = 1 := by rw [hw]; exact lenR_unitR hS
    rw [hvw, hp]
    simp only [finishNormal, if_true, normalize_of_unit hunit]
    exact hw
  · intro q hq hdq hq1 hq2
    rw [hpos] at hq1 hq2
    have := hlast q hq w.pos (meet_real.2 ⟨hdq, h0, hq1, hq2⟩) hb
    rw [v3_beq_false] at this
    exact this rfl

/-- The corner (1, 1, 1) of the cube. -/
theorem cube_corner (textures : TextureInfo) (entity : Entity ℝ) :
    ∃ gx gy v w, buildPlane textures entity Cube.planes Cube.xp = .ok gx ∧
      buildPlane textures entity Cube.planes Cube.yp = .ok gy ∧ v ∈ gx.vertices ∧ w ∈ gy.vertices ∧
      v.pos = ⟨1, 1, 1⟩ ∧ w.pos = ⟨1, 1, 1⟩ ∧ OnlyThree Cube.planes Cube.xp Cube.yp Cube.zp v.pos := by
  have hcorner : ∀ f ∈ [Cube.xp, Cube.yp], ∃ geo, buildPlane textures entity Cube.planes f = .ok geo ∧
      ∃ v ∈ geo.vertices, v.pos = ⟨1, 1, 1⟩ := by
    intro f hf
    obtain ⟨geo, h⟩ := buildPlane_real textures entity Cube.planes f
    have hmem : (⟨1, 1, 1⟩ : V3 ℝ) ∈ geo.vertices.map (·.pos) := by
      rw [(C20_exact_corners _ _ _ _ _ h).2]
      refine ⟨?_, by rw [Cube.inside]; norm_num⟩
      simp only [List.mem_cons, List.not_mem_nil, or_false] at hf
      rcases hf with rfl | rfl
      · refine ⟨Cube.yp, by simp [Cube.planes], Cube.zp, by simp [Cube.planes], ?_, ?_⟩
        · rw [Cube.det_xyz]; norm_num
        · simp [Cube.on_xp, Cube.on_yp, Cube.on_zp]
      · refine ⟨Cube.zp, by simp [Cube.planes], Cube.xp, by simp [Cube.planes], ?_, ?_⟩
        · simp [unitDet, Cube.raw_xp, Cube.raw_yp, Cube.raw_zp, detR, dotR, crossR, lenR]; norm_num
        · simp [Cube.on_xp, Cube.on_yp, Cube.on_zp]
    obtain ⟨v, hv, hpos⟩ := List.mem_map.1 hmem
    exact ⟨geo, h, v, hv, hpos⟩
  obtain ⟨gx, h1, v, hv, pv⟩ := hcorner Cube.xp (by simp)
  obtain ⟨gy, h2, w, hw, pw⟩ := hcorner Cube.yp (by simp)
  refine ⟨gx, gy, v, w, h1, h2, hv, hw, pv, pw, ?_⟩
  intro p hp ho
  rw [pv] at ho
  simp only [Cube.planes, List.mem_cons, List.not_mem_nil, or_false] at hp
  rcases hp with rfl | rfl | rfl | rfl | rfl | rfl
  · simp
  · rw [Cube.on_xn] at ho; norm_num at ho
  · simp
  · rw [Cube.on_yn] at ho; norm_num at ho
  · simp
  · rw [Cube.on_zn] at ho; norm_num at ho

/-- C130 for the cube: without an angle the faces `x = 1` and `y = 1` have a common normal at (1, 1, 1). -/
example (textures : TextureInfo) (entity : Entity ℝ)
    (hphong : entity.properties (str! "_phong") = some (str! "1"))
    (hangle : entity.properties (str! "_phong_angle") = none) :
    ∃ gx gy v w, buildPlane textures entity Cube.planes Cube.xp = .ok gx ∧
      buildPlane textures entity Cube.planes Cube.yp = .ok gy ∧ v ∈ gx.vertices ∧ w ∈ gy.vertices ∧
      v.pos = ⟨1, 1, 1⟩ ∧ w.pos = ⟨1, 1, 1⟩ ∧ v.normal = w.normal := by
  obtain ⟨gx, gy, v, w, h1, h2, hv, hw, pv, pw, h3⟩ := cube_corner textures entity
  exact ⟨gx, gy, v, w, h1, h2, hv, hw, pv, pw, C130_no_angle textures entity Cube.planes _ _ Cube.zp gx gy h1 h2
    hphong (by rw [hangle]; rfl) v w hv hw (by rw [pv, pw]) h3⟩

/-- C130 for the cube: there is a last pair for (1, 1, 1), and it is made of planes through that corner. -/
example (textures : TextureInfo) (entity : Entity ℝ)
    (hphong : entity.properties (str! "_phong") = some (str! "1")) :
    ∃ gx v, buildPlane textures entity Cube.planes Cube.xp = .ok gx ∧ v ∈ gx.vertices ∧ v.pos = ⟨1, 1, 1⟩ ∧
      ∃ earlier p1 p2 later, (Cube.planes.flatMap fun a => Cube.planes.map fun b => (a, b)) =
        earlier ++ (p1, p2) :: later ∧ OnPlane p1 v.pos ∧ OnPlane p2 v.pos ∧
        ∀ q ∈ later, 1 / 1000 ≤ unitDet Cube.xp q.1 q.2 → OnPlane q.1 v.pos → ¬ OnPlane q.2 v.pos := by
  obtain ⟨gx, _, v, _, h1, _, hv, _, pv, _⟩ := cube_corner textures entity
  obtain ⟨l1, p1, p2, l2, e, _, a, b, _, c⟩ := C130_last_pair textures entity _ _ gx h1 hphong v hv
  exact ⟨gx, v, h1, hv, pv, l1, p1, p2, l2, e, a, b, c⟩

/-- C130 for the cube: with an angle of 45 degrees they have not. -/
example (textures : TextureInfo) (entity : Entity ℝ)
    (hphong : entity.properties (str! "_phong") = some (str! "1")) (hangle : phongAngle entity = some 45) :
    ∃ gx gy v w, buildPlane textures entity Cube.planes Cube.xp = .ok gx ∧
      buildPlane textures entity Cube.planes Cube.yp = .ok gy ∧ v ∈ gx.vertices ∧ w ∈ gy.vertices ∧
      v.pos = ⟨1, 1, 1⟩ ∧ w.pos = ⟨1, 1, 1⟩ ∧ v.normal ≠ w.normal := by
  obtain ⟨gx, gy, v, w, h1, h2, hv, hw, pv, pw, h3⟩ := cube_corner textures entity
  refine ⟨gx, gy, v, w, h1, h2, hv, hw, pv, pw, fun e => ?_⟩
  have := ((C130_three_faces textures entity Cube.planes _ _ Cube.zp gx gy h1 h2 hphong v w hv hw (by rw [pv, pw]) h3).1
    e).1
  rw [hangle] at this
  have hpi := Real.pi_gt_three
  have hc : 0 < Real.cos ((45 + 1 / 100) * (174533 / 10000000)) :=
    Real.cos_pos_of_mem_Ioo ⟨by linarith, by linarith⟩
  have h0 : dotR (direction Cube.xp) (direction Cube.yp) = 0 := by
    simp [direction, Cube.raw_xp, Cube.raw_yp, dotR, smulR]
  unfold SmoothedOver at this
  simp only [h0] at this
  linarith

end

namespace Pyramid

/-- A pyramid with the top (0, 0, 1), its sides at 45 degrees to the ground. -/
noncomputable def east : BrushPlane ℝ := Cube.face ⟨0, 0, 1⟩ ⟨1, 1, 0⟩ ⟨1, -1, 0⟩
noncomputable def west : BrushPlane ℝ := Cube.face ⟨0, 0, 1⟩ ⟨-1, -1, 0⟩ ⟨-1, 1, 0⟩
noncomputable def north : BrushPlane ℝ := Cube.face ⟨0, 0, 1⟩ ⟨-1, 1, 0⟩ ⟨1, 1, 0⟩
noncomputable def south : BrushPlane ℝ := Cube.face ⟨0, 0, 1⟩ ⟨1, -1, 0⟩ ⟨-1, -1, 0⟩
noncomputable def ground : BrushPlane ℝ := Cube.zn
noncomputable def planes : List (BrushPlane ℝ) := [east, west, north, south, ground]

/-- Its top. -/
def top : V3 ℝ := ⟨0, 0, 1⟩

theorem raw_east : rawNormal east = ⟨2, 0, 2⟩ := by norm_num [rawNormal, east, Cube.face, crossR, subR]
theorem raw_west : rawNormal west = ⟨-2, 0, 2⟩ := by norm_num [rawNormal, west, Cube.face, crossR, subR]
theorem raw_north : rawNormal north = ⟨0, 2, 2⟩ := by norm_num [rawNormal, north, Cube.face, crossR, subR]
theorem raw_south : rawNormal south = ⟨0, -2, 2⟩ := by norm_num [rawNormal, south, Cube.face, crossR, subR]

section
variable [RealText] [Platform]

theorem at_top {p : BrushPlane ℝ} (hp : p ∈ planes) (h : OnPlane p top) :
    p = east ∨ p = west ∨ p = north ∨ p = south := by
  simp only [planes, List.mem_cons, List.not_mem_nil, or_false] at hp
  rcases hp with rfl | rfl | rfl | rfl | rfl
  · simp
  · simp
  · simp
  · simp
  · unfold ground at h
    rw [Cube.on_zn] at h
    norm_num [top] at h

theorem lengths {p : BrushPlane ℝ} (hp : p = east ∨ p = west ∨ p = north ∨ p = south) :
    lenR (rawNormal p) = Real.sqrt 8 := by
  rcases hp with rfl | rfl | rfl | rfl <;> rw [lenR] <;>
    simp only [raw_east, raw_west, raw_north, raw_south, dotR] <;> norm_num

/-- The normal at the top of a side: that of three different sides. -/
theorem top_normal (textures : TextureInfo) (entity : Entity ℝ) {order : List (BrushPlane ℝ)}
    (horder : ∀ p, p ∈ order ↔ p ∈ planes)
    (hphong : entity.properties (str! "_phong") = some (str! "1")) (hangle : phongAngle entity = none)
    {f : BrushPlane ℝ} (hf : f = east ∨ f = west ∨ f = north ∨ f = south) {geo : PlaneGeo ℝ}
    (h : buildPlane textures entity order f = .ok geo) {v : Vertex ℝ} (hv : v ∈ geo.vertices) (ht : v.pos = top) :
    ∃ p q : BrushPlane ℝ, (p = east ∨ p = west ∨ p = north ∨ p = south) ∧
      (q = east ∨ q = west ∨ q = north ∨ q = south) ∧ detR (rawNormal f) (rawNormal p) (rawNormal q) ≠ 0 ∧
      ∃ k : ℝ, 0 < k ∧ v.normal = smulR k (addR (rawNormal f) (addR (rawNormal p) (rawNormal q))) := by
  obtain ⟨p, hp, q, hq, hd, h1, h2, hn, hl⟩ := C29_phong _ _ _ _ _ h hphong v hv
  rw [ht] at h1 h2
  have hp' := at_top ((horder p).1 hp) h1
  have hq' := at_top ((horder q).1 hq) h2
  refine ⟨p, q, hp', hq', hd, ?_⟩
  set s := sumR (unitR (rawNormal f) :: smoothed (phongAngle entity) (unitR (rawNormal f))
    [unitR (rawNormal p), unitR (rawNormal q)]) with hs
  have e : s = smulR (1 / Real.sqrt 8) (addR (rawNormal f) (addR (rawNormal p) (rawNormal q))) := by
    rw [hs, hangle]
    simp only [smoothed, unitR, lengths hf, lengths hp', lengths hq', List.filter_true]
    simp only [sumR, smulR, addR, List.map_cons, List.map_nil, List.sum_cons, List.sum_nil]
    apply V3.ext' <;> simp only [] <;> ring
  have hpos : 0 < lenR s := by
    refine lenR_pos fun e0 => ?_
    rw [hn, e0] at hl
    simp [unitR, lenR, smulR, dotR, zeroR] at hl
  refine ⟨1 / lenR s * (1 / Real.sqrt 8), by positivity, ?_⟩
  have e2 : unitR s = smulR (1 / lenR s) (smulR (1 / Real.sqrt 8)
      (addR (rawNormal f) (addR (rawNormal p) (rawNormal q)))) := by
    rw [← e]; rfl
  rw [hn, e2]
  apply V3.ext' <;> simp only [smulR] <;> ring

end
end Pyramid

section
open Pyramid
variable [RealText] [Platform]

/-- C130: where more faces meet there are seams, whatever the order of faces: at the top of this pyramid the sides do not
all have the same normal, although everything is to be smoothed. -/
theorem C130_four_faces (textures : TextureInfo) (entity : Entity ℝ) (order : List (BrushPlane ℝ))
    (horder : ∀ p, p ∈ order ↔ p ∈ planes)
    (hphong : entity.properties (str! "_phong") = some (str! "1")) (hangle : phongAngle entity = none) :
    (∀ f ∈ [east, west, north, south], ∃ geo, buildPlane textures entity order f = .ok geo ∧
      ∃ v ∈ geo.vertices, v.pos = top) ∧
    ¬ ∃ n : V3 ℝ, ∀ f ∈ [east, west, north, south], ∀ geo, buildPlane textures entity order f = .ok geo →
      ∀ v ∈ geo.vertices, v.pos = top → v.normal = n := by
  have hex : ∀ f, (f = east ∨ f = west ∨ f = north ∨ f = south) →
      ∃ geo, buildPlane textures entity order f = .ok geo ∧ ∃ v ∈ geo.vertices, v.pos = top := by
    intro f hf
    obtain ⟨geo, h⟩ := buildPlane_real textures entity order f
    have hmem : top ∈ geo.vertices.map (·.pos) := by
      rw [(C20_exact_corners _ _ _ _ _ h).2]
      have hw : ∀ p ∈ order, WithinR (1 / 1000) p top := by
        intro p hp
        rw [horder] at hp
        simp only [planes, List.mem_cons, List.not_mem_nil, or_false] at hp
        rcases hp with rfl | rfl | rfl | rfl | rfl
        · rw [WithinR, lengths (by simp), raw_east]
          norm_num [dotR, subR, top, east, Cube.face]
        · rw [WithinR, lengths (by simp), raw_west]
          norm_num [dotR, subR, top, west, Cube.face]
        · rw [WithinR, lengths (by simp), raw_north]
          norm_num [dotR, subR, top, north, Cube.face]
        · rw [WithinR, lengths (by simp), raw_south]
          norm_num [dotR, subR, top, south, Cube.face]
        · unfold ground
          rw [Cube.in_zn]
          norm_num [top]
      have hdet : ∀ p q r : BrushPlane ℝ, (p = east ∨ p = west ∨ p = north ∨ p = south) →
          (q = east ∨ q = west ∨ q = north ∨ q = south) → (r = east ∨ r = west ∨ r = north ∨ r = south) →
          detR (rawNormal p) (rawNormal q) (rawNormal r) = 16 → 1 / 1000 ≤ unitDet p q r := by
        intro p q r hp hq hr hd
        unfold unitDet
        rw [hd, lengths hp, lengths hq, lengths hr]
        have h8 : Real.sqrt 8 * Real.sqrt 8 = 8 := Real.mul_self_sqrt (by norm_num)
        have h3 : Real.sqrt 8 ≤ 3 := by
          rw [Real.sqrt_le_left (by norm_num)]; norm_num
        have h0 : 0 < Real.sqrt 8 := Real.sqrt_pos.2 (by norm_num)
        rw [h8, div_le_div_iff₀ (by norm_num) (by positivity)]
        linarith
      have hon : ∀ p : BrushPlane ℝ, (p = east ∨ p = west ∨ p = north ∨ p = south) → OnPlane p top := by
        intro p hp
        rcases hp with rfl | rfl | rfl | rfl <;>
          simp only [OnPlane, raw_east, raw_west, raw_north, raw_south] <;>
          norm_num [dotR, subR, top, east, west, north, south, Cube.face]
      have hm : ∀ p : BrushPlane ℝ, (p = east ∨ p = west ∨ p = north ∨ p = south) → p ∈ order := by
        intro p hp
        rw [horder]
        rcases hp with rfl | rfl | rfl | rfl <;> simp [planes]
      refine ⟨?_, hw⟩
      have hpair : ∃ p q : BrushPlane ℝ, (p = east ∨ p = west ∨ p = north ∨ p = south) ∧
          (q = east ∨ q = west ∨ q = north ∨ q = south) ∧ detR (rawNormal f) (rawNormal p) (rawNormal q) = 16 := by
        rcases hf with rfl | rfl | rfl | rfl
        · exact ⟨north, west, by simp, by simp, by rw [raw_east, raw_north, raw_west]; norm_num [detR, dotR, crossR]⟩
        · exact ⟨south, east, by simp, by simp, by rw [raw_east, raw_south, raw_west]; norm_num [detR, dotR, crossR]⟩
        · exact ⟨west, south, by simp, by simp, by rw [raw_north, raw_south, raw_west]; norm_num [detR, dotR, crossR]⟩
        · exact ⟨east, north, by simp, by simp, by rw [raw_east, raw_south, raw_north]; norm_num [detR, dotR, crossR]⟩
      obtain ⟨p, q, hp, hq, hd⟩ := hpair
      exact ⟨p, hm p hp, q, hm q hq, hdet f p q hf hp hq hd, hon f hf, hon p hp, hon q hq⟩
    obtain ⟨v, hv, hpos⟩ := List.mem_map.1 hmem
    exact ⟨geo, h, v, hv, hpos⟩
  refine ⟨fun f hf => hex f (by simpa using hf), ?_⟩
  rintro ⟨n, hn⟩
  have key : ∀ f, (f = east ∨ f = west ∨ f = north ∨ f = south) → ∃ p q : BrushPlane ℝ,
      (p = east ∨ p = west ∨ p = north ∨ p = south) ∧ (q = east ∨ q = west ∨ q = north ∨ q = south) ∧
      detR (rawNormal f) (rawNormal p) (rawNormal q) ≠ 0 ∧
      ∃ k : ℝ, 0 < k ∧ n = smulR k (addR (rawNormal f) (addR (rawNormal p) (rawNormal q))) := by
    intro f hf
    obtain ⟨geo, h, v, hv, ht⟩ := hex f hf
    rw [← hn f (by simpa using hf) geo h v hv ht]
    exact top_normal textures entity horder hphong hangle hf h hv ht
  have hE : 0 ≤ n.x ∧ (n.x ≠ 0 ∨ n.y ≠ 0) := by
    obtain ⟨p, q, hp, hq, hd, k, hk, rfl⟩ := key east (by simp)
    rcases hp with rfl | rfl | rfl | rfl <;> rcases hq with rfl | rfl | rfl | rfl <;>
      simp only [raw_east, raw_west, raw_north, raw_south, detR, dotR, crossR, smulR, addR] at hd ⊢ <;>
      first
        | (exfalso; revert hd; norm_num; done)
        | (norm_num; first | positivity | linarith | (constructor <;> positivity))
  have hW : n.x ≤ 0 := by
    obtain ⟨p, q, hp, hq, hd, k, hk, rfl⟩ := key west (by simp)
    rcases hp with rfl | rfl | rfl | rfl <;> rcases hq with rfl | rfl | rfl | rfl <;>
      simp only [raw_east, raw_west, raw_north, raw_south, detR, dotR, crossR, smulR, addR] at hd ⊢ <;>
      first
        | (exfalso; revert hd; norm_num; done)
        | (norm_num; done)
        | (norm_num; linarith)
  have hN : 0 ≤ n.y := by
    obtain ⟨p, q, hp, hq, hd, k, hk, rfl⟩ := key north (by simp)
    rcases hp with rfl | rfl | rfl | rfl <;> rcases hq with rfl | rfl | rfl | rfl <;>
      simp only [raw_east, raw_west, raw_north, raw_south, detR, dotR, crossR, smulR, addR] at hd ⊢ <;>
      first
        | (exfalso; revert hd; norm_num; done)
        | (norm_num; done)
        | (norm_num; linarith)
  have hS : n.y ≤ 0 := by
    obtain ⟨p, q, hp, hq, hd, k, hk, rfl⟩ := key south (by simp)
    rcases hp with rfl | rfl | rfl | rfl <;> rcases hq with rfl | rfl | rfl | rfl <;>
      simp only [raw_east, raw_west, raw_north, raw_south, detR, dotR, crossR, smulR, addR] at hd ⊢ <;>
      first
        | (exfalso; revert hd; norm_num; done)
        | (norm_num; done)
        | (norm_num; linarith)
  rcases hE.2 with h | h
  · exact h (le_antisymm hW hE.1)
  · exact h (le_antisymm hS hN)

/-- An entity whose corners are to be smoothed. -/
def Pyramid.smooth : Entity ℝ := ⟨fun k => if k = str! "_phong" then some (str! "1") else none, []⟩

/-- C130 for such an entity: of the vertices at the top of the pyramid two have different normals. -/
example (textures : TextureInfo) : ¬ ∃ n : V3 ℝ, ∀ f ∈ [east, west, north, south], ∀ geo,
    buildPlane textures Pyramid.smooth planes f = .ok geo → ∀ v ∈ geo.vertices, v.pos = top → v.normal = n :=
  (C130_four_faces textures Pyramid.smooth planes (fun _ => Iff.rfl) rfl rfl).2

end
end Quarch
