import Verif.Props.Real
import Mathlib.Analysis.SpecialFunctions.Trigonometric.Inverse
import Mathlib.Analysis.Real.Pi.Bounds
/-
C29 (normals) and C30 (texture coordinates) in exact arithmetic.
-/
set_option linter.unusedSectionVars false
namespace Quarch
open Spec Geo

section
variable [RealText] [Platform]

/-- Vector of length one in the direction of `a`. -/
noncomputable def unitR (a : V3 ℝ) : V3 ℝ := smulR (1 / lenR a) a

theorem normalize_unitR (a : V3 ℝ) : Arith.normalize a = unitR a := by
  rw [normalize_eq]
  simp [unitR, smulR, div_eq_inv_mul]

theorem lenR_unitR {a : V3 ℝ} (h : a ≠ zeroR) : lenR (unitR a) = 1 := by
  rw [← normalize_unitR]; exact lenR_normalize h

/-- C29: without `_phong` = `1` every vertex has the unit normal of its face. -/
theorem C29_flat (textures : TextureInfo) (entity : Entity ℝ) (planes : List (BrushPlane ℝ))
    (plane : BrushPlane ℝ) (geo : PlaneGeo ℝ) (h : buildPlane textures entity planes plane = .ok geo)
    (hphong : entity.properties (str! "_phong") ≠ some (str! "1")) (v : Vertex ℝ) (hv : v ∈ geo.vertices) :
    v.normal = unitR (rawNormal plane) ∧ lenR v.normal = 1 := by
  obtain ⟨w, hw, rfl⟩ := buildPlane_vertex h hv
  have hp : isPhong entity = false := by
    unfold isPhong
    exact beq_false_of_ne hphong
  obtain ⟨p1, _, p2, _, hm, hn⟩ := hw.src
  rw [hp]
  simp only [finishNormal, Bool.false_eq_true, if_false]
  unfold vertexNormal at hn
  rw [hp] at hn
  simp only [Bool.false_eq_true, if_false] at hn
  have e : w.normal = unitR (rawNormal plane) := by rw [hn, ← normalize_unitR]; rfl
  refine ⟨e, ?_⟩
  have hd := (meet_real.1 hm).1
  have : NonDegenerate plane := (unitDet_ne_zero (p0 := plane) (p1 := p1) (p2 := p2)
    (fun e0 => by rw [e0] at hd; norm_num at hd)).1
  rw [e]
  exact lenR_unitR this

/-- The normals of adjacent faces that take part in smoothing: all of them without an angle, otherwise those
whose cosine with the normal of the face exceeds that of the angle (plus a hundredth of a degree). -/
noncomputable def smoothed (angle : Option ℝ) (n : V3 ℝ) (adjacent : List (V3 ℝ)) : List (V3 ℝ) :=
  open Classical in
  adjacent.filter fun m => match angle with
    | none => true
    | some a => decide (Real.cos ((a + 1 / 100) * (174533 / 10000000)) < dotR n m)

/-- The phong angle of an entity: none if missing or not a number. -/
def phongAngle (entity : Entity ℝ) : Option ℝ := (entity.properties (str! "_phong_angle")).bind RealText.parse

theorem lenR_one_dot {a : V3 ℝ} (h : lenR a = 1) : dotR a a = 1 := by
  have := lenR_sq a; rw [h] at this; linarith

theorem sumR_filter2 (f : V3 ℝ → Bool) (n0 n1 n2 : V3 ℝ) : ∃ a b : ℝ,
    sumR (n0 :: [n1, n2].filter f) = addR n0 (addR (smulR a n1) (smulR b n2)) := by
  rw [List.filter_cons, List.filter_cons, List.filter_nil]
  cases f n1 <;> cases f n2
  · exact ⟨0, 0, by simp [sumR, addR, smulR]⟩
  · exact ⟨0, 1, by simp [sumR, addR, smulR]⟩
  · exact ⟨1, 0, by simp [sumR, addR, smulR]⟩
  · exact ⟨1, 1, by simp [sumR, addR, smulR]⟩

/-- C29: with `_phong` = `1` the normal of a vertex is the normalised sum of the face normal and those
normals of the two adjacent faces meeting there that are within the phong angle, and has length one. -/
theorem C29_phong (textures : TextureInfo) (entity : Entity ℝ) (planes : List (BrushPlane ℝ))
    (plane : BrushPlane ℝ) (geo : PlaneGeo ℝ) (h : buildPlane textures entity planes plane = .ok geo)
    (hphong : entity.properties (str! "_phong") = some (str! "1")) (v : Vertex ℝ) (hv : v ∈ geo.vertices) :
    ∃ p1 ∈ planes, ∃ p2 ∈ planes, detR (rawNormal plane) (rawNormal p1) (rawNormal p2) ≠ 0 ∧
      OnPlane p1 v.pos ∧ OnPlane p2 v.pos ∧
      v.normal = unitR (sumR (unitR (rawNormal plane) ::
        smoothed (phongAngle entity) (unitR (rawNormal plane)) [unitR (rawNormal p1), unitR (rawNormal p2)])) ∧
      lenR v.normal = 1 := by
  obtain ⟨w, hw, rfl⟩ := buildPlane_vertex h hv
  have hp : isPhong entity = true := by
    unfold isPhong Entity.getProperty Map.get?
    simpa using hphong
  obtain ⟨p1, hp1, p2, hp2, hm, hn⟩ := hw.src
  obtain ⟨hd, h0, h1, h2⟩ := meet_real.1 hm
  have hne : unitDet plane p1 p2 ≠ 0 := fun e0 => by rw [e0] at hd; norm_num at hd
  have hraw : detR (rawNormal plane) (rawNormal p1) (rawNormal p2) ≠ 0 := fun e => hne (by
    unfold unitDet; rw [e, zero_div])
  have hdn := detR_faceNormal plane p1 p2
  have hfn : ∀ p : BrushPlane ℝ, p.normal = unitR (rawNormal p) := fun p => by rw [← normalize_unitR]; rfl
  have hfn' : ∀ p : BrushPlane ℝ, faceNormal p = unitR (rawNormal p) := hfn
  rw [hfn', hfn', hfn'] at hdn
  -- the sum before normalising
  have key : ∃ s : V3 ℝ, s = sumR (unitR (rawNormal plane) ::
        smoothed (phongAngle entity) (unitR (rawNormal plane)) [unitR (rawNormal p1), unitR (rawNormal p2)]) ∧
      w.normal = unitR s ∧ s ≠ zeroR := by
    refine ⟨_, rfl, ?_, ?_⟩
    · rw [hn]
      unfold vertexNormal
      rw [hp, if_pos rfl]
      unfold phongNormal
      simp only [hfn, ← normalize_unitR (sumR _)]
      rw [show (entity.getProperty (str! "_phong_angle")).bind (Arith.parse (F := ℝ)) = phongAngle entity from rfl]
      cases ha : phongAngle entity with
      | none =>
        simp only []
        congr 1
        simp [smoothed, sumR, addR]
        refine ⟨?_, ?_, ?_⟩ <;> ring
      | some a =>
        simp only []
        congr 1
        simp only [ar_lt, ar_dot]
        have hcos : Arith.cos (Arith.mul (Arith.add a Arith.hundredth) Arith.oneDegree) =
          Real.cos ((a + 1 / 100) * (174533 / 10000000)) := rfl
        rw [hcos]
        unfold smoothed
        by_cases c1 : Real.cos ((a + 1 / 100) * (174533 / 10000000)) <
            dotR (unitR (rawNormal plane)) (unitR (rawNormal p1)) <;>
          by_cases c2 : Real.cos ((a + 1 / 100) * (174533 / 10000000)) <
            dotR (unitR (rawNormal plane)) (unitR (rawNormal p2)) <;>
          simp only [List.filter_cons, List.filter_nil, c1, c2, decide_true, decide_false, if_true, if_false,
            Bool.false_eq_true] <;>
          (simp [sumR, addR]; try (refine ⟨?_, ?_, ?_⟩ <;> ring))
    · intro e
      apply hne
      rw [← hdn]
      have hsub : ∃ a b : ℝ, sumR (unitR (rawNormal plane) ::
        smoothed (phongAngle entity) (unitR (rawNormal plane)) [unitR (rawNormal p1), unitR (rawNormal p2)]) =
          addR (unitR (rawNormal plane)) (addR (smulR a (unitR (rawNormal p1))) (smulR b (unitR (rawNormal p2)))) := by
        exact sumR_filter2 _ _ _ _
      obtain ⟨a, b, hab⟩ := hsub
      rw [hab] at e
      generalize unitR (rawNormal plane) = n0 at *
      generalize unitR (rawNormal p1) = n1 at *
      generalize unitR (rawNormal p2) = n2 at *
      simp only [addR, smulR, zeroR] at e
      injection e with e1 e2 e3
      have ex : n0.x = -(a * n1.x + b * n2.x) := by linarith
      have ey : n0.y = -(a * n1.y + b * n2.y) := by linarith
      have ez : n0.z = -(a * n1.z + b * n2.z) := by linarith
      simp only [detR, dotR, crossR, ex, ey, ez]
      ring
  obtain ⟨s, hs, hws, hs0⟩ := key
  rw [hp]
  have hunit : lenR w.normal = 1 := by rw [hws]; exact lenR_unitR hs0
  have hfin : Arith.normalize w.normal = w.normal := normalize_of_unit hunit
  refine ⟨p1, hp1, p2, hp2, hraw, ?_, ?_, ?_, ?_⟩
  · simp only [recentre_real]; exact h1
  · simp only [recentre_real]; exact h2
  · simp only [finishNormal, if_true, hfin]; rw [hws, hs]
  · simp only [finishNormal, if_true, hfin]; exact hunit

/-- C29: for angles up to 179 degrees the condition on the cosine says that the angle between the normals is
less than the phong angle plus a hundredth of a degree (with the constant `ONE_DEGREE` of the program). -/
theorem spec_C29_angle (a : ℝ) (h0 : 0 ≤ a) (h1 : a ≤ 179) (n m : V3 ℝ) (hn : lenR n = 1) (hm : lenR m = 1) :
    m ∈ smoothed (some a) n [m] ↔ Real.arccos (dotR n m) < (a + 1 / 100) * (174533 / 10000000) := by
  have hd : -1 ≤ dotR n m ∧ dotR n m ≤ 1 := by
    have e1 := lenR_one_dot hn
    have e2 := lenR_one_dot hm
    simp only [dotR] at *
    constructor
    · nlinarith [sq_nonneg (n.x + m.x), sq_nonneg (n.y + m.y), sq_nonneg (n.z + m.z)]
    · nlinarith [sq_nonneg (n.x - m.x), sq_nonneg (n.y - m.y), sq_nonneg (n.z - m.z)]
  have hpi := Real.pi_gt_d2
  have hle : (a + 1 / 100) * (174533 / 10000000) ≤ Real.pi := by nlinarith
  have hge : 0 ≤ (a + 1 / 100) * (174533 / 10000000) := by positivity
  simp only [smoothed, List.mem_filter, List.mem_singleton, true_and, decide_eq_true_eq]
  rw [← Real.arccos_cos hge hle]
  conv_lhs => rw [Real.arccos_cos hge hle]
  exact (Real.strictAntiOn_arccos.lt_iff_gt ⟨hd.1, hd.2⟩ ⟨Real.neg_one_le_cos _, Real.cos_le_one _⟩).symm

end
end Quarch
