import Verif.Props.Watertight
/-
C78 for the unit cube.
-/
set_option linter.unusedSectionVars false
set_option linter.unusedSimpArgs false
set_option linter.unusedTactic false
set_option linter.unnecessarySeqFocus false
namespace Quarch.Cube
open Spec Geo

section
variable [RealText] [Platform]

theorem mem_planes {p : BrushPlane ℝ} (h : p ∈ planes) :
    p = xp ∨ p = xn ∨ p = yp ∨ p = yn ∨ p = zp ∨ p = zn := by
  simpa [planes] using h

/-- The unit normals are exactly along the axes. -/
theorem det_cases {p q r : BrushPlane ℝ} (hp : p ∈ planes) (hq : q ∈ planes) (hr : r ∈ planes) :
    unitDet p q r = 0 ∨ unitDet p q r = 1 ∨ unitDet p q r = -1 := by
  unfold unitDet
  rcases mem_planes hp with rfl | rfl | rfl | rfl | rfl | rfl <;>
    rcases mem_planes hq with rfl | rfl | rfl | rfl | rfl | rfl <;>
      rcases mem_planes hr with rfl | rfl | rfl | rfl | rfl | rfl <;>
        simp [raw_xp, raw_xn, raw_yp, raw_yn, raw_zp, raw_zn, detR, dotR, crossR, lenR]

/-- Three faces with independent normals meet in a point with coordinates 0 and 1. -/
theorem meet {p q r : BrushPlane ℝ} (hp : p ∈ planes) (hq : q ∈ planes) (hr : r ∈ planes) (hd : unitDet p q r ≠ 0)
    {x : V3 ℝ} (h1 : OnPlane p x) (h2 : OnPlane q x) (h3 : OnPlane r x) :
    (x.x = 0 ∨ x.x = 1) ∧ (x.y = 0 ∨ x.y = 1) ∧ (x.z = 0 ∨ x.z = 1) := by
  unfold unitDet at hd
  rcases mem_planes hp with rfl | rfl | rfl | rfl | rfl | rfl <;>
    rcases mem_planes hq with rfl | rfl | rfl | rfl | rfl | rfl <;>
      rcases mem_planes hr with rfl | rfl | rfl | rfl | rfl | rfl <;>
        simp only [on_xp, on_xn, on_yp, on_yn, on_zp, on_zn] at h1 h2 h3 <;>
        first
          | (simp [raw_xp, raw_xn, raw_yp, raw_yn, raw_zp, raw_zn, detR, dotR, crossR, lenR] at hd; done)
          | simp [h1, h2, h3]

/-- The cube meets the conditions of C78. -/
theorem proper : ProperBrush planes where
  points := by
    intro p hp
    unfold NonDegenerate
    rcases mem_planes hp with rfl | rfl | rfl | rfl | rfl | rfl <;>
      simp [raw_xp, raw_xn, raw_yp, raw_yn, raw_zp, raw_zn, zeroR]
  spread := by
    intro p hp q hq r hr
    rcases det_cases hp hq hr with h | h | h <;> rw [h] <;> norm_num
  clear := by
    intro p hp q hq r hr hd x h1 h2 h3 _
    obtain ⟨a, b, c⟩ := meet hp hq hr hd h1 h2 h3
    rw [inside]
    rcases a with a | a <;> rcases b with b | b <;> rcases c with c | c <;> rw [a, b, c] <;> norm_num
  solid := by
    refine ⟨⟨1 / 2, 1 / 2, 1 / 2⟩, ?_⟩
    intro p hp
    rcases mem_planes hp with rfl | rfl | rfl | rfl | rfl | rfl <;>
      simp only [raw_xp, raw_xn, raw_yp, raw_yn, raw_zp, raw_zn] <;>
      simp only [xp, xn, yp, yn, zp, zn, face, dotR, subR] <;> norm_num
  bounded := by
    refine ⟨1, fun x hx => ?_⟩
    rw [inside] at hx
    obtain ⟨a, b, c, d, e, f⟩ := hx
    refine ⟨abs_le.2 ⟨?_, ?_⟩, abs_le.2 ⟨?_, ?_⟩, abs_le.2 ⟨?_, ?_⟩⟩ <;> linarith

theorem distinct : planes.Pairwise fun p q => ¬ ∀ x, OnPlane p x ↔ OnPlane q x := by
  have key : ∀ (p q : BrushPlane ℝ) (x : V3 ℝ), OnPlane p x → ¬ OnPlane q x → ¬ ∀ x, OnPlane p x ↔ OnPlane q x :=
    fun p q x h1 h2 h => h2 ((h x).1 h1)
  unfold planes
  simp only [List.pairwise_cons, List.mem_cons, List.not_mem_nil, or_false, forall_eq_or_imp, forall_eq,
    List.Pairwise.nil, and_true, false_imp_iff, implies_true]
  refine ⟨⟨?_, ?_, ?_, ?_, ?_⟩, ⟨?_, ?_, ?_, ?_⟩, ⟨?_, ?_, ?_⟩, ⟨?_, ?_⟩, ?_⟩
  all_goals
    first
      | (apply key _ _ (⟨1, 1 / 2, 1 / 2⟩ : V3 ℝ) <;> simp only [on_xp, on_xn, on_yp, on_yn, on_zp, on_zn] <;> norm_num; done)
      | (apply key _ _ (⟨0, 1 / 2, 1 / 2⟩ : V3 ℝ) <;> simp only [on_xp, on_xn, on_yp, on_yn, on_zp, on_zn] <;> norm_num; done)
      | (apply key _ _ (⟨1 / 2, 1, 1 / 2⟩ : V3 ℝ) <;> simp only [on_xp, on_xn, on_yp, on_yn, on_zp, on_zn] <;> norm_num; done)
      | (apply key _ _ (⟨1 / 2, 0, 1 / 2⟩ : V3 ℝ) <;> simp only [on_xp, on_xn, on_yp, on_yn, on_zp, on_zn] <;> norm_num; done)
      | (apply key _ _ (⟨1 / 2, 1 / 2, 1⟩ : V3 ℝ) <;> simp only [on_xp, on_xn, on_yp, on_yn, on_zp, on_zn] <;> norm_num; done)

/-- The cube has triangles, so C78 says something: the first side of the first triangle of the face `x = 1` is
there once in this and once in the opposite direction. -/
example (textures : TextureInfo) (entity : Entity ℝ) : ∃ geo, buildBrush textures entity ⟨planes⟩ = .ok geo ∧
    ∃ a b, Side geo 0 0 0 a b ∧ (∃ i t s, Side geo i t s b a) ∧
      ∀ i t s, Side geo i t s a b → i = 0 ∧ t = 0 ∧ s = 0 := by
  obtain ⟨pgs, hp⟩ := mapOut_isOk.2 fun (plane : BrushPlane ℝ) (_ : plane ∈ planes) =>
    buildPlane_real textures entity planes plane
  have h : buildBrush textures entity ⟨planes⟩ = .ok ⟨mean (pgs.map (·.center)), pgs⟩ := by
    unfold buildBrush; simp only []; rw [hp]; rfl
  have hf : (BrushGeo.mk (mean (pgs.map (·.center))) pgs).planes.length = 6 := (brush_face h).1
  have hg : pgs[0]? = some (pgs[0]'(by simp at hf; omega)) := List.getElem?_eq_getElem _
  have hb := (brush_face h).2 0 xp _ rfl hg
  have h4 := four _ _ _ hb
  generalize pgs[0]'(by simp at hf; omega) = fc at *
  have e0 : (fc.vertices.map (·.pos))[0]? = some ((fc.vertices.map (·.pos))[0]'(by simp; omega)) :=
    List.getElem?_eq_getElem _
  have e1 : (fc.vertices.map (·.pos))[1]? = some ((fc.vertices.map (·.pos))[1]'(by simp; omega)) :=
    List.getElem?_eq_getElem _
  have hs := (side_iff h 0 0 0 _ _).2 ⟨xp, fc, 0, 1, rfl, hg, hb, .first 0 (by omega), e0, e1⟩
  refine ⟨_, h, _, _, hs, C78_watertight _ _ _ _ h proper _ _ _ _ _ hs, fun i t s hs' => ?_⟩
  exact C78_once _ _ _ _ h proper distinct _ _ _ _ _ _ _ _ hs' hs

end
end Quarch.Cube
