import Verif.Spec.Real
import Verif.Proofs.Geo
import Mathlib.Tactic.Ring
import Mathlib.Tactic.FieldSimp
import Mathlib.Tactic.Linarith
import Mathlib.Tactic.Positivity
import Mathlib.Tactic.NormNum
/-
Lemmas about the geometry builder in exact arithmetic.
-/
set_option linter.unusedSectionVars false
namespace Quarch
open Spec Geo

@[ext] theorem V3.ext' {F : Type} {a b : V3 F} (hx : a.x = b.x) (hy : a.y = b.y) (hz : a.z = b.z) : a = b := by
  cases a; cases b; simp_all

section
variable [RealText]

@[simp] theorem ar_add (a b : ℝ) : Arith.add a b = a + b := rfl
@[simp] theorem ar_sub (a b : ℝ) : Arith.sub a b = a - b := rfl
@[simp] theorem ar_mul (a b : ℝ) : Arith.mul a b = a * b := rfl
@[simp] theorem ar_div (a b : ℝ) : Arith.div a b = a / b := rfl
@[simp] theorem ar_neg (a : ℝ) : Arith.neg a = -a := rfl
@[simp] theorem ar_abs (a : ℝ) : Arith.abs a = |a| := rfl
@[simp] theorem ar_zero : (Arith.zero : ℝ) = 0 := rfl
@[simp] theorem ar_one : (Arith.one : ℝ) = 1 := rfl
@[simp] theorem ar_eps : (Arith.cmpEpsilon : ℝ) = 1 / 1000 := rfl
@[simp] theorem ar_ofNat (n : Nat) : (Arith.ofNat n : ℝ) = n := rfl
@[simp] theorem ar_lt (a b : ℝ) : Arith.lt a b = true ↔ a < b := by
  show decide _ = true ↔ _; simp
@[simp] theorem ar_lt_false (a b : ℝ) : Arith.lt a b = false ↔ b ≤ a := by
  rw [← Bool.not_eq_true, ar_lt, not_lt]
@[simp] theorem ar_le (a b : ℝ) : Arith.le a b = true ↔ a ≤ b := by
  show decide _ = true ↔ _; simp
@[simp] theorem ar_eq (a b : ℝ) : Arith.eq a b = true ↔ a = b := by
  show decide _ = true ↔ _; simp
@[simp] theorem ar_dot (a b : V3 ℝ) : Arith.dot a b = dotR a b := rfl
@[simp] theorem ar_cross (a b : V3 ℝ) : Arith.cross a b = crossR a b := rfl
@[simp] theorem v3_add (a b : V3 ℝ) : V3.add a b = addR a b := rfl
@[simp] theorem v3_sub (a b : V3 ℝ) : V3.sub a b = subR a b := rfl
theorem v3_smul (a : V3 ℝ) (k : ℝ) : V3.smul a k = ⟨a.x * k, a.y * k, a.z * k⟩ := rfl
theorem v3_sdiv (a : V3 ℝ) (k : ℝ) : V3.sdiv a k = ⟨a.x / k, a.y / k, a.z / k⟩ := rfl
@[simp] theorem v3_zero : (V3.zero : V3 ℝ) = zeroR := rfl

instance : LawfulEq ℝ where
  symm a b h := by rw [ar_eq] at *; exact h.symm
  trans a b c h h' := by rw [ar_eq] at *; exact h.trans h'

@[simp] theorem v3_beq (a b : V3 ℝ) : V3.beq a b = true ↔ a = b := by
  unfold V3.beq
  simp only [Bool.and_eq_true, ar_eq]
  constructor
  · rintro ⟨⟨h1, h2⟩, h3⟩; exact V3.ext' h1 h2 h3
  · rintro rfl; simp

@[simp] theorem v3_beq_false (a b : V3 ℝ) : V3.beq a b = false ↔ a ≠ b := by
  rw [← Bool.not_eq_true, v3_beq]

theorem normalize_eq (a : V3 ℝ) : Arith.normalize a = ⟨a.x / lenR a, a.y / lenR a, a.z / lenR a⟩ := rfl

theorem lenR_nonneg (a : V3 ℝ) : 0 ≤ lenR a := Real.sqrt_nonneg _

theorem dotR_self_nonneg (a : V3 ℝ) : 0 ≤ dotR a a := by
  unfold dotR
  nlinarith [mul_self_nonneg a.x, mul_self_nonneg a.y, mul_self_nonneg a.z]

theorem lenR_sq (a : V3 ℝ) : lenR a * lenR a = dotR a a := Real.mul_self_sqrt (dotR_self_nonneg a)

theorem lenR_eq_zero {a : V3 ℝ} : lenR a = 0 ↔ a = zeroR := by
  constructor
  · intro h
    have h1 := lenR_sq a
    rw [h] at h1
    simp only [dotR] at h1
    have hx : a.x * a.x = 0 := by nlinarith [mul_self_nonneg a.x, mul_self_nonneg a.y, mul_self_nonneg a.z]
    have hy : a.y * a.y = 0 := by nlinarith [mul_self_nonneg a.x, mul_self_nonneg a.y, mul_self_nonneg a.z]
    have hz : a.z * a.z = 0 := by nlinarith [mul_self_nonneg a.x, mul_self_nonneg a.y, mul_self_nonneg a.z]
    exact V3.ext' (mul_self_eq_zero.1 hx) (mul_self_eq_zero.1 hy) (mul_self_eq_zero.1 hz)
  · rintro rfl; simp [lenR, dotR, zeroR]

theorem lenR_pos {a : V3 ℝ} (h : a ≠ zeroR) : 0 < lenR a :=
  lt_of_le_of_ne (lenR_nonneg a) fun e => h (lenR_eq_zero.1 e.symm)

/-- Normalising gives length one. -/
theorem lenR_normalize {a : V3 ℝ} (h : a ≠ zeroR) : lenR (Arith.normalize a) = 1 := by
  have hl := lenR_pos h
  have h1 : dotR (Arith.normalize a) (Arith.normalize a) = 1 := by
    rw [normalize_eq]
    simp only [dotR]
    have := lenR_sq a
    simp only [dotR] at this
    field_simp
    nlinarith [this]
  unfold lenR
  rw [h1, Real.sqrt_one]

theorem normalize_of_unit {a : V3 ℝ} (h : lenR a = 1) : Arith.normalize a = a := by
  rw [normalize_eq, h]; simp

theorem faceNormal_real (p : BrushPlane ℝ) : faceNormal p = smulR (1 / lenR (rawNormal p)) (rawNormal p) := by
  show Arith.normalize (rawNormal p) = _
  rw [normalize_eq]
  simp [smulR, div_eq_inv_mul]

theorem faceNormal_unit {p : BrushPlane ℝ} (h : NonDegenerate p) : lenR (faceNormal p) = 1 :=
  lenR_normalize h

theorem dot_faceNormal (p : BrushPlane ℝ) (x : V3 ℝ) :
    dotR (faceNormal p) x - faceDist p = dotR (rawNormal p) (subR x p.v0) / lenR (rawNormal p) := by
  unfold faceDist
  rw [ar_dot, faceNormal_real]
  simp only [dotR, smulR, subR]
  ring

theorem behind_real {p : BrushPlane ℝ} {x : V3 ℝ} : Behind p x ↔ WithinR (1 / 1000) p x := by
  unfold Behind WithinR
  simp only [ar_lt, ar_dot, ar_sub, ar_eps]
  rw [show dotR (faceNormal p) x - faceDist p = _ from dot_faceNormal p x]
  by_cases h : rawNormal p = zeroR
  · rw [h]
    simp [zeroR, dotR, lenR]
  · have hl := lenR_pos h
    constructor
    · intro hn
      by_contra hc
      have h1 : 1 / 1000 < dotR (rawNormal p) (subR x p.v0) / lenR (rawNormal p) := by
        rw [lt_div_iff₀ hl]; exact not_le.1 hc
      refine hn ⟨?_, h1⟩
      have h2 := dot_faceNormal p x
      linarith
    · rintro hw ⟨_, h1⟩
      rw [lt_div_iff₀ hl] at h1
      linarith

/-- Cramer's rule. -/
theorem cramer {n0 n1 n2 : V3 ℝ} (hd : detR n0 n1 n2 ≠ 0) (d0 d1 d2 : ℝ) (x : V3 ℝ) :
    x = V3.sdiv (V3.add (V3.add (V3.smul (Arith.cross n1 n2) d0) (V3.smul (Arith.cross n2 n0) d1))
        (V3.smul (Arith.cross n0 n1) d2)) (detR n0 n1 n2) ↔
      dotR n0 x = d0 ∧ dotR n1 x = d1 ∧ dotR n2 x = d2 := by
  constructor
  · rintro rfl
    simp only [v3_add, v3_smul, v3_sdiv, ar_cross, addR]
    obtain ⟨D, hD⟩ : ∃ D, D = detR n0 n1 n2 := ⟨_, rfl⟩
    rw [← hD] at hd ⊢
    simp only [detR, dotR, crossR] at *
    refine ⟨?_, ?_, ?_⟩ <;> field_simp <;> rw [hD] <;> ring
  · rintro ⟨rfl, rfl, rfl⟩
    simp only [v3_add, v3_smul, v3_sdiv, ar_cross, addR]
    simp only [detR, dotR, crossR] at *
    apply V3.ext'
    · show x.x = _; rw [eq_div_iff hd]; ring
    · show x.y = _; rw [eq_div_iff hd]; ring
    · show x.z = _; rw [eq_div_iff hd]; ring

theorem detR_faceNormal (p0 p1 p2 : BrushPlane ℝ) :
    detR (faceNormal p0) (faceNormal p1) (faceNormal p2) = unitDet p0 p1 p2 := by
  rw [faceNormal_real, faceNormal_real, faceNormal_real]
  unfold unitDet
  simp only [detR, dotR, crossR, smulR]
  simp only [div_eq_mul_inv, mul_inv]
  ring

theorem unitDet_ne_zero {p0 p1 p2 : BrushPlane ℝ} (h : unitDet p0 p1 p2 ≠ 0) :
    NonDegenerate p0 ∧ NonDegenerate p1 ∧ NonDegenerate p2 := by
  refine ⟨fun e => h ?_, fun e => h ?_, fun e => h ?_⟩ <;> unfold unitDet <;> rw [lenR_eq_zero.2 e] <;> simp

theorem onPlane_iff {p : BrushPlane ℝ} (h : NonDegenerate p) (x : V3 ℝ) :
    dotR (faceNormal p) x = faceDist p ↔ OnPlane p x := by
  have h1 := dot_faceNormal p x
  have hl := lenR_pos h
  unfold OnPlane
  constructor
  · intro e
    rw [e, sub_self, eq_comm, div_eq_zero_iff] at h1
    rcases h1 with h1 | h1
    · exact h1
    · linarith
  · intro e
    rw [e, zero_div] at h1
    linarith

/-- The computed intersection point is the point on all three planes. -/
theorem meet_real {p0 p1 p2 : BrushPlane ℝ} {x : V3 ℝ} :
    Meet p0 p1 p2 x ↔ 1 / 1000 ≤ unitDet p0 p1 p2 ∧ OnPlane p0 x ∧ OnPlane p1 x ∧ OnPlane p2 x := by
  unfold Meet
  simp only [ar_dot, ar_lt_false, ar_eps]
  have hdet : dotR (Arith.cross (faceNormal p0) (faceNormal p1)) (faceNormal p2) = unitDet p0 p1 p2 :=
    detR_faceNormal p0 p1 p2
  rw [hdet]
  constructor
  · rintro ⟨d, rfl, hd, e⟩
    have hne : unitDet p0 p1 p2 ≠ 0 := by
      intro e0; rw [e0] at hd; norm_num at hd
    obtain ⟨h0, h1, h2⟩ := unitDet_ne_zero hne
    rw [← detR_faceNormal] at e hne
    have := (cramer hne _ _ _ x).1 e
    exact ⟨hd, (onPlane_iff h0 x).1 this.1, (onPlane_iff h1 x).1 this.2.1, (onPlane_iff h2 x).1 this.2.2⟩
  · rintro ⟨hd, e0, e1, e2⟩
    have hne : unitDet p0 p1 p2 ≠ 0 := by
      intro e0; rw [e0] at hd; norm_num at hd
    obtain ⟨h0, h1, h2⟩ := unitDet_ne_zero hne
    refine ⟨_, rfl, hd, ?_⟩
    rw [← detR_faceNormal] at hne ⊢
    exact (cramer hne _ _ _ x).2 ⟨(onPlane_iff h0 x).2 e0, (onPlane_iff h1 x).2 e1, (onPlane_iff h2 x).2 e2⟩

theorem unitDet_swap (p0 p1 p2 : BrushPlane ℝ) : unitDet p0 p2 p1 = - unitDet p0 p1 p2 := by
  unfold unitDet
  rw [← neg_div, show lenR (rawNormal p0) * lenR (rawNormal p2) * lenR (rawNormal p1) =
    lenR (rawNormal p0) * lenR (rawNormal p1) * lenR (rawNormal p2) by ring]
  congr 1
  simp only [detR, dotR, crossR]; ring

theorem unitDet_rotate (p0 p1 p2 : BrushPlane ℝ) : unitDet p1 p2 p0 = unitDet p0 p1 p2 := by
  unfold unitDet
  rw [show lenR (rawNormal p1) * lenR (rawNormal p2) * lenR (rawNormal p0) =
    lenR (rawNormal p0) * lenR (rawNormal p1) * lenR (rawNormal p2) by ring]
  congr 1
  simp only [detR, dotR, crossR]; ring

theorem recentre_real (c v : V3 ℝ) : recentre c v = v := by
  unfold recentre
  simp [addR, subR]

theorem le_or3 (a b c : ℝ) : (b ≤ a ∧ c ≤ a) ∨ (a ≤ b ∧ c ≤ b) ∨ (a ≤ c ∧ b ≤ c) := by
  rcases le_total a b with h1 | h1 <;> rcases le_total b c with h2 | h2 <;> rcases le_total a c with h3 | h3 <;>
    first
      | exact .inl ⟨by linarith, by linarith⟩
      | exact .inr (.inl ⟨by linarith, by linarith⟩)
      | exact .inr (.inr ⟨by linarith, by linarith⟩)

theorem vertexTangent_real (p : BrushPlane ℝ) : ∃ t, vertexTangent p = .ok t := by
  unfold vertexTangent
  split
  · unfold standardTangent
    simp only [Bool.and_eq_true, ar_le]
    rcases le_or3 (Arith.abs (Arith.dot p.normal upVector)) (Arith.abs (Arith.dot p.normal rightVector))
      (Arith.abs (Arith.dot p.normal forwardVector)) with h | h | h
    · rw [if_pos h]; exact ⟨_, rfl⟩
    · split
      · exact ⟨_, rfl⟩
      · rename_i hh
        rw [if_pos h] at hh
        split at hh <;> cases hh
    · split
      · exact ⟨_, rfl⟩
      · rename_i hh
        rw [if_pos h] at hh
        split at hh
        · cases hh
        · split at hh <;> cases hh
  · exact ⟨_, rfl⟩

theorem vertexUV_real (x : V3 ℝ) (p : BrushPlane ℝ) (t : Texture) : ∃ uv, vertexUV x p t = .ok uv := by
  unfold vertexUV
  split
  · unfold standardUV
    simp only [Bool.and_eq_true, ar_le]
    rcases le_or3 (Arith.abs (Arith.dot p.normal upVector)) (Arith.abs (Arith.dot p.normal rightVector))
      (Arith.abs (Arith.dot p.normal forwardVector)) with h | h | h
    · rw [if_pos h]; exact ⟨_, rfl⟩
    · split
      · exact ⟨_, rfl⟩
      · rename_i hh
        rw [if_pos h] at hh
        split at hh <;> cases hh
    · split
      · exact ⟨_, rfl⟩
      · rename_i hh
        rw [if_pos h] at hh
        split at hh
        · cases hh
        · split at hh <;> cases hh
  · exact ⟨_, rfl⟩

theorem buildPlaneVertex_real (texture : Option Texture) (entity : Entity ℝ) (planes : List (BrushPlane ℝ))
    (plane p1 p2 : BrushPlane ℝ) : ∃ v, buildPlaneVertex texture entity planes plane p1 p2 = .ok v := by
  unfold buildPlaneVertex
  split
  · split
    · obtain ⟨t, ht⟩ := vertexTangent_real plane
      simp only [ht, Outcome.ok_bind]
      cases texture with
      | none => exact ⟨_, rfl⟩
      | some tx =>
        obtain ⟨uv, hu⟩ := vertexUV_real (by assumption) plane tx
        simp only [hu, Outcome.ok_bind]
        exact ⟨_, rfl⟩
    · exact ⟨_, rfl⟩
  · exact ⟨_, rfl⟩

theorem planeVertices_real (texture : Option Texture) (entity : Entity ℝ) (planes : List (BrushPlane ℝ))
    (plane : BrushPlane ℝ) : ∃ pvs, planeVertices texture entity planes plane = .ok pvs := by
  unfold planeVertices
  obtain ⟨vss, h⟩ := mapOut_isOk (f := fun p1 =>
    (mapOut (fun p2 => buildPlaneVertex texture entity planes plane p1 p2) planes).bind fun vs =>
    .ok (vs.filterMap id)) (l := planes) |>.2 fun p1 _ => by
      obtain ⟨vs, h⟩ := (mapOut_isOk (f := fun p2 => buildPlaneVertex texture entity planes plane p1 p2) (l := planes)).2
        fun p2 _ => buildPlaneVertex_real texture entity planes plane p1 p2
      exact ⟨_, by rw [h, Outcome.ok_bind]⟩
  exact ⟨_, by rw [h, Outcome.ok_bind]⟩

theorem buildPlane_real [Platform] (textures : TextureInfo) (entity : Entity ℝ) (planes : List (BrushPlane ℝ))
    (plane : BrushPlane ℝ) : ∃ geo, buildPlane textures entity planes plane = .ok geo := by
  obtain ⟨pvs, h⟩ := planeVertices_real (textures.get? plane.texture) entity planes plane
  unfold buildPlane
  simp only [h, Outcome.ok_bind]
  exact ⟨_, rfl⟩

theorem buildBrush_real [Platform] (textures : TextureInfo) (entity : Entity ℝ) (brush : Brush ℝ) :
    ∃ geo, buildBrush textures entity brush = .ok geo := by
  unfold buildBrush
  obtain ⟨r, h⟩ := (mapOut_isOk (f := fun plane => buildPlane textures entity brush.planes plane) (l := brush.planes)).2
    fun p _ => buildPlane_real textures entity brush.planes p
  rw [h, Outcome.ok_bind]
  exact ⟨_, rfl⟩

theorem buildEntity_real [Platform] (textures : TextureInfo) (entity : Entity ℝ) :
    ∃ geo, Geo.buildEntity textures entity = .ok geo := by
  unfold Geo.buildEntity
  obtain ⟨r, h⟩ := (mapOut_isOk (f := fun b => buildBrush textures entity b) (l := entity.brushes)).2
    fun b _ => buildBrush_real textures entity b
  rw [h, Outcome.ok_bind]
  exact ⟨_, rfl⟩

theorem run_real [Platform] (textures : TextureInfo) (entities : List (Entity ℝ)) :
    ∃ gs, Geo.run textures entities = .ok gs :=
  mapOut_isOk.2 fun e _ => buildEntity_real textures e

/-- The found vertices in exact arithmetic. -/
theorem found_real {planes : List (BrushPlane ℝ)} {plane : BrushPlane ℝ} {x : V3 ℝ} :
    Found planes plane x ↔
      (∃ p1 ∈ planes, ∃ p2 ∈ planes, 1 / 1000 ≤ unitDet plane p1 p2 ∧ OnPlane plane x ∧ OnPlane p1 x ∧
        OnPlane p2 x) ∧ ∀ p ∈ planes, WithinR (1 / 1000) p x := by
  unfold Found
  simp only [meet_real, behind_real]

theorem map_recentre (c : V3 ℝ) (l : List (V3 ℝ)) : l.map (recentre c) = l := by
  rw [show recentre c = id from funext (recentre_real c)]
  simp

/-- The corner positions of a face: pairwise different, exactly the found points. -/
theorem corners_real [Platform] {textures : TextureInfo} {entity : Entity ℝ} {planes : List (BrushPlane ℝ)}
    {plane : BrushPlane ℝ} {geo : PlaneGeo ℝ} (h : buildPlane textures entity planes plane = .ok geo) :
    (geo.vertices.map (·.pos)).Nodup ∧ ∀ x, x ∈ geo.vertices.map (·.pos) ↔ Found planes plane x := by
  obtain ⟨pvs, h1, _, h3⟩ := buildPlane_perm h
  obtain ⟨ha, hb⟩ := planeVertices_ok h1
  have hp := h3.map (fun v : Vertex ℝ => v.pos)
  rw [List.map_map] at hp
  have he : (uniqueVertices (isPhong entity) pvs).map
      ((fun v : Vertex ℝ => v.pos) ∘ fun v => { v with pos := recentre geo.center v.pos }) =
      (uniqueVertices (isPhong entity) pvs).map (·.pos) :=
    List.map_congr_left fun v _ => recentre_real _ _
  rw [he] at hp
  constructor
  · rw [hp.nodup_iff, List.nodup_iff_pairwise_ne, List.pairwise_map]
    refine (uniqueVertices_pairwise (isPhong entity) pvs).imp ?_
    intro a b hab
    rw [v3_beq_false] at hab
    exact hab.symm
  · intro x
    rw [hp.mem_iff]
    constructor
    · intro hx
      obtain ⟨w, hw, rfl⟩ := List.mem_map.1 hx
      obtain ⟨v, hv, rfl⟩ := uniqueVertices_mem hw
      obtain ⟨⟨p1, hp1, p2, hp2, hm, _⟩, hh, _⟩ := ha v hv
      rw [finishNormal_pos]
      exact ⟨⟨p1, hp1, p2, hp2, hm⟩, hh⟩
    · rintro ⟨⟨p1, hp1, p2, hp2, hm⟩, hh⟩
      obtain ⟨v, hv, rfl, _⟩ := hb p1 hp1 p2 hp2 x hm hh
      obtain ⟨w, hw, e⟩ := uniqueVertices_covers (isPhong entity) pvs v hv
      refine List.mem_map.2 ⟨w, hw, ?_⟩
      rcases e with e | e
      · exact e
      · exact (v3_beq _ _).1 e

end
end Quarch
