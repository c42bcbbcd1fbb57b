import Verif.Proofs.Normals
import Verif.Props.Centers
/-
C84: normals with rounding.
-/
set_option linter.unusedSectionVars false
namespace Quarch
open Spec Geo Rounding

section
variable {F : Type} [Arith F] [Rounding F]
open Err

/-- The computed normal of a good face has unit length up to rounding. -/
theorem faceNormal_len {M k : ℝ} {p : BrushPlane F} (hM : 1 ≤ M) (hM' : M ≤ 2 ^ 25) (hk' : k ≤ 512)
    (h : GoodFace M k p) : |lenR (valV (faceNormal p)) - 1| ≤ 30 * u := by
  obtain ⟨fw, ew, ww⟩ := edges_err hM hM' h.fin0 h.fin1 h.fin2 h.le0 h.le1 h.le2
  have ha := h.area
  unfold edgeNormal at ha
  unfold faceNormal
  generalize Arith.cross (V3.sub p.v2 p.v0) (V3.sub p.v1 p.v0) = w at *
  generalize crossR (subR (valV p.v2) (valV p.v0)) (subR (valV p.v1) (valV p.v0)) = W at *
  have hMM : 1 ≤ M * M := by nlinarith
  have hMM' : M * M ≤ 2 ^ 50 := by nlinarith
  have hl := (abs_le.1 (len_err ew)).1
  have hL0 := len_nonneg W
  have hkL : k * lenR W ≤ 512 * lenR W := mul_le_mul_of_nonneg_right hk' hL0
  have hi := len_le (by linarith) ww
  refine (normalize_err fw ?_ (by linarith)).2.2
  unfold u at *; linarith

variable [Platform]

/-- C84: with rounding, without smoothing every normal is finite, is the unit normal of the face up to `175 k u` and
has unit length up to `30 u`. -/
theorem C84_flat (textures : TextureInfo) (entity : Entity F) (planes : List (BrushPlane F))
    (plane : BrushPlane F) (geo : PlaneGeo F) (h : buildPlane textures entity planes plane = .ok geo)
    (M k : ℝ) (hM : 1 ≤ M) (hM' : M ≤ 2 ^ 25) (hk : 1 ≤ k) (hk' : k ≤ 512) (hg : GoodFace M k plane)
    (hphong : entity.properties (str! "_phong") ≠ some (str! "1")) (v : Vertex F) (hv : v ∈ geo.vertices) :
    FinV v.normal ∧ Within (175 * k * u) (subR (valV v.normal) (unitNormal plane)) ∧
      |lenR (valV v.normal) - 1| ≤ 30 * u := by
  obtain ⟨w, hw, rfl⟩ := buildPlane_vertex h hv
  have hp : isPhong entity = false := by
    unfold isPhong
    exact beq_false_of_ne hphong
  obtain ⟨p1, _, p2, _, hm, hn⟩ := hw.src
  rw [hp]
  simp only [finishNormal, Bool.false_eq_true, if_false]
  unfold vertexNormal at hn
  rw [hp] at hn
  simp only [Bool.false_eq_true, if_false] at hn
  have e : w.normal = faceNormal plane := hn
  rw [e]
  have c := computed hM hM' hk hk' hg
  exact ⟨c.fin, c.near, faceNormal_len hM hM' hk' hg⟩

/-- One coordinate of a vector normalised twice, against the direction of a nearby vector. -/
theorem twice_err {r m s S l lm L e : ℝ} (hl : 0 < l) (hlm : |lm - 1| ≤ 30 * u) (hs : |s| ≤ l) (hm : |m| ≤ lm)
    (h1 : |r - 1 / lm * m| ≤ 10 * u) (h2 : |m - 1 / l * s| ≤ 10 * u) (hL : 0 ≤ L) (hL9 : L ≤ 9)
    (h3 : |s - S| ≤ e) (h4 : |l - L| ≤ 3 * e) : |r * L - S| ≤ 450 * u + 4 * e := by
  have up := u_pos
  have hlm' := abs_le.1 hlm
  have hlm0 : 0 < lm := by unfold u at *; linarith
  have a1 : |1 / lm * m - m| ≤ 30 * u := by
    have e1 : 1 / lm * m - m = (m / lm) * (1 - lm) := by field_simp
    have e2 : |m / lm| ≤ 1 := by rw [abs_div, abs_of_pos hlm0]; exact (div_le_one hlm0).2 hm
    rw [e1, abs_mul, abs_sub_comm 1 lm]
    calc |m / lm| * |lm - 1| ≤ 1 * (30 * u) := mul_le_mul e2 hlm (abs_nonneg _) (by norm_num)
      _ = _ := one_mul _
  have a2 : |r - s / l| ≤ 50 * u := by
    have e1 : r - s / l = (r - 1 / lm * m) + (1 / lm * m - m) + (m - 1 / l * s) := by ring
    rw [e1]
    refine (abs_add_le _ _).trans ?_
    have := abs_add_le (r - 1 / lm * m) (1 / lm * m - m)
    linarith
  have a3 : |s / l| ≤ 1 := by rw [abs_div, abs_of_pos hl]; exact (div_le_one hl).2 hs
  have e1 : r * L - S = (r - s / l) * L + ((s / l) * (L - l) + (s - S)) := by field_simp; ring
  rw [e1]
  refine (abs_add_le _ _).trans ?_
  have b1 : |(r - s / l) * L| ≤ 50 * u * 9 := by
    rw [abs_mul, abs_of_nonneg hL]
    exact mul_le_mul a2 hL9 hL (by positivity)
  have b2 : |(s / l) * (L - l)| ≤ 1 * (3 * e) := by
    rw [abs_mul, abs_sub_comm L l]
    exact mul_le_mul a3 h4 (abs_nonneg _) (by norm_num)
  have := abs_add_le ((s / l) * (L - l)) (s - S)
  linarith

/-- C84: with rounding, with smoothing every normal is finite, has unit length up to `30 u`, and has the direction of
the sum `S` of the unit normals of the face and of one, both or none of two further faces (both, if there is no
usable angle) up to `2600 k u / |S|`. -/
theorem C84_smooth (textures : TextureInfo) (entity : Entity F) (planes : List (BrushPlane F))
    (plane : BrushPlane F) (geo : PlaneGeo F) (h : buildPlane textures entity planes plane = .ok geo)
    (M k : ℝ) (hM : 1 ≤ M) (hM' : M ≤ 2 ^ 25) (hk : 1 ≤ k) (hk' : k ≤ 512) (hg : ∀ p ∈ planes, GoodFace M k p)
    (hpl : plane ∈ planes) (hphong : entity.properties (str! "_phong") = some (str! "1")) (v : Vertex F)
    (hv : v ∈ geo.vertices) :
    FinV v.normal ∧ |lenR (valV v.normal) - 1| ≤ 30 * u ∧
    ∃ p1 ∈ planes, ∃ p2 ∈ planes, ∃ a b : ℝ, (a = 0 ∨ a = 1) ∧ (b = 0 ∨ b = 1) ∧
      ((entity.properties (str! "_phong_angle")).bind (Arith.parse (F := F)) = none → a = 1 ∧ b = 1) ∧
      ∀ S, S = addR (unitNormal plane) (addR (smulR a (unitNormal p1)) (smulR b (unitNormal p2))) →
        Within (2600 * k * u) (subR (smulR (lenR S) (valV v.normal)) S) := by
  obtain ⟨w, hw, rfl⟩ := buildPlane_vertex h hv
  have hp : isPhong entity = true := by
    unfold isPhong Entity.getProperty Map.get?
    simpa using hphong
  obtain ⟨p1, hp1, p2, hp2, hm, hn⟩ := hw.src
  rw [hp]
  simp only [finishNormal, if_true]
  unfold vertexNormal at hn
  rw [hp, if_pos rfl] at hn
  have c0 := computed hM hM' hk hk' (hg plane hpl)
  have c1 := computed hM hM' hk hk' (hg p1 hp1)
  have c2 := computed hM hM' hk hk' (hg p2 hp2)
  have l1 := faceNormal_len hM hM' hk' (hg p1 hp1)
  have l2 := faceNormal_len hM hM' hk' (hg p2 hp2)
  have up := u_pos
  obtain ⟨s, a, b, ha, hb, hab, hs, fs, es⟩ := phong_sum (entity.getProperty (str! "_phong_angle"))
    ⟨c0.fin, c0.le⟩ ⟨c1.fin, c1.le⟩ ⟨c2.fin, c2.le⟩
  have hd := det_err ⟨c0.fin, c0.le⟩ ⟨c1.fin, c1.le⟩ ⟨c2.fin, c2.le⟩ hm
  have hsl := sum_len (a := a) (b := b) (by have := (abs_le.1 l1).2; unfold u at *; linarith)
    (by have := (abs_le.1 l2).2; unfold u at *; linarith) hd
  have ea : |a| ≤ 1 := by rcases ha with rfl | rfl <;> simp
  have eb : |b| ≤ 1 := by rcases hb with rfl | rfl <;> simp
  have hlo : 9 / 10000 ≤ lenR (valV s) := by
    have := (abs_le.1 (len_err es)).1
    unfold u at *; linarith
  -- the sum of the unit normals
  have near : Within (531 * k * u) (subR (valV s)
      (addR (unitNormal plane) (addR (smulR a (unitNormal p1)) (smulR b (unitNormal p2))))) := by
    have r : ∀ {s x y z X Y Z : ℝ}, |s - (x + (a * y + b * z))| ≤ 6 * u → |x - X| ≤ 175 * k * u →
        |y - Y| ≤ 175 * k * u → |z - Z| ≤ 175 * k * u → |s - (X + (a * Y + b * Z))| ≤ 531 * k * u := by
      intro s x y z X Y Z h1 h2 h3 h4
      have e : s - (X + (a * Y + b * Z)) = (s - (x + (a * y + b * z))) + ((x - X) + (a * (y - Y) + b * (z - Z))) := by
        ring
      rw [e]
      refine (abs_add_le _ _).trans ?_
      have q1 := abs_add_le (x - X) (a * (y - Y) + b * (z - Z))
      have q2 := abs_add_le (a * (y - Y)) (b * (z - Z))
      have q3 : |a * (y - Y)| ≤ 1 * (175 * k * u) := by
        rw [abs_mul]; exact mul_le_mul ea h3 (abs_nonneg _) (by norm_num)
      have q4 : |b * (z - Z)| ≤ 1 * (175 * k * u) := by
        rw [abs_mul]; exact mul_le_mul eb h4 (abs_nonneg _) (by norm_num)
      have q5 : u ≤ k * u := by nlinarith
      linarith
    exact ⟨r es.1 c0.near.1 c1.near.1 c2.near.1, r es.2.1 c0.near.2.1 c1.near.2.1 c2.near.2.1,
      r es.2.2 c0.near.2.2 c1.near.2.2 c2.near.2.2⟩
  have hS : Within 3 (addR (unitNormal plane) (addR (smulR a (unitNormal p1)) (smulR b (unitNormal p2)))) := by
    have r : ∀ {x y z : ℝ}, |x| ≤ 1 → |y| ≤ 1 → |z| ≤ 1 → |x + (a * y + b * z)| ≤ 3 := by
      intro x y z h1 h2 h3
      have q1 := abs_add_le x (a * y + b * z)
      have q2 := abs_add_le (a * y) (b * z)
      have q3 : |a * y| ≤ 1 * 1 := by rw [abs_mul]; exact mul_le_mul ea h2 (abs_nonneg _) (by norm_num)
      have q4 : |b * z| ≤ 1 * 1 := by rw [abs_mul]; exact mul_le_mul eb h3 (abs_nonneg _) (by norm_num)
      linarith
    have u0 := unit_within c0.unit
    have u1 := unit_within c1.unit
    have u2 := unit_within c2.unit
    exact ⟨r u0.1 u1.1 u2.1, r u0.2.1 u1.2.1 u2.2.1, r u0.2.2 u1.2.2 u2.2.2⟩
  have hlS := len_err near
  have h9 := len_le (by norm_num) hS
  have hku : k * u ≤ 512 * u := mul_le_mul_of_nonneg_right hk' up.le
  have hhi : lenR (valV s) ≤ 2 ^ 55 := by
    have := (abs_le.1 hlS).2
    unfold u at *; linarith
  obtain ⟨fm, em, lm⟩ := normalize_err fs hlo hhi
  rw [hn, hs]
  have lm' := abs_le.1 lm
  obtain ⟨fr, er, lr⟩ := normalize_err fm (by unfold u at *; linarith) (by unfold u at *; linarith)
  refine ⟨fr, lr, p1, hp1, p2, hp2, a, b, ha, hb, hab, ?_⟩
  rintro S rfl
  have cs := coord_len (valV s)
  have cm := coord_len (valV (Arith.normalize s))
  have hL := len_nonneg (addR (unitNormal plane) (addR (smulR a (unitNormal p1)) (smulR b (unitNormal p2))))
  have fin : ∀ {x y : ℝ}, |x - y| ≤ 450 * u + 4 * (531 * k * u) → |x - y| ≤ 2600 * k * u := fun h => by
    have : u ≤ k * u := by nlinarith
    linarith
  have hpos : 0 < lenR (valV s) := by linarith
  have key : ∀ {r m s' S : ℝ}, |s'| ≤ lenR (valV s) → |m| ≤ lenR (valV (Arith.normalize s)) →
      |r - 1 / lenR (valV (Arith.normalize s)) * m| ≤ 10 * u → |m - 1 / lenR (valV s) * s'| ≤ 10 * u →
      |s' - S| ≤ 531 * k * u →
      |lenR (addR (unitNormal plane) (addR (smulR a (unitNormal p1)) (smulR b (unitNormal p2)))) * r - S| ≤
        2600 * k * u := by
    intro r m s' S q1 q2 q3 q4 q5
    rw [mul_comm]
    exact fin (twice_err hpos lm q1 q2 q3 q4 hL (by linarith) q5 hlS)
  exact ⟨key cs.1 cm.1 er.1 em.1 near.1, key cs.2.1 cm.2.1 er.2.1 em.2.1 near.2.1,
    key cs.2.2 cm.2.2 er.2.2 em.2.2 near.2.2⟩

end

/-! ### in single precision -/

section
variable [F32Lib] [Platform]
open F32

/-- C84 applies to the faces of the octant in single precision, … -/
example (textures : TextureInfo) :
    ∃ geo v, buildPlane textures (⟨Map.empty, [⟨octant⟩]⟩ : Entity F32) octant octX = .ok geo ∧ geo.vertices = [v] ∧
      FinV v.normal ∧ Within (175 * 1 * u) (subR (valV v.normal) (unitNormal octX)) ∧
      |lenR (valV v.normal) - 1| ≤ 30 * u := by
  obtain ⟨geo, v, h, hv, -, -⟩ := oct_geo textures (⟨Map.empty, [⟨octant⟩]⟩ : Entity F32)
  exact ⟨geo, v, h, hv, C84_flat textures _ octant octX geo h 1 1 le_rfl (by norm_num) le_rfl (by norm_num)
    (oct_good octX (by simp [octant])) (by intro e; cases e) v (by simp [hv])⟩

/-- … also with smoothing, where three normals are added. -/
example (textures : TextureInfo) :
    ∃ geo v, buildPlane textures
      (⟨Map.empty.insert (str! "_phong") (str! "1"), [⟨octant⟩]⟩ : Entity F32) octant octX = .ok geo ∧
      geo.vertices = [v] ∧ FinV v.normal ∧ |lenR (valV v.normal) - 1| ≤ 30 * u ∧
      ∃ p1 ∈ octant, ∃ p2 ∈ octant, Within (2600 * 1 * u) (subR
        (smulR (lenR (addR (unitNormal octX) (addR (smulR 1 (unitNormal p1)) (smulR 1 (unitNormal p2)))))
          (valV v.normal))
        (addR (unitNormal octX) (addR (smulR 1 (unitNormal p1)) (smulR 1 (unitNormal p2))))) := by
  obtain ⟨geo, v, h, hv, -, -⟩ := oct_geo textures
    (⟨Map.empty.insert (str! "_phong") (str! "1"), [⟨octant⟩]⟩ : Entity F32)
  have := C84_smooth textures _ octant octX geo h 1 1 le_rfl (by norm_num) le_rfl (by norm_num)
    oct_good (by simp [octant]) rfl v (by simp [hv])
  obtain ⟨h1, h2, p1, hp1, p2, hp2, a, b, -, -, hab, h3⟩ := this
  obtain ⟨rfl, rfl⟩ := hab rfl
  exact ⟨geo, v, h, hv, h1, h2, p1, hp1, p2, hp2, h3 _ rfl⟩

end
end Quarch
