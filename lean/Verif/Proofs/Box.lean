import Verif.Spec.Box
import Verif.Proofs.F32Grid
import Verif.Proofs.Geo
/-
The faces and corners of boxes on a grid, in single precision.
-/
set_option linter.unusedSectionVars false
set_option linter.unusedSimpArgs false
namespace Quarch.Spec.Box
open Quarch.Spec Quarch.Spec.F32 Quarch.Geo

/-- Sign of a direction. -/
def sgn (up : Bool) : Int := if up then 1 else -1

/-- Outward direction of a side. -/
def nrm (a : Axis) (up : Bool) : V3 Int :=
  match a with
  | .x => ⟨sgn up, 0, 0⟩
  | .y => ⟨0, sgn up, 0⟩
  | .z => ⟨0, 0, sgn up⟩

def icross (m n : V3 Int) : V3 Int := ⟨m.y * n.z - m.z * n.y, m.z * n.x - m.x * n.z, m.x * n.y - m.y * n.x⟩
def idot (m n : V3 Int) : Int := m.x * n.x + m.y * n.y + m.z * n.z
def idet (a : Axis) (ua : Bool) (b : Axis) (ub : Bool) (c : Axis) (uc : Bool) : Int :=
  idot (icross (nrm a ua) (nrm b ub)) (nrm c uc)

theorem nrm_bnd (a : Axis) (up : Bool) : Bnd 1 (nrm a up) := by
  cases a <;> cases up <;> simp [Bnd, nrm, sgn]

theorem nrm_unit (a : Axis) (up : Bool) :
    (nrm a up).x * (nrm a up).x + (nrm a up).y * (nrm a up).y + (nrm a up).z * (nrm a up).z = 1 := by
  cases a <;> cases up <;> simp [nrm, sgn]

theorem nrm_dot (a : Axis) (up : Bool) (n : V3 Int) : idot (nrm a up) n = sgn up * a.of n := by
  cases a <;> simp [nrm, idot, Axis.of]

theorem icross_bnd (a b : Axis) (ua ub : Bool) : Bnd 1 (icross (nrm a ua) (nrm b ub)) := by
  cases a <;> cases ua <;> cases b <;> cases ub <;> simp [Bnd, icross, nrm, sgn]

theorem idet_all {a b c : Axis} {ua ub uc : Bool} (h : idet a ua b ub c uc = 1) (d : Axis) : d = a ∨ d = b ∨ d = c := by
  revert h
  cases a <;> cases b <;> cases c <;> cases d <;> cases ua <;> cases ub <;> cases uc <;> decide

theorem idet_cases (a b c : Axis) (ua ub uc : Bool) : idet a ua b ub c uc = 1 ∨ idet a ua b ub c uc ≤ 0 := by
  cases a <;> cases b <;> cases c <;> cases ua <;> cases ub <;> cases uc <;> decide

/-- Two more directions complete any direction to a system of positive orientation. -/
theorem idet_exists (a : Axis) (f : Axis → Bool) : ∃ b c, idet a (f a) b (f b) c (f c) = 1 := by
  cases a <;> cases hx : f .x <;> cases hy : f .y <;> cases hz : f .z
  all_goals first
    | exact ⟨.x, .y, by simp only [hx, hy, hz]; decide⟩
    | exact ⟨.x, .z, by simp only [hx, hy, hz]; decide⟩
    | exact ⟨.y, .x, by simp only [hx, hy, hz]; decide⟩
    | exact ⟨.y, .z, by simp only [hx, hy, hz]; decide⟩
    | exact ⟨.z, .x, by simp only [hx, hy, hz]; decide⟩
    | exact ⟨.z, .y, by simp only [hx, hy, hz]; decide⟩

theorem sgn_cancel {u : Bool} {i j : Int} (h : sgn u * i = sgn u * j) : i = j := by
  cases u <;> simp [sgn] at h <;> omega

/-- Cramer's rule. -/
theorem cramer {a b c : Axis} {ua ub uc : Bool} {i j k : Int} (h : idet a ua b ub c uc = 1) :
    let n : V3 Int := ⟨
      (icross (nrm b ub) (nrm c uc)).x * (sgn ua * i) + (icross (nrm c uc) (nrm a ua)).x * (sgn ub * j) +
        (icross (nrm a ua) (nrm b ub)).x * (sgn uc * k),
      (icross (nrm b ub) (nrm c uc)).y * (sgn ua * i) + (icross (nrm c uc) (nrm a ua)).y * (sgn ub * j) +
        (icross (nrm a ua) (nrm b ub)).y * (sgn uc * k),
      (icross (nrm b ub) (nrm c uc)).z * (sgn ua * i) + (icross (nrm c uc) (nrm a ua)).z * (sgn ub * j) +
        (icross (nrm a ua) (nrm b ub)).z * (sgn uc * k)⟩
    a.of n = i ∧ b.of n = j ∧ c.of n = k := by
  intro n
  have e0 : idot (nrm a ua) n = idet a ua b ub c uc * (sgn ua * i) := by
    simp only [n, idot, idet, icross]; ring
  have e1 : idot (nrm b ub) n = idet a ua b ub c uc * (sgn ub * j) := by
    simp only [n, idot, idet, icross]; ring
  have e2 : idot (nrm c uc) n = idet a ua b ub c uc * (sgn uc * k) := by
    simp only [n, idot, idet, icross]; ring
  rw [nrm_dot, h, one_mul] at e0 e1 e2
  exact ⟨sgn_cancel e0, sgn_cancel e1, sgn_cancel e2⟩

variable [F32Lib]

/-- The computed normal and distance of a side are exact. -/
structure Face (e : Int) (a : Axis) (up : Bool) (c : Int) (p : BrushPlane F32) : Prop where
  normal : IsGV 0 (faceNormal p) (nrm a up)
  dist : IsG e (faceDist p) (sgn up * c)
  small : c.natAbs ≤ 2 ^ 20

theorem gridNum_isG {g : Nat} {a : F32} {n : Int} (h : GridNum g a n) (hs : n.natAbs ≤ 2 ^ 20) (hg : g ≤ 30) :
    IsG (-(g : Int)) a n :=
  ⟨h.1, by rw [h.2, zpow_neg, zpow_natCast]; ring, by omega, by omega, by omega⟩

theorem gridPoint_isGV {g : Nat} {v : V3 F32} {n : V3 Int} (h : GridPoint g v n) (hg : g ≤ 30) :
    IsGV (-(g : Int)) v n :=
  ⟨gridNum_isG h.x (h.small .x) hg, gridNum_isG h.y (h.small .y) hg, gridNum_isG h.z (h.small .z) hg⟩

theorem side_face {g : Nat} {a : Axis} {up : Bool} {c : Int} {p : BrushPlane F32} (hg : g ≤ 30)
    (h : IsSide g a up c p) : Face (-(g : Int)) a up c p := by
  obtain ⟨n0, n1, n2, h0, h1, h2, c0, c1, c2, hs, m, ht, hm⟩ := h
  have s0 := h0.small; have s1 := h1.small; have s2 := h2.small
  have g0 := gridPoint_isGV h0 hg
  have g1 := gridPoint_isGV h1 hg
  have g2 := gridPoint_isGV h2 hg
  have sx := s0 .x; have sy := s0 .y; have sz := s0 .z
  have tx := hs .x; have ty := hs .y; have tz := hs .z
  simp only [Axis.of] at sx sy sz tx ty tz
  have e1 := isGV_sub g1 g0 (by omega) (by omega) (by omega)
  have e2 := isGV_sub g2 g0 (by omega) (by omega) (by omega)
  have hc := isGV_cross (A := 2048) (B := 2048) e2 e1 ⟨tx.2, ty.2, tz.2⟩ ⟨tx.1, ty.1, tz.1⟩ (by norm_num)
    (by omega) (by omega)
  have hn : IsGV 0 (faceNormal p) (nrm a up) := by
    refine isGV_normalize (e := -(g : Int) + -(g : Int)) (q := m) ?_ (nrm_bnd a up) (nrm_unit a up) (by omega) (by omega) hm
    have : (⟨(nrm a up).x * m, (nrm a up).y * m, (nrm a up).z * m⟩ : V3 Int) =
        ⟨(n2.y - n0.y) * (n1.z - n0.z) - (n2.z - n0.z) * (n1.y - n0.y),
         (n2.z - n0.z) * (n1.x - n0.x) - (n2.x - n0.x) * (n1.z - n0.z),
         (n2.x - n0.x) * (n1.y - n0.y) - (n2.y - n0.y) * (n1.x - n0.x)⟩ := by
      have d1 : a.of n1 = a.of n0 := by rw [c1, c0]
      have d2 : a.of n2 = a.of n0 := by rw [c2, c0]
      cases a <;> simp only [Axis.of, turn] at d1 d2 ht <;> simp only [nrm, d1, d2, ht] <;>
        cases up <;> simp [sgn]
    rw [this]
    exact hc
  refine ⟨hn, ?_, by rw [← c0]; exact s0 a⟩
  have hd := isG_dot (A := 1) (B := 2 ^ 20) hn g0 (nrm_bnd a up) ⟨sx, sy, sz⟩ (by norm_num) (by omega) (by omega)
  have := nrm_dot a up n0
  unfold idot at this
  rw [this, c0, zero_add] at hd
  exact hd

theorem eps_val : isFin (Arith.cmpEpsilon : F32) ∧ 0 < F32.val (Arith.cmpEpsilon : F32) ∧
    F32.val (Arith.cmpEpsilon : F32) < 1 := by
  have h := Rounding.eps_val (F := F32)
  change |F32.val (Arith.cmpEpsilon : F32) - 1 / 1000| ≤ u * (1 / 1000) at h
  refine ⟨Rounding.eps_fin (F := F32), ?_, ?_⟩ <;> rw [abs_le] at h <;> unfold u at h <;> norm_num at h ⊢ <;> linarith

theorem isGV_zero_add {e : Int} {v : V3 F32} {n : V3 Int} (h : IsGV (0 + e) v n) : IsGV e v n := by
  rwa [zero_add] at h

theorem add2 {a b : Int} (ha : a.natAbs ≤ 1 * 2 ^ 20) (hb : b.natAbs ≤ 1 * 2 ^ 20) : (a + b).natAbs < 2 ^ 24 := by
  omega

theorem add3 {a b c : Int} (ha : a.natAbs ≤ 1 * 2 ^ 20) (hb : b.natAbs ≤ 1 * 2 ^ 20) (hc : c.natAbs ≤ 1 * 2 ^ 20) :
    (a + b + c).natAbs < 2 ^ 24 := by
  omega

/-- The point of three sides. -/
theorem meet_grid {e : Int} {a b c : Axis} {ua ub uc : Bool} {i j k : Int} {p q r : BrushPlane F32}
    (ge : -148 ≤ e) (le : e ≤ 0)
    (hp : Face e a ua i p) (hq : Face e b ub j q) (hr : Face e c uc k r) :
    (∀ v, Meet p q r v → idet a ua b ub c uc = 1) ∧
    (idet a ua b ub c uc = 1 → ∃ v n, Meet p q r v ∧ IsGV e v n ∧ a.of n = i ∧ b.of n = j ∧ c.of n = k) := by
  have c01 : IsGV 0 (Arith.cross (faceNormal p) (faceNormal q)) (icross (nrm a ua) (nrm b ub)) :=
    isGV_cross hp.normal hq.normal (nrm_bnd _ _) (nrm_bnd _ _) (by norm_num) (by norm_num) (by norm_num)
  have c12 : IsGV 0 (Arith.cross (faceNormal q) (faceNormal r)) (icross (nrm b ub) (nrm c uc)) :=
    isGV_cross hq.normal hr.normal (nrm_bnd _ _) (nrm_bnd _ _) (by norm_num) (by norm_num) (by norm_num)
  have c20 : IsGV 0 (Arith.cross (faceNormal r) (faceNormal p)) (icross (nrm c uc) (nrm a ua)) :=
    isGV_cross hr.normal hp.normal (nrm_bnd _ _) (nrm_bnd _ _) (by norm_num) (by norm_num) (by norm_num)
  have hd : IsG 0 (Arith.dot (Arith.cross (faceNormal p) (faceNormal q)) (faceNormal r)) (idet a ua b ub c uc) :=
    isG_dot c01 hr.normal (icross_bnd _ _ _ _) (nrm_bnd _ _) (by norm_num) (by norm_num) (by norm_num)
  have hlt : Arith.lt (Arith.dot (Arith.cross (faceNormal p) (faceNormal q)) (faceNormal r))
      (Arith.cmpEpsilon : F32) = true ↔ ((idet a ua b ub c uc : Int) : ℝ) < F32.val (Arith.cmpEpsilon : F32) := by
    have := Rounding.lt_val (F := F32) _ _ hd.fin eps_val.1
    rw [this]
    change F32.val _ < _ ↔ _
    rw [hd.val, zpow_zero, mul_one]
    rfl
  constructor
  · rintro v ⟨det, rfl, hl, -⟩
    rcases idet_cases a b c ua ub uc with h | h
    · exact h
    · have h' : ((idet a ua b ub c uc : Int) : ℝ) ≤ 0 := by exact_mod_cast h
      rw [hlt.2 (lt_of_le_of_lt h' eps_val.2.1)] at hl
      exact absurd hl (by simp)
  · intro h1
    have sg : ∀ (u : Bool) (l : Int), l.natAbs ≤ 2 ^ 20 → (sgn u * l).natAbs ≤ 2 ^ 20 := by
      intro u l hl
      cases u <;> simp only [sgn] <;> simp <;> omega
    have w0 := sg ua i hp.small; have w1 := sg ub j hq.small; have w2 := sg uc k hr.small
    have b12 := icross_bnd b c ub uc; have b20 := icross_bnd c a uc ua; have b01 := icross_bnd a b ua ub
    have s0 := isGV_zero_add (isGV_smul c12 hp.dist b12 w0 (by norm_num) (by omega) (by omega))
    have s1 := isGV_zero_add (isGV_smul c20 hq.dist b20 w1 (by norm_num) (by omega) (by omega))
    have s2 := isGV_zero_add (isGV_smul c01 hr.dist b01 w2 (by norm_num) (by omega) (by omega))
    have m0x := natAbs_mul_le b12.1 w0; have m0y := natAbs_mul_le b12.2.1 w0; have m0z := natAbs_mul_le b12.2.2 w0
    have m1x := natAbs_mul_le b20.1 w1; have m1y := natAbs_mul_le b20.2.1 w1; have m1z := natAbs_mul_le b20.2.2 w1
    have m2x := natAbs_mul_le b01.1 w2; have m2y := natAbs_mul_le b01.2.1 w2; have m2z := natAbs_mul_le b01.2.2 w2
    have t := isGV_add (isGV_add s0 s1 (add2 m0x m1x) (add2 m0y m1y) (add2 m0z m1z)) s2
      (add3 m0x m1x m2x) (add3 m0y m1y m2y) (add3 m0z m1z m2z)
    rw [h1] at hd hlt
    have t' := isGV_sdiv t hd one_ne_zero (n := ⟨_, _, _⟩) (mul_one _).symm (mul_one _).symm (mul_one _).symm
      (by omega) (by omega)
    rw [sub_zero] at t'
    refine ⟨_, _, ⟨_, rfl, ?_, rfl⟩, t', ?_⟩
    · rw [Bool.eq_false_iff]
      intro hc
      have := hlt.1 hc
      have := eps_val.2.2
      push_cast at *
      linarith
    · exact cramer h1

end Quarch.Spec.Box
