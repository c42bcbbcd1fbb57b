import Verif.Props.Box
/-
C90: the order of the corners of boxes on a grid.
-/
set_option linter.unusedSectionVars false
namespace Quarch
open Quarch.Spec Quarch.Spec.F32 Quarch.Geo Quarch.Spec.Box

theorem third_axis {a d : Axis} (h : d ≠ a) (up s : Bool) : ∃ c t, icross (nrm a up) (nrm d s) = nrm c t ∧
    idet a up d s c t = 1 := by
  cases a <;> cases d <;> cases up <;> cases s
  all_goals first
    | exact absurd rfl h
    | exact ⟨.x, true, by decide, by decide⟩
    | exact ⟨.x, false, by decide, by decide⟩
    | exact ⟨.y, true, by decide, by decide⟩
    | exact ⟨.y, false, by decide, by decide⟩
    | exact ⟨.z, true, by decide, by decide⟩
    | exact ⟨.z, false, by decide, by decide⟩

/-- Quadrant of whole numbers. -/
def iquad (y x : Int) : Nat := if 0 < y then (if 0 < x then 2 else 3) else (if 0 < x then 1 else 0)

/-- Four different quadrants in decreasing order. -/
theorem quads_eq {q0 q1 q2 q3 : Nat} (h0 : q0 < 4) (h : [q0, q1, q2, q3].Pairwise (fun a b => b < a)) :
    q0 = 3 ∧ q1 = 2 ∧ q2 = 1 ∧ q3 = 0 := by
  simp only [List.pairwise_cons, List.mem_cons, List.not_mem_nil, or_false, forall_eq_or_imp, forall_eq] at h
  omega

theorem iquad_lt (y x : Int) : iquad y x < 4 := by
  unfold iquad; split_ifs <;> omega

/-- The four corners by quadrant are wound clockwise. -/
theorem clockwise_of {b : GridBox} {a d c : Axis} {up s t : Bool} (hdet : idet a up d s c t = 1) {n0 n1 n2 n3 : V3 Int}
    (a0 : a.of n0 = b.side a up) (a1 : a.of n1 = b.side a up) (a2 : a.of n2 = b.side a up) (a3 : a.of n3 = b.side a up)
    (d0 : d.of n0 = b.side d (!s)) (d1 : d.of n1 = b.side d s) (d2 : d.of n2 = b.side d s) (d3 : d.of n3 = b.side d (!s))
    (c0 : c.of n0 = b.side c t) (c1 : c.of n1 = b.side c t) (c2 : c.of n2 = b.side c (!t))
    (c3 : c.of n3 = b.side c (!t)) : Clockwise a up n0 n1 n2 n3 := by
  constructor
  · intro e
    rcases idet_all hdet e with rfl | rfl | rfl
    · rw [a0, a1, a2, a3]
    · rw [d0, d1, d2, d3, add_comm]
    · rw [c0, c1, c2, c3]
  · have hx := b.lt .x; have hy := b.lt .y; have hz := b.lt .z
    have pxy := mul_pos (sub_pos.2 hx) (sub_pos.2 hy)
    have pyz := mul_pos (sub_pos.2 hy) (sub_pos.2 hz)
    have pzx := mul_pos (sub_pos.2 hz) (sub_pos.2 hx)
    simp only [Axis.of] at pxy pyz pzx
    revert hdet
    cases a <;> cases d <;> cases c <;> cases up <;> cases s <;> cases t <;> intro hdet
    all_goals first
      | (exfalso; revert hdet; decide)
      | (simp only [Axis.of, GridBox.side, Bool.not_true, Bool.not_false, Bool.false_eq_true, if_true, if_false] at *
         simp only [turn, d0, d1, d2, c0, c1, c2]
         clear a0 a1 a2 a3 d0 d1 d2 d3 c0 c1 c2 c3
         linarith)

section
variable [F32Lib]

theorem third_ne {a d c : Axis} {up s t : Bool} (h : idet a up d s c t = 1) : d ≠ a ∧ c ≠ a := by
  revert h
  cases a <;> cases d <;> cases c <;> cases up <;> cases s <;> cases t <;> decide

/-- A corner of a side relative to its middle, in half steps. -/
def off (b : GridBox) (a : Axis) (up : Bool) (n : V3 Int) : V3 Int :=
  ⟨2 * n.x - (mid b a up).x, 2 * n.y - (mid b a up).y, 2 * n.z - (mid b a up).z⟩

theorem off_of (b : GridBox) {a c : Axis} (up : Bool) (n : V3 Int) (h : c ≠ a) :
    c.of (off b a up n) = 2 * c.of n - (c.of b.lo + c.of b.hi) := by
  cases a <;> cases c <;> first | exact absurd rfl h | rfl

theorem off_bnd {b : GridBox} {a : Axis} {up : Bool} {n : V3 Int} (h : n ∈ b.rect a up) :
    Bnd (2 ^ 21) (off b a up n) := by
  have key : ∀ c : Axis, (c.of (off b a up n)).natAbs ≤ 2 ^ 21 := by
    intro c
    by_cases hc : c = a
    · subst hc
      have h0 := (rect_mem.1 h).1
      have : c.of (off b c up n) = 0 := by
        cases c <;> simp only [off, mid, Axis.of] at h0 ⊢ <;> omega
      rw [this]; norm_num
    · rw [off_of b up n hc]
      have h1 := b.lo_small c; have h2 := b.hi_small c
      rcases (rect_mem.1 h).2 c with e | e <;> rw [e] <;> omega
  exact ⟨key .x, key .y, key .z⟩

theorem off_sign {b : GridBox} {a c : Axis} {up : Bool} {n : V3 Int} (h : n ∈ b.rect a up) (hc : c ≠ a) (t : Bool) :
    (sgn t * c.of (off b a up n)).natAbs ≤ 2 ^ 21 ∧ sgn t * c.of (off b a up n) ≠ 0 ∧
    (0 < sgn t * c.of (off b a up n) → c.of n = b.side c t) ∧
    (¬ 0 < sgn t * c.of (off b a up n) → c.of n = b.side c (!t)) := by
  rw [off_of b up n hc]
  have h0 := b.lt c; have h1 := b.lo_small c; have h2 := b.hi_small c
  rcases (rect_mem.1 h).2 c with e | e <;> rw [e] <;> cases t <;> simp [sgn, GridBox.side] <;> omega

theorem first_edge {g : Nat} {d : Axis} {p : BrushPlane F32} (hg : g ≤ 30) (h : FirstEdge g d p) :
    ∃ s, IsGV 0 (Arith.normalize (V3.sub p.v1 p.v0)) (nrm d s) := by
  obtain ⟨n0, n1, h0, h1, hb, hl⟩ := h
  have s0 := h0.small; have s1 := h1.small
  have sx := s0 .x; have sy := s0 .y; have sz := s0 .z
  have tx := s1 .x; have ty := s1 .y; have tz := s1 .z
  simp only [Axis.of] at sx sy sz tx ty tz
  have e := isGV_sub (gridPoint_isGV h1 hg) (gridPoint_isGV h0 hg) (by omega) (by omega) (by omega)
  refine ⟨decide (0 < d.of n1 - d.of n0), isGV_normalize (e := -(g : Int)) (q := (d.of n1 - d.of n0).natAbs) ?_
    (nrm_bnd _ _) (nrm_unit _ _) (by omega) (by omega) hl⟩
  have : (⟨(nrm d (decide (0 < d.of n1 - d.of n0))).x * (d.of n1 - d.of n0).natAbs,
      (nrm d (decide (0 < d.of n1 - d.of n0))).y * (d.of n1 - d.of n0).natAbs,
      (nrm d (decide (0 < d.of n1 - d.of n0))).z * (d.of n1 - d.of n0).natAbs⟩ : V3 Int) =
      ⟨n1.x - n0.x, n1.y - n0.y, n1.z - n0.z⟩ := by
    have hs : ∀ i : Int, sgn (decide (0 < i)) * (i.natAbs : Int) = i := by
      intro i
      by_cases hi : 0 < i
      · simp only [sgn, hi, decide_true, if_true]; omega
      · simp only [sgn, hi, decide_false, Bool.false_eq_true, if_false]; omega
    have hd := hs (d.of n1 - d.of n0)
    generalize decide (0 < d.of n1 - d.of n0) = k at *
    generalize ((d.of n1 - d.of n0).natAbs : Int) = l at *
    have bx := hb .x; have bY := hb .y; have bz := hb .z
    cases d <;> simp only [nrm, zero_mul, hd] <;> simp [Axis.of] at bx bY bz ⊢ <;> simp [*]
  rw [this]
  exact e

theorem quadrant_grid {e : Int} {y x : F32} {i j : Int} (hy : IsG e y i) (hx : IsG e x j) :
    quadrant (F32.val y) (F32.val x) = iquad i j := by
  have hp : (0 : ℝ) < 2 ^ e := by positivity
  have k : ∀ i : Int, (0 : ℝ) < i * 2 ^ e ↔ 0 < i := fun i => by
    rw [mul_pos_iff_of_pos_right hp, Int.cast_pos]
  unfold quadrant iquad
  rw [hy.val, hx.val]
  simp only [k]

theorem abs_grid {e : Int} {y : F32} {i : Int} (hy : IsG e y i) : |F32.val y| = (i.natAbs : ℝ) * 2 ^ e := by
  have hp : (0 : ℝ) < 2 ^ e := by positivity
  rw [hy.val, abs_mul, abs_of_pos hp, Nat.cast_natAbs, Int.cast_abs]

theorem atan2_grid [QuadrantAtan2] {e : Int} {y x y' x' : F32} {i j i' j' : Int} (hy : IsG e y i) (hx : IsG e x j)
    (hy' : IsG e y' i') (hx' : IsG e x' j') (bi : i.natAbs ≤ 2 ^ 21) (bj : j.natAbs ≤ 2 ^ 21) (bi' : i'.natAbs ≤ 2 ^ 21)
    (bj' : j'.natAbs ≤ 2 ^ 21) (ni : i ≠ 0) (nj : j ≠ 0) (ni' : i' ≠ 0) (nj' : j' ≠ 0)
    (h : iquad i j < iquad i' j') : Arith.lt (Arith.atan2 y x : F32) (Arith.atan2 y' x') = true := by
  have hp : (0 : ℝ) < 2 ^ e := by positivity
  have pos : ∀ {i : Int}, i ≠ 0 → (0 : ℝ) < (i.natAbs : ℝ) * 2 ^ e := fun {i} hi =>
    mul_pos (by exact_mod_cast Int.natAbs_pos.2 hi) hp
  have le : ∀ {i j : Int}, i.natAbs ≤ 2 ^ 21 → j ≠ 0 → (i.natAbs : ℝ) * 2 ^ e ≤ 2 ^ 22 * ((j.natAbs : ℝ) * 2 ^ e) := by
    intro i j hi hj
    rw [← mul_assoc]
    refine mul_le_mul_of_nonneg_right ?_ hp.le
    have h1 : 1 ≤ j.natAbs := Int.natAbs_pos.2 hj
    have : i.natAbs ≤ 2 ^ 22 * j.natAbs := by omega
    exact_mod_cast this
  refine QuadrantAtan2.lt y x y' x' hy.fin hx.fin hy'.fin hx'.fin ?_ ?_ ?_ ?_ ?_ ?_ ?_ ?_ ?_
  · rw [abs_grid hy]; exact pos ni
  · rw [abs_grid hx]; exact pos nj
  · rw [abs_grid hy']; exact pos ni'
  · rw [abs_grid hx']; exact pos nj'
  · rw [abs_grid hy, abs_grid hx]; exact le bi nj
  · rw [abs_grid hy, abs_grid hx]; exact le bj ni
  · rw [abs_grid hy', abs_grid hx']; exact le bi' nj'
  · rw [abs_grid hy', abs_grid hx']; exact le bj' ni'
  · rw [quadrant_grid hy hx, quadrant_grid hy' hx']; exact h

theorem lt_asymm32 {a b : F32} (h : Arith.lt a b = true) : Arith.lt b a = false := by
  change rel (· < ·) a b = true at h
  change rel (· < ·) b a = false
  unfold rel at h ⊢
  revert h
  rcases ext a with _ | x <;> rcases ext b with _ | y
  · exact fun _ => rfl
  · exact fun _ => rfl
  · exact fun _ => rfl
  · intro h
    simp only [decide_eq_true_eq] at h
    simp only [decide_eq_false_iff_not]
    exact not_lt.2 h.le

theorem lt_irrefl32 (a : F32) : Arith.lt a a = false := by
  cases h : Arith.lt a a
  · rfl
  · exact (lt_asymm32 h).symm.trans h |>.symm

variable {b : GridBox} {planes : List (BrushPlane F32)} {plane : BrushPlane F32} {a d : Axis} {up : Bool}

/-- The quadrant of a corner. -/
def cornerQuad (b : GridBox) (a : Axis) (up : Bool) (d : Axis) (s : Bool) (c : Axis) (t : Bool) (n : V3 Int) : Nat :=
  iquad (sgn t * c.of (off b a up n)) (sgn s * d.of (off b a up n))

theorem angle_lt [QuadrantAtan2] {s t : Bool} {c : Axis} (hp : IsSide b.g a up (b.side a up) plane)
    (hu : IsGV 0 (Arith.normalize (V3.sub plane.v1 plane.v0)) (nrm d s))
    (hc : icross (nrm a up) (nrm d s) = nrm c t) (hdet : idet a up d s c t = 1) {r r' : V3 F32} {n n' : V3 Int}
    (hn : n ∈ b.rect a up) (hn' : n' ∈ b.rect a up) (hr : IsGV (-(b.g : Int) - 1) r (off b a up n))
    (hr' : IsGV (-(b.g : Int) - 1) r' (off b a up n')) (h : cornerQuad b a up d s c t n < cornerQuad b a up d s c t n') :
    Arith.lt (faceAngle plane r) (faceAngle plane r') = true := by
  have hg := b.fine
  have hv : IsGV 0 (Arith.cross (faceNormal plane) (Arith.normalize (V3.sub plane.v1 plane.v0))) (nrm c t) := by
    rw [← hc]
    exact isGV_cross (side_face hg hp).normal hu (nrm_bnd _ _) (nrm_bnd _ _) (by norm_num) (by norm_num) (by norm_num)
  have dot : ∀ {w r : V3 F32} {n : V3 Int} {c : Axis} {t : Bool}, IsGV 0 w (nrm c t) → n ∈ b.rect a up →
      IsGV (-(b.g : Int) - 1) r (off b a up n) →
      IsG (-(b.g : Int) - 1) (Arith.dot r w) (sgn t * c.of (off b a up n)) := by
    intro w r n c t hw hn hr
    have := isG_dot hr hw (off_bnd hn) (nrm_bnd _ _) (by norm_num) (by omega) (by omega)
    rw [add_zero] at this
    have e := nrm_dot c t (off b a up n)
    unfold idot at e
    rw [← e]
    simpa [mul_comm] using this
  obtain ⟨na, nc⟩ := third_ne hdet
  obtain ⟨y1, y2, -, -⟩ := off_sign hn nc t
  obtain ⟨x1, x2, -, -⟩ := off_sign hn na s
  obtain ⟨y1', y2', -, -⟩ := off_sign hn' nc t
  obtain ⟨x1', x2', -, -⟩ := off_sign hn' na s
  exact atan2_grid (dot hv hn hr) (dot hu hn hr) (dot hv hn' hr') (dot hu hn' hr') y1 x1 y1' x1' y2 x2 y2' x2' h

/-- The quadrant tells corners apart. -/
theorem quad_corner {s t : Bool} {c : Axis} (hdet : idet a up d s c t = 1) {n : V3 Int} (hn : n ∈ b.rect a up) :
    a.of n = b.side a up ∧
    (cornerQuad b a up d s c t n = 3 → d.of n = b.side d (!s) ∧ c.of n = b.side c t) ∧
    (cornerQuad b a up d s c t n = 2 → d.of n = b.side d s ∧ c.of n = b.side c t) ∧
    (cornerQuad b a up d s c t n = 1 → d.of n = b.side d s ∧ c.of n = b.side c (!t)) ∧
    (cornerQuad b a up d s c t n = 0 → d.of n = b.side d (!s) ∧ c.of n = b.side c (!t)) := by
  obtain ⟨na, nc⟩ := third_ne hdet
  obtain ⟨-, -, y3, y4⟩ := off_sign hn nc t
  obtain ⟨-, -, x3, x4⟩ := off_sign hn na s
  refine ⟨(rect_mem.1 hn).1, ?_⟩
  unfold cornerQuad iquad
  split_ifs with h1 h2 h2 <;> simp [*]

theorem quad_inj {s t : Bool} {c : Axis} (hdet : idet a up d s c t = 1) {n n' : V3 Int} (hn : n ∈ b.rect a up)
    (hn' : n' ∈ b.rect a up) (h : cornerQuad b a up d s c t n = cornerQuad b a up d s c t n') : n = n' := by
  obtain ⟨e0, e3, e2, e1, e00⟩ := quad_corner (b := b) (d := d) (s := s) hdet hn
  obtain ⟨f0, f3, f2, f1, f00⟩ := quad_corner (b := b) (d := d) (s := s) hdet hn'
  rw [← h] at f3 f2 f1 f00
  have hlt : cornerQuad b a up d s c t n < 4 := iquad_lt _ _
  have key : d.of n = d.of n' ∧ c.of n = c.of n' := by
    have : cornerQuad b a up d s c t n = 0 ∨ cornerQuad b a up d s c t n = 1 ∨ cornerQuad b a up d s c t n = 2 ∨
      cornerQuad b a up d s c t n = 3 := by omega
    rcases this with k | k | k | k
    · exact ⟨(e00 k).1.trans (f00 k).1.symm, (e00 k).2.trans (f00 k).2.symm⟩
    · exact ⟨(e1 k).1.trans (f1 k).1.symm, (e1 k).2.trans (f1 k).2.symm⟩
    · exact ⟨(e2 k).1.trans (f2 k).1.symm, (e2 k).2.trans (f2 k).2.symm⟩
    · exact ⟨(e3 k).1.trans (f3 k).1.symm, (e3 k).2.trans (f3 k).2.symm⟩
  have all : ∀ e : Axis, e.of n = e.of n' := by
    intro e
    rcases idet_all hdet e with rfl | rfl | rfl
    · rw [e0, f0]
    · exact key.1
    · exact key.2
  have hx := all .x; have hy := all .y; have hz := all .z
  obtain ⟨x, y, z⟩ := n; obtain ⟨x', y', z'⟩ := n'
  simp only [Axis.of] at hx hy hz
  subst hx hy hz
  rfl

theorem forall₂_same {α β : Type} {R : α → β → Prop} {l : List α} {l' : List β} (h : List.Forall₂ R l l')
    (hd : l'.Nodup) {x x' : α} (hx : x ∈ l) (hx' : x' ∈ l) :
    ∃ y ∈ l', ∃ y' ∈ l', R x y ∧ R x' y' ∧ (y = y' → x = x') := by
  induction h with
  | nil => simp at hx
  | @cons a b l l' hr hl ih =>
    obtain ⟨hb, hd'⟩ := List.nodup_cons.1 hd
    rcases List.mem_cons.1 hx with rfl | hx1 <;> rcases List.mem_cons.1 hx' with rfl | hx1'
    · exact ⟨b, by simp, b, by simp, hr, hr, fun _ => rfl⟩
    · obtain ⟨y, hy, hxy⟩ := forall₂_left hl hx1'
      exact ⟨b, by simp, y, by simp [hy], hr, hxy, fun e => absurd (e ▸ hy) hb⟩
    · obtain ⟨y, hy, hxy⟩ := forall₂_left hl hx1
      exact ⟨y, by simp [hy], b, by simp, hxy, hr, fun e => absurd (e ▸ hy) hb⟩
    · obtain ⟨y, hy, y', hy', k⟩ := ih hd' hx1 hx1'
      exact ⟨y, by simp [hy], y', by simp [hy'], k⟩

variable [Platform]

/-- The top of the new box: its first edge runs along y. -/
theorem newBox_top : ∃ p ∈ newBox.planes, IsSide newGrid.g .z true (newGrid.side .z true) p ∧
    FirstEdge newGrid.g .y p := by
  refine ⟨octFace (int3 64 64 16) (int3 64 65 16) (int3 65 64 16), by simp [newBox], ?_, ⟨64, 64, 16⟩, ⟨64, 65, 16⟩,
    int3_grid (by norm_num) (by norm_num) (by norm_num), int3_grid (by norm_num) (by norm_num) (by norm_num), ?_,
    .inl ⟨0, by simp [Axis.of]⟩⟩
  · refine ⟨⟨64, 64, 16⟩, ⟨64, 65, 16⟩, ⟨65, 64, 16⟩, int3_grid (by norm_num) (by norm_num) (by norm_num),
      int3_grid (by norm_num) (by norm_num) (by norm_num), int3_grid (by norm_num) (by norm_num) (by norm_num),
      rfl, rfl, rfl, fun b => ?_, 1, by simp [turn], .inl ⟨0, rfl⟩⟩
    cases b <;> simp [Axis.of]
  · intro b hb
    cases b
    · rfl
    · exact absurd rfl hb
    · rfl

/-- The corners in their order: `d` is the axis of the first edge, `c` the third axis. -/
theorem face_wound [QuadrantAtan2] (textures : TextureInfo) (entity : Entity F32) (planes : List (BrushPlane F32))
    (plane : BrushPlane F32) (b : GridBox) (hb : b.IsBrush planes) (a : Axis) (up : Bool)
    (hp : IsSide b.g a up (b.side a up) plane) (d : Axis) (hd : d ≠ a) (he : FirstEdge b.g d plane) :
    ∃ geo, buildPlane textures entity planes plane = .ok geo ∧
      ∃ n0 n1 n2 n3 c s t, idet a up d s c t = 1 ∧ [n0, n1, n2, n3].Perm (b.rect a up) ∧
        (geo.vertices.map fun v => vec v.pos) = [b.point n0, b.point n1, b.point n2, b.point n3] ∧
        (d.of n0 = b.side d (!s) ∧ c.of n0 = b.side c t) ∧ (d.of n1 = b.side d s ∧ c.of n1 = b.side c t) ∧
        (d.of n2 = b.side d s ∧ c.of n2 = b.side c (!t)) ∧ (d.of n3 = b.side d (!s) ∧ c.of n3 = b.side c (!t)) := by
  have hg := b.fine
  obtain ⟨geo, h, -, hc⟩ := face_grid textures entity hb hp
  refine ⟨geo, h, ?_⟩
  obtain ⟨pts, rel, -, hrel, hver, hsort, hfound, hdist, hall⟩ := corners_wound textures entity planes plane geo h
  obtain ⟨ns, hperm, hns⟩ := found_corners hb hp hfound hdist hall
  have hoff : List.Forall₂ (fun r n => n ∈ b.rect a up ∧ IsGV (-(b.g : Int) - 1) r (off b a up n))
      (pts.map fun x => V3.sub x geo.center) ns := by
    rw [List.forall₂_map_left_iff]
    refine hns.imp fun x n hx => ⟨hx.1, ?_⟩
    obtain ⟨h1, h2, h3⟩ := rect_bnd hx.1
    obtain ⟨m1, m2, m3⟩ := mid_bnd b a up
    have hd := isGV_double hx.2 ⟨h1.trans (by norm_num), h2.trans (by norm_num), h3.trans (by norm_num)⟩ (by omega)
    exact isGV_sub hd hc (by simp only; omega) (by simp only; omega) (by simp only; omega)
  obtain ⟨ks, hks, hkp⟩ := List.perm_comp_forall₂ hrel hoff
  have hkperm : ks.Perm (b.rect a up) := hkp.trans hperm
  have hknd : ks.Nodup := hkperm.nodup_iff.2 (rect_nodup b a up)
  obtain ⟨s, hu⟩ := first_edge hg he
  obtain ⟨c, t, hcr, hdet⟩ := third_axis hd up s
  have hlt : ∀ r r' n n', n ∈ b.rect a up ∧ IsGV (-(b.g : Int) - 1) r (off b a up n) →
      n' ∈ b.rect a up ∧ IsGV (-(b.g : Int) - 1) r' (off b a up n') →
      cornerQuad b a up d s c t n < cornerQuad b a up d s c t n' →
      Arith.lt (faceAngle plane r) (faceAngle plane r') = true :=
    fun r r' n n' hr hr' hq => angle_lt hp hu hcr hdet hr.1 hr'.1 hr.2 hr'.2 hq
  have hnlt : ∀ r r' n n', n ∈ b.rect a up ∧ IsGV (-(b.g : Int) - 1) r (off b a up n) →
      n' ∈ b.rect a up ∧ IsGV (-(b.g : Int) - 1) r' (off b a up n') →
      Arith.lt (faceAngle plane r) (faceAngle plane r') = false →
      cornerQuad b a up d s c t n' ≤ cornerQuad b a up d s c t n := by
    intro r r' n n' hr hr' hq
    by_contra hc
    rw [hlt r r' n n' hr hr' (not_le.1 hc)] at hq
    exact absurd hq (by simp)
  have hpw := hsort (fun _ _ _ _ h => lt_asymm32 h) (by
    intro r1 m1 r2 m2 r3 m3 h12 h23
    obtain ⟨n2, -, k2⟩ := forall₂_left hks m2
    obtain ⟨n1, -, n3, -, k1, k3, h13⟩ := forall₂_same hks hknd m1 m3
    have e1 := hnlt _ _ _ _ k1 k2 h12
    have e2 := hnlt _ _ _ _ k2 k3 h23
    rcases lt_or_eq_of_le (e2.trans e1) with hl | hl
    · exact lt_asymm32 (hlt _ _ _ _ k3 k1 hl)
    · obtain rfl := h13 (quad_inj hdet k3.1 k1.1 hl).symm
      exact lt_irrefl32 _)
  have hle := forall₂_pairwise (Q := fun n n' => cornerQuad b a up d s c t n' ≤ cornerQuad b a up d s c t n)
    (fun r n r' n' k k' h => hnlt r r' n n' k k' h) hks hpw
  have hdec : ks.Pairwise (fun n n' => cornerQuad b a up d s c t n' < cornerQuad b a up d s c t n) := by
    refine (hle.and hknd).imp_of_mem fun {n n'} hn hn' hq => lt_of_le_of_ne hq.1 fun he => ?_
    exact hq.2 (quad_inj hdet (hkperm.mem_iff.1 hn) (hkperm.mem_iff.1 hn') he.symm)
  have hlen : ks.length = 4 := by rw [hkperm.length_eq]; cases a <;> rfl
  obtain ⟨n0, n1, n2, n3, rfl⟩ : ∃ n0 n1 n2 n3, ks = [n0, n1, n2, n3] := by
    match ks, hlen with
    | [n0, n1, n2, n3], _ => exact ⟨_, _, _, _, rfl⟩
  have hdec' := List.pairwise_map (f := cornerQuad b a up d s c t) (R := fun x y : Nat => y < x).2 hdec
  obtain ⟨q0, q1, q2, q3⟩ := quads_eq (iquad_lt _ _) hdec'
  have m0 : n0 ∈ b.rect a up := hkperm.mem_iff.1 (by simp)
  have m1 : n1 ∈ b.rect a up := hkperm.mem_iff.1 (by simp)
  have m2 : n2 ∈ b.rect a up := hkperm.mem_iff.1 (by simp)
  have m3 : n3 ∈ b.rect a up := hkperm.mem_iff.1 (by simp)
  obtain ⟨-, k0, -, -, -⟩ := quad_corner (d := d) (s := s) hdet m0
  obtain ⟨-, -, k1, -, -⟩ := quad_corner (d := d) (s := s) hdet m1
  obtain ⟨-, -, -, k2, -⟩ := quad_corner (d := d) (s := s) hdet m2
  obtain ⟨-, -, -, -, k3⟩ := quad_corner (d := d) (s := s) hdet m3
  refine ⟨n0, n1, n2, n3, c, s, t, hdet, hkperm, ?_, k0 q0, k1 q1, k2 q2, k3 q3⟩
  have hpos : (geo.vertices.map fun v => vec v.pos) = (rel.map fun r => vec (V3.add r geo.center)) := by
    have := congrArg (List.map vec) hver
    simpa [List.map_map, Function.comp_def] using this
  have hvec : ∀ r n, n ∈ b.rect a up ∧ IsGV (-(b.g : Int) - 1) r (off b a up n) →
      vec (V3.add r geo.center) = b.point n := by
    intro r n k
    apply grid_point
    obtain ⟨o1, o2, o3⟩ := off_bnd k.1
    obtain ⟨m1, m2, m3⟩ := mid_bnd b a up
    have ha := isGV_add k.2 hc (by omega) (by omega) (by omega)
    simpa [off] using ha
  rw [hpos]
  have : ∀ l : List (V3 F32), ∀ l' : List (V3 Int), List.Forall₂ (fun r n => n ∈ b.rect a up ∧
      IsGV (-(b.g : Int) - 1) r (off b a up n)) l l' → (l.map fun r => vec (V3.add r geo.center)) = l'.map b.point := by
    intro l l' h
    induction h with
    | nil => rfl
    | cons hr _ ih => rw [List.map_cons, List.map_cons, ih, hvec _ _ hr]
  exact this _ _ hks

/-- C90: the corners of a side of a box on the grid are listed clockwise as seen from outside, one after the other
around the side. -/
theorem C90_wound [QuadrantAtan2] (textures : TextureInfo) (entity : Entity F32) (planes : List (BrushPlane F32))
    (plane : BrushPlane F32) (b : GridBox) (hb : b.IsBrush planes) (a : Axis) (up : Bool)
    (hp : IsSide b.g a up (b.side a up) plane) (d : Axis) (hd : d ≠ a) (he : FirstEdge b.g d plane) :
    ∃ geo, buildPlane textures entity planes plane = .ok geo ∧
      ∃ n0 n1 n2 n3, [n0, n1, n2, n3].Perm (b.rect a up) ∧
        (geo.vertices.map fun v => vec v.pos) = [b.point n0, b.point n1, b.point n2, b.point n3] ∧
        Clockwise a up n0 n1 n2 n3 := by
  obtain ⟨geo, h, n0, n1, n2, n3, c, s, t, hdet, hperm, hv, k0, k1, k2, k3⟩ :=
    face_wound textures entity planes plane b hb a up hp d hd he
  have key : ∀ n ∈ [n0, n1, n2, n3], a.of n = b.side a up := fun n hn => (rect_mem.1 (hperm.mem_iff.1 hn)).1
  exact ⟨geo, h, n0, n1, n2, n3, hperm, hv, clockwise_of hdet (key _ (by simp)) (key _ (by simp)) (key _ (by simp))
    (key _ (by simp)) k0.1 k1.1 k2.1 k3.1 k0.2 k1.2 k2.2 k3.2⟩

/-! ### examples -/

/-- The top of the box of a new map: its corners run clockwise seen from above. -/
example [QuadrantAtan2] (textures : TextureInfo) (entity : Entity F32) :
    ∃ p ∈ newBox.planes, ∃ geo, buildPlane textures entity newBox.planes p = .ok geo ∧
      ∃ n0 n1 n2 n3, (geo.vertices.map fun v => vec v.pos) =
        [newGrid.point n0, newGrid.point n1, newGrid.point n2, newGrid.point n3] ∧ turn .z n0 n1 n2 < 0 := by
  obtain ⟨p, hp, hs⟩ := newBox_top
  obtain ⟨geo, h, n0, n1, n2, n3, -, hv, hc⟩ := C90_wound textures entity newBox.planes _ newGrid newBox_isBrush .z true
    hs.1 .y (by decide) hs.2
  exact ⟨p, hp, geo, h, n0, n1, n2, n3, hv, hc.2⟩

end

/-- A simple angle function with the order needed: one number for each quadrant. -/
@[reducible] noncomputable def stepLib : F32Lib where
  recip := false
  parse _ := none
  disp _ := []
  cos a := a
  atan2 y x := F32.ofReal (quadrant (F32.val y) (F32.val x))
  rotate _ _ v := v
  rotate2 _ v := v

/-- The requirement on `atan2` can be met. -/
example : @QuadrantAtan2 stepLib := by
  let _ := stepLib
  refine ⟨fun y x y' x' _ _ _ _ _ _ _ _ _ _ _ _ h => ?_⟩
  have h1 := is_ofReal (z := quadrant (F32.val y) (F32.val x)) (by unfold quadrant; split_ifs <;> norm_num)
  have h2 := is_ofReal (z := quadrant (F32.val y') (F32.val x')) (by unfold quadrant; split_ifs <;> norm_num)
  exact (isG_lt (isG_of_is h1) (isG_of_is h2)).2 (by exact_mod_cast h)

end Quarch
