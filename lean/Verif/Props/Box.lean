import Verif.Proofs.Box
import Verif.Props.RoundingExamples
import Verif.Proofs.Gather
/-
C90: boxes on a grid come out exactly.
-/
set_option linter.unusedSectionVars false
namespace Quarch
open Quarch.Spec Quarch.Spec.F32 Quarch.Geo Quarch.Spec.Box

section
variable [F32Lib]

theorem behind_grid {e : Int} {a : Axis} {up : Bool} {c : Int} {p : BrushPlane F32} {v : V3 F32} {n : V3 Int}
    (ge : -148 ≤ e) (le : e ≤ 0) (hp : Face e a up c p) (hv : IsGV e v n) (hn : Bnd (2 ^ 20) n)
    (h : sgn up * a.of n ≤ sgn up * c) : Behind p v := by
  rintro ⟨h1, -⟩
  have hd := isG_dot hp.normal hv (nrm_bnd a up) hn (by norm_num) (by omega) (by omega)
  have := nrm_dot a up n
  unfold idot at this
  rw [this, zero_add] at hd
  have := (isG_lt hp.dist hd).1 h1
  omega

theorem rect_mem {b : GridBox} {a : Axis} {up : Bool} {n : V3 Int} :
    n ∈ b.rect a up ↔ a.of n = b.side a up ∧ ∀ d : Axis, d.of n = d.of b.lo ∨ d.of n = d.of b.hi := by
  obtain ⟨x, y, z⟩ := n
  constructor
  · intro h
    cases a <;> simp only [GridBox.rect, List.mem_cons, List.not_mem_nil, or_false, V3.mk.injEq] at h <;>
      cases up <;> simp only [GridBox.side, Axis.of] at h ⊢ <;> simp only [Bool.false_eq_true, if_false, if_true] at h ⊢ <;>
      (refine ⟨by omega, fun d => ?_⟩) <;> cases d <;> simp only <;> omega
  · rintro ⟨h, hd⟩
    have hx := hd .x; have hy := hd .y; have hz := hd .z
    simp only [Axis.of] at hx hy hz
    cases a <;> simp only [GridBox.rect, List.mem_cons, List.not_mem_nil, or_false, V3.mk.injEq] <;>
      simp only [Axis.of] at h <;> omega

theorem side_small (b : GridBox) (a : Axis) (up : Bool) : (b.side a up).natAbs ≤ 2 ^ 20 := by
  cases up <;> simp only [GridBox.side]
  · exact b.lo_small a
  · exact b.hi_small a

theorem rect_bnd {b : GridBox} {a : Axis} {up : Bool} {n : V3 Int} (h : n ∈ b.rect a up) : Bnd (2 ^ 20) n := by
  have key : ∀ d : Axis, (d.of n).natAbs ≤ 2 ^ 20 := by
    intro d
    rcases (rect_mem.1 h).2 d with e | e <;> rw [e]
    · exact b.lo_small d
    · exact b.hi_small d
  exact ⟨key .x, key .y, key .z⟩

variable {b : GridBox} {planes : List (BrushPlane F32)} {plane : BrushPlane F32} {a : Axis} {up : Bool}

theorem found_rect (hb : b.IsBrush planes) (hp : IsSide b.g a up (b.side a up) plane) {x : V3 F32}
    (h : Found planes plane x) : ∃ n ∈ b.rect a up, IsGV (-(b.g : Int)) x n := by
  obtain ⟨⟨p1, m1, p2, m2, hm⟩, -⟩ := h
  obtain ⟨a1, u1, s1⟩ := hb.1 p1 m1
  obtain ⟨a2, u2, s2⟩ := hb.1 p2 m2
  have hg := b.fine
  obtain ⟨k1, k2⟩ := meet_grid (by omega) (by omega) (side_face hg hp) (side_face hg s1) (side_face hg s2)
  have hdet := k1 x hm
  obtain ⟨v, n, hm', hv, e0, e1, e2⟩ := k2 hdet
  obtain rfl := meet_unique hm hm'
  refine ⟨n, rect_mem.2 ⟨e0, fun d => ?_⟩, hv⟩
  have hs : ∀ (d : Axis) (u : Bool), b.side d u = d.of b.lo ∨ b.side d u = d.of b.hi := by
    intro d u; cases u <;> simp [GridBox.side]
  rcases idet_all hdet d with rfl | rfl | rfl
  · rw [e0]; exact hs _ _
  · rw [e1]; exact hs _ _
  · rw [e2]; exact hs _ _

theorem rect_found (hb : b.IsBrush planes) (hp : IsSide b.g a up (b.side a up) plane) {n : V3 Int}
    (hn : n ∈ b.rect a up) : ∃ x, Found planes plane x ∧ IsGV (-(b.g : Int)) x n := by
  obtain ⟨h0, hd⟩ := rect_mem.1 hn
  have hg := b.fine
  have hf : ∀ d : Axis, d.of n = b.side d (decide (d.of n = d.of b.hi)) := by
    intro d
    by_cases h : d.of n = d.of b.hi
    · simp [GridBox.side, h]
    · have := (hd d).resolve_right h
      simp [GridBox.side, this, (b.lt d).ne]
  have hfa : decide (a.of n = a.of b.hi) = up := by
    have := b.lt a
    cases up <;> simp only [GridBox.side] at h0 <;> simp at h0 ⊢ <;> omega
  obtain ⟨a1, a2, hdet⟩ := idet_exists a (fun d => decide (d.of n = d.of b.hi))
  obtain ⟨p1, m1, s1⟩ := hb.2 a1 (decide (a1.of n = a1.of b.hi))
  obtain ⟨p2, m2, s2⟩ := hb.2 a2 (decide (a2.of n = a2.of b.hi))
  obtain ⟨-, k2⟩ := meet_grid (by omega) (by omega) (side_face hg hp) (side_face hg s1) (side_face hg s2)
  simp only [hfa] at hdet
  obtain ⟨v, n', hm, hv, e0, e1, e2⟩ := k2 hdet
  have hnn : ∀ d : Axis, d.of n' = d.of n := by
    intro d
    rcases idet_all hdet d with rfl | rfl | rfl
    · rw [e0, h0]
    · rw [e1, ← hf]
    · rw [e2, ← hf]
  obtain rfl : n' = n := by
    have hx := hnn .x; have hy := hnn .y; have hz := hnn .z
    obtain ⟨x, y, z⟩ := n; obtain ⟨x', y', z'⟩ := n'
    simp only [Axis.of] at hx hy hz
    subst hx hy hz
    rfl
  refine ⟨v, ⟨⟨p1, m1, p2, m2, hm⟩, fun p hp => ?_⟩, hv⟩
  obtain ⟨d, u, s⟩ := hb.1 p hp
  refine behind_grid (by omega) (by omega) (side_face hg s) hv (rect_bnd hn) ?_
  have := b.lt d
  rcases hd d with h | h <;> cases u <;> simp only [sgn, GridBox.side, h] <;> simp <;> omega

theorem rect_nodup (b : GridBox) (a : Axis) (up : Bool) : (b.rect a up).Nodup := by
  have hx := (b.lt .x).ne; have hy := (b.lt .y).ne; have hz := (b.lt .z).ne
  simp only [Axis.of] at hx hy hz
  cases a <;> simp [GridBox.rect, hx, hx.symm, hy, hy.symm, hz]

theorem exists_forall₂ {α β : Type} {R : α → β → Prop} : ∀ {l : List α}, (∀ x ∈ l, ∃ y, R x y) →
    ∃ l', List.Forall₂ R l l'
  | [], _ => ⟨[], .nil⟩
  | x :: l, h => by
    obtain ⟨y, hy⟩ := h x (by simp)
    obtain ⟨l', hl⟩ := exists_forall₂ (l := l) fun z hz => h z (by simp [hz])
    exact ⟨y :: l', .cons hy hl⟩

theorem forall₂_pairwise {α β : Type} {R : α → β → Prop} {P : α → α → Prop} {Q : β → β → Prop}
    (hPQ : ∀ x y x' y', R x y → R x' y' → P x x' → Q y y') {l : List α} {l' : List β} (h : List.Forall₂ R l l')
    (hp : l.Pairwise P) : l'.Pairwise Q := by
  induction h with
  | nil => exact .nil
  | cons hr hl ih =>
    rw [List.pairwise_cons] at hp ⊢
    refine ⟨fun y hy => ?_, ih hp.2⟩
    obtain ⟨x, hx, hxy⟩ := forall₂_right hl hy
    exact hPQ _ _ _ _ hr hxy (hp.1 x hx)

theorem beq_grid {e : Int} {v w : V3 F32} {m n : V3 Int} (hv : IsGV e v m) (hw : IsGV e w n) :
    V3.beq v w = true ↔ m = n := by
  unfold V3.beq
  rw [Bool.and_eq_true, Bool.and_eq_true, isG_eq hv.x hw.x, isG_eq hv.y hw.y, isG_eq hv.z hw.z]
  obtain ⟨x, y, z⟩ := m; obtain ⟨x', y', z'⟩ := n
  simp [and_assoc]

theorem fold_grid {e : Int} {B : Nat} {pts : List (V3 F32)} {ns : List (V3 Int)}
    (h : List.Forall₂ (IsGV e) pts ns) (hB : ∀ n ∈ ns, Bnd B n) :
    ∀ (A : Nat) (acc : V3 F32) (m : V3 Int), IsGV e acc m → Bnd A m → A + B * pts.length < 2 ^ 24 →
      IsGV e (pts.foldl V3.add acc) ⟨m.x + (ns.map (·.x)).sum, m.y + (ns.map (·.y)).sum, m.z + (ns.map (·.z)).sum⟩ := by
  induction h with
  | nil => intro A acc m ha _ _; simpa using ha
  | @cons p n pts ns hr hl ih =>
    intro A acc m ha hA hlt
    rw [List.length_cons, Nat.mul_succ] at hlt
    obtain ⟨b1, b2, b3⟩ := hB n (by simp)
    obtain ⟨a1, a2, a3⟩ := hA
    have hadd := isGV_add ha hr (by omega) (by omega) (by omega)
    have := ih (fun k hk => hB k (by simp [hk])) (A + B) _ _ hadd
      ⟨by simp only; omega, by simp only; omega, by simp only; omega⟩ (by omega)
    simpa [add_assoc] using this

theorem ofNat_is {k : Nat} (h : k < 2 ^ 24) : IsG 0 (Arith.ofNat k : F32) k := by
  obtain ⟨h1, h2⟩ := is_ofAbs (s := false) h (x := (k : ℝ)) rfl
  refine ⟨h1, ?_, by simpa using h, by norm_num, by norm_num⟩
  have : F32.val (Arith.ofNat k : F32) = sv false (k : ℝ) := h2
  rw [this]; simp [sv]

theorem mean_grid {e : Int} {pts : List (V3 F32)} {ns : List (V3 Int)} {q : V3 Int} (ge : -149 ≤ e) (le : e ≤ 104)
    (h : List.Forall₂ (IsGV e) pts ns) (hB : ∀ n ∈ ns, Bnd (2 ^ 21) n) (h0 : 0 < pts.length) (h6 : pts.length ≤ 6)
    (hx : (ns.map (·.x)).sum = q.x * pts.length) (hy : (ns.map (·.y)).sum = q.y * pts.length)
    (hz : (ns.map (·.z)).sum = q.z * pts.length) : IsGV e (mean pts) q := by
  have hf := fold_grid h hB 0 V3.zero ⟨0, 0, 0⟩ ⟨isG_zero ge le, isG_zero ge le, isG_zero ge le⟩ (by simp [Bnd])
    (by omega)
  simp only [zero_add] at hf
  have hk : max pts.length 1 = pts.length := by omega
  unfold mean
  rw [hk]
  have := isGV_sdiv hf (ofNat_is (k := pts.length) (by omega)) (by omega) hx hy hz (by omega) (by omega)
  rwa [sub_zero] at this

theorem grid_fin {e : Int} {v : V3 F32} {n : V3 Int} (h : IsGV e v n) : Finite3 v := ⟨h.x.fin, h.y.fin, h.z.fin⟩

theorem grid_val {e : Int} {v : V3 F32} {n : V3 Int} (h : IsGV e v n) :
    vec v = ⟨n.x * 2 ^ e, n.y * 2 ^ e, n.z * 2 ^ e⟩ := by
  unfold vec
  rw [h.x.val, h.y.val, h.z.val]

theorem pow_pred (g : Nat) : (2 : ℝ) ^ (-(g : Int) - 1) = 1 / 2 / 2 ^ g := by
  rw [zpow_sub₀ (by norm_num), zpow_neg, zpow_natCast]
  field_simp

theorem grid_point {v : V3 F32} {n : V3 Int} (h : IsGV (-(b.g : Int) - 1) v ⟨2 * n.x, 2 * n.y, 2 * n.z⟩) :
    vec v = b.point n := by
  rw [grid_val h, pow_pred]
  unfold GridBox.point
  push_cast
  congr 1 <;> ring

/-- The middle of a side in half steps. -/
def mid (b : GridBox) (a : Axis) (up : Bool) : V3 Int :=
  match a with
  | .x => ⟨2 * b.side .x up, b.lo.y + b.hi.y, b.lo.z + b.hi.z⟩
  | .y => ⟨b.lo.x + b.hi.x, 2 * b.side .y up, b.lo.z + b.hi.z⟩
  | .z => ⟨b.lo.x + b.hi.x, b.lo.y + b.hi.y, 2 * b.side .z up⟩

theorem mid_bnd (b : GridBox) (a : Axis) (up : Bool) : Bnd (2 ^ 21) (mid b a up) := by
  have hs := side_small b a up
  have lx := b.lo_small .x; have ly := b.lo_small .y; have lz := b.lo_small .z
  have hx := b.hi_small .x; have hy := b.hi_small .y; have hz := b.hi_small .z
  simp only [Axis.of] at lx ly lz hx hy hz
  cases a <;> simp only [mid, Bnd] <;> omega

theorem mid_val {v : V3 F32} (h : IsGV (-(b.g : Int) - 1) v (mid b a up)) : vec v = b.sideMiddle a up := by
  rw [grid_val h, pow_pred]
  cases a <;> simp only [mid, GridBox.sideMiddle, GridBox.middle] <;> push_cast <;> congr 1 <;> ring

theorem face_largest {e : Int} {c : Int} (h : Face e a up c plane) : HasLargest (faceNormal plane) := by
  have z0 : IsG 0 (Arith.zero : F32) 0 := isG_zero (by norm_num) (by norm_num)
  have o1 : IsG 0 (Arith.one : F32) 1 := isG_of_is is_one
  have key : ∀ (w : V3 F32) (n : V3 Int), IsGV 0 w n → Bnd 1 n → Rounding.Fin (Arith.dot (faceNormal plane) w) :=
    fun w n hw hn => (isG_dot h.normal hw (nrm_bnd _ _) hn (by norm_num) (by norm_num) (by norm_num)).fin
  exact hasLargest_fin3 (key _ ⟨0, 0, 1⟩ ⟨z0, z0, o1⟩ (by simp [Bnd])) (key _ ⟨0, 1, 0⟩ ⟨z0, o1, z0⟩ (by simp [Bnd]))
    (key _ ⟨1, 0, 0⟩ ⟨o1, z0, z0⟩ (by simp [Bnd]))

theorem found_corners (hb : b.IsBrush planes) (hp : IsSide b.g a up (b.side a up) plane) {pts : List (V3 F32)}
    (hfound : ∀ x ∈ pts, Found planes plane x)
    (hdist : pts.Pairwise (fun a b => V3.beq a b = false ∧ V3.beq b a = false))
    (hall : ∀ x, Found planes plane x → ∃ y ∈ pts, y = x ∨ V3.beq y x = true) :
    ∃ ns : List (V3 Int), ns.Perm (b.rect a up) ∧
      List.Forall₂ (fun x n => n ∈ b.rect a up ∧ IsGV (-(b.g : Int)) x n) pts ns := by
  obtain ⟨ns, hns⟩ := exists_forall₂ fun x hx => found_rect hb hp (hfound x hx)
  have hnodup : ns.Nodup := forall₂_pairwise (fun x y x' y' h1 h2 hp => by
    intro he
    rw [(beq_grid h1.2 h2.2).2 he] at hp
    exact absurd hp.1 (by simp)) hns hdist
  refine ⟨ns, ?_, hns⟩
  · refine (List.perm_ext_iff_of_nodup hnodup (rect_nodup b a up)).2 fun n => ⟨fun hn => ?_, fun hn => ?_⟩
    · obtain ⟨x, -, hx⟩ := forall₂_right hns hn
      exact hx.1
    · obtain ⟨x, hx, hxn⟩ := rect_found hb hp hn
      obtain ⟨y, hy, hyx⟩ := hall x hx
      obtain ⟨m, hm, hym⟩ := forall₂_left hns hy
      have hyx' : V3.beq y x = true := by
        rcases hyx with rfl | hyx
        · exact (beq_grid hxn hxn).2 rfl
        · exact hyx
      rwa [← (beq_grid hym.2 hxn).1 hyx']

variable [Platform]

theorem face_grid (textures : TextureInfo) (entity : Entity F32) (hb : b.IsBrush planes)
    (hp : IsSide b.g a up (b.side a up) plane) :
    ∃ geo, buildPlane textures entity planes plane = .ok geo ∧
      (∃ ns : List (V3 Int), ns.Perm (b.rect a up) ∧
        List.Forall₂ (fun v n => IsGV (-(b.g : Int) - 1) v.pos ⟨2 * n.x, 2 * n.y, 2 * n.z⟩) geo.vertices ns) ∧
      IsGV (-(b.g : Int) - 1) geo.center (mid b a up) := by
  have hg := b.fine
  obtain ⟨geo, h⟩ := (buildPlane_isOk textures entity planes plane).2 fun _ _ => face_largest (side_face hg hp)
  refine ⟨geo, h, ?_⟩
  obtain ⟨pts, hperm, hcen, hfound, hdist, hall⟩ := corners_center textures entity planes plane geo h
  obtain ⟨ns, hns', hns⟩ := found_corners hb hp hfound hdist hall
  have hlen : pts.length = 4 := by
    rw [hns.length_eq, hns'.length_eq]; cases a <;> rfl
  have hdbl : List.Forall₂ (IsGV (-(b.g : Int) - 1)) pts (ns.map fun n => (⟨2 * n.x, 2 * n.y, 2 * n.z⟩ : V3 Int)) := by
    rw [List.forall₂_map_right_iff]
    refine hns.imp fun x n hx => isGV_double hx.2 ?_ (by omega)
    have := rect_bnd hx.1
    exact ⟨this.1.trans (by norm_num), this.2.1.trans (by norm_num), this.2.2.trans (by norm_num)⟩
  have hc : IsGV (-(b.g : Int) - 1) geo.center (mid b a up) := by
    rw [hcen]
    have hsum : ∀ f : V3 Int → Int, (ns.map f).sum = ((b.rect a up).map f).sum := fun f => (hns'.map f).sum_eq
    refine mean_grid (by omega) (by omega) hdbl ?_ (by omega) (by omega) ?_ ?_ ?_
    · intro n hn
      obtain ⟨m, hm, rfl⟩ := List.mem_map.1 hn
      obtain ⟨h1, h2, h3⟩ := rect_bnd (hns'.mem_iff.1 hm)
      exact ⟨by simp only; omega, by simp only; omega, by simp only; omega⟩
    all_goals
      rw [List.map_map, hsum, hlen]
      cases a <;> simp [GridBox.rect, mid] <;> ring
  refine ⟨?_, hc⟩
  have hrec : List.Forall₂ (fun v n => IsGV (-(b.g : Int) - 1) v ⟨2 * n.x, 2 * n.y, 2 * n.z⟩)
      (pts.map (recentre geo.center)) ns := by
    rw [List.forall₂_map_left_iff]
    refine hns.imp fun x n hx => ?_
    obtain ⟨h1, h2, h3⟩ := rect_bnd hx.1
    obtain ⟨m1, m2, m3⟩ := mid_bnd b a up
    have hd := isGV_double hx.2 ⟨h1.trans (by norm_num), h2.trans (by norm_num), h3.trans (by norm_num)⟩ (by omega)
    have hs := isGV_sub hd hc (by simp only; omega) (by simp only; omega) (by simp only; omega)
    have ha := isGV_add hs hc (by simp only; omega) (by simp only; omega) (by simp only; omega)
    simpa [recentre] using ha
  obtain ⟨ns2, hv, hpm⟩ := List.perm_comp_forall₂ hperm hrec
  rw [List.forall₂_map_left_iff] at hv
  exact ⟨ns2, hpm.trans hns', hv⟩

/-- C90: a side of a box on the grid gets exactly the four corners, the middle and the outward normal it has in
real arithmetic. -/
theorem C90_face (textures : TextureInfo) (entity : Entity F32) (planes : List (BrushPlane F32))
    (plane : BrushPlane F32) (b : GridBox) (hb : b.IsBrush planes) (a : Axis) (up : Bool)
    (hp : IsSide b.g a up (b.side a up) plane) :
    ∃ geo, buildPlane textures entity planes plane = .ok geo ∧ ExactSide b a up entity geo := by
  obtain ⟨geo, h, ⟨ns, hperm, hv⟩, hc⟩ := face_grid textures entity hb hp
  have hlen : geo.vertices.length = 4 := by
    rw [hv.length_eq, hperm.length_eq]; cases a <;> rfl
  refine ⟨geo, h, ?_, mid_val hc, ?_, ⟨grid_fin hc, fun v hvm => ?_⟩, fun hph v hvm => ?_⟩
  · refine List.Perm.trans (List.Perm.of_eq ?_) (hperm.map b.point)
    generalize geo.vertices = l at hv
    clear * - hv
    induction hv with
    | nil => rfl
    | cons hr _ ih => rw [List.map_cons, List.map_cons, ih, grid_point hr]
  · obtain ⟨_, _, _, _, _, _, hi, _⟩ := buildPlane_ok h
    rw [hi, hlen]
    rfl
  · obtain ⟨n, -, hn⟩ := forall₂_left hv hvm
    exact grid_fin hn
  · obtain ⟨w, hw, rfl⟩ := buildPlane_vertex h hvm
    have hfalse : isPhong entity = false := by
      simpa [isPhong, Entity.getProperty, Map.get?] using hph
    obtain ⟨p1, -, p2, -, -, hn⟩ := hw.src
    have hnw : ({ finishNormal (isPhong entity) w with pos := recentre geo.center w.pos } : Vertex F32).normal =
        faceNormal plane := by
      rw [hfalse]
      simp only [finishNormal, Bool.false_eq_true, if_false]
      rw [hn, vertexNormal, hfalse]
      rfl
    rw [hnw]
    have hf := (side_face b.fine hp).normal
    refine ⟨grid_fin hf, ?_⟩
    rw [grid_val hf]
    cases a <;> cases up <;> simp [nrm, sgn, outward]

theorem labels_perm {L : List (Axis × Bool)} (hl : L.length = 6) (h : ∀ a up, (a, up) ∈ L) :
    L.Perm [(.x, true), (.x, false), (.y, true), (.y, false), (.z, true), (.z, false)] := by
  refine (List.Subperm.perm_of_length_le (List.subperm_of_subset (by decide) ?_) (by simp [hl])).symm
  intro x _
  exact h x.1 x.2

theorem side_label {g : Nat} {p : BrushPlane F32} {a a' : Axis} {up up' : Bool} {c c' : Int} (hg : g ≤ 30)
    (h : IsSide g a up c p) (h' : IsSide g a' up' c' p) : (a, up) = (a', up') := by
  have n := (side_face hg h).normal
  have n' := (side_face hg h').normal
  have := (beq_grid n n').1 ((beq_grid n n).2 rfl)
  revert this
  cases a <;> cases a' <;> cases up <;> cases up' <;> simp [nrm, sgn]

theorem forall₂_join {α β γ : Type} {R : α → β → Prop} {S : α → γ → Prop} {l : List α} {l1 : List β} {l2 : List γ}
    (h1 : List.Forall₂ R l l1) (h2 : List.Forall₂ S l l2) : List.Forall₂ (fun x y => ∃ z ∈ l, R z x ∧ S z y) l1 l2 := by
  induction h1 generalizing l2 with
  | nil => cases h2; exact .nil
  | cons hr _ ih =>
    cases h2 with
    | cons hs ht =>
      refine .cons ⟨_, by simp, hr, hs⟩ ((ih ht).imp ?_)
      rintro x y ⟨z, hz, h⟩
      exact ⟨z, by simp [hz], h⟩

/-- C90: a brush which is a box on the grid. -/
theorem C90_brush (textures : TextureInfo) (entity : Entity F32) (brush : Brush F32) (b : GridBox)
    (hb : b.IsBrush brush.planes) :
    ∃ geo, buildBrush textures entity brush = .ok geo ∧
      List.Forall₂ (fun p g => ∀ a up, IsSide b.g a up (b.side a up) p → ExactSide b a up entity g)
        brush.planes geo.planes ∧
      (brush.planes.length = 6 → Finite3 geo.center ∧ vec geo.center = b.middle) := by
  have hok : ∀ p ∈ brush.planes, ∃ g, buildPlane textures entity brush.planes p = .ok g := by
    intro p hp
    obtain ⟨a, up, hs⟩ := hb.1 p hp
    obtain ⟨g, hg, -⟩ := C90_face textures entity brush.planes p b hb a up hs
    exact ⟨g, hg⟩
  obtain ⟨pgs, hpgs⟩ := exists_forall₂ hok
  refine ⟨⟨mean (pgs.map (·.center)), pgs⟩, ?_, ?_, fun h6 => ?_⟩
  · unfold buildBrush
    rw [mapOut_eq_ok.2 hpgs]
    rfl
  · refine hpgs.imp fun p g hg a up hs => ?_
    obtain ⟨g', hg', he⟩ := C90_face textures entity brush.planes p b hb a up hs
    rw [hg] at hg'
    cases hg'
    exact he
  · have hlab : ∀ p ∈ brush.planes, ∃ l : Axis × Bool, IsSide b.g l.1 l.2 (b.side l.1 l.2) p := by
      intro p hp
      obtain ⟨a, up, hs⟩ := hb.1 p hp
      exact ⟨(a, up), hs⟩
    obtain ⟨L, hL⟩ := exists_forall₂ hlab
    have hLp := labels_perm (L := L) (by rw [← hL.length_eq, h6]) (by
      intro a up
      obtain ⟨p, hp, hs⟩ := hb.2 a up
      obtain ⟨l, hl, hs'⟩ := forall₂_left hL hp
      rwa [side_label b.fine hs hs'])
    have hc : List.Forall₂ (IsGV (-(b.g : Int) - 1)) (pgs.map (·.center)) (L.map fun l => mid b l.1 l.2) := by
      rw [List.forall₂_map_left_iff, List.forall₂_map_right_iff]
      refine (forall₂_join hpgs hL).imp ?_
      rintro g l ⟨p, -, hg, hs⟩
      obtain ⟨g', hg', -, he⟩ := face_grid textures entity hb hs
      rw [hg] at hg'
      cases hg'
      exact he
    have hlen : (pgs.map (·.center)).length = 6 := by rw [List.length_map, ← hpgs.length_eq, h6]
    have hsum : ∀ f : V3 Int → Int, ((L.map fun l => mid b l.1 l.2).map f).sum = _ :=
      fun f => ((hLp.map fun l => mid b l.1 l.2).map f).sum_eq
    have hg := b.fine
    have hm : IsGV (-(b.g : Int) - 1) (mean (pgs.map (·.center)))
        ⟨b.lo.x + b.hi.x, b.lo.y + b.hi.y, b.lo.z + b.hi.z⟩ := by
      refine mean_grid (by omega) (by omega) hc ?_ (by omega) (by omega) ?_ ?_ ?_
      · intro n hn
        obtain ⟨l, -, rfl⟩ := List.mem_map.1 hn
        exact mid_bnd b l.1 l.2
      all_goals
        rw [hsum, hlen]
        simp [mid, GridBox.side, Axis.of]
        ring
    refine ⟨grid_fin hm, ?_⟩
    rw [grid_val hm, pow_pred]
    unfold GridBox.middle
    push_cast
    congr 1 <;> ring

/-- C90: a map all of whose brushes are boxes on grids. -/
theorem C90_map (textures : TextureInfo) (entities : List (Entity F32))
    (hb : ∀ e ∈ entities, ∀ br ∈ e.brushes, ∃ b : GridBox, b.IsBrush br.planes) :
    ∃ gs, Geo.run textures entities = .ok gs ∧
      List.Forall₂ (fun e eg => List.Forall₂ (fun br bg => ∀ b : GridBox, b.IsBrush br.planes →
        List.Forall₂ (fun p g => ∀ a up, IsSide b.g a up (b.side a up) p → ExactSide b a up e g) br.planes bg.planes ∧
        (br.planes.length = 6 → Finite3 bg.center ∧ vec bg.center = b.middle)) e.brushes eg.brushes) entities gs := by
  have hbr : ∀ e ∈ entities, ∀ br ∈ e.brushes, ∃ bg, buildBrush textures e br = .ok bg := by
    intro e he br hbr
    obtain ⟨b, h⟩ := hb e he br hbr
    obtain ⟨bg, hbg, -⟩ := C90_brush textures e br b h
    exact ⟨bg, hbg⟩
  have hent : ∀ e ∈ entities, ∃ eg, buildEntity textures e = .ok eg ∧
      List.Forall₂ (fun br bg => buildBrush textures e br = .ok bg) e.brushes eg.brushes := by
    intro e he
    obtain ⟨bgs, hbgs⟩ := exists_forall₂ (hbr e he)
    have hx : ∃ eg : EntityGeo F32, buildEntity textures e = .ok eg ∧ eg.brushes = bgs := by
      unfold buildEntity
      rw [mapOut_eq_ok.2 hbgs]
      exact ⟨_, rfl, rfl⟩
    obtain ⟨eg, h1, h2⟩ := hx
    exact ⟨eg, h1, by rw [h2]; exact hbgs⟩
  obtain ⟨gs, hgs⟩ := exists_forall₂ hent
  refine ⟨gs, mapOut_eq_ok.2 (hgs.imp fun e g h => h.1), hgs.imp fun e eg h => h.2.imp fun br bg hbg b hbx => ?_⟩
  obtain ⟨bg', hbg', h1, h2⟩ := C90_brush textures e br b hbx
  rw [hbg] at hbg'
  cases hbg'
  exact ⟨h1, h2⟩

/-- A whole number. -/
noncomputable def int3 (x y z : Int) : V3 F32 := ⟨F32.ofReal x, F32.ofReal y, F32.ofReal z⟩

/-- The box an editor puts into a new map, with points one unit apart. -/
noncomputable def newBox : Brush F32 := ⟨[
  octFace (int3 (-64) (-64) (-16)) (int3 (-64) (-63) (-16)) (int3 (-64) (-64) (-15)),
  octFace (int3 (-64) (-64) (-16)) (int3 (-64) (-64) (-15)) (int3 (-63) (-64) (-16)),
  octFace (int3 (-64) (-64) (-16)) (int3 (-63) (-64) (-16)) (int3 (-64) (-63) (-16)),
  octFace (int3 64 64 16) (int3 64 65 16) (int3 65 64 16),
  octFace (int3 64 64 16) (int3 65 64 16) (int3 64 64 17),
  octFace (int3 64 64 16) (int3 64 64 17) (int3 64 65 16)]⟩

def newGrid : GridBox where
  g := 0
  lo := ⟨-64, -64, -16⟩
  hi := ⟨64, 64, 16⟩
  fine := by norm_num
  lt a := by cases a <;> simp [Axis.of]
  lo_small a := by cases a <;> simp [Axis.of]
  hi_small a := by cases a <;> simp [Axis.of]

theorem int3_grid {x y z : Int} (hx : x.natAbs ≤ 100) (hy : y.natAbs ≤ 100) (hz : z.natAbs ≤ 100) :
    GridPoint 0 (int3 x y z) ⟨x, y, z⟩ := by
  have h : ∀ {i : Int}, i.natAbs ≤ 100 → GridNum 0 (F32.ofReal i) i := fun {i} hi => by
    have := is_ofReal (z := i) (by omega)
    exact ⟨this.fin, by rw [this.val]; simp⟩
  exact ⟨h hx, h hy, h hz, fun a => by cases a <;> simp only [Axis.of] <;> omega⟩

theorem diff_small {i j : Int} (hi : i.natAbs ≤ 100) (hj : j.natAbs ≤ 100) : (i - j).natAbs ≤ 2048 := by omega

theorem newBox_isBrush : newGrid.IsBrush newBox.planes := by
  have key : ∀ (a : Axis) (up : Bool) (x y z x1 y1 z1 x2 y2 z2 : Int),
      (∀ i ∈ [x, y, z, x1, y1, z1, x2, y2, z2], i.natAbs ≤ 100) →
      a.of ⟨x, y, z⟩ = newGrid.side a up → a.of ⟨x1, y1, z1⟩ = newGrid.side a up → a.of ⟨x2, y2, z2⟩ = newGrid.side a up →
      turn a ⟨x, y, z⟩ ⟨x2, y2, z2⟩ ⟨x1, y1, z1⟩ = (if up then 1 else -1) →
      IsSide newGrid.g a up (newGrid.side a up) (octFace (int3 x y z) (int3 x1 y1 z1) (int3 x2 y2 z2)) := by
    intro a up x y z x1 y1 z1 x2 y2 z2 hs h0 h1 h2 ht
    simp only [List.mem_cons, List.not_mem_nil, or_false, forall_eq_or_imp, forall_eq] at hs
    obtain ⟨s1, s2, s3, s4, s5, s6, s7, s8, s9⟩ := hs
    have g0 : GridPoint newGrid.g (octFace (int3 x y z) (int3 x1 y1 z1) (int3 x2 y2 z2)).v0 ⟨x, y, z⟩ :=
      int3_grid s1 s2 s3
    have g1 : GridPoint newGrid.g (octFace (int3 x y z) (int3 x1 y1 z1) (int3 x2 y2 z2)).v1 ⟨x1, y1, z1⟩ :=
      int3_grid s4 s5 s6
    have g2 : GridPoint newGrid.g (octFace (int3 x y z) (int3 x1 y1 z1) (int3 x2 y2 z2)).v2 ⟨x2, y2, z2⟩ :=
      int3_grid s7 s8 s9
    refine ⟨_, _, _, g0, g1, g2, h0, h1, h2, fun b => ?_, 1, ?_, .inl ⟨0, rfl⟩⟩
    · cases b
      · exact ⟨diff_small s4 s1, diff_small s7 s1⟩
      · exact ⟨diff_small s5 s2, diff_small s8 s2⟩
      · exact ⟨diff_small s6 s3, diff_small s9 s3⟩
    · rw [ht]; simp
  have k1 := key .x false (-64) (-64) (-16) (-64) (-63) (-16) (-64) (-64) (-15) (by decide) rfl rfl rfl rfl
  have k2 := key .y false (-64) (-64) (-16) (-64) (-64) (-15) (-63) (-64) (-16) (by decide) rfl rfl rfl rfl
  have k3 := key .z false (-64) (-64) (-16) (-63) (-64) (-16) (-64) (-63) (-16) (by decide) rfl rfl rfl rfl
  have k4 := key .z true 64 64 16 64 65 16 65 64 16 (by decide) rfl rfl rfl rfl
  have k5 := key .y true 64 64 16 65 64 16 64 64 17 (by decide) rfl rfl rfl rfl
  have k6 := key .x true 64 64 16 64 64 17 64 65 16 (by decide) rfl rfl rfl rfl
  constructor
  · intro p hp
    simp only [newBox, List.mem_cons, List.not_mem_nil, or_false] at hp
    rcases hp with rfl | rfl | rfl | rfl | rfl | rfl
    exacts [⟨_, _, k1⟩, ⟨_, _, k2⟩, ⟨_, _, k3⟩, ⟨_, _, k4⟩, ⟨_, _, k5⟩, ⟨_, _, k6⟩]
  · intro a up
    cases a <;> cases up
    exacts [⟨_, by simp [newBox], k1⟩, ⟨_, by simp [newBox], k6⟩, ⟨_, by simp [newBox], k2⟩, ⟨_, by simp [newBox], k5⟩,
      ⟨_, by simp [newBox], k3⟩, ⟨_, by simp [newBox], k4⟩]

/-- The box of a new map is centred at the origin, and its top has the corners (±64, ±64, 16). -/
example (textures : TextureInfo) (entity : Entity F32) :
    ∃ geo, buildBrush textures entity newBox = .ok geo ∧ vec geo.center = ⟨0, 0, 0⟩ := by
  obtain ⟨geo, h, -, hc⟩ := C90_brush textures entity newBox newGrid newBox_isBrush
  refine ⟨geo, h, ?_⟩
  rw [(hc rfl).2]
  simp [GridBox.middle, newGrid]

example (textures : TextureInfo) : ∃ gs, Geo.run textures [⟨Map.empty, [newBox]⟩] = .ok gs := by
  obtain ⟨gs, h, -⟩ := C90_map textures [⟨Map.empty, [newBox]⟩] (by
    intro e he br hbr
    obtain rfl := List.mem_singleton.1 he
    obtain rfl := List.mem_singleton.1 hbr
    exact ⟨_, newBox_isBrush⟩)
  exact ⟨gs, h⟩

example (textures : TextureInfo) (entity : Entity F32) :
    ∃ p ∈ newBox.planes, ∃ geo, buildPlane textures entity newBox.planes p = .ok geo ∧
      (geo.vertices.map fun v => vec v.pos).Perm
        [⟨-64, -64, 16⟩, ⟨64, -64, 16⟩, ⟨64, 64, 16⟩, ⟨-64, 64, 16⟩] := by
  obtain ⟨p, hp, hs⟩ := newBox_isBrush.2 .z true
  obtain ⟨geo, h, he⟩ := C90_face textures entity newBox.planes p newGrid newBox_isBrush .z true hs
  refine ⟨p, hp, geo, h, ?_⟩
  have := he.corners
  simpa [GridBox.rect, GridBox.point, newGrid, GridBox.side, Axis.of] using this

end
end Quarch
