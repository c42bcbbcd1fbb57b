import Verif.Spec.Corner
import Verif.Proofs.Corner
import Verif.Props.Shown
/-
C116: single precision finds the corners of small brushes.
-/
set_option linter.unusedSectionVars false
namespace Quarch
open Quarch.Spec Quarch.Spec.F32 Quarch.Geo

section
variable [F32Lib]
open Err

theorem two_zpow_grid {g : Nat} (hg : g ≤ 20) : (1 : ℝ) / 2 ^ 40 ≤ 2 ^ (-(g : Int) + -(g : Int)) ∧
    (2 : ℝ) ^ (-(g : Int) + -(g : Int)) ≤ 1 := by
  constructor
  · have : (2 : ℝ) ^ (-40 : Int) ≤ 2 ^ (-(g : Int) + -(g : Int)) := zpow_le_zpow_right₀ (by norm_num) (by omega)
    refine le_trans (le_of_eq ?_) this
    norm_num
  · exact zpow_le_one_of_nonpos₀ (by norm_num) (by omega)

/-- The computed normal of such a face is good. -/
theorem nearFace_good {g : Nat} (hg : g ≤ 20) {R : ℝ} (hR : 1 ≤ R) (hR' : R ≤ 64) {p : BrushPlane F32}
    (h : NearFace g R p) : Good R p := by
  obtain ⟨⟨n0, n1, n2, hp, hl, hs⟩, h0⟩ := h
  obtain ⟨e2, e1⟩ := gridFace_edges hp
  obtain ⟨x1, x2⟩ := hs .x
  obtain ⟨y1, y2⟩ := hs .y
  obtain ⟨z1, z2⟩ := hs .z
  simp only [Axis.of] at x1 x2 y1 y2 z1 z2
  have hc := isGV_cross e2 e1 (A := 2048) (B := 2048) ⟨x2, y2, z2⟩ ⟨x1, y1, z1⟩ (by norm_num) (by omega) (by omega)
  simp only [] at hc
  have ev : ∀ {v : V3 F32} {n : V3 Int}, GridPoint g v n → valV v = ⟨n.x / 2 ^ g, n.y / 2 ^ g, n.z / 2 ^ g⟩ := by
    intro v n hv
    have ex : F32.val v.x = n.x / 2 ^ g := hv.x.2
    have ey : F32.val v.y = n.y / 2 ^ g := hv.y.2
    have ez : F32.val v.z = n.z / 2 ^ g := hv.z.2
    show (⟨F32.val v.x, F32.val v.y, F32.val v.z⟩ : V3 ℝ) = _
    rw [ex, ey, ez]
  have hpow : (2 : ℝ) ^ (-(g : Int) + -(g : Int)) = 1 / 2 ^ g * (1 / 2 ^ g) := by
    rw [zpow_add₀ (by norm_num), zpow_neg, zpow_natCast]; ring
  have he : valV (Arith.cross (V3.sub p.v2 p.v0) (V3.sub p.v1 p.v0)) = edgeNormal p := by
    show (⟨F32.val _, F32.val _, F32.val _⟩ : V3 ℝ) = _
    rw [hc.x.val, hc.y.val, hc.z.val, hpow]
    unfold edgeNormal
    rw [ev hp.p0, ev hp.p1, ev hp.p2]
    simp only [crossR, subR]
    push_cast
    congr 1 <;> ring
  have hf : FinV (Arith.cross (V3.sub p.v2 p.v0) (V3.sub p.v1 p.v0)) := ⟨hc.x.fin, hc.y.fin, hc.z.fin⟩
  obtain ⟨pl, pu⟩ := two_zpow_grid hg
  have up : ∀ {a : F32} {i : Int}, IsG (-(g : Int) + -(g : Int)) a i → |F32.val a| ≤ 2 ^ 24 := by
    intro a i ha
    rw [ha.val, abs_mul, abs_of_pos (by positivity : (0 : ℝ) < 2 ^ (-(g : Int) + -(g : Int)))]
    have hi : |(i : ℝ)| ≤ 2 ^ 24 := by
      have e1 : |(i : ℝ)| = (i.natAbs : ℝ) := by rw [Nat.cast_natAbs, Int.cast_abs]
      rw [e1]
      have := ha.small
      exact_mod_cast this.le
    calc |(i : ℝ)| * 2 ^ (-(g : Int) + -(g : Int)) ≤ 2 ^ 24 * 1 := mul_le_mul hi pu (by positivity) (by positivity)
      _ = 2 ^ 24 := mul_one _
  have low : ∀ {a : F32} {i : Int}, IsG (-(g : Int) + -(g : Int)) a i → i ≠ 0 → 1 / 2 ^ 40 ≤ |F32.val a| := by
    intro a i ha hi
    rw [ha.val, abs_mul, abs_of_pos (by positivity : (0 : ℝ) < 2 ^ (-(g : Int) + -(g : Int)))]
    have h1 : 1 ≤ |(i : ℝ)| := by
      have := Int.one_le_abs hi
      exact_mod_cast this
    exact pl.trans (le_mul_of_one_le_left (by positivity) h1)
  have cl := coord_len (valV (Arith.cross (V3.sub p.v2 p.v0) (V3.sub p.v1 p.v0)))
  have wu : Within (2 ^ 24) (valV (Arith.cross (V3.sub p.v2 p.v0) (V3.sub p.v1 p.v0))) := ⟨up hc.x, up hc.y, up hc.z⟩
  refine good hR (by linarith) ⟨hp.p0.x.1, hp.p0.y.1, hp.p0.z.1⟩ hf he ?_ ?_ ?_
  · rw [← he]
    by_contra hn
    refine hl fun a => ?_
    by_contra ha
    cases a
    · exact hn ((low hc.x ha).trans cl.1)
    · exact hn ((low hc.y ha).trans cl.2.1)
    · exact hn ((low hc.z ha).trans cl.2.2)
  · rw [← he]
    have h5 := dot_le (by norm_num) wu wu
    rw [← len_sq, abs_mul_self] at h5
    by_contra hcn
    nlinarith
  · rw [← len_sq]
    exact mul_le_mul h0 h0 (len_nonneg _) (by linarith)

theorem triOf_above (p : BrushPlane F32) (x : V3 ℝ) : (triOf p).above x = height p x := rfl
theorem triOf_spread (p q r : BrushPlane F32) :
    Tri.spread (triOf p) (triOf q) (triOf r) = dotR (crossR (unitNormal p) (unitNormal q)) (unitNormal r) := rfl

/-- C116: for every true corner of a face whose spread is large enough there is a computed intersection point that
passes all tests, within 1/2000 of a unit. -/
theorem spec_C116_found {g : Nat} (hg : g ≤ 20) {R : ℝ} (hR : 1 ≤ R) {planes : List (BrushPlane F32)}
    (hp : ∀ p ∈ planes, NearFace g R p) {plane : BrushPlane F32} (hpl : plane ∈ planes) {x : V3 ℝ}
    (hx : TrueCorner R (planes.map triOf) (triOf plane) x) :
    ∃ v, Found planes plane v ∧ Finite3 v ∧ Close (7400 * u) (vec v) x := by
  obtain ⟨hd, ⟨t1, ht1, t2, ht2, h0, h1, h2, hs⟩, hin⟩ := hx
  obtain ⟨p1, hp1, rfl⟩ := List.mem_map.1 ht1
  obtain ⟨p2, hp2, rfl⟩ := List.mem_map.1 ht2
  rw [triOf_above] at h0 h1 h2
  rw [triOf_spread] at hs
  have hxx : dotR x x ≤ R * R := by
    rw [← len_sq]; exact mul_le_mul hd hd (len_nonneg _) (by linarith)
  have hR64 : R ≤ 64 := by
    have w : ∀ q : BrushPlane F32, dotR (unitNormal q) (unitNormal q) = 1 ∨ unitNormal q = ⟨0, 0, 0⟩ := by
      intro q
      by_cases hz : lenR (edgeNormal q) = 0
      · right
        unfold unitNormal
        rw [hz]
        simp [smulR]
      · exact .inl (unit_sq (lt_of_le_of_ne (len_nonneg _) (Ne.symm hz)))
    rcases w plane with a | a
    · rcases w p1 with b | b
      · rcases w p2 with c | c
        · have := det_le_one a b c
          linarith
        · rw [c] at hs; simp only [dotR] at hs; linarith
      · rw [b] at hs; simp only [dotR, crossR] at hs; linarith
    · rw [a] at hs; simp only [dotR, crossR] at hs; linarith
  have gd : ∀ p ∈ planes, Good R p := fun p h => nearFace_good hg hR hR64 (hp p h)
  have hm := meet_large (gd plane hpl) (gd p1 hp1) (gd p2 hp2) (by linarith)
  obtain ⟨fv, hv⟩ := meet_near hR (gd plane hpl) (gd p1 hp1) (gd p2 hp2) hxx h0 h1 h2 (by linarith)
  generalize meetPoint plane p1 p2 = v at *
  have hD1 := det_le_one (gd plane hpl).unit (gd p1 hp1).unit (gd p2 hp2).unit
  generalize dotR (crossR (unitNormal plane) (unitNormal p1)) (unitNormal p2) = D at *
  refine ⟨v, ⟨⟨p1, hp1, p2, hp2, hm⟩, fun p h => ?_⟩, fv, ?_⟩
  · have := hin _ (List.mem_map_of_mem h)
    rw [triOf_above] at this
    exact behind_near hR hs hD1 (gd p h) hxx this fv hv
  · have hE : 115 * u * R / D ≤ 7400 * u := by
      rw [div_le_iff₀ (by linarith)]
      have := mul_le_mul_of_nonneg_left hs u_pos.le
      have : 0 ≤ u * D := mul_nonneg u_pos.le (by linarith)
      linarith
    exact ⟨hv.1.trans hE, hv.2.1.trans hE, hv.2.2.trans hE⟩

theorem samePlace_vec {a b : V3 F32} (h : SamePlace a b) (hb : Finite3 b) : Finite3 a ∧ vec a = vec b := by
  rcases h with rfl | ⟨hx, hy, hz⟩
  · exact ⟨hb, rfl⟩
  · have k : ∀ {s t : F32}, Arith.eq s t = true → isFin t → isFin s ∧ F32.val s = F32.val t := by
      intro s t h ht
      have hr : rel (· = ·) s t = true := h
      cases s <;> cases t <;> simp_all [rel, ext, isFin, F32.val]
      rename_i m _ _ _
      cases m <;> simp_all
    obtain ⟨fx, vx⟩ := k hx hb.1
    obtain ⟨fy, vy⟩ := k hy hb.2.1
    obtain ⟨fz, vz⟩ := k hz hb.2.2
    exact ⟨⟨fx, fy, fz⟩, by unfold vec; rw [vx, vy, vz]⟩

/-- Moving a number to a centre and back, forwards. -/
theorem back_ok {c v : F32} {M : ℝ} (hM : M ≤ 2 ^ 40) (fc : isFin c) (fv : isFin v) (hc : |F32.val c| ≤ M)
    (hv : |F32.val v| ≤ M) :
    isFin (Arith.add (Arith.sub v c) c) ∧ |F32.val (Arith.add (Arith.sub v c) c) - F32.val v| ≤ 4 * u * M := by
  have h1 : |F32.val v - F32.val c| ≤ 2 * M := (abs_sub _ _).trans (by linarith)
  have f1 := Rounding.sub_ok (F := F32) v c fv fc (h1.trans (by rw [large_val]; linarith))
  have e1 := Rounding.sub_val (F := F32) v c f1
  have e1' : |F32.val (Arith.sub v c) - (F32.val v - F32.val c)| ≤ u * |F32.val v - F32.val c| := e1
  have h2 : |F32.val (Arith.sub v c) + F32.val c - F32.val v| ≤ 2 * u * M := by
    have e : F32.val (Arith.sub v c) + F32.val c - F32.val v = F32.val (Arith.sub v c) - (F32.val v - F32.val c) := by ring
    rw [e]
    refine e1'.trans ?_
    have := mul_le_mul_of_nonneg_left h1 u_pos.le
    linarith
  have h3 := abs_le_of h2
  have hM0 : 0 ≤ M := (abs_nonneg _).trans hc
  have h4 : |F32.val (Arith.sub v c) + F32.val c| ≤ 11 / 10 * M := by unfold u at *; linarith
  have f2 := Rounding.add_ok (F := F32) _ c f1 fc (h4.trans (by rw [large_val]; linarith))
  have e2 : |F32.val (Arith.add (Arith.sub v c) c) - (F32.val (Arith.sub v c) + F32.val c)| ≤
    u * |F32.val (Arith.sub v c) + F32.val c| := Rounding.add_val (F := F32) _ c f2
  refine ⟨f2, ?_⟩
  have e : F32.val (Arith.add (Arith.sub v c) c) - F32.val v =
    (F32.val (Arith.add (Arith.sub v c) c) - (F32.val (Arith.sub v c) + F32.val c)) +
      (F32.val (Arith.sub v c) + F32.val c - F32.val v) := by ring
  rw [e]
  refine (abs_add_le _ _).trans ?_
  have := mul_le_mul_of_nonneg_left h4 u_pos.le
  have : 0 ≤ u * M := mul_nonneg u_pos.le hM0
  linarith

variable [Platform]

/-- C116: every true corner of a face with a spread large enough is a corner of the built face, up to 1/2000 of a
unit and the rounding of the way to the centre of the face and back. -/
theorem C116_corner (textures : TextureInfo) (entity : Entity F32) {planes : List (BrushPlane F32)} {plane : BrushPlane F32}
    {geo : PlaneGeo F32} (h : buildPlane textures entity planes plane = .ok geo) {g : Nat} (hg : g ≤ 20) {R M : ℝ}
    (hR : 1 ≤ R) (hp : ∀ p ∈ planes, NearFace g R p) (hpl : plane ∈ planes)
    (fc : Finite3 geo.center) (hc : lenR (vec geo.center) ≤ M) (hRM : R + 1 ≤ M) (hM : M ≤ 2 ^ 40)
    {x : V3 ℝ} (hx : TrueCorner R (planes.map triOf) (triOf plane) x) :
    ∃ v ∈ geo.vertices, Finite3 v.pos ∧ Close (1 / 2000 + 4 * u * M) (vec v.pos) x := by
  obtain ⟨v, hf, fv, hv⟩ := spec_C116_found hg hR hp hpl hx
  obtain ⟨pts, hperm, -, -, hall⟩ := C20_corners_distinct_complete textures entity planes plane geo h
  obtain ⟨y, hy, hs⟩ := hall v hf
  obtain ⟨fy, ey⟩ := samePlace_vec hs fv
  rw [← ey] at hv
  have hmem := hperm.mem_iff.2 (List.mem_map_of_mem (f := recentre geo.center) hy)
  obtain ⟨w, hw, e⟩ := List.mem_map.1 hmem
  refine ⟨w, hw, ?_⟩
  rw [e]
  have cc := coord_len (vec geo.center)
  have cx := coord_len x
  have k : ∀ {a b : F32} {s r : ℝ}, isFin a → isFin b → |F32.val a| ≤ lenR (vec geo.center) → |s| ≤ lenR x →
      |F32.val b - s| ≤ 7400 * u → isFin (Arith.add (Arith.sub b a) a) ∧
      |F32.val (Arith.add (Arith.sub b a) a) - s| ≤ 1 / 2000 + 4 * u * M := by
    intro a b s r fa fb ha hs hb
    have hb' := abs_le_of hb
    have hd := hx.dist
    obtain ⟨f, e⟩ := back_ok (M := M) hM fa fb (ha.trans hc) (by unfold u at *; linarith)
    refine ⟨f, ?_⟩
    have e1 : F32.val (Arith.add (Arith.sub b a) a) - s = (F32.val (Arith.add (Arith.sub b a) a) - F32.val b) +
      (F32.val b - s) := by ring
    rw [e1]
    refine (abs_add_le _ _).trans ?_
    have : 7400 * u ≤ 1 / 2000 := by unfold u; norm_num
    linarith
  have kx := k (r := 0) fc.1 fy.1 cc.1 cx.1 hv.1
  have ky := k (r := 0) fc.2.1 fy.2.1 cc.2.1 cx.2.1 hv.2.1
  have kz := k (r := 0) fc.2.2 fy.2.2 cc.2.2 cx.2.2 hv.2.2
  exact ⟨⟨kx.1, ky.1, kz.1⟩, kx.2, ky.2, kz.2⟩

/-- C116: the built face has at least as many corners as true corners that are apart from each other. -/
theorem C116_count (textures : TextureInfo) (entity : Entity F32) {planes : List (BrushPlane F32)} {plane : BrushPlane F32}
    {geo : PlaneGeo F32} (h : buildPlane textures entity planes plane = .ok geo) {g : Nat} (hg : g ≤ 20) {R : ℝ}
    (hR : 1 ≤ R) (hp : ∀ p ∈ planes, NearFace g R p) (hpl : plane ∈ planes) (xs : List (V3 ℝ))
    (hx : ∀ x ∈ xs, TrueCorner R (planes.map triOf) (triOf plane) x) (ha : xs.Pairwise Apart) :
    xs.length ≤ geo.vertices.length := by
  obtain ⟨pts, hperm, -, -, hall⟩ := C20_corners_distinct_complete textures entity planes plane geo h
  have hl : geo.vertices.length = pts.length := by
    have := hperm.length_eq
    simpa using this
  rw [hl]
  have ex : ∀ x ∈ xs, ∃ y ∈ pts, Close (7400 * u) (vec y) x := by
    intro x hxm
    obtain ⟨v, hf, fv, hv⟩ := spec_C116_found hg hR hp hpl (hx x hxm)
    obtain ⟨y, hy, hs⟩ := hall v hf
    exact ⟨y, hy, by rw [(samePlace_vec hs fv).2]; exact hv⟩
  clear hx hall
  have : Nonempty (V3 F32) := ⟨⟨.nan, .nan, .nan⟩⟩
  choose! f hf hc using ex
  have hn : (xs.map f).Nodup := by
    unfold List.Nodup
    rw [List.pairwise_map]
    refine ha.imp_of_mem ?_
    intro a b hma hmb hap e
    have c1 := hc a hma
    have c2 := hc b hmb
    rw [← e] at c2
    have k : ∀ {s t r : ℝ}, |s - t| ≤ 7400 * u → |s - r| ≤ 7400 * u → |t - r| ≤ 1 / 1000 := by
      intro s t r h1 h2
      rw [abs_sub_comm] at h1
      have e : t - r = (t - s) + (s - r) := by ring
      rw [e]
      refine (abs_add_le _ _).trans ?_
      unfold u at *; linarith
    rcases hap with h | h | h
    · exact absurd (k c1.1 c2.1) (not_le.2 h)
    · exact absurd (k c1.2.1 c2.2.1) (not_le.2 h)
    · exact absurd (k c1.2.2 c2.2.2) (not_le.2 h)
  have hs : xs.map f ⊆ pts := by
    intro y hy
    obtain ⟨x, hxm, rfl⟩ := List.mem_map.1 hy
    exact hf x hxm
  have := (List.subperm_of_subset hn hs).length_le
  simpa using this

/-- C116: brushes of such faces are built without error. -/
theorem C116_builds (textures : TextureInfo) (entity : Entity F32) (brush : Brush F32)
    (h : ∀ p ∈ brush.planes, ∃ g n0 n1 n2, GridFace g p n0 n1 n2 ∧ ShortFace n0 n1 n2) :
    ∃ geo, buildBrush textures entity brush = .ok geo := by
  have hok : ∀ p ∈ brush.planes, ∃ g, buildPlane textures entity brush.planes p = .ok g := by
    intro p hp
    obtain ⟨g, n0, n1, n2, hg, hl, hs⟩ := h p hp
    refine (buildPlane_isOk textures entity brush.planes p).2 fun _ _ => ?_
    rw [hasLargest_iff]
    exact spec_C96_direction hg (fun a => ⟨by have := (hs a).1; omega, by have := (hs a).2; omega⟩) hl
  obtain ⟨pgs, hm⟩ := mapOut_isOk.2 hok
  refine ⟨⟨mean (pgs.map (·.center)), pgs⟩, ?_⟩
  unfold buildBrush
  rw [hm, Outcome.ok_bind]

theorem indices_of_three {textures : TextureInfo} {entity : Entity F32} {planes : List (BrushPlane F32)}
    {plane : BrushPlane F32} {geo : PlaneGeo F32} (h : buildPlane textures entity planes plane = .ok geo)
    (hl : 3 ≤ geo.vertices.length) : geo.indices ≠ [] := by
  obtain ⟨_, _, _, _, _, _, hi, _⟩ := buildPlane_ok h
  rw [hi]
  unfold fanIndices
  rw [if_neg (by omega)]
  obtain ⟨k, hk⟩ : ∃ k, geo.vertices.length - 2 = k + 1 := ⟨geo.vertices.length - 3, by omega⟩
  rw [hk, List.range_succ_eq_map]
  simp

end

theorem single_tri {t : IntFace} {p : BrushPlane F32} (h : SingleFace t p) : triOf p = intTri t := by
  have k : ∀ {v : V3 F32} {n : V3 Int}, GridPoint 0 v n → vec v = ⟨n.x, n.y, n.z⟩ := by
    intro v n hv
    have ex := hv.x.2
    have ey := hv.y.2
    have ez := hv.z.2
    simp only [pow_zero, div_one] at ex ey ez
    unfold vec
    rw [ex, ey, ez]
  unfold triOf intTri
  rw [k h.p0, k h.p1, k h.p2]

/-- C108: small brushes with clear corners are shown in single precision. Missing: other brushes, for which the claim
is false in general. -/
theorem C108_corners_partial {R : ℝ} (hR : 1 ≤ R) (ts : List IntFace) (h : ThreeCorners R ts) : ShownInSingle ts := by
  intro _ _ textures entity brush geo hb hg face hf
  unfold buildBrush at hg
  obtain ⟨pgs, hm, h2⟩ := Outcome.bind_eq_ok.1 hg
  cases h2
  obtain ⟨p, hp, hpb⟩ := mapOut_mem hm hf
  obtain ⟨t, ht, hs⟩ := forall₂_right hb hp
  have hmap : brush.planes.map triOf = ts.map intTri := by
    clear h ht hp hf hm hg
    generalize brush.planes = l at hb
    induction hb with
    | nil => rfl
    | cons h _ ih => rw [List.map_cons, List.map_cons, ih, single_tri h]
  obtain ⟨-, -, x, y, z, hx, hy, hz, xy, xz, yz⟩ := h t ht
  rw [← hmap, ← single_tri hs] at hx hy hz
  have near : ∀ q ∈ brush.planes, NearFace 0 R q := by
    intro q hq
    obtain ⟨s, hsm, hss⟩ := forall₂_right hb hq
    refine ⟨⟨s.1, s.2.1, s.2.2, hss, (h s hsm).1⟩, ?_⟩
    have := (h s hsm).2.1
    rw [← single_tri hss] at this
    exact this
  refine indices_of_three hpb ?_
  exact C116_count textures entity hpb (g := 0) (by norm_num) hR near hp [x, y, z]
    (by simp [hx, hy, hz]) (by simp [xy, xz, yz])

/-! ### examples -/

/-- Whether the whole point `c` is a corner of the faces `s`, `t` and `r` of a brush, in whole numbers. -/
def cornerCheck (R : Int) (ts : List IntFace) (s t r : IntFace) (c : V3 Int) : Bool :=
  let n (f : IntFace) : V3 Int := ⟨turn .x f.1 f.2.2 f.2.1, turn .y f.1 f.2.2 f.2.1, turn .z f.1 f.2.2 f.2.1⟩
  let dot (a b : V3 Int) : Int := a.x * b.x + a.y * b.y + a.z * b.z
  let h (f : IntFace) : Int := dot (n f) ⟨c.x - f.1.x, c.y - f.1.y, c.z - f.1.z⟩
  let det : Int := ((n s).y * (n t).z - (n s).z * (n t).y) * (n r).x + ((n s).z * (n t).x - (n s).x * (n t).z) * (n r).y +
    ((n s).x * (n t).y - (n s).y * (n t).x) * (n r).z
  decide (h s = 0) && decide (h t = 0) && decide (h r = 0) && ts.all (fun f => decide (h f ≤ 0)) && decide (0 < det) &&
    decide (dot c c ≤ R * R) &&
    decide (R * R * (dot (n s) (n s) * dot (n t) (n t) * dot (n r) (n r)) ≤ 4096 * (det * det))

theorem cornerCheck_true {R : Int} (hR : 0 ≤ R) {ts : List IntFace} {s t r : IntFace} {c : V3 Int} (ht : t ∈ ts) (hr : r ∈ ts)
    (h : cornerCheck R ts s t r c = true) : TrueCorner R (ts.map intTri) (intTri s) ⟨c.x, c.y, c.z⟩ := by
  simp only [cornerCheck, Bool.and_eq_true, decide_eq_true_eq, List.all_eq_true] at h
  obtain ⟨⟨⟨⟨⟨⟨hs, h1⟩, h2⟩, hin⟩, hdet⟩, hd⟩, hsp⟩ := h
  have raw : ∀ f : IntFace, (intTri f).raw = ⟨((turn .x f.1 f.2.2 f.2.1 : Int) : ℝ), ((turn .y f.1 f.2.2 f.2.1 : Int) : ℝ),
      ((turn .z f.1 f.2.2 f.2.1 : Int) : ℝ)⟩ := by
    intro f
    simp only [Tri.raw, intTri, crossR, subR, turn]
    push_cast
    rfl
  have ab : ∀ f : IntFace, (intTri f).above ⟨c.x, c.y, c.z⟩ = 1 / lenR (intTri f).raw *
      ((turn .x f.1 f.2.2 f.2.1 * (c.x - f.1.x) + turn .y f.1 f.2.2 f.2.1 * (c.y - f.1.y) +
        turn .z f.1 f.2.2 f.2.1 * (c.z - f.1.z) : Int) : ℝ) := by
    intro f
    have e : (intTri f).above ⟨c.x, c.y, c.z⟩ = 1 / lenR (intTri f).raw * dotR (intTri f).raw (subR ⟨c.x, c.y, c.z⟩ (intTri f).1) := by
      simp only [Tri.above, Tri.normal, dotR, smulR]
      ring
    rw [e]
    congr 1
    rw [raw]
    simp only [dotR, subR, intTri]
    push_cast
    rfl
  refine ⟨?_, ⟨_, List.mem_map_of_mem ht, _, List.mem_map_of_mem hr, ?_, ?_, ?_, ?_⟩, ?_⟩
  · unfold lenR
    refine Real.sqrt_le_iff.2 ⟨by exact_mod_cast hR, ?_⟩
    rw [pow_two]
    simp only [dotR]
    exact_mod_cast hd
  · rw [ab, hs]; simp
  · rw [ab, h1]; simp
  · rw [ab, h2]; simp
  · have q : ∀ f : IntFace, lenR (intTri f).raw * lenR (intTri f).raw = ((turn .x f.1 f.2.2 f.2.1 * turn .x f.1 f.2.2 f.2.1 +
        turn .y f.1 f.2.2 f.2.1 * turn .y f.1 f.2.2 f.2.1 + turn .z f.1 f.2.2 f.2.1 * turn .z f.1 f.2.2 f.2.1 : Int) : ℝ) := by
      intro f
      rw [Err.len_sq, raw]
      simp only [dotR]
      push_cast
      rfl
    have sp : Tri.spread (intTri s) (intTri t) (intTri r) = (1 / lenR (intTri s).raw) * (1 / lenR (intTri t).raw) *
        (1 / lenR (intTri r).raw) * (dotR (crossR (intTri s).raw (intTri t).raw) (intTri r).raw) := by
      simp only [Tri.spread, Tri.normal, dotR, crossR, smulR]
      ring
    have dt : dotR (crossR (intTri s).raw (intTri t).raw) (intTri r).raw =
      (((turn .y s.1 s.2.2 s.2.1 * turn .z t.1 t.2.2 t.2.1 - turn .z s.1 s.2.2 s.2.1 * turn .y t.1 t.2.2 t.2.1) * turn .x r.1 r.2.2 r.2.1 +
        (turn .z s.1 s.2.2 s.2.1 * turn .x t.1 t.2.2 t.2.1 - turn .x s.1 s.2.2 s.2.1 * turn .z t.1 t.2.2 t.2.1) * turn .y r.1 r.2.2 r.2.1 +
        (turn .x s.1 s.2.2 s.2.1 * turn .y t.1 t.2.2 t.2.1 - turn .y s.1 s.2.2 s.2.1 * turn .x t.1 t.2.2 t.2.1) * turn .z r.1 r.2.2 r.2.1 : Int) : ℝ) := by
      rw [raw, raw, raw]
      simp only [dotR, crossR]
      push_cast
      rfl
    have hR0 : (0 : ℝ) ≤ R := by exact_mod_cast hR
    have hdet' : (0 : ℝ) < dotR (crossR (intTri s).raw (intTri t).raw) (intTri r).raw := by
      rw [dt]; exact_mod_cast hdet
    have hsp' : (R : ℝ) * R * ((lenR (intTri s).raw * lenR (intTri s).raw) * (lenR (intTri t).raw * lenR (intTri t).raw) *
        (lenR (intTri r).raw * lenR (intTri r).raw)) ≤ 4096 * (dotR (crossR (intTri s).raw (intTri t).raw) (intTri r).raw *
          dotR (crossR (intTri s).raw (intTri t).raw) (intTri r).raw) := by
      rw [q, q, q, dt]
      exact_mod_cast hsp
    rw [sp]
    have l0 := Err.len_nonneg (intTri s).raw
    have l1 := Err.len_nonneg (intTri t).raw
    have l2 := Err.len_nonneg (intTri r).raw
    have pos : ∀ {w : V3 ℝ}, (w.x = 0 → w.y = 0 → w.z = 0 → False) → 0 < lenR w := by
      intro w hw
      refine lt_of_le_of_ne (Err.len_nonneg w) fun e => ?_
      have cl := Err.coord_len w
      rw [← e] at cl
      exact hw (abs_nonpos_iff.1 cl.1) (abs_nonpos_iff.1 cl.2.1) (abs_nonpos_iff.1 cl.2.2)
    have p0 : 0 < lenR (intTri s).raw := pos fun a b c => by simp [dotR, crossR, a, b, c] at hdet'
    have p1 : 0 < lenR (intTri t).raw := pos fun a b c => by simp [dotR, crossR, a, b, c] at hdet'
    have p2 : 0 < lenR (intTri r).raw := pos fun a b c => by simp [dotR, crossR, a, b, c] at hdet'
    generalize dotR (crossR (intTri s).raw (intTri t).raw) (intTri r).raw = d at *
    generalize lenR (intTri s).raw = a at *
    generalize lenR (intTri t).raw = b at *
    generalize lenR (intTri r).raw = e at *
    have key : (R : ℝ) * (a * b * e) ≤ 64 * d := by
      refine abs_le_of_sq_le_sq' ?_ (by linarith) |>.2
      calc ((R : ℝ) * (a * b * e)) ^ 2 = R * R * (a * a * (b * b) * (e * e)) := by ring
        _ ≤ 4096 * (d * d) := hsp'
        _ = (64 * d) ^ 2 := by ring
    have e1 : 64 * (1 / a * (1 / b) * (1 / e) * d) = 64 * d / (a * b * e) := by field_simp
    rw [e1, le_div_iff₀ (by positivity)]
    exact key
  · intro f hf
    obtain ⟨i, hi, rfl⟩ := List.mem_map.1 hf
    rw [ab]
    refine mul_nonpos_of_nonneg_of_nonpos (by have := Err.len_nonneg (intTri i).raw; positivity) ?_
    exact_mod_cast hin i hi

/-- The ramp has such corners. -/
theorem ramp_corners : ThreeCorners ((24 : Int) : ℝ) ramp := by
  have k : ∀ {s t r : IntFace} {c : V3 Int}, t ∈ ramp → r ∈ ramp → cornerCheck 24 ramp s t r c = true →
      TrueCorner ((24 : Int) : ℝ) (ramp.map intTri) (intTri s) ⟨c.x, c.y, c.z⟩ := fun ht hr h =>
    cornerCheck_true (by norm_num) ht hr h
  have len : ∀ {t : IntFace}, t.1.x * t.1.x + t.1.y * t.1.y + t.1.z * t.1.z ≤ 24 * 24 → lenR (intTri t).1 ≤ ((24 : Int) : ℝ) := by
    intro t h
    unfold lenR
    refine Real.sqrt_le_iff.2 ⟨by norm_num, ?_⟩
    rw [pow_two]
    simp only [dotR, intTri]
    exact_mod_cast h
  have short : ∀ t ∈ ramp, ShortFace t.1 t.2.1 t.2.2 := by
    intro t ht
    unfold ramp at ht
    simp only [List.mem_cons, List.not_mem_nil, or_false] at ht
    refine ⟨fun h => ?_, ?_⟩
    · have hx := h .x
      have hy := h .y
      have hz := h .z
      rcases ht with rfl | rfl | rfl | rfl | rfl <;> revert hx hy hz <;> decide
    · rintro (_ | _ | _) <;> rcases ht with rfl | rfl | rfl | rfl | rfl <;> decide
  have ap : ∀ {m n : V3 Int}, m.x ≠ n.x ∨ m.y ≠ n.y ∨ m.z ≠ n.z →
      Apart (⟨m.x, m.y, m.z⟩ : V3 ℝ) ⟨n.x, n.y, n.z⟩ := by
    intro m n h
    have k : ∀ {i j : Int}, i ≠ j → (1 : ℝ) / 1000 < |(i : ℝ) - j| := by
      intro i j hij
      have h1 : (1 : ℝ) ≤ |(i : ℝ) - j| := by exact_mod_cast Int.one_le_abs (sub_ne_zero.2 hij)
      linarith
    rcases h with h | h | h
    exacts [.inl (k h), .inr (.inl (k h)), .inr (.inr (k h))]
  intro t ht
  refine ⟨short t ht, ?_, ?_⟩
  · refine len ?_
    unfold ramp at ht
    simp only [List.mem_cons, List.not_mem_nil, or_false] at ht
    rcases ht with rfl | rfl | rfl | rfl | rfl <;> decide
  · have m0 : (⟨-16, -16, -8⟩, ⟨-16, 16, -8⟩, ⟨-16, -16, 8⟩) ∈ ramp := by simp [ramp]
    have m1 : (⟨-16, -16, -8⟩, ⟨-16, -16, 8⟩, ⟨16, -16, -8⟩) ∈ ramp := by simp [ramp]
    have m2 : (⟨-16, 16, -8⟩, ⟨16, 16, -8⟩, ⟨-16, 16, 8⟩) ∈ ramp := by simp [ramp]
    have m3 : (⟨-16, -16, -8⟩, ⟨16, -16, -8⟩, ⟨-16, 16, -8⟩) ∈ ramp := by simp [ramp]
    have m4 : (⟨-16, -16, 8⟩, ⟨-16, 16, 8⟩, ⟨16, -16, -8⟩) ∈ ramp := by simp [ramp]
    have both : ∀ {s t r : IntFace} {c : V3 Int}, t ∈ ramp → r ∈ ramp →
        (cornerCheck 24 ramp s t r c || cornerCheck 24 ramp s r t c) = true →
        TrueCorner ((24 : Int) : ℝ) (ramp.map intTri) (intTri s) ⟨c.x, c.y, c.z⟩ := fun ht hr h => by
      rcases Bool.or_eq_true_iff.1 h with h | h
      · exact k ht hr h
      · exact k hr ht h
    unfold ramp at ht
    simp only [List.mem_cons, List.not_mem_nil, or_false] at ht
    rcases ht with rfl | rfl | rfl | rfl | rfl
    · exact ⟨_, _, _, both (c := ⟨-16, -16, -8⟩) m1 m3 (by decide), both (c := ⟨-16, 16, -8⟩) m2 m3 (by decide),
        both (c := ⟨-16, -16, 8⟩) m1 m4 (by decide), ap (by decide), ap (by decide), ap (by decide)⟩
    · exact ⟨_, _, _, both (c := ⟨-16, -16, -8⟩) m0 m3 (by decide), both (c := ⟨-16, -16, 8⟩) m0 m4 (by decide),
        both (c := ⟨16, -16, -8⟩) m3 m4 (by decide), ap (by decide), ap (by decide), ap (by decide)⟩
    · exact ⟨_, _, _, both (c := ⟨-16, 16, -8⟩) m0 m3 (by decide), both (c := ⟨-16, 16, 8⟩) m0 m4 (by decide),
        both (c := ⟨16, 16, -8⟩) m3 m4 (by decide), ap (by decide), ap (by decide), ap (by decide)⟩
    · exact ⟨_, _, _, both (c := ⟨-16, -16, -8⟩) m0 m1 (by decide), both (c := ⟨-16, 16, -8⟩) m0 m2 (by decide),
        both (c := ⟨16, -16, -8⟩) m1 m4 (by decide), ap (by decide), ap (by decide), ap (by decide)⟩
    · exact ⟨_, _, _, both (c := ⟨-16, -16, 8⟩) m0 m1 (by decide), both (c := ⟨-16, 16, 8⟩) m0 m2 (by decide),
        both (c := ⟨16, -16, -8⟩) m1 m3 (by decide), ap (by decide), ap (by decide), ap (by decide)⟩

/-- Every face of the ramp is shown in single precision. -/
example : ShownInSingle ramp := C108_corners_partial (by norm_num) ramp ramp_corners

/-- The ramp in single precision is built, and every face has triangles. -/
example [F32Lib] [Platform] (textures : TextureInfo) (entity : Entity F32) :
    ∃ geo, buildBrush textures entity ⟨ramp.map singleFace⟩ = .ok geo ∧ ∀ face ∈ geo.planes, face.indices ≠ [] := by
  have hs : List.Forall₂ SingleFace ramp (ramp.map singleFace) := by
    refine forall₂_map_self fun t ht => singleFace_is fun a => ?_
    simp only [ramp, List.mem_cons, List.not_mem_nil, or_false] at ht
    cases a <;> rcases ht with rfl | rfl | rfl | rfl | rfl <;> decide
  obtain ⟨geo, hg⟩ := C116_builds textures entity ⟨ramp.map singleFace⟩ fun p hp => by
    obtain ⟨t, ht, h⟩ := forall₂_right hs hp
    exact ⟨0, _, _, _, h, (ramp_corners t ht).1⟩
  exact ⟨geo, hg, C108_corners_partial (by norm_num) ramp ramp_corners textures entity _ geo hs hg⟩

/-- The steep end of the ramp has all its four corners in single precision. -/
example [F32Lib] [Platform] (textures : TextureInfo) (entity : Entity F32) (geo : PlaneGeo F32)
    (h : buildPlane textures entity (ramp.map singleFace) (singleFace (⟨-16, -16, -8⟩, ⟨-16, 16, -8⟩, ⟨-16, -16, 8⟩)) = .ok geo) :
    4 ≤ geo.vertices.length := by
  have hs : List.Forall₂ SingleFace ramp (ramp.map singleFace) := by
    refine forall₂_map_self fun t ht => singleFace_is fun a => ?_
    simp only [ramp, List.mem_cons, List.not_mem_nil, or_false] at ht
    cases a <;> rcases ht with rfl | rfl | rfl | rfl | rfl <;> decide
  have ht : ∀ t ∈ ramp, triOf (singleFace t) = intTri t := fun t h => single_tri (singleFace_is fun a => by
    simp only [ramp, List.mem_cons, List.not_mem_nil, or_false] at h
    cases a <;> rcases h with rfl | rfl | rfl | rfl | rfl <;> decide)
  have hm : (ramp.map singleFace).map triOf = ramp.map intTri := by
    rw [List.map_map]
    exact List.map_congr_left ht
  have h0 : (⟨-16, -16, -8⟩, ⟨-16, 16, -8⟩, ⟨-16, -16, 8⟩) ∈ ramp := by simp [ramp]
  have k : ∀ {t r : IntFace} {c : V3 Int}, t ∈ ramp → r ∈ ramp →
      cornerCheck 24 ramp (⟨-16, -16, -8⟩, ⟨-16, 16, -8⟩, ⟨-16, -16, 8⟩) t r c = true →
      TrueCorner ((24 : Int) : ℝ) ((ramp.map singleFace).map triOf)
        (triOf (singleFace (⟨-16, -16, -8⟩, ⟨-16, 16, -8⟩, ⟨-16, -16, 8⟩))) ⟨c.x, c.y, c.z⟩ := fun ht' hr h => by
    rw [hm, ht _ h0]; exact cornerCheck_true (by norm_num) ht' hr h
  refine C116_count textures entity h (g := 0) (R := ((24 : Int) : ℝ)) (by norm_num) (by norm_num) (fun p hp => ?_)
    (List.mem_map_of_mem h0)
    [⟨(-16 : Int), (-16 : Int), (-8 : Int)⟩, ⟨(-16 : Int), (16 : Int), (-8 : Int)⟩, ⟨(-16 : Int), (-16 : Int), (8 : Int)⟩,
      ⟨(-16 : Int), (16 : Int), (8 : Int)⟩] ?_ ?_
  · obtain ⟨t, htm, hst⟩ := forall₂_right hs hp
    refine ⟨⟨_, _, _, hst, (ramp_corners t htm).1⟩, ?_⟩
    have := (ramp_corners t htm).2.1
    rw [← single_tri hst] at this
    exact this
  · intro x hx
    simp only [List.mem_cons, List.not_mem_nil, or_false] at hx
    rcases hx with rfl | rfl | rfl | rfl
    · exact k (t := (⟨-16, -16, -8⟩, ⟨16, -16, -8⟩, ⟨-16, 16, -8⟩)) (r := (⟨-16, -16, -8⟩, ⟨-16, -16, 8⟩, ⟨16, -16, -8⟩))
        (c := ⟨-16, -16, -8⟩) (by simp [ramp]) (by simp [ramp]) (by decide)
    · exact k (t := (⟨-16, 16, -8⟩, ⟨16, 16, -8⟩, ⟨-16, 16, 8⟩)) (r := (⟨-16, -16, -8⟩, ⟨16, -16, -8⟩, ⟨-16, 16, -8⟩))
        (c := ⟨-16, 16, -8⟩) (by simp [ramp]) (by simp [ramp]) (by decide)
    · exact k (t := (⟨-16, -16, -8⟩, ⟨-16, -16, 8⟩, ⟨16, -16, -8⟩)) (r := (⟨-16, -16, 8⟩, ⟨-16, 16, 8⟩, ⟨16, -16, -8⟩))
        (c := ⟨-16, -16, 8⟩) (by simp [ramp]) (by simp [ramp]) (by decide)
    · exact k (t := (⟨-16, -16, 8⟩, ⟨-16, 16, 8⟩, ⟨16, -16, -8⟩)) (r := (⟨-16, 16, -8⟩, ⟨16, 16, -8⟩, ⟨-16, 16, 8⟩))
        (c := ⟨-16, 16, 8⟩) (by simp [ramp]) (by simp [ramp]) (by decide)
  · simp only [List.pairwise_cons, List.mem_cons, List.not_mem_nil, or_false, forall_eq_or_imp, forall_eq, Apart]
    norm_num [abs_of_pos, abs_of_neg]

end Quarch
