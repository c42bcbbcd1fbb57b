import Verif.Spec.Clear
import Verif.Props.Corner
import Verif.Props.Centers
/-
C117: faces without doubtful corners are built with exactly their true corners in single precision.
-/
set_option linter.unusedSectionVars false
namespace Quarch
open Quarch.Spec Quarch.Spec.F32 Quarch.Geo

section
variable [F32Lib]
open Err

theorem spread_le_one {g : Nat} (hg : g ≤ 20) {R : ℝ} (hR : 1 ≤ R) (hR' : R ≤ 64) {p q r : BrushPlane F32}
    (hp : NearFace g R p) (hq : NearFace g R q) (hr : NearFace g R r) : Tri.spread (triOf p) (triOf q) (triOf r) ≤ 1 := by
  rw [triOf_spread]
  exact det_le_one (nearFace_good hg hR hR' hp).unit (nearFace_good hg hR hR' hq).unit (nearFace_good hg hR hR' hr).unit

/-- Where three planes of a face without doubtful corners meet inside the brush is near a true corner. -/
theorem clear_meet {g : Nat} (hg : g ≤ 20) {R : ℝ} (hR : 1 ≤ R) (hR' : R ≤ 64) {planes : List (BrushPlane F32)}
    (hp : ∀ p ∈ planes, NearFace g R p) {plane : BrushPlane F32} (hpl : plane ∈ planes)
    (hc : ClearFace R (planes.map triOf) (triOf plane)) {v : V3 F32} {p1 p2 : BrushPlane F32}
    (hp1 : p1 ∈ planes) (hp2 : p2 ∈ planes) (hm : Meet plane p1 p2 v) (hb : ∀ p ∈ planes, Behind p v) :
    ∃ x, TrueCorner R (planes.map triOf) (triOf plane) x ∧ Finite3 v ∧ Close (7400 * u) (vec v) x ∧
      v = meetPoint plane p1 p2 ∧ (triOf p1).above x = 0 ∧ (triOf p2).above x = 0 ∧
        R ≤ 64 * Tri.spread (triOf plane) (triOf p1) (triOf p2) := by
  have gd : ∀ p ∈ planes, Good R p := fun p h => nearFace_good hg hR hR' (hp p h)
  have hD1 := spread_le_one hg hR hR' (hp plane hpl) (hp p1 hp1) (hp p2 hp2)
  have ev := meet_point hm
  rcases hc _ (List.mem_map_of_mem hp1) _ (List.mem_map_of_mem hp2) with hs | ⟨x, h0, h1, h2, ⟨hd, hs, hin⟩ | ⟨X, hX, hd, hs, s, hsm, hab⟩⟩
  · rw [triOf_spread] at hs
    exact absurd hm (meet_small (gd plane hpl) (gd p1 hp1) (gd p2 hp2) hs v)
  · refine ⟨x, ⟨hd, ⟨_, List.mem_map_of_mem hp1, _, List.mem_map_of_mem hp2, h0, h1, h2, hs⟩, hin⟩, ?_⟩
    refine (and_assoc.1 ⟨?_, ev, h1, h2, hs⟩)
    rw [triOf_above] at h0 h1 h2
    rw [triOf_spread] at hs hD1
    have hxx : dotR x x ≤ R * R := by
      rw [← len_sq]; exact mul_le_mul hd hd (len_nonneg _) (by linarith)
    obtain ⟨fv, hv⟩ := meet_near hR (gd plane hpl) (gd p1 hp1) (gd p2 hp2) hxx h0 h1 h2 (by linarith)
    rw [← ev] at fv hv
    generalize dotR (crossR (unitNormal plane) (unitNormal p1)) (unitNormal p2) = D at *
    have hE : 115 * u * R / D ≤ 7400 * u := by
      rw [div_le_iff₀ (by linarith)]
      have := mul_le_mul_of_nonneg_left hs u_pos.le
      have : 0 ≤ u * D := mul_nonneg u_pos.le (by linarith)
      linarith
    exact ⟨fv, hv.1.trans hE, hv.2.1.trans hE, hv.2.2.trans hE⟩
  · exfalso
    obtain ⟨p, hpm, rfl⟩ := List.mem_map.1 hsm
    rw [triOf_above] at h0 h1 h2 hab
    rw [triOf_spread] at hs hD1
    have hX1 : 1 ≤ X := hR.trans hX
    have hxx : dotR x x ≤ X * X := by
      rw [← len_sq]; exact mul_le_mul hd hd (len_nonneg _) (by linarith)
    have gX : ∀ p ∈ planes, Good X p := fun p h => good_mono hX (gd p h)
    obtain ⟨fv, hv⟩ := meet_near hX1 (gX plane hpl) (gX p1 hp1) (gX p2 hp2) hxx h0 h1 h2 hs
    rw [← ev] at fv hv
    exact not_behind hX1 hs hD1 (gX p hpm) hxx hab fv hv (hb p hpm)

/-- C117: every intersection point found for a face without doubtful corners is near a true corner. -/
theorem spec_C117_only_true {g : Nat} (hg : g ≤ 20) {R : ℝ} (hR : 1 ≤ R) (hR' : R ≤ 64) {planes : List (BrushPlane F32)}
    (hp : ∀ p ∈ planes, NearFace g R p) {plane : BrushPlane F32} (hpl : plane ∈ planes)
    (hc : ClearFace R (planes.map triOf) (triOf plane)) {v : V3 F32} (hv : Found planes plane v) :
    ∃ x, TrueCorner R (planes.map triOf) (triOf plane) x ∧ Finite3 v ∧ Close (7400 * u) (vec v) x ∧
      ∃ p1 ∈ planes, ∃ p2 ∈ planes, v = meetPoint plane p1 p2 ∧ (triOf p1).above x = 0 ∧ (triOf p2).above x = 0 ∧
        1 / 2000 < Tri.spread (triOf plane) (triOf p1) (triOf p2) := by
  obtain ⟨⟨p1, hp1, p2, hp2, hm⟩, hb⟩ := hv
  obtain ⟨x, hx, fv, hvx, e, a1, a2, hs⟩ := clear_meet hg hR hR' hp hpl hc hp1 hp2 hm hb
  exact ⟨x, hx, fv, hvx, p1, hp1, p2, hp2, e, a1, a2, by linarith⟩

theorem eqV3_self {v : V3 F32} (h : Finite3 v) : EqV3 v v := by
  have k : ∀ {a : F32}, isFin a → Arith.eq a a = true := by
    intro a ha
    show rel (· = ·) a a = true
    cases a <;> simp_all [rel, ext, isFin]
  exact ⟨k h.1, k h.2.1, k h.2.2⟩

theorem allDifferent_nodup {l : List (V3 F32)} (h : AllDifferent l) (hf : ∀ x ∈ l, Finite3 x) : l.Nodup := by
  unfold AllDifferent at h
  refine h.imp_of_mem ?_
  intro a b ha _ hab e
  subst e
  exact hab.1 (eqV3_self (hf a ha))

theorem apart_of_close {a x y : V3 ℝ} (hx : Close (7400 * u) a x) (hy : Close (7400 * u) a y) : ¬ Apart x y := by
  have k : ∀ {s t r : ℝ}, |s - t| ≤ 7400 * u → |s - r| ≤ 7400 * u → |t - r| ≤ 1 / 1000 := by
    intro s t r h1 h2
    rw [abs_sub_comm] at h1
    have e : t - r = (t - s) + (s - r) := by ring
    rw [e]
    refine (abs_add_le _ _).trans ?_
    unfold u at *; linarith
  rintro (h | h | h)
  · exact absurd (k hx.1 hy.1) (not_le.2 h)
  · exact absurd (k hx.2.1 hy.2.1) (not_le.2 h)
  · exact absurd (k hx.2.2 hy.2.2) (not_le.2 h)

/-- What is known about the points found for a face without doubtful corners, and about their mean. -/
theorem clear_list {g : Nat} (hg : g ≤ 20) {R : ℝ} (hR : 1 ≤ R) (hR' : R ≤ 64) {planes : List (BrushPlane F32)}
    (hp : ∀ p ∈ planes, NearFace g R p) {plane : BrushPlane F32} (hpl : plane ∈ planes) (hn : planes.length ≤ 1024)
    (hc : ClearFace R (planes.map triOf) (triOf plane)) {pts : List (V3 F32)} (hfound : ∀ x ∈ pts, Found planes plane x)
    (hdiff : pts.Pairwise (fun a b => V3.beq a b = false ∧ V3.beq b a = false)) :
    pts.Nodup ∧ (∀ y ∈ pts, Finite3 y) ∧ (∀ y ∈ pts, Within 65 (valV y)) ∧ pts.length ≤ 2 ^ 20 ∧
      (pts ≠ [] → FinV (mean pts) ∧ Within 70 (valV (mean pts))) := by
  have hfin : ∀ x ∈ pts, Finite3 x := fun x hx => by
    obtain ⟨_, -, h, -⟩ := spec_C117_only_true hg hR hR' hp hpl hc (hfound x hx)
    exact h
  have hdiff' : AllDifferent pts := by
    refine hdiff.imp ?_
    intro a b ⟨h1, h2⟩
    rw [eqV3_iff, eqV3_iff]
    simp [h1, h2]
  have hnd := allDifferent_nodup hdiff' hfin
  have hw : ∀ z ∈ pts, Within 65 (valV z) := fun z hz => by
    obtain ⟨w, hw, -, hzw, -⟩ := spec_C117_only_true hg hR hR' hp hpl hc (hfound z hz)
    have cl := coord_len w
    have hd := hw.dist
    have k : ∀ {a b : ℝ}, |a - b| ≤ 7400 * u → |b| ≤ lenR w → |a| ≤ 65 := fun h1 h2 => by
      have := abs_le_of h1
      unfold u at *; linarith
    exact ⟨k hzw.1 cl.1, k hzw.2.1 cl.2.1, k hzw.2.2 cl.2.2⟩
  have hlen : pts.length ≤ 2 ^ 20 := by
    have hsub : pts ⊆ (planes ×ˢ planes).map fun q => meetPoint plane q.1 q.2 := by
      intro z hz
      obtain ⟨w, -, -, -, p1, hp1, p2, hp2, e, -⟩ := spec_C117_only_true hg hR hR' hp hpl hc (hfound z hz)
      exact List.mem_map.2 ⟨(p1, p2), List.pair_mem_product.2 ⟨hp1, hp2⟩, e.symm⟩
    have := (List.subperm_of_subset hnd hsub).length_le
    rw [List.length_map, List.length_product] at this
    calc pts.length ≤ planes.length * planes.length := this
      _ ≤ 1024 * 1024 := Nat.mul_le_mul hn hn
      _ = 2 ^ 20 := by norm_num
  refine ⟨hnd, hfin, hw, hlen, fun hne => ?_⟩
  have fc : FinV (mean pts) :=
     mean_finV (M := 65) (by norm_num) (by norm_num) hlen hne (fun z hz => hfin z hz) hw
  refine ⟨fc, ?_⟩
  · have hm := mean_near (M := 65) (by norm_num) hlen hne fc hw
    have hl : (pts.length : ℝ) ≤ 2 ^ 20 := by exact_mod_cast hlen
    have hp1 : (1 : ℝ) ≤ pts.length := by exact_mod_cast List.length_pos_iff.2 hne
    have hz : ∀ (f : V3 ℝ → ℝ), (∀ z ∈ pts, |f (valV z)| ≤ 65) →
        |1 / ((pts.map valV).length : ℝ) * ((pts.map valV).map f).sum| ≤ 65 := by
      intro f hf
      have := sum_abs_le (l := (pts.map valV).map f) (M := 65) (by
        intro b hb
        obtain ⟨c, hc, rfl⟩ := List.mem_map.1 hb
        obtain ⟨d, hd, rfl⟩ := List.mem_map.1 hc
        exact hf d hd)
      rw [List.length_map, List.length_map] at this
      rw [List.length_map, abs_mul, abs_of_pos (by positivity), one_div_mul_eq_div, div_le_iff₀ (by linarith)]
      linarith
    have e : ((pts.length : ℝ) + 3) * u * 65 ≤ 5 := by unfold u; linarith
    have k : ∀ {a b : ℝ}, |a - b| ≤ ((pts.length : ℝ) + 3) * u * 65 → |b| ≤ 65 → |a| ≤ 70 := fun h1 h2 => by
      have := abs_le_of h1; linarith
    exact ⟨k hm.1 (hz (·.x) fun z hz => (hw z hz).1), k hm.2.1 (hz (·.y) fun z hz => (hw z hz).2.1),
      k hm.2.2 (hz (·.z) fun z hz => (hw z hz).2.2)⟩

/-- If besides only one pair of planes meets the face at each of its true corners, which are apart from each other, then
one point is found for each. -/
theorem exact_points {g : Nat} (hg : g ≤ 20) {R : ℝ} (hR : 1 ≤ R) (hR' : R ≤ 64) {planes : List (BrushPlane F32)}
    (hp : ∀ p ∈ planes, NearFace g R p) {plane : BrushPlane F32} (hpl : plane ∈ planes)
    (hc : ClearFace R (planes.map triOf) (triOf plane)) (hs : SimpleFace R planes plane) {pts : List (V3 F32)}
    (hfound : ∀ x ∈ pts, Found planes plane x) (hnd : pts.Nodup)
    (hall : ∀ x, Found planes plane x → ∃ y ∈ pts, SamePlace y x) (xs : List (V3 ℝ))
    (hx : ∀ x, x ∈ xs ↔ TrueCorner R (planes.map triOf) (triOf plane) x) (ha : xs.Pairwise Apart) :
    ∃ f : V3 ℝ → V3 F32, (xs.map f).Perm pts ∧ ∀ x ∈ xs, Close (7400 * u) (vec (f x)) x := by
  have ex : ∀ x ∈ xs, ∃ y ∈ pts, Close (7400 * u) (vec y) x := by
    intro x hxm
    obtain ⟨v, hf, fv, hv⟩ := spec_C116_found hg hR hp hpl ((hx x).1 hxm)
    obtain ⟨y, hy, hs⟩ := hall v hf
    exact ⟨y, hy, by rw [(samePlace_vec hs fv).2]; exact hv⟩
  have back : ∀ y ∈ pts, ∃ x ∈ xs, ∃ q : BrushPlane F32 × BrushPlane F32, q.1 ∈ planes ∧ q.2 ∈ planes ∧
      y = meetPoint plane q.1 q.2 ∧
      (triOf q.1).above x = 0 ∧ (triOf q.2).above x = 0 ∧
        1 / 2000 < Tri.spread (triOf plane) (triOf q.1) (triOf q.2) := by
    intro y hy
    obtain ⟨x, hxt, -, -, p1, hp1, p2, hp2, e, h1, h2, h3⟩ := spec_C117_only_true hg hR hR' hp hpl hc (hfound y hy)
    exact ⟨x, (hx x).2 hxt, (p1, p2), hp1, hp2, e, h1, h2, h3⟩
  have : Nonempty (V3 F32) := ⟨⟨.nan, .nan, .nan⟩⟩
  have : Nonempty (V3 ℝ) := ⟨⟨0, 0, 0⟩⟩
  choose! f hf hcl using ex
  choose! b hbm q hq1 hq2 heq hb1 hb2 hb3 using back
  have n1 : (xs.map f).Nodup := by
    unfold List.Nodup
    rw [List.pairwise_map]
    refine ha.imp_of_mem ?_
    intro s t hms hmt hap e
    have c2 := hcl t hmt
    rw [← e] at c2
    exact apart_of_close (hcl s hms) c2 hap
  have s1 : xs.map f ⊆ pts := by
    intro y hy
    obtain ⟨x, hxm, rfl⟩ := List.mem_map.1 hy
    exact hf x hxm
  have n2 : (pts.map b).Nodup := by
    refine List.Nodup.map_on ?_ hnd
    intro y hy z hz e
    have hz1 := hb1 z hz
    have hz2 := hb2 z hz
    rw [← e] at hz1 hz2
    obtain ⟨e1, e2⟩ := hs (b y) ((hx _).1 (hbm y hy)) _ (hq1 y hy) _ (hq2 y hy) _ (hq1 z hz) _ (hq2 z hz) (hb1 y hy)
      (hb2 y hy) hz1 hz2 (hb3 y hy) (hb3 z hz)
    rw [heq y hy, heq z hz, e1, e2]
  have s2 : pts.map b ⊆ xs := by
    intro x hxm
    obtain ⟨y, hy, rfl⟩ := List.mem_map.1 hxm
    exact hbm y hy
  have l2 := (List.subperm_of_subset n2 s2).length_le
  have sp := List.subperm_of_subset n1 s1
  rw [List.length_map] at l2
  exact ⟨f, sp.perm_of_length_le (by rw [List.length_map]; exact l2), hcl⟩

variable [Platform]

/-- The points found for a face without doubtful corners, and how far they move on the way to the centre and back. -/
theorem clear_points (textures : TextureInfo) (entity : Entity F32) {planes : List (BrushPlane F32)} {plane : BrushPlane F32}
    {geo : PlaneGeo F32} (h : buildPlane textures entity planes plane = .ok geo) {g : Nat} (hg : g ≤ 20) {R : ℝ} (hR : 1 ≤ R)
    (hR' : R ≤ 64) (hp : ∀ p ∈ planes, NearFace g R p) (hpl : plane ∈ planes) (hn : planes.length ≤ 1024)
    (hc : ClearFace R (planes.map triOf) (triOf plane)) :
    ∃ pts : List (V3 F32), (geo.vertices.map (·.pos)).Perm (pts.map (recentre geo.center)) ∧
      (∀ x ∈ pts, Found planes plane x) ∧ pts.Nodup ∧ (∀ x, Found planes plane x → ∃ y ∈ pts, SamePlace y x) ∧
      ∀ y ∈ pts, ∀ x, lenR x ≤ R → Close (7400 * u) (vec y) x →
        Finite3 (recentre geo.center y) ∧ Close (1 / 2000) (vec (recentre geo.center y)) x := by
  obtain ⟨pts, hperm, hcen, hfound, hdiff, hall⟩ := corners_center textures entity planes plane geo h
  obtain ⟨hnd, hfin, hw, hlen, hmean⟩ := clear_list hg hR hR' hp hpl hn hc hfound hdiff
  refine ⟨pts, hperm, hfound, hnd, fun x hx => ?_, ?_⟩
  · obtain ⟨y, hy, e⟩ := hall x hx
    exact ⟨y, hy, e.imp id fun h => eqV3_iff.2 h⟩
  intro y hy x hx hyx
  obtain ⟨fc, hcW⟩ := hmean (List.ne_nil_of_mem hy)
  rw [← hcen] at fc hcW
  have fy := hfin y hy
  have wy := hw y hy
  have k : ∀ {a b : F32} {s : ℝ}, isFin a → isFin b → |F32.val a| ≤ 70 → |F32.val b| ≤ 65 → |F32.val b - s| ≤ 7400 * u →
      isFin (Arith.add (Arith.sub b a) a) ∧ |F32.val (Arith.add (Arith.sub b a) a) - s| ≤ 1 / 2000 := by
    intro a b s fa fb ha hb hbs
    obtain ⟨f, e⟩ := back_ok (M := 70) (by norm_num) fa fb ha (by linarith)
    refine ⟨f, ?_⟩
    have e1 : F32.val (Arith.add (Arith.sub b a) a) - s = (F32.val (Arith.add (Arith.sub b a) a) - F32.val b) +
      (F32.val b - s) := by ring
    rw [e1]
    refine (abs_add_le _ _).trans ?_
    unfold u at *; linarith
  have kx := k fc.1 fy.1 hcW.1 wy.1 hyx.1
  have ky := k fc.2.1 fy.2.1 hcW.2.1 wy.2.1 hyx.2.1
  have kz := k fc.2.2 fy.2.2 hcW.2.2 wy.2.2 hyx.2.2
  exact ⟨⟨kx.1, ky.1, kz.1⟩, kx.2, ky.2, kz.2⟩

/-- C117: the corners of a built face without doubtful corners are its true corners, up to 1/2000 of a unit: every true
corner is one, and there are no others. -/
theorem C117_corners (textures : TextureInfo) (entity : Entity F32) {planes : List (BrushPlane F32)} {plane : BrushPlane F32}
    {geo : PlaneGeo F32} (h : buildPlane textures entity planes plane = .ok geo) {g : Nat} (hg : g ≤ 20) {R : ℝ} (hR : 1 ≤ R)
    (hR' : R ≤ 64) (hp : ∀ p ∈ planes, NearFace g R p) (hpl : plane ∈ planes) (hn : planes.length ≤ 1024)
    (hc : ClearFace R (planes.map triOf) (triOf plane)) :
    (∀ x, TrueCorner R (planes.map triOf) (triOf plane) x →
      ∃ v ∈ geo.vertices, Finite3 v.pos ∧ Close (1 / 2000) (vec v.pos) x) ∧
    (∀ v ∈ geo.vertices, Finite3 v.pos ∧
      ∃ x, TrueCorner R (planes.map triOf) (triOf plane) x ∧ Close (1 / 2000) (vec v.pos) x) := by
  obtain ⟨pts, hperm, hfound, -, hall, hmove⟩ := clear_points textures entity h hg hR hR' hp hpl hn hc
  constructor
  · intro x hx
    obtain ⟨v, hf, fv, hv⟩ := spec_C116_found hg hR hp hpl hx
    obtain ⟨y, hy, hs⟩ := hall v hf
    rw [← (samePlace_vec hs fv).2] at hv
    obtain ⟨w, hw, e⟩ := List.mem_map.1 (hperm.mem_iff.2 (List.mem_map_of_mem (f := recentre geo.center) hy))
    refine ⟨w, hw, ?_⟩
    rw [e]
    exact hmove y hy x hx.dist hv
  · intro v hv
    obtain ⟨y, hy, e⟩ := List.mem_map.1 (hperm.mem_iff.1 (List.mem_map_of_mem (f := fun v : Vertex F32 => v.pos) hv))
    obtain ⟨x, hx, -, hyx, -⟩ := spec_C117_only_true hg hR hR' hp hpl hc (hfound y hy)
    have := hmove y hy x hx.dist hyx
    rw [e] at this
    exact ⟨this.1, x, hx, this.2⟩

/-- C117: where two faces without doubtful corners share a true corner, their corners are at most 1/1000 of a unit
apart. -/
theorem C117_seam (textures : TextureInfo) (entity : Entity F32) {planes : List (BrushPlane F32)} {a b : BrushPlane F32}
    {ga gb : PlaneGeo F32} (ha : buildPlane textures entity planes a = .ok ga) (hb : buildPlane textures entity planes b = .ok gb)
    {g : Nat} (hg : g ≤ 20) {R : ℝ} (hR : 1 ≤ R) (hR' : R ≤ 64) (hp : ∀ p ∈ planes, NearFace g R p) (hma : a ∈ planes)
    (hmb : b ∈ planes) (hn : planes.length ≤ 1024) (hca : ClearFace R (planes.map triOf) (triOf a))
    (hcb : ClearFace R (planes.map triOf) (triOf b)) {x : V3 ℝ} (hxa : TrueCorner R (planes.map triOf) (triOf a) x)
    (hxb : TrueCorner R (planes.map triOf) (triOf b) x) :
    ∃ v ∈ ga.vertices, ∃ w ∈ gb.vertices, Close (1 / 1000) (vec v.pos) (vec w.pos) := by
  obtain ⟨v, hv, -, c1⟩ := (C117_corners textures entity ha hg hR hR' hp hma hn hca).1 x hxa
  obtain ⟨w, hw, -, c2⟩ := (C117_corners textures entity hb hg hR hR' hp hmb hn hcb).1 x hxb
  refine ⟨v, hv, w, hw, ?_⟩
  have k : ∀ {s t r : ℝ}, |s - r| ≤ 1 / 2000 → |t - r| ≤ 1 / 2000 → |s - t| ≤ 1 / 1000 := by
    intro s t r h1 h2
    rw [abs_sub_comm t] at h2
    have e : s - t = (s - r) + (r - t) := by ring
    rw [e]
    refine (abs_add_le _ _).trans ?_
    linarith
  exact ⟨k c1.1 c2.1, k c1.2.1 c2.2.1, k c1.2.2 c2.2.2⟩

/-- C117: if besides only one pair of planes meets the face at each of its true corners, which are apart from each other,
then every true corner is built once, and the face has two triangles less than corners. -/
theorem C117_exact (textures : TextureInfo) (entity : Entity F32) {planes : List (BrushPlane F32)} {plane : BrushPlane F32}
    {geo : PlaneGeo F32} (h : buildPlane textures entity planes plane = .ok geo) {g : Nat} (hg : g ≤ 20) {R : ℝ} (hR : 1 ≤ R)
    (hR' : R ≤ 64) (hp : ∀ p ∈ planes, NearFace g R p) (hpl : plane ∈ planes) (hn : planes.length ≤ 1024)
    (hc : ClearFace R (planes.map triOf) (triOf plane)) (hs : SimpleFace R planes plane) (xs : List (V3 ℝ))
    (hx : ∀ x, x ∈ xs ↔ TrueCorner R (planes.map triOf) (triOf plane) x) (ha : xs.Pairwise Apart) :
    (∃ vs, geo.vertices.Perm vs ∧ List.Forall₂ (fun v x => Close (1 / 2000) (vec v.pos) x) vs xs) ∧
      geo.indices.length = 3 * (xs.length - 2) := by
  obtain ⟨pts, hperm, hfound, hnd, hall, hmove⟩ := clear_points textures entity h hg hR hR' hp hpl hn hc
  obtain ⟨f, pm, hcl⟩ := exact_points hg hR hR' hp hpl hc hs hfound hnd hall xs hx ha
  have hf : ∀ x ∈ xs, f x ∈ pts := fun x h => pm.mem_iff.1 (List.mem_map_of_mem h)
  have hp2 : (geo.vertices.map (·.pos)).Perm (xs.map fun x => recentre geo.center (f x)) := by
    refine hperm.trans ?_
    have := (pm.map (recentre geo.center)).symm
    rwa [List.map_map] at this
  have hl : geo.vertices.length = xs.length := by simpa using hp2.length_eq
  constructor
  · have hv : List.Forall₂ (fun (p : V3 F32) (v : Vertex F32) => p = v.pos) (geo.vertices.map (·.pos)) geo.vertices := by
      rw [List.forall₂_map_left_iff, List.forall₂_same]
      intro _ _; rfl
    obtain ⟨vs, hv1, hv2⟩ := List.perm_comp_forall₂ hp2.symm hv
    refine ⟨vs, hv2.symm, ?_⟩
    rw [List.forall₂_map_left_iff] at hv1
    have hv3 := hv1.flip
    refine List.forall₂_iff_get.2 ⟨hv3.length_eq, fun i h1 h2 => ?_⟩
    have e := (List.forall₂_iff_get.1 hv3).2 i h1 h2
    rw [← e]
    have hm := List.get_mem xs ⟨i, h2⟩
    exact (hmove _ (hf _ hm) _ ((hx _).1 hm).dist (hcl _ hm)).2
  · obtain ⟨_, _, _, _, _, _, hi, _⟩ := buildPlane_ok h
    rw [hi, ← hl]
    exact (fanIndices_isFan _).1

end

/-! ### examples -/

section
/-- The vector product of the edges of a face in whole units. -/
def intRaw (f : IntFace) : V3 Int := ⟨turn .x f.1 f.2.2 f.2.1, turn .y f.1 f.2.2 f.2.1, turn .z f.1 f.2.2 f.2.1⟩

def intDot (a b : V3 Int) : Int := a.x * b.x + a.y * b.y + a.z * b.z

def intCross (a b : V3 Int) : V3 Int := ⟨a.y * b.z - a.z * b.y, a.z * b.x - a.x * b.z, a.x * b.y - a.y * b.x⟩

def intDet (s t r : IntFace) : Int := intDot (intCross (intRaw s) (intRaw t)) (intRaw r)

/-- The point of three planes times their determinant. -/
def intMeet (s t r : IntFace) : V3 Int :=
  let k (a b c : IntFace) (i : V3 Int → Int) : Int := i (intCross (intRaw b) (intRaw c)) * intDot (intRaw a) a.1
  let c (i : V3 Int → Int) : Int := k s t r i + k t r s i + k r s t i
  ⟨c (·.x), c (·.y), c (·.z)⟩

/-- How far the point of three planes is above a plane, times the determinant and the length of the normal. -/
def intAbove (s t r f : IntFace) : Int := intDot (intRaw f) (intMeet s t r) - intDet s t r * intDot (intRaw f) f.1

/-- Whether the point of three planes is clear, in whole numbers. -/
def clearCheck (R X : Int) (ts : List IntFace) (s t r : IntFace) : Bool :=
  let d := intDet s t r
  let n := intMeet s t r
  let w := intDot (intRaw s) (intRaw s) * intDot (intRaw t) (intRaw t) * intDot (intRaw r) (intRaw r)
  decide (d ≤ 0) || decide (intAbove s t r s = 0) && decide (intAbove s t r t = 0) && decide (intAbove s t r r = 0) &&
    (decide (intDot n n ≤ R * R * (d * d)) && decide (R * R * w ≤ 4096 * (d * d)) &&
        ts.all (fun f => decide (intAbove s t r f ≤ 0)) ||
      decide (intDot n n ≤ X * X * (d * d)) && decide (X * X * w ≤ 1000000 * (d * d)) &&
        ts.any (fun f => decide (0 < intAbove s t r f) &&
          decide (d * d * intDot (intRaw f) (intRaw f) ≤ 4096 * (intAbove s t r f * intAbove s t r f))))

theorem intTri_raw (f : IntFace) : (intTri f).raw = ⟨((intRaw f).x : ℝ), ((intRaw f).y : ℝ), ((intRaw f).z : ℝ)⟩ := by
  simp only [Tri.raw, intTri, crossR, subR, intRaw, turn]
  push_cast
  rfl

theorem intTri_len (f : IntFace) : lenR (intTri f).raw * lenR (intTri f).raw = ((intDot (intRaw f) (intRaw f) : Int) : ℝ) := by
  rw [Err.len_sq, intTri_raw]
  simp only [dotR, intDot]
  push_cast
  rfl

theorem intTri_det (s t r : IntFace) : dotR (crossR (intTri s).raw (intTri t).raw) (intTri r).raw = ((intDet s t r : Int) : ℝ) := by
  rw [intTri_raw, intTri_raw, intTri_raw]
  simp only [dotR, crossR, intDet, intDot, intCross]
  push_cast
  rfl

theorem intTri_spread (s t r : IntFace) : Tri.spread (intTri s) (intTri t) (intTri r) =
    (1 / lenR (intTri s).raw) * (1 / lenR (intTri t).raw) * (1 / lenR (intTri r).raw) * ((intDet s t r : Int) : ℝ) := by
  rw [← intTri_det]
  simp only [Tri.spread, Tri.normal, dotR, crossR, smulR]
  ring

/-- The point of three planes. -/
noncomputable def intPoint (s t r : IntFace) : V3 ℝ :=
  ⟨(intMeet s t r).x / intDet s t r, (intMeet s t r).y / intDet s t r, (intMeet s t r).z / intDet s t r⟩

theorem intTri_above {s t r : IntFace} (h : 0 < intDet s t r) (f : IntFace) : (intTri f).above (intPoint s t r) =
    1 / lenR (intTri f).raw * ((intAbove s t r f : Int) : ℝ) / (intDet s t r : ℝ) := by
  have hd : (0 : ℝ) < (intDet s t r : ℝ) := by exact_mod_cast h
  have e : (intTri f).above (intPoint s t r) =
      1 / lenR (intTri f).raw * dotR (intTri f).raw (subR (intPoint s t r) (intTri f).1) := by
    simp only [Tri.above, Tri.normal, dotR, smulR]
    ring
  rw [e, mul_div_assoc]
  congr 1
  rw [intTri_raw, eq_div_iff hd.ne']
  simp only [dotR, subR, intTri, intPoint, intAbove]
  generalize intDet s t r = d at *
  generalize intMeet s t r = m at *
  simp only [intDot]
  push_cast
  field_simp
  ring

theorem intTri_pos {s t r : IntFace} (h : 0 < intDet s t r) :
    0 < lenR (intTri s).raw ∧ 0 < lenR (intTri t).raw ∧ 0 < lenR (intTri r).raw := by
  have hdet' : (0 : ℝ) < dotR (crossR (intTri s).raw (intTri t).raw) (intTri r).raw := by
    rw [intTri_det]; exact_mod_cast h
  have pos : ∀ {w : V3 ℝ}, (w.x = 0 → w.y = 0 → w.z = 0 → False) → 0 < lenR w := by
    intro w hw
    refine lt_of_le_of_ne (Err.len_nonneg w) fun e => ?_
    have cl := Err.coord_len w
    rw [← e] at cl
    exact hw (abs_nonpos_iff.1 cl.1) (abs_nonpos_iff.1 cl.2.1) (abs_nonpos_iff.1 cl.2.2)
  exact ⟨pos fun a b c => by simp [dotR, crossR, a, b, c] at hdet', pos fun a b c => by simp [dotR, crossR, a, b, c] at hdet',
    pos fun a b c => by simp [dotR, crossR, a, b, c] at hdet'⟩

theorem intTri_spread_ge {s t r : IntFace} (h : 0 < intDet s t r) {R k : Int} (hR : 0 ≤ R) (hk : 0 ≤ k)
    (hs : R * R * (intDot (intRaw s) (intRaw s) * intDot (intRaw t) (intRaw t) * intDot (intRaw r) (intRaw r)) ≤
      k * k * (intDet s t r * intDet s t r)) : (R : ℝ) ≤ k * Tri.spread (intTri s) (intTri t) (intTri r) := by
  obtain ⟨p0, p1, p2⟩ := intTri_pos h
  have hs' : (R : ℝ) * R * ((lenR (intTri s).raw * lenR (intTri s).raw) * (lenR (intTri t).raw * lenR (intTri t).raw) *
      (lenR (intTri r).raw * lenR (intTri r).raw)) ≤ k * k * (intDet s t r * intDet s t r) := by
    rw [intTri_len, intTri_len, intTri_len]
    exact_mod_cast hs
  have hd : (0 : ℝ) < (intDet s t r : ℝ) := by exact_mod_cast h
  have hR0 : (0 : ℝ) ≤ R := by exact_mod_cast hR
  have hk0 : (0 : ℝ) ≤ k := by exact_mod_cast hk
  rw [intTri_spread]
  generalize ((intDet s t r : Int) : ℝ) = d at *
  generalize lenR (intTri s).raw = a at *
  generalize lenR (intTri t).raw = b at *
  generalize lenR (intTri r).raw = e at *
  have key : (R : ℝ) * (a * b * e) ≤ k * d := by
    refine abs_le_of_sq_le_sq' ?_ (by positivity) |>.2
    calc ((R : ℝ) * (a * b * e)) ^ 2 = R * R * (a * a * (b * b) * (e * e)) := by ring
      _ ≤ k * k * (d * d) := hs'
      _ = (k * d) ^ 2 := by ring
  have e1 : k * (1 / a * (1 / b) * (1 / e) * d) = k * d / (a * b * e) := by field_simp
  rw [e1, le_div_iff₀ (by positivity)]
  exact key

theorem intPoint_len {s t r : IntFace} (h : 0 < intDet s t r) {R : Int} (hR : 0 ≤ R)
    (hd : intDot (intMeet s t r) (intMeet s t r) ≤ R * R * (intDet s t r * intDet s t r)) : lenR (intPoint s t r) ≤ R := by
  have hp : (0 : ℝ) < (intDet s t r : ℝ) := by exact_mod_cast h
  unfold lenR
  refine Real.sqrt_le_iff.2 ⟨by exact_mod_cast hR, ?_⟩
  have hd' : ((intDot (intMeet s t r) (intMeet s t r) : Int) : ℝ) ≤ R * R * (intDet s t r * intDet s t r) := by
    exact_mod_cast hd
  have e : dotR (intPoint s t r) (intPoint s t r) = ((intDot (intMeet s t r) (intMeet s t r) : Int) : ℝ) /
      (intDet s t r * intDet s t r) := by
    simp only [dotR, intPoint]
    generalize intDet s t r = d at *
    generalize intMeet s t r = m at *
    simp only [intDot]
    push_cast
    field_simp
  rw [e, div_le_iff₀ (by positivity), pow_two]
  exact hd'

theorem clearCheck_true {R X : Int} (hR : 0 ≤ R) (hX : R ≤ X) {ts : List IntFace} {s : IntFace}
    (h : ∀ t ∈ ts, ∀ r ∈ ts, clearCheck R X ts s t r = true) : ClearFace R (ts.map intTri) (intTri s) := by
  intro t1 h1 t2 h2
  obtain ⟨t, ht, rfl⟩ := List.mem_map.1 h1
  obtain ⟨r, hr, rfl⟩ := List.mem_map.1 h2
  have hc := h t ht r hr
  simp only [clearCheck, Bool.or_eq_true, Bool.and_eq_true, decide_eq_true_eq, List.all_eq_true, List.any_eq_true] at hc
  rcases le_or_gt (intDet s t r) 0 with hd | hd
  · left
    rw [intTri_spread]
    have hd' : ((intDet s t r : Int) : ℝ) ≤ 0 := by exact_mod_cast hd
    have l0 := Err.len_nonneg (intTri s).raw
    have l1 := Err.len_nonneg (intTri t).raw
    have l2 := Err.len_nonneg (intTri r).raw
    have : (1 / lenR (intTri s).raw) * (1 / lenR (intTri t).raw) * (1 / lenR (intTri r).raw) * ((intDet s t r : Int) : ℝ) ≤ 0 :=
      mul_nonpos_of_nonneg_of_nonpos (by positivity) hd'
    linarith
  · right
    have hdr : (0 : ℝ) < (intDet s t r : ℝ) := by exact_mod_cast hd
    obtain ⟨⟨⟨a0, a1⟩, a2⟩, hc⟩ := hc.resolve_left (not_le.2 hd)
    refine ⟨intPoint s t r, by rw [intTri_above hd, a0]; simp, by rw [intTri_above hd, a1]; simp,
      by rw [intTri_above hd, a2]; simp, ?_⟩
    rcases hc with ⟨⟨hl, hs⟩, hin⟩ | ⟨⟨hl, hs⟩, f, hf, hp, hq⟩
    · left
      refine ⟨intPoint_len hd hR hl, by exact_mod_cast intTri_spread_ge hd hR (k := 64) (by norm_num) (by simpa using hs), ?_⟩
      intro g hg
      obtain ⟨f, hf, rfl⟩ := List.mem_map.1 hg
      rw [intTri_above hd]
      have : ((intAbove s t r f : Int) : ℝ) ≤ 0 := by exact_mod_cast hin f hf
      have l0 := Err.len_nonneg (intTri f).raw
      exact div_nonpos_of_nonpos_of_nonneg (mul_nonpos_of_nonneg_of_nonpos (by positivity) this) hdr.le
    · right
      refine ⟨X, by exact_mod_cast hX, intPoint_len hd (hR.trans hX) hl,
        by exact_mod_cast intTri_spread_ge hd (hR.trans hX) (k := 1000) (by norm_num) (by simpa using hs),
        _, List.mem_map_of_mem hf, ?_⟩
      rw [intTri_above hd]
      have hp' : (0 : ℝ) < ((intAbove s t r f : Int) : ℝ) := by exact_mod_cast hp
      have hq' : (intDet s t r : ℝ) * intDet s t r * (lenR (intTri f).raw * lenR (intTri f).raw) ≤
          4096 * (intAbove s t r f * intAbove s t r f) := by
        rw [intTri_len]; exact_mod_cast hq
      have l0 := Err.len_nonneg (intTri f).raw
      have hl0 : 0 < lenR (intTri f).raw := by
        refine lt_of_le_of_ne l0 fun e => ?_
        have cl := Err.coord_len (intTri f).raw
        rw [← e, intTri_raw] at cl
        have zx : (intRaw f).x = 0 := by have : ((intRaw f).x : ℝ) = 0 := abs_nonpos_iff.1 cl.1; exact_mod_cast this
        have zy : (intRaw f).y = 0 := by have : ((intRaw f).y : ℝ) = 0 := abs_nonpos_iff.1 cl.2.1; exact_mod_cast this
        have zz : (intRaw f).z = 0 := by have : ((intRaw f).z : ℝ) = 0 := abs_nonpos_iff.1 cl.2.2; exact_mod_cast this
        simp only [intAbove, intDot, zx, zy, zz] at hp
        simp at hp
      generalize ((intAbove s t r f : Int) : ℝ) = a at *
      generalize ((intDet s t r : Int) : ℝ) = d at *
      generalize lenR (intTri f).raw = l at *
      have key : d * l ≤ 64 * a := by
        refine abs_le_of_sq_le_sq' ?_ (by positivity) |>.2
        calc (d * l) ^ 2 = d * d * (l * l) := by ring
          _ ≤ 4096 * (a * a) := hq'
          _ = (64 * a) ^ 2 := by ring
      rw [div_le_div_iff₀ (by norm_num) hdr]
      have e : 1 / l * a * 64 = 64 * a / l := by field_simp
      rw [e, le_div_iff₀ hl0]
      linarith

/-- Three planes with a positive determinant meet only once. -/
theorem meet_once {s t r : IntFace} (h : 0 < intDet s t r) {x y : V3 ℝ}
    (x0 : (intTri s).above x = 0) (x1 : (intTri t).above x = 0) (x2 : (intTri r).above x = 0)
    (y0 : (intTri s).above y = 0) (y1 : (intTri t).above y = 0) (y2 : (intTri r).above y = 0) : x = y := by
  obtain ⟨p0, p1, p2⟩ := intTri_pos h
  have hd : (0 : ℝ) < (intDet s t r : ℝ) := by exact_mod_cast h
  have k : ∀ {f : IntFace} {z : V3 ℝ}, 0 < lenR (intTri f).raw → (intTri f).above z = 0 →
      dotR (intTri f).raw z = dotR (intTri f).raw (intTri f).1 := by
    intro f z hp hz
    have e : (intTri f).above z = 1 / lenR (intTri f).raw * (dotR (intTri f).raw z - dotR (intTri f).raw (intTri f).1) := by
      simp only [Tri.above, Tri.normal, dotR, smulR, subR]
      ring
    rw [e] at hz
    rcases mul_eq_zero.1 hz with h | h
    · exact absurd h (by positivity)
    · linarith
  have e0 := (k p0 x0).trans (k p0 y0).symm
  have e1 := (k p1 x1).trans (k p1 y1).symm
  have e2 := (k p2 x2).trans (k p2 y2).symm
  rw [← intTri_det] at hd
  generalize (intTri s).raw = a at *
  generalize (intTri t).raw = b at *
  generalize (intTri r).raw = c at *
  simp only [dotR, crossR] at *
  have hd' := hd.ne'
  have kx := mul_left_cancel₀ hd' (b := x.x) (c := y.x) (by
    linear_combination (b.y * c.z - b.z * c.y) * e0 + (c.y * a.z - c.z * a.y) * e1 + (a.y * b.z - a.z * b.y) * e2)
  have ky := mul_left_cancel₀ hd' (b := x.y) (c := y.y) (by
    linear_combination (b.z * c.x - b.x * c.z) * e0 + (c.z * a.x - c.x * a.z) * e1 + (a.z * b.x - a.x * b.z) * e2)
  have kz := mul_left_cancel₀ hd' (b := x.z) (c := y.z) (by
    linear_combination (b.x * c.y - b.y * c.x) * e0 + (c.x * a.y - c.y * a.x) * e1 + (a.x * b.y - a.y * b.x) * e2)
  cases x; cases y
  simp_all

/-- Whether the whole points `cs` are the true corners of the face `s`, in whole numbers. -/
def cornersCheck (ts : List IntFace) (s : IntFace) (cs : List (V3 Int)) : Bool :=
  let at' (t r : IntFace) (c : V3 Int) : Bool :=
    let d := intDet s t r
    let m := intMeet s t r
    decide (m.x = d * c.x) && decide (m.y = d * c.y) && decide (m.z = d * c.z)
  cs.all (fun c => ts.any fun t => ts.any fun r => decide (0 < intDet s t r) && at' t r c &&
    ts.all (fun f => decide (intAbove s t r f ≤ 0))) &&
  ts.all (fun t => ts.all fun r => decide (intDet s t r ≤ 0) || ts.any (fun f => decide (0 < intAbove s t r f)) ||
    cs.any (at' t r))

/-- And each of them is of three planes only. -/
def exactCheck (ts : List IntFace) (s : IntFace) (cs : List (V3 Int)) : Bool :=
  cornersCheck ts s cs &&
  ts.all (fun t => ts.all fun r => decide (intDet s t r ≤ 0) || ts.all fun f =>
    decide (f = s) || decide (f = t) || decide (f = r) || decide (intAbove s t r f ≠ 0))

theorem spread_pos {s t r : IntFace} (h : 0 < Tri.spread (intTri s) (intTri t) (intTri r)) : 0 < intDet s t r := by
  rw [intTri_spread] at h
  by_contra hn
  have hd' : ((intDet s t r : Int) : ℝ) ≤ 0 := by exact_mod_cast not_lt.1 hn
  have l0 := Err.len_nonneg (intTri s).raw
  have l1 := Err.len_nonneg (intTri t).raw
  have l2 := Err.len_nonneg (intTri r).raw
  exact absurd h (not_lt.2 (mul_nonpos_of_nonneg_of_nonpos (by positivity) hd'))

theorem intDet_same (s t : IntFace) : intDet s s t = 0 ∧ intDet s t s = 0 ∧ intDet s t t = 0 := by
  simp only [intDet, intDot, intCross]
  refine ⟨?_, ?_, ?_⟩ <;> ring

theorem intDet_swap (s t r : IntFace) : intDet s r t = - intDet s t r := by
  simp only [intDet, intDot, intCross]
  ring

/-- The corners of a face found by the check. -/
theorem cornersCheck_corners {R X : Int} (hR : 1 ≤ R) {ts : List IntFace} {s : IntFace}
    (hc : ∀ t ∈ ts, ∀ r ∈ ts, clearCheck R X ts s t r = true) {cs : List (V3 Int)} (h : cornersCheck ts s cs = true)
    (x : V3 ℝ) : x ∈ cs.map (fun c => (⟨c.x, c.y, c.z⟩ : V3 ℝ)) ↔ TrueCorner R (ts.map intTri) (intTri s) x := by
  simp only [cornersCheck, Bool.and_eq_true, Bool.or_eq_true, decide_eq_true_eq, List.all_eq_true, List.any_eq_true] at h
  obtain ⟨h1, h2⟩ := h
  have pt : ∀ {t r : IntFace} {c : V3 Int}, 0 < intDet s t r → ((intMeet s t r).x = intDet s t r * c.x ∧
      (intMeet s t r).y = intDet s t r * c.y) ∧ (intMeet s t r).z = intDet s t r * c.z →
      intPoint s t r = ⟨c.x, c.y, c.z⟩ := by
    intro t r c hd ⟨⟨ex, ey⟩, ez⟩
    have hdr : (0 : ℝ) < (intDet s t r : ℝ) := by exact_mod_cast hd
    unfold intPoint
    rw [ex, ey, ez]
    push_cast
    congr 1 <;> field_simp
  constructor
  · intro hx
    obtain ⟨c, hcm, rfl⟩ := List.mem_map.1 hx
    obtain ⟨t, ht, r, hr, ⟨hd, he⟩, hin⟩ := h1 c hcm
    have hdr : (0 : ℝ) < (intDet s t r : ℝ) := by exact_mod_cast hd
    have hk := hc t ht r hr
    simp only [clearCheck, Bool.or_eq_true, Bool.and_eq_true, decide_eq_true_eq, List.all_eq_true, List.any_eq_true] at hk
    obtain ⟨⟨⟨a0, a1⟩, a2⟩, hk⟩ := hk.resolve_left (not_le.2 hd)
    rw [← pt hd he]
    rcases hk with ⟨⟨hl, hsp⟩, -⟩ | ⟨-, f, hf, hp, -⟩
    · refine ⟨intPoint_len hd (by omega) hl, ⟨_, List.mem_map_of_mem ht, _, List.mem_map_of_mem hr,
        by rw [intTri_above hd, a0]; simp, by rw [intTri_above hd, a1]; simp, by rw [intTri_above hd, a2]; simp,
        by exact_mod_cast intTri_spread_ge hd (by omega) (k := 64) (by norm_num) (by simpa using hsp)⟩, ?_⟩
      intro g hg
      obtain ⟨f, hf, rfl⟩ := List.mem_map.1 hg
      rw [intTri_above hd]
      have : ((intAbove s t r f : Int) : ℝ) ≤ 0 := by exact_mod_cast hin f hf
      have l0 := Err.len_nonneg (intTri f).raw
      exact div_nonpos_of_nonpos_of_nonneg (mul_nonpos_of_nonneg_of_nonpos (by positivity) this) hdr.le
    · exact absurd (hin f hf) (not_le.2 hp)
  · rintro ⟨-, ⟨t1, ht1, t2, ht2, x0, x1, x2, hsp⟩, hin⟩
    obtain ⟨t, ht, rfl⟩ := List.mem_map.1 ht1
    obtain ⟨r, hr, rfl⟩ := List.mem_map.1 ht2
    have hR' : (1 : ℝ) ≤ R := by exact_mod_cast hR
    have hd := spread_pos (s := s) (t := t) (r := r) (by linarith)
    have hdr : (0 : ℝ) < (intDet s t r : ℝ) := by exact_mod_cast hd
    have hk := hc t ht r hr
    simp only [clearCheck, Bool.or_eq_true, Bool.and_eq_true, decide_eq_true_eq, List.all_eq_true, List.any_eq_true] at hk
    obtain ⟨⟨⟨a0, a1⟩, a2⟩, -⟩ := hk.resolve_left (not_le.2 hd)
    have e := meet_once hd x0 x1 x2 (y := intPoint s t r) (by rw [intTri_above hd, a0]; simp)
      (by rw [intTri_above hd, a1]; simp) (by rw [intTri_above hd, a2]; simp)
    subst e
    rcases h2 t ht r hr with (h | ⟨f, hf, hp⟩) | ⟨c, hcm, he⟩
    · exact absurd h (not_le.2 hd)
    · have := hin _ (List.mem_map_of_mem hf)
      rw [intTri_above hd] at this
      have hp' : (0 : ℝ) < ((intAbove s t r f : Int) : ℝ) := by exact_mod_cast hp
      have l0 := Err.len_nonneg (intTri f).raw
      have hl0 : 0 < lenR (intTri f).raw := by
        refine lt_of_le_of_ne l0 fun e => ?_
        have cl := Err.coord_len (intTri f).raw
        rw [← e, intTri_raw] at cl
        have zx : (intRaw f).x = 0 := by have : ((intRaw f).x : ℝ) = 0 := abs_nonpos_iff.1 cl.1; exact_mod_cast this
        have zy : (intRaw f).y = 0 := by have : ((intRaw f).y : ℝ) = 0 := abs_nonpos_iff.1 cl.2.1; exact_mod_cast this
        have zz : (intRaw f).z = 0 := by have : ((intRaw f).z : ℝ) = 0 := abs_nonpos_iff.1 cl.2.2; exact_mod_cast this
        simp only [intAbove, intDot, zx, zy, zz] at hp
        simp at hp
      have : 0 < 1 / lenR (intTri f).raw * ((intAbove s t r f : Int) : ℝ) / (intDet s t r : ℝ) := by positivity
      linarith
    · rw [pt hd he]
      exact List.mem_map_of_mem (f := fun c : V3 Int => (⟨c.x, c.y, c.z⟩ : V3 ℝ)) hcm

theorem exactCheck_corners {R X : Int} (hR : 1 ≤ R) {ts : List IntFace} {s : IntFace}
    (hc : ∀ t ∈ ts, ∀ r ∈ ts, clearCheck R X ts s t r = true) {cs : List (V3 Int)} (h : exactCheck ts s cs = true)
    (x : V3 ℝ) : x ∈ cs.map (fun c => (⟨c.x, c.y, c.z⟩ : V3 ℝ)) ↔ TrueCorner R (ts.map intTri) (intTri s) x :=
  cornersCheck_corners hR hc (Bool.and_eq_true _ _ ▸ h).1 x

theorem exactCheck_simple [F32Lib] {R X : Int} {ts : List IntFace} {s : IntFace}
    (hc : ∀ t ∈ ts, ∀ r ∈ ts, clearCheck R X ts s t r = true) {cs : List (V3 Int)} (h : exactCheck ts s cs = true)
    (ht : ∀ t ∈ ts, triOf (singleFace t) = intTri t) (hs : s ∈ ts) : SimpleFace R (ts.map singleFace) (singleFace s) := by
  simp only [exactCheck, Bool.and_eq_true, Bool.or_eq_true, decide_eq_true_eq, List.all_eq_true, List.any_eq_true] at h
  obtain ⟨-, h3⟩ := h
  intro x hx p1 hp1 p2 hp2 q1 hq1 q2 hq2 a1 a2 b1 b2 hp hq
  obtain ⟨t, htm, rfl⟩ := List.mem_map.1 hp1
  obtain ⟨r, hrm, rfl⟩ := List.mem_map.1 hp2
  obtain ⟨t', htm', rfl⟩ := List.mem_map.1 hq1
  obtain ⟨r', hrm', rfl⟩ := List.mem_map.1 hq2
  rw [ht _ htm] at a1 hp
  rw [ht _ hrm] at a2 hp
  rw [ht _ htm'] at b1 hq
  rw [ht _ hrm'] at b2 hq
  obtain ⟨-, ⟨_, -, _, -, a0, -⟩, -⟩ := hx
  rw [ht _ hs] at a0 hp hq
  have hd := spread_pos (lt_trans (by norm_num) hp)
  have hd' := spread_pos (lt_trans (by norm_num) hq)
  have hdr : (0 : ℝ) < (intDet s t r : ℝ) := by exact_mod_cast hd
  have hk := hc t htm r hrm
  simp only [clearCheck, Bool.or_eq_true, Bool.and_eq_true, decide_eq_true_eq, List.all_eq_true, List.any_eq_true] at hk
  obtain ⟨⟨⟨c0, c1⟩, c2⟩, -⟩ := hk.resolve_left (not_le.2 hd)
  have e := meet_once hd a0 a1 a2 (y := intPoint s t r) (by rw [intTri_above hd, c0]; simp)
    (by rw [intTri_above hd, c1]; simp) (by rw [intTri_above hd, c2]; simp)
  subst e
  have one : ∀ f ∈ ts, 0 < lenR (intTri f).raw → (intTri f).above (intPoint s t r) = 0 → f = s ∨ f = t ∨ f = r := by
    intro f hf hl0 hz
    rw [intTri_above hd] at hz
    rcases h3 t htm r hrm with h | h
    · exact absurd h (not_le.2 hd)
    · rcases h f hf with ((h | h) | h) | h
      · exact .inl h
      · exact .inr (.inl h)
      · exact .inr (.inr h)
      · have : ((intAbove s t r f : Int) : ℝ) ≠ 0 := by exact_mod_cast h
        exact absurd hz (by positivity)
  obtain ⟨-, l1, l2⟩ := intTri_pos hd'
  have s1 := (intDet_same s r').1
  have s2 := (intDet_same s t').2.1
  have s3 := (intDet_same s t').2.2
  rcases one t' htm' l1 b1 with rfl | rfl | rfl
  · omega
  · rcases one r' hrm' l2 b2 with rfl | rfl | rfl
    · omega
    · omega
    · exact ⟨rfl, rfl⟩
  · rcases one r' hrm' l2 b2 with rfl | rfl | rfl
    · omega
    · have := intDet_swap s t' r'
      omega
    · omega

theorem bevel_clear (s : IntFace) (hs : s ∈ bevel) : ∀ t ∈ bevel, ∀ r ∈ bevel, clearCheck 28 60 bevel s t r = true := by
  revert s
  decide

theorem bevel_near [F32Lib] : (∀ t ∈ bevel, SingleFace t (singleFace t)) ∧
    ∀ p ∈ bevel.map singleFace, NearFace 0 ((28 : Int) : ℝ) p := by
  have h1 : ∀ t ∈ bevel, SingleFace t (singleFace t) := fun t ht => singleFace_is fun a => by
    simp only [bevel, List.mem_cons, List.not_mem_nil, or_false] at ht
    cases a <;> rcases ht with rfl | rfl | rfl | rfl | rfl | rfl | rfl <;> decide
  refine ⟨h1, fun p hp => ?_⟩
  obtain ⟨t, ht, rfl⟩ := List.mem_map.1 hp
  refine ⟨⟨_, _, _, h1 t ht, ?_, ?_⟩, ?_⟩
  · intro h
    have hx := h .x
    have hy := h .y
    have hz := h .z
    simp only [bevel, List.mem_cons, List.not_mem_nil, or_false] at ht
    rcases ht with rfl | rfl | rfl | rfl | rfl | rfl | rfl <;> revert hx hy hz <;> decide
  · simp only [bevel, List.mem_cons, List.not_mem_nil, or_false] at ht
    rintro (_ | _ | _) <;> rcases ht with rfl | rfl | rfl | rfl | rfl | rfl | rfl <;> decide
  · have len : ∀ {t : IntFace}, t.1.x * t.1.x + t.1.y * t.1.y + t.1.z * t.1.z ≤ 28 * 28 → lenR (intTri t).1 ≤ ((28 : Int) : ℝ) := by
      intro t h
      unfold lenR
      refine Real.sqrt_le_iff.2 ⟨by norm_num, ?_⟩
      rw [pow_two]
      simp only [dotR, intTri]
      exact_mod_cast h
    have := single_tri (h1 t ht)
    have e : vec (singleFace t).v0 = (intTri t).1 := congrArg Prod.fst this
    rw [e]
    refine len ?_
    simp only [bevel, List.mem_cons, List.not_mem_nil, or_false] at ht
    rcases ht with rfl | rfl | rfl | rfl | rfl | rfl | rfl <;> decide

/-- The bevelled block is built in single precision, and every face has exactly its true corners. -/
example [F32Lib] [Platform] (textures : TextureInfo) (entity : Entity F32) (s : IntFace) (hs : s ∈ bevel) (geo : PlaneGeo F32)
    (h : buildPlane textures entity (bevel.map singleFace) (singleFace s) = .ok geo) :
    ∀ v ∈ geo.vertices, ∃ x, TrueCorner ((28 : Int) : ℝ) (bevel.map intTri) (intTri s) x ∧ Close (1 / 2000) (vec v.pos) x := by
  have ht : ∀ t ∈ bevel, triOf (singleFace t) = intTri t := fun t h => single_tri (bevel_near.1 t h)
  have hm : (bevel.map singleFace).map triOf = bevel.map intTri := by
    rw [List.map_map]
    exact List.map_congr_left ht
  have k := (C117_corners textures entity h (g := 0) (R := ((28 : Int) : ℝ)) (by norm_num) (by norm_num) (by norm_num)
    bevel_near.2 (List.mem_map_of_mem hs) (by simp [bevel])
    (by rw [hm, ht s hs]; exact clearCheck_true (by norm_num) (X := 60) (by norm_num) (bevel_clear s hs))).2
  intro v hv
  obtain ⟨-, x, hx, hc⟩ := k v hv
  rw [hm, ht s hs] at hx
  exact ⟨x, hx, hc⟩

/-- The upper face of the bevelled block is built with five corners and three triangles. -/
example [F32Lib] [Platform] (textures : TextureInfo) (entity : Entity F32) (geo : PlaneGeo F32)
    (h : buildPlane textures entity (bevel.map singleFace) (singleFace (⟨-16, -16, 16⟩, ⟨-16, 16, 16⟩, ⟨16, -16, 16⟩)) = .ok geo) :
    (∃ vs, geo.vertices.Perm vs ∧ List.Forall₂ (fun v x => Close (1 / 2000) (vec v.pos) x) vs
      [⟨(-16 : Int), (-16 : Int), (16 : Int)⟩, ⟨(-16 : Int), (16 : Int), (16 : Int)⟩, ⟨(16 : Int), (-16 : Int), (16 : Int)⟩,
        ⟨(16 : Int), (8 : Int), (16 : Int)⟩, ⟨(8 : Int), (16 : Int), (16 : Int)⟩]) ∧ geo.indices.length = 9 := by
  have hs : (⟨-16, -16, 16⟩, ⟨-16, 16, 16⟩, ⟨16, -16, 16⟩) ∈ bevel := by simp [bevel]
  have ht : ∀ t ∈ bevel, triOf (singleFace t) = intTri t := fun t h => single_tri (bevel_near.1 t h)
  have hm : (bevel.map singleFace).map triOf = bevel.map intTri := by
    rw [List.map_map]
    exact List.map_congr_left ht
  have he : exactCheck bevel (⟨-16, -16, 16⟩, ⟨-16, 16, 16⟩, ⟨16, -16, 16⟩)
    [⟨-16, -16, 16⟩, ⟨-16, 16, 16⟩, ⟨16, -16, 16⟩, ⟨16, 8, 16⟩, ⟨8, 16, 16⟩] = true := by decide
  have hc := bevel_clear _ hs
  refine C117_exact textures entity h (g := 0) (R := ((28 : Int) : ℝ)) (by norm_num) (by norm_num) (by norm_num)
    bevel_near.2 (List.mem_map_of_mem hs) (by simp [bevel])
    (by rw [hm, ht _ hs]; exact clearCheck_true (by norm_num) (X := 60) (by norm_num) hc)
    (exactCheck_simple hc he ht hs) _ (fun x => ?_) ?_
  · rw [hm, ht _ hs]
    exact exactCheck_corners (by norm_num) hc he x
  · simp only [List.pairwise_cons, List.mem_cons, List.not_mem_nil, or_false, forall_eq_or_imp, forall_eq, Apart]
    norm_num [abs_of_pos, abs_of_neg]

/-- The upper and the slanted face of the bevelled block share a corner up to 1/1000 of a unit. -/
example [F32Lib] [Platform] (textures : TextureInfo) (entity : Entity F32) (ga gb : PlaneGeo F32)
    (ha : buildPlane textures entity (bevel.map singleFace) (singleFace (⟨-16, -16, 16⟩, ⟨-16, 16, 16⟩, ⟨16, -16, 16⟩)) = .ok ga)
    (hb : buildPlane textures entity (bevel.map singleFace) (singleFace (⟨16, 8, -16⟩, ⟨16, 8, 16⟩, ⟨8, 16, -16⟩)) = .ok gb) :
    ∃ v ∈ ga.vertices, ∃ w ∈ gb.vertices, Close (1 / 1000) (vec v.pos) (vec w.pos) := by
  have hsa : (⟨-16, -16, 16⟩, ⟨-16, 16, 16⟩, ⟨16, -16, 16⟩) ∈ bevel := by simp [bevel]
  have hsb : (⟨16, 8, -16⟩, ⟨16, 8, 16⟩, ⟨8, 16, -16⟩) ∈ bevel := by simp [bevel]
  have ht : ∀ t ∈ bevel, triOf (singleFace t) = intTri t := fun t h => single_tri (bevel_near.1 t h)
  have hm : (bevel.map singleFace).map triOf = bevel.map intTri := by
    rw [List.map_map]
    exact List.map_congr_left ht
  have clear : ∀ s ∈ bevel, ClearFace ((28 : Int) : ℝ) ((bevel.map singleFace).map triOf) (triOf (singleFace s)) := fun s hs => by
    rw [hm, ht s hs]; exact clearCheck_true (by norm_num) (X := 60) (by norm_num) (bevel_clear s hs)
  have hea : exactCheck bevel (⟨-16, -16, 16⟩, ⟨-16, 16, 16⟩, ⟨16, -16, 16⟩)
    [⟨-16, -16, 16⟩, ⟨-16, 16, 16⟩, ⟨16, -16, 16⟩, ⟨16, 8, 16⟩, ⟨8, 16, 16⟩] = true := by decide
  have heb : exactCheck bevel (⟨16, 8, -16⟩, ⟨16, 8, 16⟩, ⟨8, 16, -16⟩)
    [⟨16, 8, -16⟩, ⟨16, 8, 16⟩, ⟨8, 16, -16⟩, ⟨8, 16, 16⟩] = true := by decide
  refine C117_seam textures entity ha hb (g := 0) (R := ((28 : Int) : ℝ)) (by norm_num) (by norm_num) (by norm_num)
    bevel_near.2 (List.mem_map_of_mem hsa) (List.mem_map_of_mem hsb) (by simp [bevel]) (clear _ hsa) (clear _ hsb)
    (x := ⟨(16 : Int), (8 : Int), (16 : Int)⟩) ?_ ?_
  · rw [hm, ht _ hsa]
    exact (exactCheck_corners (by norm_num) (bevel_clear _ hsa) hea _).1 (by simp)
  · rw [hm, ht _ hsb]
    exact (exactCheck_corners (by norm_num) (bevel_clear _ hsb) heb _).1 (by simp)

end

end Quarch
