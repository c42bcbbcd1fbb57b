import Verif.Proofs.Mean
import Verif.Props.RoundingExamples
/-
C83: centres with rounding.
-/
set_option linter.unusedSectionVars false
namespace Quarch
open Spec Geo Rounding

section
variable {F : Type} [Arith F] [Rounding F]
open Err

/-- A coordinate of the mean. -/
theorem mean_coord (l : List (V3 F)) :
    mean l = ⟨Arith.div ((l.map (·.x)).foldl Arith.add Arith.zero) (Arith.ofNat (max l.length 1)),
      Arith.div ((l.map (·.y)).foldl Arith.add Arith.zero) (Arith.ofNat (max l.length 1)),
      Arith.div ((l.map (·.z)).foldl Arith.add Arith.zero) (Arith.ofNat (max l.length 1))⟩ := by
  have h : ∀ (l : List (V3 F)) (a : V3 F), l.foldl V3.add a = ⟨(l.map (·.x)).foldl Arith.add a.x,
      (l.map (·.y)).foldl Arith.add a.y, (l.map (·.z)).foldl Arith.add a.z⟩ := by
    intro l
    induction l with
    | nil => intro a; rfl
    | cons b l ih => intro a; simp only [List.foldl_cons, List.map_cons]; rw [ih]; rfl
  unfold mean
  rw [h]
  rfl

theorem near_coord {l : List (V3 F)} {M : ℝ} (g : V3 F → F) (r : V3 ℝ → ℝ) (hgr : ∀ v, r (valV v) = val (g v))
    (hM : 1 ≤ M) (hl : l.length ≤ 2 ^ 20) (hne : l ≠ [])
    (hf : Fin (Arith.div ((l.map g).foldl Arith.add Arith.zero) (Arith.ofNat (max l.length 1))))
    (hw : ∀ x ∈ l, |val (g x)| ≤ M) :
    |val (Arith.div ((l.map g).foldl Arith.add Arith.zero) (Arith.ofNat (max l.length 1))) -
      1 / ((l.map valV).length : ℝ) * ((l.map valV).map r).sum| ≤ (l.length + 3) * u * M := by
  have h := (mean_err (l := l.map g) hM (by simpa using hl) (by simpa using hne) (by simpa using hf) (by
    intro y hy
    obtain ⟨x, hx, rfl⟩ := List.mem_map.1 hy
    exact hw x hx)).2
  rw [List.length_map, List.map_map] at h
  rw [List.length_map, List.map_map, one_div_mul_eq_div]
  have e : r ∘ valV (F := F) = val ∘ g := funext hgr
  rw [e]
  exact h

/-- The mean of points, from bounds on the points. -/
theorem mean_near {l : List (V3 F)} {M : ℝ} (hM : 1 ≤ M) (hl : l.length ≤ 2 ^ 20) (hne : l ≠ [])
    (hf : FinV (mean l)) (hw : ∀ x ∈ l, Within M (valV x)) :
    NearMean ((l.length + 3) * u * M) (l.map valV) (valV (mean l)) := by
  rw [mean_coord] at hf ⊢
  exact ⟨near_coord (·.x) (·.x) (fun _ => rfl) hM hl hne hf.1 fun x hx => (hw x hx).1,
    near_coord (·.y) (·.y) (fun _ => rfl) hM hl hne hf.2.1 fun x hx => (hw x hx).2.1,
    near_coord (·.z) (·.z) (fun _ => rfl) hM hl hne hf.2.2 fun x hx => (hw x hx).2.2⟩

/-- The mean of finite points of moderate size is finite. -/
theorem mean_finV {l : List (V3 F)} {M : ℝ} (hM : 1 ≤ M) (hM' : M ≤ 2 ^ 80) (hl : l.length ≤ 2 ^ 20) (hne : l ≠ [])
    (hf : ∀ x ∈ l, FinV x) (hw : ∀ x ∈ l, Within M (valV x)) : FinV (mean l) := by
  have h : ∀ g : V3 F → F, (∀ x ∈ l, Fin (g x)) → (∀ x ∈ l, |val (g x)| ≤ M) →
      Fin (Arith.div ((l.map g).foldl Arith.add Arith.zero) (Arith.ofNat (max l.length 1))) := by
    intro g h1 h2
    have := mean_fin (l := l.map g) hM hM' (by simpa using hl) (by simpa using hne) (by
      intro y hy
      obtain ⟨x, hx, rfl⟩ := List.mem_map.1 hy
      exact h1 x hx) (by
      intro y hy
      obtain ⟨x, hx, rfl⟩ := List.mem_map.1 hy
      exact h2 x hx)
    rwa [List.length_map] at this
  rw [mean_coord]
  exact ⟨h (·.x) (fun x hx => (hf x hx).1) fun x hx => (hw x hx).1,
    h (·.y) (fun x hx => (hf x hx).2.1) fun x hx => (hw x hx).2.1,
    h (·.z) (fun x hx => (hf x hx).2.2) fun x hx => (hw x hx).2.2⟩

/-- The centre of points that, moved to the centre and back, are finite and of size `M`. -/
theorem spread_center {l : List (V3 F)} {M : ℝ} (hM : 1 ≤ M) (hl : l.length ≤ 2 ^ 20) (hne : l ≠ [])
    (hf : ∀ x ∈ l, FinV (recentre (mean l) x)) (hw : ∀ x ∈ l, Within M (valV (recentre (mean l) x))) :
    FinV (mean l) ∧ Within (11 / 10 * M) (valV (mean l)) := by
  have h : ∀ (g : V3 F → F) (c : F),
      c = Arith.div ((l.map g).foldl Arith.add Arith.zero) (Arith.ofNat (max l.length 1)) →
      (∀ x ∈ l, Fin (Arith.add (Arith.sub (g x) c) c)) → (∀ x ∈ l, |val (Arith.add (Arith.sub (g x) c) c)| ≤ M) →
      Fin c ∧ |val c| ≤ 11 / 10 * M := by
    intro g c hc h1 h2
    exact spread_le (l := l.map g) hM (by simpa using hl) (by simpa using hne) (by simpa using hc) (by
      intro y hy
      obtain ⟨x, hx, rfl⟩ := List.mem_map.1 hy
      exact h1 x hx) (by
      intro y hy
      obtain ⟨x, hx, rfl⟩ := List.mem_map.1 hy
      exact h2 x hx)
  have e := mean_coord l
  generalize mean l = c at *
  obtain ⟨x1, x2⟩ := h (·.x) c.x (by rw [e]) (fun x hx => (hf x hx).1) fun x hx => (hw x hx).1
  obtain ⟨y1, y2⟩ := h (·.y) c.y (by rw [e]) (fun x hx => (hf x hx).2.1) fun x hx => (hw x hx).2.1
  obtain ⟨z1, z2⟩ := h (·.z) c.z (by rw [e]) (fun x hx => (hf x hx).2.2) fun x hx => (hw x hx).2.2
  exact ⟨⟨x1, y1, z1⟩, x2, y2, z2⟩

/-- Means of lists that differ little. -/
theorem nearMean_shift {l l' : List (V3 ℝ)} {c : V3 ℝ} {d e : ℝ} (hne : l ≠ [])
    (h : List.Forall₂ (fun a b => Within d (subR a b)) l l') (hm : NearMean e l c) : NearMean (e + d) l' c := by
  have hn : (0 : ℝ) < l.length := by exact_mod_cast List.length_pos_iff.2 hne
  have key : ∀ g : V3 ℝ → ℝ, (∀ a b, Within d (subR a b) → |g a - g b| ≤ d) →
      |(l.map g).sum - (l'.map g).sum| ≤ l.length * d := by
    intro g hg
    clear hm hne hn
    induction h with
    | nil => simp
    | cons hab _ ih =>
      have := hg _ _ hab
      simp only [List.map_cons, List.sum_cons, List.length_cons]
      push_cast
      rw [add_sub_add_comm]
      refine (abs_add_le _ _).trans ?_
      linarith
  have fin : ∀ g : V3 ℝ → ℝ, (∀ a b, Within d (subR a b) → |g a - g b| ≤ d) → ∀ t : ℝ,
      |t - 1 / l.length * (l.map g).sum| ≤ e → |t - 1 / l'.length * (l'.map g).sum| ≤ e + d := by
    intro g hg t ht
    have k := key g hg
    rw [← h.length_eq]
    have e1 : t - 1 / l.length * (l'.map g).sum =
        (t - 1 / l.length * (l.map g).sum) + 1 / l.length * ((l.map g).sum - (l'.map g).sum) := by ring
    rw [e1]
    refine (abs_add_le _ _).trans (add_le_add ht ?_)
    rw [abs_mul, abs_of_pos (by positivity), one_div_mul_eq_div, div_le_iff₀ hn]
    linarith
  exact ⟨fin (·.x) (fun _ _ h => h.1) _ hm.1, fin (·.y) (fun _ _ h => h.2.1) _ hm.2.1,
    fin (·.z) (fun _ _ h => h.2.2) _ hm.2.2⟩

theorem nearMean_perm {l l' : List (V3 ℝ)} (h : l.Perm l') {c : V3 ℝ} {e : ℝ} (hm : NearMean e l c) :
    NearMean e l' c := by
  have hs : sumR l = sumR l' := by
    unfold sumR
    rw [(h.map _).sum_eq, (h.map _).sum_eq, (h.map _).sum_eq]
  unfold NearMean at *
  rw [← h.length_eq, ← hs]
  exact hm

theorem nearMean_mono {l : List (V3 ℝ)} {c : V3 ℝ} {e e' : ℝ} (h : e ≤ e') (hm : NearMean e l c) : NearMean e' l c :=
  ⟨hm.1.trans h, hm.2.1.trans h, hm.2.2.trans h⟩

variable [Platform] [LawfulEq F]

/-- C83: with rounding, if the corners of a face are finite and at most `M`, then so (up to a tenth) is its centre,
and it is the mean of the corners up to `(n + 8) u M`. -/
theorem C83_face_center (textures : TextureInfo) (entity : Entity F) (planes : List (BrushPlane F))
    (plane : BrushPlane F) (geo : PlaneGeo F) (h : buildPlane textures entity planes plane = .ok geo)
    (M : ℝ) (hM : 1 ≤ M) (hne : geo.vertices ≠ []) (hl : geo.vertices.length ≤ 2 ^ 20)
    (hf : ∀ v ∈ geo.vertices, FinV v.pos) (hw : ∀ v ∈ geo.vertices, Within M (valV v.pos)) :
    FinV geo.center ∧ Within (11 / 10 * M) (valV geo.center) ∧
      NearMean ((geo.vertices.length + 8) * u * M) (geo.vertices.map fun v => valV v.pos) (valV geo.center) := by
  obtain ⟨pts, hperm, hc, -⟩ := corners_center textures entity planes plane geo h
  have hlen : geo.vertices.length = pts.length := by simpa using hperm.length_eq
  have hback : ∀ x ∈ pts, ∃ v ∈ geo.vertices, v.pos = recentre geo.center x := fun x hx => by
    obtain ⟨v, hv, e⟩ := List.mem_map.1 (hperm.mem_iff.2 (List.mem_map_of_mem hx))
    exact ⟨v, hv, e⟩
  have hf' : ∀ x ∈ pts, FinV (recentre geo.center x) := fun x hx => by
    obtain ⟨v, hv, e⟩ := hback x hx; rw [← e]; exact hf v hv
  have hw' : ∀ x ∈ pts, Within M (valV (recentre geo.center x)) := fun x hx => by
    obtain ⟨v, hv, e⟩ := hback x hx; rw [← e]; exact hw v hv
  have hne' : pts ≠ [] := fun e => hne (List.length_eq_zero_iff.1 (by rw [hlen, e]; rfl))
  have hl' : pts.length ≤ 2 ^ 20 := hlen ▸ hl
  have hn : (pts.length : ℝ) ≤ 2 ^ 20 := by exact_mod_cast hl'
  obtain ⟨c1, c2⟩ := spread_center hM hl' hne' (hc ▸ hf') (hc ▸ hw')
  rw [← hc] at c1 c2
  refine ⟨c1, c2, ?_⟩
  have up := u_pos
  have big : ∀ {w : V3 ℝ}, Within M w → Within (11 / 10 * M) w := fun hw =>
    ⟨hw.1.trans (by linarith), hw.2.1.trans (by linarith), hw.2.2.trans (by linarith)⟩
  have hd : ∀ x ∈ pts, Within (4 * u * (11 / 10 * M)) (subR (valV (recentre geo.center x)) (valV x)) := fun x hx =>
    (recentre_err (hf' x hx) c2 (big (hw' x hx))).2.2
  have hx : ∀ x ∈ pts, Within ((1 + 5 * u) * M) (valV x) := fun x hx => by
    have r : ∀ {a b : ℝ}, |a - b| ≤ 4 * u * (11 / 10 * M) → |a| ≤ M → |b| ≤ (1 + 5 * u) * M := fun h1 h2 => by
      rw [abs_sub_comm] at h1
      have := abs_le_of h1
      have : 0 ≤ u * M := by positivity
      linarith
    have d := hd x hx
    have w := hw' x hx
    exact ⟨r d.1 w.1, r d.2.1 w.2.1, r d.2.2 w.2.2⟩
  have m := mean_near (M := (1 + 5 * u) * M) (by nlinarith) hl' hne' (hc ▸ c1) hx
  rw [← hc] at m
  have hfa : List.Forall₂ (fun a b => Within (4 * u * (11 / 10 * M)) (subR a b)) (pts.map valV)
      ((pts.map (recentre geo.center)).map valV) := by
    rw [List.map_map, List.forall₂_map_left_iff, List.forall₂_map_right_iff, List.forall₂_same]
    intro x hx
    have d := hd x hx
    refine ⟨?_, ?_, ?_⟩
    · have := d.1; simp only [subR] at this ⊢; rw [abs_sub_comm]; exact this
    · have := d.2.1; simp only [subR] at this ⊢; rw [abs_sub_comm]; exact this
    · have := d.2.2; simp only [subR] at this ⊢; rw [abs_sub_comm]; exact this
  have m2 := nearMean_shift (by simpa using hne') hfa m
  have m3 := nearMean_perm (hperm.symm.map valV) m2
  rw [List.map_map] at m3
  refine nearMean_mono ?_ m3
  rw [hlen]
  have q : ((pts.length : ℝ) + 3) * u * (5 * u * M) ≤ 1 * (5 / 10 * (u * M)) := by
    have e1 : ((pts.length : ℝ) + 3) * u ≤ 1 / 10 := by unfold u; linarith
    have := mul_le_mul_of_nonneg_right e1 (by positivity : 0 ≤ 5 * u * M)
    linarith
  have : 0 ≤ u * M := by positivity
  linarith

/-- C83: with rounding, the centre of a brush is finite and the mean of its face centres up to `(n + 3) u M`. -/
theorem C83_brush_center (textures : TextureInfo) (entity : Entity F) (brush : Brush F) (geo : BrushGeo F)
    (h : buildBrush textures entity brush = .ok geo) (M : ℝ) (hM : 1 ≤ M) (hM' : M ≤ 2 ^ 80)
    (hne : brush.planes ≠ []) (hl : brush.planes.length ≤ 2 ^ 20)
    (hf : ∀ p ∈ geo.planes, FinV p.center) (hw : ∀ p ∈ geo.planes, Within M (valV p.center)) :
    FinV geo.center ∧
      NearMean ((brush.planes.length + 3) * u * M) (geo.planes.map fun p => valV p.center) (valV geo.center) := by
  unfold buildBrush at h
  obtain ⟨pgs, h1, h2⟩ := Outcome.bind_eq_ok.1 h
  cases h2
  have hlen := mapOut_length h1
  have hne' : pgs.map (·.center) ≠ [] := fun e => hne (List.length_eq_zero_iff.1 (by
    rw [← hlen, ← List.length_map (f := fun p : PlaneGeo F => p.center), e]; rfl))
  have hl' : (pgs.map (·.center)).length ≤ 2 ^ 20 := by rw [List.length_map, hlen]; exact hl
  have hf' : ∀ x ∈ pgs.map (·.center), FinV x := fun x hx => by
    obtain ⟨p, hp, rfl⟩ := List.mem_map.1 hx; exact hf p hp
  have hw' : ∀ x ∈ pgs.map (·.center), Within M (valV x) := fun x hx => by
    obtain ⟨p, hp, rfl⟩ := List.mem_map.1 hx; exact hw p hp
  have g := mean_finV hM hM' hl' hne' hf' hw'
  have m := mean_near hM hl' hne' g hw'
  rw [List.map_map, List.length_map, hlen] at m
  exact ⟨g, m⟩

/-- C83: with rounding, the centre of an entity without `origin` is finite and the mean of its brush centres up to
`(n + 3) u M`. -/
theorem C83_entity_center (textures : TextureInfo) (entity : Entity F) (geo : EntityGeo F)
    (horigin : entity.properties (str! "origin") = none) (h : Geo.buildEntity textures entity = .ok geo)
    (M : ℝ) (hM : 1 ≤ M) (hM' : M ≤ 2 ^ 80) (hne : entity.brushes ≠ []) (hl : entity.brushes.length ≤ 2 ^ 20)
    (hf : ∀ b ∈ geo.brushes, FinV b.center) (hw : ∀ b ∈ geo.brushes, Within M (valV b.center)) :
    FinV geo.center ∧
      NearMean ((entity.brushes.length + 3) * u * M) (geo.brushes.map fun b => valV b.center) (valV geo.center) := by
  unfold Geo.buildEntity at h
  obtain ⟨bgs, h1, h2⟩ := Outcome.bind_eq_ok.1 h
  have ho : entity.properties.get? (str! "origin") = none := horigin
  rw [ho] at h2
  cases h2
  have hlen := mapOut_length h1
  have hne' : bgs.map (·.center) ≠ [] := fun e => hne (List.length_eq_zero_iff.1 (by
    rw [← hlen, ← List.length_map (f := fun p : BrushGeo F => p.center), e]; rfl))
  have hl' : (bgs.map (·.center)).length ≤ 2 ^ 20 := by rw [List.length_map, hlen]; exact hl
  have hf' : ∀ x ∈ bgs.map (·.center), FinV x := fun x hx => by
    obtain ⟨p, hp, rfl⟩ := List.mem_map.1 hx; exact hf p hp
  have hw' : ∀ x ∈ bgs.map (·.center), Within M (valV x) := fun x hx => by
    obtain ⟨p, hp, rfl⟩ := List.mem_map.1 hx; exact hw p hp
  have g := mean_finV hM hM' hl' hne' hf' hw'
  have m := mean_near hM hl' hne' g hw'
  rw [List.map_map, List.length_map, hlen] at m
  exact ⟨g, m⟩

end

/-! ### in single precision -/

section
variable [F32Lib] [Platform]
open F32

theorem oct_is {p : BrushPlane F32} (h : p ∈ octant) : ∃ a b c : Int, PlaneIs p a b c 1 ∧
    ((a = 1 ∧ b = 0 ∧ c = 0) ∨ (a = 0 ∧ b = 1 ∧ c = 0) ∨ (a = 0 ∧ b = 0 ∧ c = 1)) := by
  simp only [octant, List.mem_cons, List.not_mem_nil, or_false] at h
  rcases h with rfl | rfl | rfl
  · exact ⟨_, _, _, octX_is, by simp⟩
  · exact ⟨_, _, _, octY_is, by simp⟩
  · exact ⟨_, _, _, octZ_is, by simp⟩

/-- Any three faces of the octant that meet do so in `(1, 1, 1)`. -/
theorem oct_found' {p0 p1 p2 : BrushPlane F32} (h0 : p0 ∈ octant) (h1 : p1 ∈ octant) (h2 : p2 ∈ octant) {x : V3 F32}
    (h : Meet p0 p1 p2 x) : IsV x 1 1 1 := by
  obtain ⟨det, rfl, hl, rfl⟩ := h
  obtain ⟨a0, b0, c0, i0, e0⟩ := oct_is h0
  obtain ⟨a1, b1, c1, i1, e1⟩ := oct_is h1
  obtain ⟨a2, b2, c2, i2, e2⟩ := oct_is h2
  rcases e0 with ⟨rfl, rfl, rfl⟩ | ⟨rfl, rfl, rfl⟩ | ⟨rfl, rfl, rfl⟩ <;>
  rcases e1 with ⟨rfl, rfl, rfl⟩ | ⟨rfl, rfl, rfl⟩ | ⟨rfl, rfl, rfl⟩ <;>
  rcases e2 with ⟨rfl, rfl, rfl⟩ | ⟨rfl, rfl, rfl⟩ | ⟨rfl, rfl, rfl⟩
  all_goals
    have hd := is_dot (isV_cross i0.normal i1.normal (by simp [F32.Small])) i2.normal (by simp [F32.Small])
    have hge := (lt_eps hd).1 hl
    first
    | (exfalso; norm_num at hge; done)
    | (refine isV_sdiv (isV_add (isV_add (isV_smul (isV_cross i1.normal i2.normal (by simp [F32.Small])) i0.dist
        (by simp [F32.Small])) (isV_smul (isV_cross i2.normal i0.normal (by simp [F32.Small])) i1.dist
        (by simp [F32.Small])) (by simp [F32.Small])) (isV_smul (isV_cross i0.normal i1.normal (by simp [F32.Small]))
        i2.dist (by simp [F32.Small])) (by simp [F32.Small])) hd ?_ ?_ ?_ ?_ <;> norm_num)

theorem oct_meet' {p : BrushPlane F32} (hp : p ∈ octant) : ∃ p1 ∈ octant, ∃ p2 ∈ octant, ∃ x, Meet p p1 p2 x := by
  have go : ∀ {q0 q1 q2 : BrushPlane F32} {a0 b0 c0 a1 b1 c1 a2 b2 c2 : Int}, PlaneIs q0 a0 b0 c0 1 →
      PlaneIs q1 a1 b1 c1 1 → PlaneIs q2 a2 b2 c2 1 →
      Arith.lt (Arith.dot (Arith.cross (faceNormal q0) (faceNormal q1)) (faceNormal q2)) Arith.cmpEpsilon = false →
      ∃ x, Meet q0 q1 q2 x := fun _ _ _ h => ⟨_, _, rfl, h, rfl⟩
  simp only [octant, List.mem_cons, List.not_mem_nil, or_false] at hp
  rcases hp with rfl | rfl | rfl
  · refine ⟨octY, by simp [octant], octZ, by simp [octant], go octX_is octY_is octZ_is ?_⟩
    exact (lt_eps (is_dot (isV_cross octX_is.normal octY_is.normal (by simp [F32.Small])) octZ_is.normal
      (by simp [F32.Small]))).2 (by norm_num)
  · refine ⟨octZ, by simp [octant], octX, by simp [octant], go octY_is octZ_is octX_is ?_⟩
    exact (lt_eps (is_dot (isV_cross octY_is.normal octZ_is.normal (by simp [F32.Small])) octX_is.normal
      (by simp [F32.Small]))).2 (by norm_num)
  · refine ⟨octX, by simp [octant], octY, by simp [octant], go octZ_is octX_is octY_is ?_⟩
    exact (lt_eps (is_dot (isV_cross octZ_is.normal octX_is.normal (by simp [F32.Small])) octY_is.normal
      (by simp [F32.Small]))).2 (by norm_num)

/-- Each face of the octant has the corner `(1, 1, 1)` and no other. -/
theorem oct_faces {textures : TextureInfo} {entity : Entity F32} {p : BrushPlane F32} (hp : p ∈ octant)
    {geo : PlaneGeo F32} (h : buildPlane textures entity octant p = .ok geo) :
    ∃ v, geo.vertices = [v] ∧ IsV v.pos 1 1 1 ∧ IsV geo.center 1 1 1 := by
  obtain ⟨pts, hperm, hcen, hfound, hdist, hall⟩ := corners_center textures entity octant p geo h
  have his : ∀ x ∈ pts, IsV x 1 1 1 := fun x hx => by
    obtain ⟨p1, h1, p2, h2, hm⟩ := (hfound x hx).1
    exact oct_found' hp h1 h2 hm
  obtain ⟨p1, h1, p2, h2, x, hm⟩ := oct_meet' hp
  have hx : Found octant p x := ⟨⟨p1, h1, p2, h2, hm⟩, fun q hq => oct_behind hq (oct_found' hp h1 h2 hm)⟩
  obtain ⟨y, hy, -⟩ := hall x hx
  have hone : pts = [y] := by
    match pts, hdist, hy, his with
    | [a], _, hy, _ => rw [List.mem_singleton.1 hy]
    | a :: b :: l, hdist, _, his =>
      have := ((List.pairwise_cons.1 hdist).1 b (by simp)).1
      rw [beq_of_isV (his a (by simp)) (his b (by simp))] at this
      cases this
  subst hone
  have iy := his y (by simp)
  have ic : IsV geo.center 1 1 1 := by
    rw [hcen]
    have hz : IsV (V3.zero : V3 F32) 0 0 0 := ⟨is_zero, is_zero, is_zero⟩
    have hn : Is (Arith.ofNat (max [y].length 1) : F32) 1 := by
      obtain ⟨h1, h2⟩ := is_ofAbs (s := false) (n := 1) (by norm_num) (x := ((1 : Nat) : ℝ)) rfl
      refine ⟨h1, ?_, by norm_num⟩
      have : F32.val (Arith.ofNat (max [y].length 1) : F32) = F32.sv false ((1 : Nat) : ℝ) := h2
      rw [this]; simp [F32.sv]
    exact isV_sdiv (isV_add hz iy (by simp [F32.Small])) hn (by norm_num) (by norm_num) (by norm_num) (by norm_num)
  obtain ⟨v, hv⟩ : ∃ v, geo.vertices = [v] := by
    have := hperm.length_eq
    rw [List.length_map, List.length_map] at this
    exact List.length_eq_one_iff.1 this
  refine ⟨v, hv, ?_, ic⟩
  rw [hv] at hperm
  have e : v.pos = recentre geo.center y := by simpa using hperm
  rw [e]
  exact isV_add (isV_sub iy ic (by simp [F32.Small])) ic (by simp [F32.Small])

theorem isV_within {v : V3 F32} (h : IsV v 1 1 1) : Within 1 (valV v) := by rw [isV_val h]; simp [Within]

/-- C83 applies to the faces of the octant in single precision. -/
example (textures : TextureInfo) (entity : Entity F32) :
    ∃ geo, buildPlane textures entity octant octX = .ok geo ∧ geo.vertices.length = 1 ∧
      NearMean ((1 + 8) * u * 1) (geo.vertices.map fun v => valV v.pos) (valV geo.center) := by
  obtain ⟨geo, v, h, hv, h1, h2⟩ := oct_geo textures entity
  refine ⟨geo, h, by simp [hv], ?_⟩
  have := (C83_face_center textures entity octant octX geo h 1 le_rfl (by simp [hv]) (by simp [hv])
    (by simp [hv, isV_fin h1]) (by simp [hv, isV_within h1])).2.2
  simpa [hv] using this

theorem oct_brush (textures : TextureInfo) (entity : Entity F32) :
    ∃ geo, buildBrush textures entity ⟨octant⟩ = .ok geo ∧ (∀ p ∈ geo.planes, IsV p.center 1 1 1) ∧
      IsV geo.center 1 1 1 := by
  obtain ⟨pgs, h1⟩ : ∃ pgs, mapOut (buildPlane textures entity octant) octant = .ok pgs :=
    mapOut_isOk.2 fun p hp => (buildPlane_isOk textures entity octant p).2 fun _ _ =>
      good_hasLargest le_rfl (by norm_num) le_rfl (by norm_num) (oct_good p hp)
  have hcs : ∀ g ∈ pgs, IsV g.center 1 1 1 := fun g hg => by
    obtain ⟨p, hp, e⟩ := mapOut_mem h1 hg
    obtain ⟨_, _, _, hc⟩ := oct_faces hp e
    exact hc
  refine ⟨_, Outcome.bind_eq_ok.2 ⟨pgs, h1, rfl⟩, hcs, ?_⟩
  obtain ⟨a, b, c, rfl⟩ := List.length_eq_three.1 (mapOut_length h1)
  have hz : IsV (V3.zero : V3 F32) 0 0 0 := ⟨is_zero, is_zero, is_zero⟩
  have hn : Is (Arith.ofNat 3 : F32) 3 := by
    obtain ⟨h1, h2⟩ := is_ofAbs (s := false) (n := 3) (by norm_num) (x := ((3 : Nat) : ℝ)) rfl
    refine ⟨h1, ?_, by norm_num⟩
    have : F32.val (Arith.ofNat 3 : F32) = F32.sv false ((3 : Nat) : ℝ) := h2
    rw [this]; simp [F32.sv]
  exact isV_sdiv (isV_add (isV_add (isV_add hz (hcs a (by simp)) (by simp [F32.Small])) (hcs b (by simp))
    (by simp [F32.Small])) (hcs c (by simp)) (by simp [F32.Small])) hn (by norm_num) (by norm_num) (by norm_num)
    (by norm_num)

/-- … to the brush, … -/
example (textures : TextureInfo) (entity : Entity F32) :
    ∃ geo, buildBrush textures entity ⟨octant⟩ = .ok geo ∧ FinV geo.center ∧
      NearMean ((3 + 3) * u * 1) (geo.planes.map fun p => valV p.center) (valV geo.center) := by
  obtain ⟨geo, h, hc, -⟩ := oct_brush textures entity
  have := C83_brush_center textures entity ⟨octant⟩ geo h 1 le_rfl (by norm_num) (by simp [octant]) (by simp [octant])
    (fun p hp => isV_fin (hc p hp)) (fun p hp => isV_within (hc p hp))
  exact ⟨geo, h, by simpa [octant] using this⟩

/-- … and to an entity with two such brushes. -/
example (textures : TextureInfo) :
    ∃ geo, Geo.buildEntity textures (⟨Map.empty, [⟨octant⟩, ⟨octant⟩]⟩ : Entity F32) = .ok geo ∧ FinV geo.center ∧
      NearMean ((2 + 3) * u * 1) (geo.brushes.map fun b => valV b.center) (valV geo.center) := by
  obtain ⟨b, h, -, hc⟩ := oct_brush textures (⟨Map.empty, [⟨octant⟩, ⟨octant⟩]⟩ : Entity F32)
  have he : Geo.buildEntity textures (⟨Map.empty, [⟨octant⟩, ⟨octant⟩]⟩ : Entity F32) =
      .ok ⟨mean [b.center, b.center], [b, b]⟩ := by
    unfold Geo.buildEntity
    refine Outcome.bind_eq_ok.2 ⟨[b, b], mapOut_eq_ok.2 (.cons h (.cons h .nil)), rfl⟩
  have := C83_entity_center textures _ _ rfl he 1 le_rfl (by norm_num) (by simp) (by simp)
    (fun p hp => by simp only [List.mem_cons, List.not_mem_nil, or_false, or_self] at hp; rw [hp]; exact isV_fin hc)
    (fun p hp => by simp only [List.mem_cons, List.not_mem_nil, or_false, or_self] at hp; rw [hp]; exact isV_within hc)
  exact ⟨_, he, by simpa using this⟩

end
end Quarch
