import Verif.Spec.Sheet
import Verif.Proofs.Normals
import Verif.Props.Idle
import Verif.Props.Solid
import Verif.Props.Drawn
/-
C137: brushes that are very flat vanish.
-/
set_option linter.unusedSectionVars false
namespace Quarch
open Spec Scene Geo Poly

section
variable [RealText]

theorem lagrange_det (u a b c : V3 ℝ) : dotR u u * dotR u u * detR a b c =
    dotR a u * dotR u (crossR (crossR b u) (crossR c u)) + dotR b u * dotR u (crossR (crossR c u) (crossR a u)) +
      dotR c u * dotR u (crossR (crossR a u) (crossR b u)) := by
  simp only [dotR, detR, crossR]
  ring

theorem lenR_cross_le (a b : V3 ℝ) : lenR (crossR a b) ≤ lenR a * lenR b := by
  have h : lenR (crossR a b) * lenR (crossR a b) ≤ (lenR a * lenR b) * (lenR a * lenR b) := by
    rw [lenR_sq, show (lenR a * lenR b) * (lenR a * lenR b) = (lenR a * lenR a) * (lenR b * lenR b) by ring, lenR_sq,
      lenR_sq]
    have : dotR (crossR a b) (crossR a b) = dotR a a * dotR b b - dotR a b * dotR a b := by
      simp only [dotR, crossR]; ring
    rw [this]
    nlinarith [mul_self_nonneg (dotR a b)]
  exact abs_le_of_sq_le_sq' (by simpa [sq] using h) (mul_nonneg (lenR_nonneg a) (lenR_nonneg b)) |>.2

theorem tilt_term {u a b c : V3 ℝ} (hb : 3000 * dotR (crossR b u) (crossR b u) < dotR b b * dotR u u)
    (hc : 3000 * dotR (crossR c u) (crossR c u) < dotR c c * dotR u u) (ha : 0 < lenR a) (hu : 0 < lenR u) :
    |dotR a u * dotR u (crossR (crossR b u) (crossR c u))| * 3000 <
      lenR a * lenR b * lenR c * (dotR u u * dotR u u) := by
  rw [abs_mul]
  have h1 := Err.cauchy a u
  have h2 := (Err.cauchy u (crossR (crossR b u) (crossR c u))).trans
    (mul_le_mul_of_nonneg_left (lenR_cross_le _ _) hu.le)
  have key : lenR (crossR b u) * lenR (crossR c u) * 3000 < lenR b * lenR c * dotR u u := by
    rw [← lenR_sq, ← lenR_sq, ← lenR_sq] at hb hc
    have e1 := lenR_nonneg (crossR b u)
    have e2 := lenR_nonneg (crossR c u)
    have b0 := lenR_nonneg b
    have c0 := lenR_nonneg c
    rw [← lenR_sq u]
    have hpos : 0 ≤ lenR b * lenR c * (lenR u * lenR u) := by positivity
    refine lt_of_pow_lt_pow_left₀ 2 hpos ?_
    have : (3000 * (lenR (crossR b u) * lenR (crossR b u))) * (3000 * (lenR (crossR c u) * lenR (crossR c u))) <
        (lenR b * lenR b * (lenR u * lenR u)) * (lenR c * lenR c * (lenR u * lenR u)) :=
      mul_lt_mul'' hb hc (by positivity) (by positivity)
    nlinarith
  calc |dotR a u| * |dotR u (crossR (crossR b u) (crossR c u))| * 3000
      ≤ (lenR a * lenR u) * (lenR u * (lenR (crossR b u) * lenR (crossR c u))) * 3000 := by
        refine mul_le_mul_of_nonneg_right (mul_le_mul h1 h2 (abs_nonneg _) (by positivity)) (by norm_num)
    _ = (lenR a * (lenR u * lenR u)) * (lenR (crossR b u) * lenR (crossR c u) * 3000) := by ring
    _ < (lenR a * (lenR u * lenR u)) * (lenR b * lenR c * dotR u u) :=
        mul_lt_mul_of_pos_left key (by positivity)
    _ = _ := by rw [lenR_sq]; ring

theorem sheet_det {planes : List (BrushPlane ℝ)} (h : SheetLike planes) {p q r : BrushPlane ℝ} (hp : p ∈ planes)
    (hq : q ∈ planes) (hr : r ∈ planes) : unitDet p q r < 1 / 1000 := by
  obtain ⟨u, hu, hall⟩ := h
  have pos : ∀ s ∈ planes, 0 < lenR (rawNormal s) := by
    intro s hs
    refine lenR_pos fun e => ?_
    have := hall s hs
    rw [e] at this
    simp [dotR, crossR, zeroR] at this
  have u0 := lenR_pos hu
  have uu : 0 < dotR u u * dotR u u := by rw [← lenR_sq]; positivity
  have t1 := tilt_term (hall q hq) (hall r hr) (pos p hp) u0
  have t2 := tilt_term (hall r hr) (hall p hp) (pos q hq) u0
  have t3 := tilt_term (hall p hp) (hall q hq) (pos r hr) u0
  have e := lagrange_det u (rawNormal p) (rawNormal q) (rawNormal r)
  have a1 := pos p hp
  have a2 := pos q hq
  have a3 := pos r hr
  unfold unitDet
  rw [div_lt_div_iff₀ (by positivity) (by norm_num)]
  have l1 := le_abs_self (dotR (rawNormal p) u * dotR u (crossR (crossR (rawNormal q) u) (crossR (rawNormal r) u)))
  have l2 := le_abs_self (dotR (rawNormal q) u * dotR u (crossR (crossR (rawNormal r) u) (crossR (rawNormal p) u)))
  have l3 := le_abs_self (dotR (rawNormal r) u * dotR u (crossR (crossR (rawNormal p) u) (crossR (rawNormal q) u)))
  refine lt_of_mul_lt_mul_left ?_ uu.le
  nlinarith

end

section
variable {F : Type} [Arith F] [Platform]

theorem mapOut_none {α β : Type} (l : List α) : mapOut (fun _ => (.ok none : Outcome (Option β))) l =
    .ok (List.replicate l.length none) := by
  induction l with
  | nil => rfl
  | cons a l ih => rw [mapOut_cons, ih]; rfl

theorem mapOut_nils {α β : Type} (l : List α) : mapOut (fun _ => (.ok [] : Outcome (List β))) l =
    .ok (List.replicate l.length []) := by
  induction l with
  | nil => rfl
  | cons a l ih => rw [mapOut_cons, ih]; rfl

theorem buildPlane_lost {textures : TextureInfo} {entity : Entity F} {planes : List (BrushPlane F)} {p : BrushPlane F}
    (h : ∀ q ∈ planes, ∀ r ∈ planes, ∀ x, ¬ Meet p q r x) :
    ∃ t, buildPlane textures entity planes p = .ok ⟨mean [], [], [], t⟩ := by
  have e0 : planeVertices (Map.get? textures p.texture) entity planes p = .ok [] := by
    unfold planeVertices
    rw [mapOut_congr (g := fun _ => .ok []), mapOut_nils]
    · simp
    · intro q hq
      rw [mapOut_congr (g := fun _ => .ok none), mapOut_none]
      · simp
      · intro r hr
        unfold buildPlaneVertex
        split
        · rename_i x hx
          exact absurd (intersect_eq_some.1 hx) (h q hq r hr x)
        · rfl
  unfold buildPlane
  simp only [e0, Outcome.ok_bind]
  have e : ∀ c : V3 F, windVertices p c [] = [] := by
    intro c
    unfold windVertices
    have := (Platform.sortBy_perm (windCmp p) []).length_eq
    simp only [List.map_nil]
    rw [List.length_nil, List.length_eq_zero_iff] at this
    rw [this]
    rfl
  exact ⟨_, by simp only [uniqueVertices, List.map_nil, e]; rfl⟩

end

section
variable [RealText] [Platform]

theorem mean_none : mean ([] : List (V3 ℝ)) = zeroR := by
  rw [mean_real]
  simp [sumR, smulR, zeroR]

theorem sheet_face {textures : TextureInfo} {entity : Entity ℝ} {planes : List (BrushPlane ℝ)} (h : SheetLike planes)
    {p : BrushPlane ℝ} (hp : p ∈ planes) : ∃ t, buildPlane textures entity planes p = .ok ⟨zeroR, [], [], t⟩ := by
  obtain ⟨t, ht⟩ := buildPlane_lost (textures := textures) (entity := entity) (planes := planes) (p := p)
    fun q hq r hr x hm => absurd (meet_real.1 hm).1 (not_le.2 (sheet_det h hp hq hr))
  rw [mean_none] at ht
  exact ⟨t, ht⟩

/-- C137: a brush all of whose faces are tilted by at most one degree from a common direction is built without error, but no
face has a vertex, and its centre is the origin of the map wherever the brush is. -/
theorem C137_vanishes (textures : TextureInfo) (entity : Entity ℝ) (brush : Brush ℝ) (h : SheetLike brush.planes) :
    ∃ geo, buildBrush textures entity brush = .ok geo ∧ geo.center = zeroR ∧ geo.planes.length = brush.planes.length ∧
      ∀ face ∈ geo.planes, face.vertices = [] ∧ face.indices = [] := by
  obtain ⟨gs, hgs, hall⟩ : ∃ gs, mapOut (buildPlane textures entity brush.planes) brush.planes = .ok gs ∧
      gs.length = brush.planes.length ∧ ∀ g ∈ gs, g.vertices = [] ∧ g.indices = [] ∧ g.center = zeroR := by
    have : ∀ l : List (BrushPlane ℝ), (∀ p ∈ l, p ∈ brush.planes) →
        ∃ gs, mapOut (buildPlane textures entity brush.planes) l = .ok gs ∧
          gs.length = l.length ∧ ∀ g ∈ gs, g.vertices = [] ∧ g.indices = [] ∧ g.center = zeroR := by
      intro l
      induction l with
      | nil => intro _; exact ⟨[], rfl, rfl, by simp⟩
      | cons a l ih =>
        intro hl
        obtain ⟨gs, h1, h2, h3⟩ := ih fun p hp => hl p (List.mem_cons_of_mem _ hp)
        obtain ⟨t, ht⟩ := sheet_face (textures := textures) (entity := entity) h (hl a List.mem_cons_self)
        refine ⟨⟨zeroR, [], [], t⟩ :: gs, by rw [mapOut_cons, ht, h1]; rfl, by simp [h2], ?_⟩
        intro g hg
        rcases List.mem_cons.1 hg with rfl | hg
        · exact ⟨rfl, rfl, rfl⟩
        · exact h3 g hg
    exact this _ fun _ h => h
  refine ⟨⟨mean (gs.map (·.center)), gs⟩, ?_, ?_, hall.1, fun g hg => ⟨(hall.2 g hg).1, (hall.2 g hg).2.1⟩⟩
  · unfold buildBrush
    rw [hgs]
    rfl
  · show mean (gs.map (·.center)) = zeroR
    rw [mean_real]
    have : ∀ l : List (PlaneGeo ℝ), (∀ g ∈ l, g.center = zeroR) → sumR (l.map (·.center)) = zeroR := by
      intro l
      induction l with
      | nil => intro _; rfl
      | cons a l ih =>
        intro hl
        rw [List.map_cons, show ∀ (a : V3 ℝ) l, sumR (a :: l) = addR a (sumR l) from fun _ _ => rfl, ih fun g hg => hl g (List.mem_cons_of_mem _ hg), hl a List.mem_cons_self]
        simp [addR, zeroR]
    rw [this gs fun g hg => (hall.2 g hg).2.2]
    simp [smulR, zeroR]

theorem sheet_triangle {textures : TextureInfo} {entity : Entity ℝ} {planes : List (BrushPlane ℝ)} (h : SheetLike planes)
    {p : BrushPlane ℝ} (hp : p ∈ planes) {face : PlaneGeo ℝ} (hf : buildPlane textures entity planes p = .ok face)
    {x y z : Vertex ℝ} (hT : TriangleOf face.vertices face.indices x y z) : False := by
  obtain ⟨t, ht⟩ := sheet_face (textures := textures) (entity := entity) h hp
  rw [ht] at hf
  cases hf
  obtain ⟨n, i, j, k, hi, _⟩ := hT
  simp at hi

/-- C137, for the scene: if every brush is proper or flat like this, exactly the faces of the others are drawn. -/
theorem C137_picture (depth : Nat)
    (order : List (Str × List (BrushGeo ℝ)) → List (Str × List (BrushGeo ℝ))) (horder : ∀ l, (order l).Perm l)
    (config : Config ℝ) (nodes : List (Node ℝ)) (h : Quarch.run depth order config = .ok nodes)
    (text : Str) (ht : config.mapFile = some text) (entities : List (Entity ℝ)) (hl : LoadsAs text entities)
    (hp : ∀ e ∈ entities, Anchored entities e → ∀ br ∈ e.brushes, SheetLike br.planes ∨ ProperBrush br.planes) (x : V3 ℝ) :
    Drawn nodes x ↔ ∃ e ∈ entities, Anchored entities e ∧ ∃ br ∈ e.brushes, ¬ SheetLike br.planes ∧ ∃ p ∈ br.planes,
      ShownFace config e br p ∧ HasArea br.planes p ∧ OnFace br.planes p x := by
  obtain ⟨h1, h2⟩ := C87_triangles depth order horder config nodes h text ht entities hl
  constructor
  · rintro ⟨o, v, s, a, b, c, hocc, hs, hT, hx⟩
    obtain ⟨e, he, ha, br, hbr, p, hpm, hsh, face, hb, u, v, w, hT', e1, e2, e3⟩ := h1 o v s a b c hocc hs hT
    rw [samePlace_real] at e1 e2 e3
    subst e1; subst e2; subst e3
    have hn : ¬ SheetLike br.planes := fun hsl => sheet_triangle hsl hpm hb hT'
    exact ⟨e, he, ha, br, hbr, hn, p, hpm, hsh,
      (face_covered ((hp e he ha br hbr).resolve_left hn) hpm hb x).1 ⟨u, v, w, hT', hx⟩⟩
  · rintro ⟨e, he, ha, br, hbr, hn, p, hpm, hsh, hx⟩
    obtain ⟨face, hb, hf⟩ := h2 e he ha br hbr p hpm hsh
    obtain ⟨u, v, w, hT, hx⟩ := (face_covered ((hp e he ha br hbr).resolve_left hn) hpm hb x).2 hx
    obtain ⟨o, v', s, a, b, c, hocc, hs, hT', e1, e2, e3⟩ := hf u v w hT
    rw [samePlace_real] at e1 e2 e3
    subst e1; subst e2; subst e3
    exact ⟨o, v', s, _, _, _, hocc, hs, hT', hx⟩

/-- C137: the same for convex collision; a flat brush has a shape without points. -/
theorem C137_convex (depth : Nat)
    (order : List (Str × List (BrushGeo ℝ)) → List (Str × List (BrushGeo ℝ))) (horder : ∀ l, (order l).Perm l)
    (config : Config ℝ) (nodes : List (Node ℝ)) (h : Quarch.run depth order config = .ok nodes)
    (text : Str) (ht : config.mapFile = some text) (entities : List (Entity ℝ)) (hl : LoadsAs text entities) :
    (∀ e ∈ entities, Anchored entities e → ∀ br ∈ e.brushes, SheetLike br.planes → br.planes ≠ [] →
      SolidAs config e br .convex → ∃ o shapes, Occurs (.collision o (.convex shapes)) nodes ∧ ⟨zeroR, []⟩ ∈ shapes) ∧
    ((∀ e ∈ entities, Anchored entities e → ∀ br ∈ e.brushes, SheetLike br.planes ∨ ProperBrush br.planes) → ∀ x,
      (InSolid nodes x ↔ ∃ e ∈ entities, Anchored entities e ∧ ∃ br ∈ e.brushes, ¬ SheetLike br.planes ∧
        SolidAs config e br .convex ∧ ∀ p ∈ br.planes, WithinR 0 p x)) := by
  obtain ⟨h1, h2⟩ := C88_convex depth order horder config nodes h text ht entities hl
  have none : ∀ {e : Entity ℝ} {br : Brush ℝ} {bg : BrushGeo ℝ}, SheetLike br.planes →
      buildBrush config.textureInfo e br = .ok bg → bg.center = zeroR ∧ ∀ p ∈ bg.planes, p.vertices = [] := by
    intro e br bg hs hb
    obtain ⟨geo, k1, k2, _, k3⟩ := C137_vanishes config.textureInfo e br hs
    rw [k1] at hb
    cases hb
    exact ⟨k2, fun p hp => (k3 p hp).1⟩
  have empty : ∀ {pts : List (V3 ℝ)} {bg : BrushGeo ℝ}, (∀ p ∈ bg.planes, p.vertices = []) →
      (∀ x ∈ pts, ∃ p ∈ bg.planes, ∃ v ∈ p.vertices, v.pos = x) → pts = [] := by
    intro pts bg k1 k2
    refine List.eq_nil_iff_forall_not_mem.2 fun x hx => ?_
    obtain ⟨p, hp, v, hv, _⟩ := k2 x hx
    rw [k1 p hp] at hv
    cases hv
  constructor
  · intro e he ha br hbr hs hne hsol
    obtain ⟨bg, hb, o, shapes, shape, hocc, hsh, hc, k1, _⟩ := h2 e he ha br hbr hne hsol
    obtain ⟨n1, n2⟩ := none hs hb
    refine ⟨o, shapes, hocc, ?_⟩
    have := empty n2 k1
    obtain ⟨c, pts⟩ := shape
    simp only at hc this
    rw [hc, n1, this] at hsh
    exact hsh
  · intro hp x
    constructor
    · rintro ⟨o, shapes, shape, hs, hocc, hx⟩
      obtain ⟨e, he, ha, br, hbr, hsolid, bg, hb, _, k1, k2, _⟩ := h1 o shapes shape hocc hs
      have hn : ¬ SheetLike br.planes := by
        intro hsl
        rw [empty (none hsl hb).2 k1] at hx
        exact hx (fun _ => False) (fun _ _ h => h.elim) (by simp)
      exact ⟨e, he, ha, br, hbr, hn, hsolid, (corners_hull hb ((hp e he ha br hbr).resolve_left hn) k1 k2 x).1 hx⟩
    · rintro ⟨e, he, ha, br, hbr, hn, hsolid, hx⟩
      have hpb := (hp e he ha br hbr).resolve_left hn
      obtain ⟨bg, hb, o, shapes, shape, hocc, hs, _, k1, k2, _⟩ := h2 e he ha br hbr (proper_planes hpb) hsolid
      exact ⟨o, shapes, shape, hs, hocc, (corners_hull hb hpb k1 k2 x).2 hx⟩

/-- C137: and for concave collision. -/
theorem C137_concave (depth : Nat)
    (order : List (Str × List (BrushGeo ℝ)) → List (Str × List (BrushGeo ℝ))) (horder : ∀ l, (order l).Perm l)
    (config : Config ℝ) (nodes : List (Node ℝ)) (h : Quarch.run depth order config = .ok nodes)
    (text : Str) (ht : config.mapFile = some text) (entities : List (Entity ℝ)) (hl : LoadsAs text entities)
    (hp : ∀ e ∈ entities, Anchored entities e → ∀ br ∈ e.brushes, SheetLike br.planes ∨ ProperBrush br.planes) (x : V3 ℝ) :
    OnSolid nodes x ↔ ∃ e ∈ entities, Anchored entities e ∧ ∃ br ∈ e.brushes, ¬ SheetLike br.planes ∧
      SolidAs config e br .concave ∧ (∀ p ∈ br.planes, WithinR 0 p x) ∧ ∃ p ∈ br.planes, OnPlane p x := by
  obtain ⟨h1, h2⟩ := C88_concave depth order horder config nodes h text ht entities hl
  constructor
  · rintro ⟨o, shapes, s, hs, hocc, a, b, c, hT, hx⟩
    obtain ⟨e, he, ha, br, hbr, hsolid, p, hpm, face, hb, u, v, w, hT', e1, e2, e3⟩ := h1 o shapes s a b c hocc hs hT
    rw [samePlace_real] at e1 e2 e3
    subst e1; subst e2; subst e3
    have hn : ¬ SheetLike br.planes := fun hsl => sheet_triangle hsl hpm hb hT'
    obtain ⟨_, h0, hin⟩ := (face_covered ((hp e he ha br hbr).resolve_left hn) hpm hb x).1 ⟨u, v, w, hT', hx⟩
    exact ⟨e, he, ha, br, hbr, hn, hsolid, hin, p, hpm, h0⟩
  · rintro ⟨e, he, ha, br, hbr, hn, hsolid, hin, p, hpm, h0⟩
    have hpb := (hp e he ha br hbr).resolve_left hn
    obtain ⟨g, hg, hw, hg0⟩ := Poly.on_wide hpb.solid hpb.points hpm (fun p hpm => (within_zero p x).1 (hin p hpm)) h0
    obtain ⟨face, hb, hf⟩ := h2 e he ha br hbr hsolid g hg
    obtain ⟨u, v, w, hT, hx⟩ := (face_covered hpb hg hb x).2 ⟨(hasArea_iff (hpb.points _ hg)).2 hw, hg0, hin⟩
    obtain ⟨o, shapes, s, a, b, c, hocc, hs, hT', e1, e2, e3⟩ := hf u v w hT
    rw [samePlace_real] at e1 e2 e3
    subst e1; subst e2; subst e3
    exact ⟨o, shapes, s, hs, hocc, _, _, _, hT', hx⟩

end
end Quarch
