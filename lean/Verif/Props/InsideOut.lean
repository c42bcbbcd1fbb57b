import Verif.Spec.InsideOut
import Verif.Props.Sheet
/-
C139: brushes whose faces are written the wrong way round.
-/
set_option linter.unusedSectionVars false
namespace Quarch
open Spec Scene Geo Poly

section
variable {F : Type} [Arith F] [Platform]

theorem buildPlane_outside {textures : TextureInfo} {entity : Entity F} {planes : List (BrushPlane F)} {p : BrushPlane F}
    (h : ∀ x, ¬ ∀ s ∈ planes, Behind s x) : ∃ t, buildPlane textures entity planes p = .ok ⟨mean [], [], [], t⟩ := by
  have e0 : planeVertices (Map.get? textures p.texture) entity planes p = .ok [] := by
    unfold planeVertices
    rw [mapOut_congr (g := fun _ => .ok []), mapOut_nils]
    · simp
    · intro q hq
      rw [mapOut_congr (g := fun _ => .ok none), mapOut_none]
      · simp
      · intro r hr
        unfold buildPlaneVertex
        split
        · rename_i x hx
          rw [if_neg]
          intro hh
          exact h x (inHull_iff.1 hh)
        · rfl
  unfold buildPlane
  simp only [e0, Outcome.ok_bind]
  have e : ∀ c : V3 F, windVertices p c [] = [] := by
    intro c
    unfold windVertices
    have := (Platform.sortBy_perm (windCmp p) []).length_eq
    simp only [List.map_nil]
    rw [List.length_nil, List.length_eq_zero_iff] at this
    rw [this]
    rfl
  exact ⟨_, by simp only [uniqueVertices, List.map_nil, e]; rfl⟩

end

section
variable [RealText] [Platform]

theorem turned_front {p p' : BrushPlane ℝ} (h : TurnedRound p p') (x : V3 ℝ) :
    dotR (rawNormal p') (subR x p'.v0) = -dotR (rawNormal p) (subR x p.v0) ∧ lenR (rawNormal p') = lenR (rawNormal p) := by
  obtain ⟨h0, h1, h2⟩ := h
  have e : rawNormal p' = smulR (-1) (rawNormal p) := by
    simp only [rawNormal, h0, h1, h2, crossR, subR, smulR]
    congr 1 <;> ring
  constructor
  · rw [e, h0]
    simp only [dotR, smulR, subR]
    ring
  · rw [e]
    unfold lenR
    congr 1
    simp only [dotR, smulR]
    ring

theorem insideOut_empty {planes : List (BrushPlane ℝ)} (h : InsideOut planes) (x : V3 ℝ) :
    ¬ ∀ s ∈ planes, Behind s x := by
  intro hb
  obtain ⟨body, ⟨⟨R, hR⟩, y, r, hr, hy⟩, hturn⟩ := h
  -- the value of every face is smaller at `y` than at `x`
  have key : ∀ p ∈ body, dotR (rawNormal p) (subR y p.v0) ≤ dotR (rawNormal p) (subR x p.v0) ∧
      dotR (rawNormal p) (subR y p.v0) ≤ 0 ∧
      (dotR (rawNormal p) (subR y p.v0) = dotR (rawNormal p) (subR x p.v0) → rawNormal p = zeroR) := by
    intro p hp
    obtain ⟨p', hp', ht⟩ := forall₂_left hturn hp
    have b := behind_real.1 (hb p' hp')
    unfold WithinR at b
    rw [(turned_front ht x).1, (turned_front ht x).2] at b
    have d := hy p hp
    unfold WithinR at d
    have l := lenR_nonneg (rawNormal p)
    refine ⟨by nlinarith, by nlinarith, fun e => ?_⟩
    rw [← lenR_eq_zero]
    by_contra hne
    have : 0 < lenR (rawNormal p) := lt_of_le_of_ne l (Ne.symm hne)
    nlinarith
  -- so the ray from `x` through `y` never leaves the body
  have ray : ∀ t : ℝ, 0 ≤ t → ∀ p ∈ body, WithinR 0 p (addR y (smulR t (subR y x))) := by
    intro t ht p hp
    obtain ⟨k1, k2, _⟩ := key p hp
    unfold WithinR
    have : dotR (rawNormal p) (subR (addR y (smulR t (subR y x))) p.v0) = dotR (rawNormal p) (subR y p.v0) +
        t * (dotR (rawNormal p) (subR y p.v0) - dotR (rawNormal p) (subR x p.v0)) := by
      simp only [dotR, subR, addR, smulR]; ring
    rw [this, zero_mul]
    nlinarith
  have zero : ∀ d : ℝ, ∀ a : ℝ, (∀ t : ℝ, 0 ≤ t → |a + t * d| ≤ R) → d = 0 := by
    intro d a h
    by_contra hd
    have hd' : 0 < |d| := abs_pos.2 hd
    have hR0 : 0 ≤ R := (abs_nonneg _).trans (h 0 le_rfl)
    have ht : 0 ≤ (R + |a| + 1) / |d| := by positivity
    have h1 := h _ ht
    have h2 : |(R + |a| + 1) / |d| * d| = R + |a| + 1 := by
      rw [abs_mul, abs_of_nonneg ht, div_mul_cancel₀ _ hd'.ne']
    have h3 := abs_sub_abs_le_abs_sub ((R + |a| + 1) / |d| * d) (-a)
    rw [h2, abs_neg, sub_neg_eq_add, add_comm _ a] at h3
    linarith
  have hx := zero (y.x - x.x) y.x fun t ht => by simpa [addR, smulR, subR] using (hR _ (ray t ht)).1
  have hyy := zero (y.y - x.y) y.y fun t ht => by simpa [addR, smulR, subR] using (hR _ (ray t ht)).2.1
  have hz := zero (y.z - x.z) y.z fun t ht => by simpa [addR, smulR, subR] using (hR _ (ray t ht)).2.2
  have e : y = x := by
    obtain ⟨a, b, c⟩ := y
    obtain ⟨a', b', c'⟩ := x
    simp only at hx hyy hz
    congr 1 <;> linarith
  -- then no face has a direction, and the body is everything
  have all : ∀ z, ∀ p ∈ body, WithinR 0 p z := by
    intro z p hp
    have := (key p hp).2.2 (by rw [e])
    unfold WithinR
    rw [this]
    simp [dotR, zeroR]
  have big := (hR ⟨|R| + 1, 0, 0⟩ (all _)).1
  have := le_abs_self R
  have h0 : (0 : ℝ) ≤ |R| := abs_nonneg R
  rw [abs_of_nonneg (by simpa using by linarith)] at big
  simp only at big
  linarith

theorem insideOut_face {textures : TextureInfo} {entity : Entity ℝ} {planes : List (BrushPlane ℝ)} (h : InsideOut planes)
    (p : BrushPlane ℝ) : ∃ t, buildPlane textures entity planes p = .ok ⟨zeroR, [], [], t⟩ := by
  obtain ⟨t, ht⟩ := buildPlane_outside (textures := textures) (entity := entity) (planes := planes) (p := p)
    (insideOut_empty h)
  rw [mean_none] at ht
  exact ⟨t, ht⟩

/-- C139: a brush all of whose faces are written the wrong way round is built without error, but no face has a vertex, and its
centre is the origin of the map wherever the brush is. -/
theorem C139_vanishes (textures : TextureInfo) (entity : Entity ℝ) (brush : Brush ℝ) (h : InsideOut brush.planes) :
    ∃ geo, buildBrush textures entity brush = .ok geo ∧ geo.center = zeroR ∧ geo.planes.length = brush.planes.length ∧
      ∀ face ∈ geo.planes, face.vertices = [] ∧ face.indices = [] := by
  obtain ⟨gs, hgs, hall⟩ : ∃ gs, mapOut (buildPlane textures entity brush.planes) brush.planes = .ok gs ∧
      gs.length = brush.planes.length ∧ ∀ g ∈ gs, g.vertices = [] ∧ g.indices = [] ∧ g.center = zeroR := by
    have : ∀ l : List (BrushPlane ℝ), (∀ p ∈ l, p ∈ brush.planes) →
        ∃ gs, mapOut (buildPlane textures entity brush.planes) l = .ok gs ∧
          gs.length = l.length ∧ ∀ g ∈ gs, g.vertices = [] ∧ g.indices = [] ∧ g.center = zeroR := by
      intro l
      induction l with
      | nil => intro _; exact ⟨[], rfl, rfl, by simp⟩
      | cons a l ih =>
        intro hl
        obtain ⟨gs, h1, h2, h3⟩ := ih fun p hp => hl p (List.mem_cons_of_mem _ hp)
        obtain ⟨t, ht⟩ := insideOut_face (textures := textures) (entity := entity) h a
        refine ⟨⟨zeroR, [], [], t⟩ :: gs, by rw [mapOut_cons, ht, h1]; rfl, by simp [h2], ?_⟩
        intro g hg
        rcases List.mem_cons.1 hg with rfl | hg
        · exact ⟨rfl, rfl, rfl⟩
        · exact h3 g hg
    exact this _ fun _ h => h
  refine ⟨⟨mean (gs.map (·.center)), gs⟩, ?_, ?_, hall.1, fun g hg => ⟨(hall.2 g hg).1, (hall.2 g hg).2.1⟩⟩
  · unfold buildBrush
    rw [hgs]
    rfl
  · show mean (gs.map (·.center)) = zeroR
    rw [mean_real]
    have : ∀ l : List (PlaneGeo ℝ), (∀ g ∈ l, g.center = zeroR) → sumR (l.map (·.center)) = zeroR := by
      intro l
      induction l with
      | nil => intro _; rfl
      | cons a l ih =>
        intro hl
        rw [List.map_cons, show ∀ (a : V3 ℝ) l, sumR (a :: l) = addR a (sumR l) from fun _ _ => rfl, ih fun g hg => hl g (List.mem_cons_of_mem _ hg), hl a List.mem_cons_self]
        simp [addR, zeroR]
    rw [this gs fun g hg => (hall.2 g hg).2.2]
    simp [smulR, zeroR]

theorem insideOut_triangle {textures : TextureInfo} {entity : Entity ℝ} {planes : List (BrushPlane ℝ)} (h : InsideOut planes)
    {p : BrushPlane ℝ} (hp : p ∈ planes) {face : PlaneGeo ℝ} (hf : buildPlane textures entity planes p = .ok face)
    {x y z : Vertex ℝ} (hT : TriangleOf face.vertices face.indices x y z) : False := by
  obtain ⟨t, ht⟩ := insideOut_face (textures := textures) (entity := entity) h p
  rw [ht] at hf
  cases hf
  obtain ⟨n, i, j, k, hi, _⟩ := hT
  simp at hi

/-- C139, for the scene: if every brush is proper or inside out, exactly the faces of the proper ones are drawn. -/
theorem C139_picture (depth : Nat)
    (order : List (Str × List (BrushGeo ℝ)) → List (Str × List (BrushGeo ℝ))) (horder : ∀ l, (order l).Perm l)
    (config : Config ℝ) (nodes : List (Node ℝ)) (h : Quarch.run depth order config = .ok nodes)
    (text : Str) (ht : config.mapFile = some text) (entities : List (Entity ℝ)) (hl : LoadsAs text entities)
    (hp : ∀ e ∈ entities, Anchored entities e → ∀ br ∈ e.brushes, InsideOut br.planes ∨ ProperBrush br.planes) (x : V3 ℝ) :
    Drawn nodes x ↔ ∃ e ∈ entities, Anchored entities e ∧ ∃ br ∈ e.brushes, ¬ InsideOut br.planes ∧ ∃ p ∈ br.planes,
      ShownFace config e br p ∧ HasArea br.planes p ∧ OnFace br.planes p x := by
  obtain ⟨h1, h2⟩ := C87_triangles depth order horder config nodes h text ht entities hl
  constructor
  · rintro ⟨o, v, s, a, b, c, hocc, hs, hT, hx⟩
    obtain ⟨e, he, ha, br, hbr, p, hpm, hsh, face, hb, u, v, w, hT', e1, e2, e3⟩ := h1 o v s a b c hocc hs hT
    rw [samePlace_real] at e1 e2 e3
    subst e1; subst e2; subst e3
    have hn : ¬ InsideOut br.planes := fun hsl => insideOut_triangle hsl hpm hb hT'
    exact ⟨e, he, ha, br, hbr, hn, p, hpm, hsh,
      (face_covered ((hp e he ha br hbr).resolve_left hn) hpm hb x).1 ⟨u, v, w, hT', hx⟩⟩
  · rintro ⟨e, he, ha, br, hbr, hn, p, hpm, hsh, hx⟩
    obtain ⟨face, hb, hf⟩ := h2 e he ha br hbr p hpm hsh
    obtain ⟨u, v, w, hT, hx⟩ := (face_covered ((hp e he ha br hbr).resolve_left hn) hpm hb x).2 hx
    obtain ⟨o, v', s, a, b, c, hocc, hs, hT', e1, e2, e3⟩ := hf u v w hT
    rw [samePlace_real] at e1 e2 e3
    subst e1; subst e2; subst e3
    exact ⟨o, v', s, _, _, _, hocc, hs, hT', hx⟩

/-- C139: the same for convex collision; a brush that is inside out has a shape without points. -/
theorem C139_convex (depth : Nat)
    (order : List (Str × List (BrushGeo ℝ)) → List (Str × List (BrushGeo ℝ))) (horder : ∀ l, (order l).Perm l)
    (config : Config ℝ) (nodes : List (Node ℝ)) (h : Quarch.run depth order config = .ok nodes)
    (text : Str) (ht : config.mapFile = some text) (entities : List (Entity ℝ)) (hl : LoadsAs text entities) :
    (∀ e ∈ entities, Anchored entities e → ∀ br ∈ e.brushes, InsideOut br.planes → br.planes ≠ [] →
      SolidAs config e br .convex → ∃ o shapes, Occurs (.collision o (.convex shapes)) nodes ∧ ⟨zeroR, []⟩ ∈ shapes) ∧
    ((∀ e ∈ entities, Anchored entities e → ∀ br ∈ e.brushes, InsideOut br.planes ∨ ProperBrush br.planes) → ∀ x,
      (InSolid nodes x ↔ ∃ e ∈ entities, Anchored entities e ∧ ∃ br ∈ e.brushes, ¬ InsideOut br.planes ∧
        SolidAs config e br .convex ∧ ∀ p ∈ br.planes, WithinR 0 p x)) := by
  obtain ⟨h1, h2⟩ := C88_convex depth order horder config nodes h text ht entities hl
  have none : ∀ {e : Entity ℝ} {br : Brush ℝ} {bg : BrushGeo ℝ}, InsideOut br.planes →
      buildBrush config.textureInfo e br = .ok bg → bg.center = zeroR ∧ ∀ p ∈ bg.planes, p.vertices = [] := by
    intro e br bg hs hb
    obtain ⟨geo, k1, k2, _, k3⟩ := C139_vanishes config.textureInfo e br hs
    rw [k1] at hb
    cases hb
    exact ⟨k2, fun p hp => (k3 p hp).1⟩
  have empty : ∀ {pts : List (V3 ℝ)} {bg : BrushGeo ℝ}, (∀ p ∈ bg.planes, p.vertices = []) →
      (∀ x ∈ pts, ∃ p ∈ bg.planes, ∃ v ∈ p.vertices, v.pos = x) → pts = [] := by
    intro pts bg k1 k2
    refine List.eq_nil_iff_forall_not_mem.2 fun x hx => ?_
    obtain ⟨p, hp, v, hv, _⟩ := k2 x hx
    rw [k1 p hp] at hv
    cases hv
  constructor
  · intro e he ha br hbr hs hne hsol
    obtain ⟨bg, hb, o, shapes, shape, hocc, hsh, hc, k1, _⟩ := h2 e he ha br hbr hne hsol
    obtain ⟨n1, n2⟩ := none hs hb
    refine ⟨o, shapes, hocc, ?_⟩
    have := empty n2 k1
    obtain ⟨c, pts⟩ := shape
    simp only at hc this
    rw [hc, n1, this] at hsh
    exact hsh
  · intro hp x
    constructor
    · rintro ⟨o, shapes, shape, hs, hocc, hx⟩
      obtain ⟨e, he, ha, br, hbr, hsolid, bg, hb, _, k1, k2, _⟩ := h1 o shapes shape hocc hs
      have hn : ¬ InsideOut br.planes := by
        intro hsl
        rw [empty (none hsl hb).2 k1] at hx
        exact hx (fun _ => False) (fun _ _ h => h.elim) (by simp)
      exact ⟨e, he, ha, br, hbr, hn, hsolid, (corners_hull hb ((hp e he ha br hbr).resolve_left hn) k1 k2 x).1 hx⟩
    · rintro ⟨e, he, ha, br, hbr, hn, hsolid, hx⟩
      have hpb := (hp e he ha br hbr).resolve_left hn
      obtain ⟨bg, hb, o, shapes, shape, hocc, hs, _, k1, k2, _⟩ := h2 e he ha br hbr (proper_planes hpb) hsolid
      exact ⟨o, shapes, shape, hs, hocc, (corners_hull hb hpb k1 k2 x).2 hx⟩

/-- C139: and for concave collision. -/
theorem C139_concave (depth : Nat)
    (order : List (Str × List (BrushGeo ℝ)) → List (Str × List (BrushGeo ℝ))) (horder : ∀ l, (order l).Perm l)
    (config : Config ℝ) (nodes : List (Node ℝ)) (h : Quarch.run depth order config = .ok nodes)
    (text : Str) (ht : config.mapFile = some text) (entities : List (Entity ℝ)) (hl : LoadsAs text entities)
    (hp : ∀ e ∈ entities, Anchored entities e → ∀ br ∈ e.brushes, InsideOut br.planes ∨ ProperBrush br.planes) (x : V3 ℝ) :
    OnSolid nodes x ↔ ∃ e ∈ entities, Anchored entities e ∧ ∃ br ∈ e.brushes, ¬ InsideOut br.planes ∧
      SolidAs config e br .concave ∧ (∀ p ∈ br.planes, WithinR 0 p x) ∧ ∃ p ∈ br.planes, OnPlane p x := by
  obtain ⟨h1, h2⟩ := C88_concave depth order horder config nodes h text ht entities hl
  constructor
  · rintro ⟨o, shapes, s, hs, hocc, a, b, c, hT, hx⟩
    obtain ⟨e, he, ha, br, hbr, hsolid, p, hpm, face, hb, u, v, w, hT', e1, e2, e3⟩ := h1 o shapes s a b c hocc hs hT
    rw [samePlace_real] at e1 e2 e3
    subst e1; subst e2; subst e3
    have hn : ¬ InsideOut br.planes := fun hsl => insideOut_triangle hsl hpm hb hT'
    obtain ⟨_, h0, hin⟩ := (face_covered ((hp e he ha br hbr).resolve_left hn) hpm hb x).1 ⟨u, v, w, hT', hx⟩
    exact ⟨e, he, ha, br, hbr, hn, hsolid, hin, p, hpm, h0⟩
  · rintro ⟨e, he, ha, br, hbr, hn, hsolid, hin, p, hpm, h0⟩
    have hpb := (hp e he ha br hbr).resolve_left hn
    obtain ⟨g, hg, hw, hg0⟩ := Poly.on_wide hpb.solid hpb.points hpm (fun p hpm => (within_zero p x).1 (hin p hpm)) h0
    obtain ⟨face, hb, hf⟩ := h2 e he ha br hbr hsolid g hg
    obtain ⟨u, v, w, hT, hx⟩ := (face_covered hpb hg hb x).2 ⟨(hasArea_iff (hpb.points _ hg)).2 hw, hg0, hin⟩
    obtain ⟨o, shapes, s, a, b, c, hocc, hs, hT', e1, e2, e3⟩ := hf u v w hT
    rw [samePlace_real] at e1 e2 e3
    subst e1; subst e2; subst e3
    exact ⟨o, shapes, s, hs, hocc, _, _, _, hT', hx⟩

end
end Quarch
