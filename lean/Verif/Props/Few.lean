import Verif.Spec.Few
import Verif.Props.Sheet
/-
C138: brushes with fewer than four faces.
-/
set_option linter.unusedSectionVars false
namespace Quarch
open Spec Scene Geo Poly

section
variable [RealText] [Platform]

theorem cut_raw {a p : BrushPlane ℝ} (h : SameCut a p) : rawNormal p = rawNormal a := by
  obtain ⟨h0, h1, h2⟩ := h
  unfold rawNormal
  rw [h0, h1, h2]

theorem cut_on {a p : BrushPlane ℝ} (h : SameCut a p) (x : V3 ℝ) : OnPlane p x ↔ OnPlane a x := by
  unfold OnPlane
  rw [cut_raw h, h.1]

theorem few_on {a b c p q r : BrushPlane ℝ} {x : V3 ℝ} (hp : SameCut a p ∨ SameCut b p ∨ SameCut c p)
    (hq : SameCut a q ∨ SameCut b q ∨ SameCut c q) (hr : SameCut a r ∨ SameCut b r ∨ SameCut c r) (hm : Meet p q r x) :
    detR (rawNormal a) (rawNormal b) (rawNormal c) ≠ 0 ∧ OnPlane a x ∧ OnPlane b x ∧ OnPlane c x := by
  obtain ⟨hd, h0, h1, h2⟩ := meet_real.1 hm
  have hne : detR (rawNormal p) (rawNormal q) (rawNormal r) ≠ 0 := by
    intro e
    unfold unitDet at hd
    rw [e, zero_div] at hd
    norm_num at hd
  rcases hp with hp | hp | hp <;> rcases hq with hq | hq | hq <;> rcases hr with hr | hr | hr <;>
    rw [cut_raw hp, cut_raw hq, cut_raw hr] at hne <;> rw [cut_on hp] at h0 <;> rw [cut_on hq] at h1 <;>
    rw [cut_on hr] at h2 <;>
    first
    | (exfalso; apply hne; simp only [detR, dotR, crossR]; ring1)
    | (refine ⟨fun e => hne ?_, by assumption, by assumption, by assumption⟩
       simp only [detR, dotR, crossR] at e ⊢
       linarith)

theorem three_planes {a b c : BrushPlane ℝ} {x y : V3 ℝ} (hne : detR (rawNormal a) (rawNormal b) (rawNormal c) ≠ 0)
    (hx : OnPlane a x ∧ OnPlane b x ∧ OnPlane c x) (hy : OnPlane a y ∧ OnPlane b y ∧ OnPlane c y) : x = y := by
  have key : ∀ z, OnPlane a z ∧ OnPlane b z ∧ OnPlane c z → dotR (rawNormal a) z = dotR (rawNormal a) a.v0 ∧
      dotR (rawNormal b) z = dotR (rawNormal b) b.v0 ∧ dotR (rawNormal c) z = dotR (rawNormal c) c.v0 := by
    rintro z ⟨h0, h1, h2⟩
    simp only [OnPlane, dotR, subR] at h0 h1 h2 ⊢
    exact ⟨by linarith, by linarith, by linarith⟩
  rw [(cramer hne _ _ _ x).2 (key x hx), (cramer hne _ _ _ y).2 (key y hy)]

/-- C138: a face of a brush with at most three different faces has at most one corner and no triangle. -/
theorem C138_face (textures : TextureInfo) (entity : Entity ℝ) (planes : List (BrushPlane ℝ)) (h : AtMostThree planes)
    (plane : BrushPlane ℝ) (hp : plane ∈ planes) (geo : PlaneGeo ℝ)
    (hb : buildPlane textures entity planes plane = .ok geo) : geo.vertices.length ≤ 1 ∧ geo.indices = [] := by
  obtain ⟨pts, h1, h2, h3, _⟩ := C20_corners_distinct_complete textures entity planes plane geo hb
  obtain ⟨a, b, c, hall⟩ := h
  have same : ∀ x ∈ pts, ∀ y ∈ pts, x = y := by
    intro x hx y hy
    obtain ⟨⟨q, hq, r, hr, hm⟩, _⟩ := h2 x hx
    obtain ⟨⟨q', hq', r', hr', hm'⟩, _⟩ := h2 y hy
    obtain ⟨hne, k⟩ := few_on (hall _ hp) (hall _ hq) (hall _ hr) hm
    exact three_planes hne k (few_on (hall _ hp) (hall _ hq') (hall _ hr') hm').2
  have len : geo.vertices.length ≤ 1 := by
    have : geo.vertices.length = pts.length := by simpa using h1.length_eq
    rw [this]
    match pts, same, h3 with
    | [], _, _ => simp
    | [_], _, _ => simp
    | x :: y :: l, same, h3 =>
      exfalso
      have e := same x (by simp) y (by simp)
      have := (List.pairwise_cons.1 h3).1 y (by simp)
      subst e
      refine this.1 (eqV3_iff.2 ?_)
      simp [V3.beq]
  exact ⟨len, (C19_indices_valid_all_used textures entity planes plane geo hb).2.2 (by omega)⟩

theorem few_triangle {textures : TextureInfo} {entity : Entity ℝ} {planes : List (BrushPlane ℝ)} (h : AtMostThree planes)
    {p : BrushPlane ℝ} (hp : p ∈ planes) {face : PlaneGeo ℝ} (hf : buildPlane textures entity planes p = .ok face)
    {x y z : Vertex ℝ} (hT : TriangleOf face.vertices face.indices x y z) : False := by
  obtain ⟨n, i, j, k, hi, _⟩ := hT
  rw [(C138_face textures entity planes h p hp face hf).2] at hi
  simp at hi

/-- C138, for the scene: if every brush is proper or has at most three different faces, exactly the proper ones are drawn. -/
theorem C138_picture (depth : Nat)
    (order : List (Str × List (BrushGeo ℝ)) → List (Str × List (BrushGeo ℝ))) (horder : ∀ l, (order l).Perm l)
    (config : Config ℝ) (nodes : List (Node ℝ)) (h : Quarch.run depth order config = .ok nodes)
    (text : Str) (ht : config.mapFile = some text) (entities : List (Entity ℝ)) (hl : LoadsAs text entities)
    (hp : ∀ e ∈ entities, Anchored entities e → ∀ br ∈ e.brushes, AtMostThree br.planes ∨ ProperBrush br.planes)
    (x : V3 ℝ) :
    Drawn nodes x ↔ ∃ e ∈ entities, Anchored entities e ∧ ∃ br ∈ e.brushes, ¬ AtMostThree br.planes ∧ ∃ p ∈ br.planes,
      ShownFace config e br p ∧ HasArea br.planes p ∧ OnFace br.planes p x := by
  obtain ⟨h1, h2⟩ := C87_triangles depth order horder config nodes h text ht entities hl
  constructor
  · rintro ⟨o, v, s, a, b, c, hocc, hs, hT, hx⟩
    obtain ⟨e, he, ha, br, hbr, p, hpm, hsh, face, hb, u, v, w, hT', e1, e2, e3⟩ := h1 o v s a b c hocc hs hT
    rw [samePlace_real] at e1 e2 e3
    subst e1; subst e2; subst e3
    have hn : ¬ AtMostThree br.planes := fun hsl => few_triangle hsl hpm hb hT'
    exact ⟨e, he, ha, br, hbr, hn, p, hpm, hsh,
      (face_covered ((hp e he ha br hbr).resolve_left hn) hpm hb x).1 ⟨u, v, w, hT', hx⟩⟩
  · rintro ⟨e, he, ha, br, hbr, hn, p, hpm, hsh, hx⟩
    obtain ⟨face, hb, hf⟩ := h2 e he ha br hbr p hpm hsh
    obtain ⟨u, v, w, hT, hx⟩ := (face_covered ((hp e he ha br hbr).resolve_left hn) hpm hb x).2 hx
    obtain ⟨o, v', s, a, b, c, hocc, hs, hT', e1, e2, e3⟩ := hf u v w hT
    rw [samePlace_real] at e1 e2 e3
    subst e1; subst e2; subst e3
    exact ⟨o, v', s, _, _, _, hocc, hs, hT', hx⟩

/-- C138: and exactly the proper ones have concave collision. -/
theorem C138_concave (depth : Nat)
    (order : List (Str × List (BrushGeo ℝ)) → List (Str × List (BrushGeo ℝ))) (horder : ∀ l, (order l).Perm l)
    (config : Config ℝ) (nodes : List (Node ℝ)) (h : Quarch.run depth order config = .ok nodes)
    (text : Str) (ht : config.mapFile = some text) (entities : List (Entity ℝ)) (hl : LoadsAs text entities)
    (hp : ∀ e ∈ entities, Anchored entities e → ∀ br ∈ e.brushes, AtMostThree br.planes ∨ ProperBrush br.planes)
    (x : V3 ℝ) :
    OnSolid nodes x ↔ ∃ e ∈ entities, Anchored entities e ∧ ∃ br ∈ e.brushes, ¬ AtMostThree br.planes ∧
      SolidAs config e br .concave ∧ (∀ p ∈ br.planes, WithinR 0 p x) ∧ ∃ p ∈ br.planes, OnPlane p x := by
  obtain ⟨h1, h2⟩ := C88_concave depth order horder config nodes h text ht entities hl
  constructor
  · rintro ⟨o, shapes, s, hs, hocc, a, b, c, hT, hx⟩
    obtain ⟨e, he, ha, br, hbr, hsolid, p, hpm, face, hb, u, v, w, hT', e1, e2, e3⟩ := h1 o shapes s a b c hocc hs hT
    rw [samePlace_real] at e1 e2 e3
    subst e1; subst e2; subst e3
    have hn : ¬ AtMostThree br.planes := fun hsl => few_triangle hsl hpm hb hT'
    obtain ⟨_, h0, hin⟩ := (face_covered ((hp e he ha br hbr).resolve_left hn) hpm hb x).1 ⟨u, v, w, hT', hx⟩
    exact ⟨e, he, ha, br, hbr, hn, hsolid, hin, p, hpm, h0⟩
  · rintro ⟨e, he, ha, br, hbr, hn, hsolid, hin, p, hpm, h0⟩
    have hpb := (hp e he ha br hbr).resolve_left hn
    obtain ⟨g, hg, hw, hg0⟩ := on_wide hpb.solid hpb.points hpm (fun p hpm => (within_zero p x).1 (hin p hpm)) h0
    obtain ⟨face, hb, hf⟩ := h2 e he ha br hbr hsolid g hg
    obtain ⟨u, v, w, hT, hx⟩ := (face_covered hpb hg hb x).2 ⟨(hasArea_iff (hpb.points _ hg)).2 hw, hg0, hin⟩
    obtain ⟨o, shapes, s, a, b, c, hocc, hs, hT', e1, e2, e3⟩ := hf u v w hT
    rw [samePlace_real] at e1 e2 e3
    subst e1; subst e2; subst e3
    exact ⟨o, shapes, s, hs, hocc, _, _, _, hT', hx⟩

/-- C138: convex shapes of such a brush have at most one point. -/
theorem C138_convex (depth : Nat)
    (order : List (Str × List (BrushGeo ℝ)) → List (Str × List (BrushGeo ℝ))) (horder : ∀ l, (order l).Perm l)
    (config : Config ℝ) (nodes : List (Node ℝ)) (h : Quarch.run depth order config = .ok nodes)
    (text : Str) (ht : config.mapFile = some text) (entities : List (Entity ℝ)) (hl : LoadsAs text entities)
    (hp : ∀ e ∈ entities, Anchored entities e → ∀ br ∈ e.brushes, AtMostThree br.planes) (o : V3 ℝ)
    (shapes : List (ConvexCollision ℝ)) (shape : ConvexCollision ℝ) (hocc : Occurs (.collision o (.convex shapes)) nodes)
    (hs : shape ∈ shapes) : shape.points.length ≤ 1 := by
  obtain ⟨e, he, ha, br, hbr, _, bg, hb, _, k1, _, k3⟩ :=
    (C88_convex depth order horder config nodes h text ht entities hl).1 o shapes shape hocc hs
  obtain ⟨a, b, c, hall⟩ := hp e he ha br hbr
  have on : ∀ x ∈ shape.points, detR (rawNormal a) (rawNormal b) (rawNormal c) ≠ 0 ∧ OnPlane a x ∧ OnPlane b x ∧ OnPlane c x := by
    intro x hx
    obtain ⟨p, hpm, v, hv, rfl⟩ := k1 x hx
    obtain ⟨q, hq, hf⟩ := forall₂_right (brush_faces hb) hpm
    obtain ⟨w, hw, rfl⟩ := buildPlane_vertex hf hv
    obtain ⟨r, hr, s, hs, hm, _⟩ := hw.src
    simp only [recentre_real]
    exact few_on (hall _ hq) (hall _ hr) (hall _ hs) hm
  have same : ∀ x ∈ shape.points, ∀ y ∈ shape.points, x = y := fun x hx y hy =>
    three_planes (on x hx).1 (on x hx).2 (on y hy).2
  generalize shape.points = pts at k3 same
  match pts, same, k3 with
  | [], _, _ => simp
  | [_], _, _ => simp
  | x :: y :: l, same, k3 =>
    exfalso
    have e := same x (by simp) y (by simp)
    have := (List.pairwise_cons.1 k3).1 y (by simp)
    subst e
    refine this.1 (eqV3_iff.2 ?_)
    simp [V3.beq]

end
end Quarch
