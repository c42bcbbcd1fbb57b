import Verif.Props.Drawn
import Verif.Props.Hull
/-
C88: what a loaded map feels like: the collision shapes of the whole scene.
-/
set_option linter.unusedSectionVars false
namespace Quarch
namespace Spec
section
variable {F : Type}

/-- The collision type that the configuration asks for at this brush: that of the only definition of its layer if
it is in a layer, otherwise that of the first definition of its entity. -/
def SolidAs (config : Config F) (e : Entity F) (b : Brush F) (ct : CollisionType) : Prop :=
  (∃ t layer, LayerBrush config.textureInfo e b t ∧
    TheLayer config.quarchitectGameData.worldspawnLayers t layer ∧ layer.collisionType = ct) ∨
  ((∀ t, ¬ LayerBrush config.textureInfo e b t) ∧
    ∃ d pd bd, DefOf config.quarchitectGameData e d ∧ d.data = .brush pd bd ∧ bd.collisionType = ct)
end
end Spec
open Spec Scene

section
variable {F : Type} [Arith F] [Platform]

theorem built_brushes {textures : TextureInfo} {e : Entity F} {g : EntityGeo F}
    (h : Geo.buildEntity textures e = .ok g) :
    List.Forall₂ (fun b bg => Geo.buildBrush textures e b = .ok bg) e.brushes g.brushes := by
  unfold Geo.buildEntity at h
  obtain ⟨bgs, h1, h2⟩ := Outcome.bind_eq_ok.1 h
  cases h2
  exact mapOut_eq_ok.1 h1

theorem brush_faces {textures : TextureInfo} {e : Entity F} {b : Brush F} {bg : BrushGeo F}
    (h : Geo.buildBrush textures e b = .ok bg) :
    List.Forall₂ (fun p pg => Geo.buildPlane textures e b.planes p = .ok pg) b.planes bg.planes := by
  unfold Geo.buildBrush at h
  obtain ⟨pgs, h3, h4⟩ := Outcome.bind_eq_ok.1 h
  cases h4
  exact mapOut_eq_ok.1 h3

theorem allFaces_iff {textures : TextureInfo} {e : Entity F} {b : Brush F} {bg : BrushGeo F}
    (h : Geo.buildBrush textures e b = .ok bg) {t : Str} :
    AllFaces t bg ↔ ∀ q ∈ b.planes, knownTexture textures q = some t :=
  all_textures (brush_faces h) fun o => o = some t

/-- The brush stays with its entity iff it is in no layer. -/
theorem own_iff {textures : TextureInfo} {e : Entity F} {b : Brush F} {bg : BrushGeo F}
    (h : Geo.buildBrush textures e b = .ok bg) :
    ¬ (IsWorld e ∧ (AllFaces (str! "*water0") bg ∨ AllFaces (str! "*slime0") bg)) ↔ ∀ t, ¬ LayerBrush textures e b t := by
  rw [allFaces_iff h, allFaces_iff h]
  constructor
  · rintro hn t ⟨hw, ht, hall⟩
    apply hn
    rcases ht with rfl | rfl
    · exact ⟨hw, .inl hall⟩
    · exact ⟨hw, .inr hall⟩
  · rintro hn ⟨hw, hall | hall⟩
    · exact hn _ ⟨hw, .inl rfl, hall⟩
    · exact hn _ ⟨hw, .inr rfl, hall⟩

/-- Every collision node collects brushes of one entity which all have its collision type. -/
theorem collision_from [LawfulEq F] {depth : Nat}
    {order : List (Str × List (BrushGeo F)) → List (Str × List (BrushGeo F))} (horder : ∀ l, (order l).Perm l)
    {config : Config F} {nodes : List (Node F)} (h : Quarch.run depth order config = .ok nodes)
    {text : Str} (ht : config.mapFile = some text) {entities : List (Entity F)} (hl : LoadsAs text entities)
    {o : V3 F} {c : CollisionGeometry F} (hocc : Occurs (.collision o c) nodes) :
    ∃ e ∈ entities, Anchored entities e ∧ ∃ g, Geo.buildEntity config.textureInfo e = .ok g ∧
      ∃ ct sub, collisionOf ct ⟨o, sub⟩ = .ok c ∧ c ≠ .none ∧ (∀ bg ∈ sub, bg ∈ g.brushes) ∧
        ∀ br bg, Geo.buildBrush config.textureInfo e br = .ok bg → bg ∈ sub → SolidAs config e br ct := by
  obtain ⟨w, hwm, hw, huniq, hbuilt, hleaf⟩ := scene_leaves horder h ht hl
  rcases (hleaf (.collision o c) (by intro o a cs; simp)).1 hocc with
      ⟨e, he, hanch, g, hg, ⟨_, _, hm⟩ | ⟨c', hc', hm⟩⟩ | ⟨t, layer, g, htt, hlay, hg, ⟨_, _, hm⟩ | ⟨c', hc', hm⟩⟩
  · cases (visualChildren_mem hm).1
  · obtain ⟨hm1, hne⟩ := collisionChildren_mem hm
    cases hm1
    obtain ⟨d, pd, bd, hd, hdata, hk⟩ := entityCollision_kind hc' hne
    refine ⟨e, he, hanch, g, hg, _, _, hk, hne, fun bg hbg => (List.mem_filter.1 hbg).1, fun br bg hb hbg => ?_⟩
    exact .inr ⟨(own_iff hb).1 (of_decide_eq_true (List.mem_filter.1 hbg).2), d, pd, bd, hd, hdata, rfl⟩
  · cases (visualChildren_mem hm).1
  · obtain ⟨hm1, hne⟩ := collisionChildren_mem hm
    cases hm1
    refine ⟨w, hwm, .world hw, g, hg, _, _, hc', hne, fun bg hbg => (List.mem_filter.1 hbg).1, fun br bg hb hbg => ?_⟩
    have := (of_decide_eq_true (List.mem_filter.1 hbg).2 : InLayer t bg)
    exact .inl ⟨t, layer, ⟨hw, htt, (allFaces_iff hb).1 this.1⟩, hlay, rfl⟩

/-- Every brush of an entity that is reached is among the brushes of a collision node of its type. -/
theorem collision_of [LawfulEq F] {depth : Nat}
    {order : List (Str × List (BrushGeo F)) → List (Str × List (BrushGeo F))} (horder : ∀ l, (order l).Perm l)
    {config : Config F} {nodes : List (Node F)} (h : Quarch.run depth order config = .ok nodes)
    {text : Str} (ht : config.mapFile = some text) {entities : List (Entity F)} (hl : LoadsAs text entities)
    {e : Entity F} (he : e ∈ entities) (ha : Anchored entities e) {br : Brush F} (hbr : br ∈ e.brushes)
    (hne : br.planes ≠ []) {ct : CollisionType} (hs : SolidAs config e br ct) :
    ∃ g bg, Geo.buildEntity config.textureInfo e = .ok g ∧ bg ∈ g.brushes ∧
      Geo.buildBrush config.textureInfo e br = .ok bg ∧
      ∃ o sub, bg ∈ sub ∧ (∀ b ∈ sub, b ∈ g.brushes) ∧
        ∀ c, collisionOf ct ⟨o, sub⟩ = .ok c → c ≠ .none → Occurs (.collision o c) nodes := by
  obtain ⟨w, hwm, hw, huniq, hbuilt, hleaf⟩ := scene_leaves horder h ht hl
  obtain ⟨g, hg⟩ := hbuilt e he
  obtain ⟨bg, hbg, hb⟩ := forall₂_left (built_brushes hg) hbr
  refine ⟨g, bg, hg, hbg, hb, ?_⟩
  have hchild : ∀ (o : V3 F) (c : CollisionGeometry F), c ≠ .none → Node.collision o c ∈ collisionChildren o c := by
    intro o c hc
    cases c with
    | none => exact absurd rfl hc
    | convex s => simp [collisionChildren]
    | concave s => simp [collisionChildren]
  rcases hs with ⟨t, layer, hlb, hlay, rfl⟩ | ⟨hnl, d, pd, bd, ⟨cl, hcl, hf⟩, hdata, rfl⟩
  · have hwe := huniq e he hlb.1
    subst hwe
    refine ⟨V3.zero, g.brushes.filter fun b => InLayer t b, ?_, fun b hb => (List.mem_filter.1 hb).1, fun c hc hcn =>
      (hleaf _ (by intro o a cs; simp)).2 (.inr ⟨t, layer, g, hlb.2.1, hlay, hg, .inr ⟨c, hc, hchild _ _ hcn⟩⟩)⟩
    refine List.mem_filter.2 ⟨hbg, decide_eq_true ⟨(allFaces_iff hb).2 hlb.2.2, ?_⟩⟩
    rcases hlb.2.1 with rfl | rfl
    · exact .inl rfl
    · refine .inr ⟨rfl, fun hc => ?_⟩
      obtain ⟨p, hp⟩ := List.exists_mem_of_ne_nil _ hne
      exact absurd (layer_unique hp hlb ((allFaces_iff hb).1 hc)) (by decide)
  · refine ⟨g.center, ownBrushes e g.brushes, ?_, fun b hb => (List.mem_filter.1 hb).1, fun c hc hcn =>
      (hleaf _ (by intro o a cs; simp)).2 (.inl ⟨e, he, ha, g, hg, .inr ⟨c, ?_, hchild _ _ hcn⟩⟩)⟩
    · exact List.mem_filter.2 ⟨hbg, decide_eq_true ((own_iff hb).2 hnl)⟩
    · unfold entityCollision Map.get?
      simp only [hcl, findDef_iff.2 hf, hdata]
      exact hc

/-- C88: the convex shapes of the scene are those of the brushes with convex collision: each has the corners of
such a brush as its points, none twice, and each such brush has its shape. -/
theorem C88_convex [LawfulEq F] (depth : Nat)
    (order : List (Str × List (BrushGeo F)) → List (Str × List (BrushGeo F))) (horder : ∀ l, (order l).Perm l)
    (config : Config F) (nodes : List (Node F)) (h : Quarch.run depth order config = .ok nodes)
    (text : Str) (ht : config.mapFile = some text) (entities : List (Entity F)) (hl : LoadsAs text entities) :
    (∀ o shapes shape, Occurs (.collision o (.convex shapes)) nodes → shape ∈ shapes →
      ∃ e ∈ entities, Anchored entities e ∧ ∃ br ∈ e.brushes, SolidAs config e br .convex ∧
      ∃ bg, Geo.buildBrush config.textureInfo e br = .ok bg ∧ shape.center = bg.center ∧
        (∀ x ∈ shape.points, ∃ p ∈ bg.planes, ∃ v ∈ p.vertices, v.pos = x) ∧
        (∀ p ∈ bg.planes, ∀ v ∈ p.vertices, ∃ x ∈ shape.points, SamePlace x v.pos) ∧
        AllDifferent shape.points) ∧
    (∀ e ∈ entities, Anchored entities e → ∀ br ∈ e.brushes, br.planes ≠ [] → SolidAs config e br .convex →
      ∃ bg, Geo.buildBrush config.textureInfo e br = .ok bg ∧
      ∃ o shapes shape, Occurs (.collision o (.convex shapes)) nodes ∧ shape ∈ shapes ∧ shape.center = bg.center ∧
        (∀ x ∈ shape.points, ∃ p ∈ bg.planes, ∃ v ∈ p.vertices, v.pos = x) ∧
        (∀ p ∈ bg.planes, ∀ v ∈ p.vertices, ∃ x ∈ shape.points, SamePlace x v.pos) ∧
        AllDifferent shape.points) := by
  constructor
  · intro o shapes shape hocc hs
    obtain ⟨e, he, ha, g, hg, ct, sub, hc, hne, hsub, hsolid⟩ := collision_from horder h ht hl hocc
    have hct : ct = .convex := by
      cases ct with
      | convex => rfl
      | none => unfold collisionOf at hc; cases hc
      | concave =>
        rcases C41_concave ⟨o, sub⟩ (fun b hb p hp => built_fanned hg b (hsub b hb) p hp) with
          ⟨_, h'⟩ | ⟨_, s, h', _⟩ <;> · rw [hc] at h'; cases h'
    subst hct
    obtain ⟨shapes', h', hall⟩ := C40_convex (F := F) ⟨o, sub⟩
    rw [hc] at h'; cases h'
    obtain ⟨bg, hbg, h1, h2, h3, h4⟩ := forall₂_right hall hs
    obtain ⟨br, hbr, hb⟩ := forall₂_right (built_brushes hg) (hsub bg hbg)
    exact ⟨e, he, ha, br, hbr, hsolid br bg hb hbg, bg, hb, h1, h2, h3, h4⟩
  · intro e he ha br hbr hne hs
    obtain ⟨g, bg, hg, hbg, hb, o, sub, hin, hsub, hocc⟩ := collision_of horder h ht hl he ha hbr hne hs
    obtain ⟨shapes, h', hall⟩ := C40_convex (F := F) ⟨o, sub⟩
    obtain ⟨shape, hs, h1, h2, h3, h4⟩ := forall₂_left hall hin
    exact ⟨bg, hb, o, shapes, shape, hocc _ h' (by simp), hs, h1, h2, h3, h4⟩

/-- The triangles of concave collision are those of the faces. -/
theorem concave_triangles [LawfulEq F] {g : EntityGeo F} {c : CollisionGeometry F} (hg : Fanned g.brushes)
    (h : collisionOf .concave g = .ok c) :
    (∀ shapes, c = .concave shapes → ∀ s ∈ shapes, ∀ u v w, TriangleOf s.vertices s.indices u v w →
      ∃ bg ∈ g.brushes, ∃ p ∈ bg.planes, ∃ x y z, TriangleOf p.vertices p.indices x y z ∧ SameTri u v w x y z) ∧
    (∀ bg ∈ g.brushes, ∀ p ∈ bg.planes, ∀ x y z, TriangleOf p.vertices p.indices x y z →
      ∃ s, c = .concave [s] ∧ ∃ u v w, TriangleOf s.vertices s.indices u v w ∧ SameTri u v w x y z) := by
  rcases C41_concave g hg with ⟨hno, h'⟩ | ⟨_, s, h', _, _, ⟨cs, hcs, hsame⟩, _⟩
  · rw [h] at h'; cases h'
    refine ⟨fun shapes e => by (cases e), fun bg hbg p hp x y z hT => ?_⟩
    exact absurd (hno bg hbg p hp) (triangle_vertices hT)
  · rw [h] at h'; cases h'
    have h3 : ∀ bg ∈ g.brushes, ∀ p ∈ bg.planes, 3 ∣ (faceCorners p).length := fun bg hbg p hp =>
      by
      rw [faceCorners_length (hg bg hbg p hp)]
      exact isFan_length (hg bg hbg p hp)
    have hT : ∀ x y z, Triple (g.brushes.flatMap fun b => b.planes.flatMap faceCorners) x y z ↔
        ∃ bg ∈ g.brushes, ∃ p ∈ bg.planes, TriangleOf p.vertices p.indices x y z := by
      intro x y z
      rw [triple_flatMap]
      · refine exists_congr fun bg => and_congr_right fun hbg => ?_
        rw [triple_flatMap (h3 bg hbg)]
        refine exists_congr fun p => and_congr_right fun hp => ?_
        exact (triple_corners (faceCorners_corners (hg bg hbg p hp))).symm
      · intro bg hbg
        rw [List.length_flatMap]
        exact List.dvd_sum fun n hn => by
          obtain ⟨p, hp, rfl⟩ := List.mem_map.1 hn
          exact h3 bg hbg p hp
    rw [List.forall₂_map_right_iff] at hsame
    obtain ⟨k1, k2⟩ := triple_rel hsame
    constructor
    · intro shapes e s' hs' u v w hT'
      cases e
      cases List.mem_singleton.1 hs'
      obtain ⟨x, y, z, hxyz, e1, e2, e3⟩ := k1 u v w ((triple_corners hcs).1 hT')
      obtain ⟨bg, hbg, p, hp, hT⟩ := (hT x y z).1 hxyz
      exact ⟨bg, hbg, p, hp, x, y, z, hT, e1, e2, e3⟩
    · intro bg hbg p hp x y z hT'
      obtain ⟨u, v, w, huvw, e1, e2, e3⟩ := k2 x y z ((hT x y z).2 ⟨bg, hbg, p, hp, hT'⟩)
      exact ⟨s, rfl, u, v, w, (triple_corners hcs).2 huvw, e1, e2, e3⟩

/-- C88: the triangles of all concave shapes of the scene are, corner by corner, those of the brushes with concave
collision. -/
theorem C88_concave [LawfulEq F] (depth : Nat)
    (order : List (Str × List (BrushGeo F)) → List (Str × List (BrushGeo F))) (horder : ∀ l, (order l).Perm l)
    (config : Config F) (nodes : List (Node F)) (h : Quarch.run depth order config = .ok nodes)
    (text : Str) (ht : config.mapFile = some text) (entities : List (Entity F)) (hl : LoadsAs text entities) :
    (∀ o shapes s a b c, Occurs (.collision o (.concave shapes)) nodes → s ∈ shapes →
      TriangleOf s.vertices s.indices a b c →
      ∃ e ∈ entities, Anchored entities e ∧ ∃ br ∈ e.brushes, SolidAs config e br .concave ∧ ∃ p ∈ br.planes,
      ∃ face, Geo.buildPlane config.textureInfo e br.planes p = .ok face ∧
      ∃ x y z, TriangleOf face.vertices face.indices x y z ∧
        SamePlace a x.pos ∧ SamePlace b y.pos ∧ SamePlace c z.pos) ∧
    (∀ e ∈ entities, Anchored entities e → ∀ br ∈ e.brushes, SolidAs config e br .concave → ∀ p ∈ br.planes,
      ∃ face, Geo.buildPlane config.textureInfo e br.planes p = .ok face ∧
      ∀ x y z, TriangleOf face.vertices face.indices x y z →
      ∃ o shapes s a b c, Occurs (.collision o (.concave shapes)) nodes ∧ s ∈ shapes ∧
        TriangleOf s.vertices s.indices a b c ∧ SamePlace a x.pos ∧ SamePlace b y.pos ∧ SamePlace c z.pos) := by
  constructor
  · intro o shapes s a b c hocc hs hT
    obtain ⟨e, he, ha, g, hg, ct, sub, hc, hne, hsub, hsolid⟩ := collision_from horder h ht hl hocc
    have hct : ct = .concave := by
      cases ct with
      | convex => obtain ⟨_, h', _⟩ := C40_convex (F := F) ⟨o, sub⟩; rw [hc] at h'; cases h'
      | none => unfold collisionOf at hc; cases hc
      | concave => rfl
    subst hct
    obtain ⟨bg, hbg, pg, hpg, x, y, z, hT', hs'⟩ := (concave_triangles (g := ⟨o, sub⟩)
      (fun b hb p hp => built_fanned hg b (hsub b hb) p hp) hc).1 shapes rfl s hs a b c hT
    obtain ⟨br, hbr, hb⟩ := forall₂_right (built_brushes hg) (hsub bg hbg)
    obtain ⟨p, hp, hf⟩ := forall₂_right (brush_faces hb) hpg
    exact ⟨e, he, ha, br, hbr, hsolid br bg hb hbg, p, hp, pg, hf, x, y, z, hT', hs'⟩
  · intro e he ha br hbr hs p hp
    obtain ⟨g, bg, hg, hbg, hb, o, sub, hin, hsub, hocc⟩ := collision_of horder h ht hl he ha hbr
      (List.ne_nil_of_mem hp) hs
    obtain ⟨pg, hpg, hf⟩ := forall₂_left (brush_faces hb) hp
    refine ⟨pg, hf, fun x y z hT => ?_⟩
    have hfan : Fanned sub := fun b hb p hp => built_fanned hg b (hsub b hb) p hp
    have hok : ∃ c, collisionOf .concave (⟨o, sub⟩ : EntityGeo F) = .ok c := by
      rcases C41_concave ⟨o, sub⟩ hfan with ⟨_, h'⟩ | ⟨_, _, h', _⟩ <;> exact ⟨_, h'⟩
    obtain ⟨c, hc⟩ := hok
    obtain ⟨s, rfl, u, v, w, hT', hs'⟩ := (concave_triangles (g := ⟨o, sub⟩) hfan hc).2 bg hin pg hpg x y z hT
    exact ⟨o, [s], s, u, v, w, hocc _ hc (by simp), by simp, hT', hs'⟩

end

/-! ### exact arithmetic -/

namespace Spec
/-- The point is in the hull of a convex collision shape of the scene. -/
def InSolid (nodes : List (Node ℝ)) (x : V3 ℝ) : Prop :=
  ∃ o shapes, ∃ shape ∈ shapes, Occurs (.collision o (.convex shapes)) nodes ∧ InHullOf shape.points x

/-- The point is in a triangle of a concave collision shape of the scene. -/
def OnSolid (nodes : List (Node ℝ)) (x : V3 ℝ) : Prop :=
  ∃ o shapes, ∃ s ∈ shapes, Occurs (.collision o (.concave shapes)) nodes ∧
    ∃ a b c, TriangleOf s.vertices s.indices a b c ∧ InTriangle a b c x
end Spec

section
variable [RealText] [Platform]
open Geo Poly

theorem proper_planes {planes : List (BrushPlane ℝ)} (h : ProperBrush planes) : planes ≠ [] := by
  rintro rfl
  obtain ⟨R, hR⟩ := h.bounded
  have := (hR ⟨|R| + 1, 0, 0⟩ (by simp)).1
  have h1 : (0 : ℝ) ≤ |R| := abs_nonneg R
  rw [abs_of_nonneg (by simpa using by linarith)] at this
  have := le_abs_self R
  simp only at *
  linarith

/-- C88: with exact arithmetic the convex shapes fill exactly the brushes with convex collision. -/
theorem C88_filled (depth : Nat)
    (order : List (Str × List (BrushGeo ℝ)) → List (Str × List (BrushGeo ℝ))) (horder : ∀ l, (order l).Perm l)
    (config : Config ℝ) (nodes : List (Node ℝ)) (h : Quarch.run depth order config = .ok nodes)
    (text : Str) (ht : config.mapFile = some text) (entities : List (Entity ℝ)) (hl : LoadsAs text entities)
    (hp : ∀ e ∈ entities, Anchored entities e → ∀ br ∈ e.brushes, ProperBrush br.planes) (x : V3 ℝ) :
    InSolid nodes x ↔ ∃ e ∈ entities, Anchored entities e ∧ ∃ br ∈ e.brushes, SolidAs config e br .convex ∧
      ∀ p ∈ br.planes, WithinR 0 p x := by
  obtain ⟨h1, h2⟩ := C88_convex depth order horder config nodes h text ht entities hl
  constructor
  · rintro ⟨o, shapes, shape, hs, hocc, hx⟩
    obtain ⟨e, he, ha, br, hbr, hsolid, bg, hb, _, k1, k2, _⟩ := h1 o shapes shape hocc hs
    exact ⟨e, he, ha, br, hbr, hsolid, (corners_hull hb (hp e he ha br hbr) k1 k2 x).1 hx⟩
  · rintro ⟨e, he, ha, br, hbr, hsolid, hx⟩
    have hpb := hp e he ha br hbr
    obtain ⟨bg, hb, o, shapes, shape, hocc, hs, _, k1, k2, _⟩ := h2 e he ha br hbr (proper_planes hpb) hsolid
    exact ⟨o, shapes, shape, hs, hocc, (corners_hull hb hpb k1 k2 x).2 hx⟩

/-- C88: with exact arithmetic the concave shapes cover exactly the boundaries of the brushes with concave
collision. -/
theorem C88_covered (depth : Nat)
    (order : List (Str × List (BrushGeo ℝ)) → List (Str × List (BrushGeo ℝ))) (horder : ∀ l, (order l).Perm l)
    (config : Config ℝ) (nodes : List (Node ℝ)) (h : Quarch.run depth order config = .ok nodes)
    (text : Str) (ht : config.mapFile = some text) (entities : List (Entity ℝ)) (hl : LoadsAs text entities)
    (hp : ∀ e ∈ entities, Anchored entities e → ∀ br ∈ e.brushes, ProperBrush br.planes) (x : V3 ℝ) :
    OnSolid nodes x ↔ ∃ e ∈ entities, Anchored entities e ∧ ∃ br ∈ e.brushes, SolidAs config e br .concave ∧
      (∀ p ∈ br.planes, WithinR 0 p x) ∧ ∃ p ∈ br.planes, OnPlane p x := by
  obtain ⟨h1, h2⟩ := C88_concave depth order horder config nodes h text ht entities hl
  constructor
  · rintro ⟨o, shapes, s, hs, hocc, a, b, c, hT, hx⟩
    obtain ⟨e, he, ha, br, hbr, hsolid, p, hpm, face, hb, u, v, w, hT', e1, e2, e3⟩ := h1 o shapes s a b c hocc hs hT
    rw [samePlace_real] at e1 e2 e3
    subst e1; subst e2; subst e3
    obtain ⟨_, h0, hin⟩ := (face_covered (hp e he ha br hbr) hpm hb x).1 ⟨u, v, w, hT', hx⟩
    exact ⟨e, he, ha, br, hbr, hsolid, hin, p, hpm, h0⟩
  · rintro ⟨e, he, ha, br, hbr, hsolid, hin, p, hpm, h0⟩
    have hpb := hp e he ha br hbr
    obtain ⟨g, hg, hw, hg0⟩ := on_wide hpb.solid hpb.points hpm (fun p hpm => (within_zero p x).1 (hin p hpm)) h0
    obtain ⟨face, hb, hf⟩ := h2 e he ha br hbr hsolid g hg
    obtain ⟨u, v, w, hT, hx⟩ := (face_covered hpb hg hb x).2 ⟨(hasArea_iff (hpb.points _ hg)).2 hw, hg0, hin⟩
    obtain ⟨o, shapes, s, a, b, c, hocc, hs, hT', e1, e2, e3⟩ := hf u v w hT
    rw [samePlace_real] at e1 e2 e3
    subst e1; subst e2; subst e3
    exact ⟨o, shapes, s, hs, hocc, _, _, _, hT', hx⟩

end
end Quarch
