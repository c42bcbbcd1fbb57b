import Verif.Spec.Holes
import Verif.Props.Cracks
import Verif.Props.Rendered
/-
C127: the meshes and concave collision shapes of a scene have no holes.
-/
set_option linter.unusedSectionVars false
namespace Quarch
open Quarch.Spec Quarch.Geo Scene

section
variable {F : Type}

/-- From `a` to `b` around the triangle with corners `x`, `y`, `z`. -/
def Around (x y z a b : V3 ℝ) : Prop := (x = a ∧ y = b) ∨ (y = a ∧ z = b) ∨ (z = a ∧ x = b)

theorem listed_iff {real : V3 F → V3 ℝ} {vs : List (V3 F)} {is : List Nat} {a b : V3 ℝ} :
    ListedSide real vs is a b ↔ ∃ x y z, TriangleOf vs is x y z ∧ Around (real x) (real y) (real z) a b := by
  constructor
  · rintro ⟨t, i, j, k, x, y, z, h1, h2, h3, h4, h5, h6, h⟩
    exact ⟨x, y, z, ⟨t, i, j, k, h1, h2, h3, h4, h5, h6⟩, h⟩
  · rintro ⟨x, y, z, ⟨t, i, j, k, h1, h2, h3, h4, h5, h6⟩, h⟩
    exact ⟨t, i, j, k, x, y, z, h1, h2, h3, h4, h5, h6, h⟩

variable [Arith F] [Platform] {textures : TextureInfo} {entity : Entity F} {brush : Brush F} {geo : BrushGeo F}

theorem triSide_triangle (h : buildBrush textures entity brush = .ok geo) (real : V3 F → V3 ℝ) (a b : V3 ℝ) :
    TriSide real geo a b ↔ ∃ p ∈ brush.planes, ∃ face, buildPlane textures entity brush.planes p = .ok face ∧
      ∃ x y z, TriangleOf face.vertices face.indices x y z ∧ Around (real x.pos) (real y.pos) (real z.pos) a b := by
  have hall := face_built h
  constructor
  · rintro ⟨face, hf, t, s, m, n, v, w, hs, hm, hn, hv, hw, rfl, rfl⟩
    obtain ⟨p, hp, hb⟩ := forall₂_right hall hf
    refine ⟨p, hp, face, hb, ?_⟩
    have hfan := C19_fan _ _ _ _ _ hb
    have hl : 3 * t + s < 3 * (face.vertices.length - 2) := by rw [← hfan.1]; exact (List.getElem?_eq_some_iff.1 hm).1
    have ht : t < face.vertices.length - 2 := by omega
    obtain ⟨e0, e1, e2⟩ := hfan.2 t ht
    have b0 := List.getElem?_eq_getElem (l := face.vertices) (i := 0) (by omega)
    have b1 := List.getElem?_eq_getElem (l := face.vertices) (i := t + 1) (by omega)
    have b2 := List.getElem?_eq_getElem (l := face.vertices) (i := t + 2) (by omega)
    refine ⟨_, _, _, ⟨t, _, _, _, e0, e1, e2, b0, b1, b2⟩, ?_⟩
    have : s = 0 ∨ s = 1 ∨ s = 2 := by omega
    rcases this with rfl | rfl | rfl
    · have hm' : face.indices[3 * t]? = some m := hm
      have hn' : face.indices[3 * t + 1]? = some n := hn
      rw [e0] at hm'; rw [e1] at hn'; cases hm'; cases hn'
      rw [b0] at hv; rw [b1] at hw; cases hv; cases hw
      exact .inl ⟨rfl, rfl⟩
    · have hn' : face.indices[3 * t + 2]? = some n := hn
      rw [e1] at hm; rw [e2] at hn'; cases hm; cases hn'
      rw [b1] at hv; rw [b2] at hw; cases hv; cases hw
      exact .inr (.inl ⟨rfl, rfl⟩)
    · have hn' : face.indices[3 * t]? = some n := hn
      rw [e2] at hm; rw [e0] at hn'; cases hm; cases hn'
      rw [b2] at hv; rw [b0] at hw; cases hv; cases hw
      exact .inr (.inr ⟨rfl, rfl⟩)
  · rintro ⟨p, hp, face, hb, x, y, z, ⟨t, i, j, k, h1, h2, h3, h4, h5, h6⟩, hr⟩
    obtain ⟨face', hf, hb'⟩ := forall₂_left hall hp
    rw [hb] at hb'; cases hb'
    rcases hr with ⟨ha, hb⟩ | ⟨ha, hb⟩ | ⟨ha, hb⟩
    · exact ⟨face, hf, t, 0, i, j, x, y, by omega, h1, h2, h4, h5, ha, hb⟩
    · exact ⟨face, hf, t, 1, j, k, y, z, by omega, h2, h3, h5, h6, ha, hb⟩
    · exact ⟨face, hf, t, 2, k, i, z, x, by omega, h3, h1, h6, h4, ha, hb⟩

theorem brush_builds (h : ∀ p ∈ brush.planes, ∃ face, buildPlane textures entity brush.planes p = .ok face) :
    ∃ geo, buildBrush textures entity brush = .ok geo := by
  obtain ⟨pgs, hm⟩ := mapOut_isOk.2 h
  unfold buildBrush
  rw [hm, Outcome.ok_bind]
  exact ⟨_, rfl⟩

/-- Brushes that are closed, up to `N`, and shown wholly or not at all, make meshes that are. -/
theorem drawn_holes [LawfulEq F] (depth : Nat)
    (order : List (Str × List (BrushGeo F)) → List (Str × List (BrushGeo F))) (horder : ∀ l, (order l).Perm l)
    (config : Config F) (nodes : List (Node F)) (h : Quarch.run depth order config = .ok nodes)
    (text : Str) (ht : config.mapFile = some text) (entities : List (Entity F)) (hl : LoadsAs text entities)
    (real : V3 F → V3 ℝ) (N : V3 ℝ → V3 ℝ → Prop)
    (hw : ∀ e ∈ entities, Anchored entities e → ∀ br ∈ e.brushes, ∀ p ∈ br.planes, ShownFace config e br p →
      ∀ q ∈ br.planes, ShownFace config e br q)
    (hs : ∀ e ∈ entities, Anchored entities e → ∀ br ∈ e.brushes, ∀ p ∈ br.planes, ShownFace config e br p →
      (∀ face, buildPlane config.textureInfo e br.planes p = .ok face → ∀ v ∈ face.vertices, ∀ x,
        SamePlace x v.pos → real x = real v.pos) ∧
      ∀ geo, buildBrush config.textureInfo e br = .ok geo → ∀ a b, TriSide real geo a b →
        ∃ a' b', TriSide real geo b' a' ∧ N a' a ∧ N b' b)
    (a b : V3 ℝ) (hab : DrawnSide real nodes a b) : ∃ a' b', DrawnSide real nodes b' a' ∧ N a' a ∧ N b' b := by
  obtain ⟨h1, h2⟩ := C87_triangles depth order horder config nodes h text ht entities hl
  obtain ⟨o, v, s, hocc, hsm, hside⟩ := hab
  obtain ⟨x, y, z, hT, har⟩ := listed_iff.1 hside
  obtain ⟨e, he, ha, br, hbr, p, hp, hsh, face, hface, x', y', z', hT', e1, e2, e3⟩ := h1 o v s x y z hocc hsm hT
  have hall := hw e he ha br hbr p hp hsh
  have mem : ∀ {face : PlaneGeo F} {x y z : Vertex F}, TriangleOf face.vertices face.indices x y z →
      x ∈ face.vertices ∧ y ∈ face.vertices ∧ z ∈ face.vertices := by
    rintro face x y z ⟨t, i, j, k, -, -, -, h4, h5, h6⟩
    exact ⟨List.mem_of_getElem? h4, List.mem_of_getElem? h5, List.mem_of_getElem? h6⟩
  obtain ⟨geo, hgeo⟩ := brush_builds (textures := config.textureInfo) (entity := e) (brush := br) fun q hq => by
    obtain ⟨f, hf, -⟩ := h2 e he ha br hbr q hq (hall q hq)
    exact ⟨f, hf⟩
  obtain ⟨m1, m2, m3⟩ := mem hT'
  have hreal := (hs e he ha br hbr p hp hsh).1 face hface
  rw [hreal _ m1 _ e1, hreal _ m2 _ e2, hreal _ m3 _ e3] at har
  obtain ⟨a', b', hab', n1, n2⟩ := (hs e he ha br hbr p hp hsh).2 geo hgeo a b
    ((triSide_triangle hgeo real a b).2 ⟨p, hp, face, hface, x', y', z', hT', har⟩)
  obtain ⟨q, hq, f, hf, u, v, w, hT2, har2⟩ := (triSide_triangle hgeo real b' a').1 hab'
  obtain ⟨f', hf', hd⟩ := h2 e he ha br hbr q hq (hall q hq)
  rw [hf] at hf'; cases hf'
  obtain ⟨o', v', s', u', w', t', hocc', hsm', hT3, k1, k2, k3⟩ := hd u v w hT2
  obtain ⟨m1, m2, m3⟩ := mem hT2
  have hreal := (hs e he ha br hbr q hq (hall q hq)).1 f hf
  rw [← hreal _ m1 _ k1, ← hreal _ m2 _ k2, ← hreal _ m3 _ k3] at har2
  exact ⟨a', b', ⟨o', v', s', hocc', hsm', listed_iff.2 ⟨_, _, _, hT3, har2⟩⟩, n1, n2⟩

/-- The same for concave collision, which is the same for all faces of a brush. -/
theorem solid_holes [LawfulEq F] (depth : Nat)
    (order : List (Str × List (BrushGeo F)) → List (Str × List (BrushGeo F))) (horder : ∀ l, (order l).Perm l)
    (config : Config F) (nodes : List (Node F)) (h : Quarch.run depth order config = .ok nodes)
    (text : Str) (ht : config.mapFile = some text) (entities : List (Entity F)) (hl : LoadsAs text entities)
    (real : V3 F → V3 ℝ) (N : V3 ℝ → V3 ℝ → Prop)
    (hs : ∀ e ∈ entities, Anchored entities e → ∀ br ∈ e.brushes, SolidAs config e br .concave →
      (∀ p ∈ br.planes, ∀ face, buildPlane config.textureInfo e br.planes p = .ok face → ∀ v ∈ face.vertices, ∀ x,
        SamePlace x v.pos → real x = real v.pos) ∧
      ∀ geo, buildBrush config.textureInfo e br = .ok geo → ∀ a b, TriSide real geo a b →
        ∃ a' b', TriSide real geo b' a' ∧ N a' a ∧ N b' b)
    (a b : V3 ℝ) (hab : SolidSide real nodes a b) : ∃ a' b', SolidSide real nodes b' a' ∧ N a' a ∧ N b' b := by
  obtain ⟨h1, h2⟩ := C88_concave depth order horder config nodes h text ht entities hl
  obtain ⟨o, v, s, hocc, hsm, hside⟩ := hab
  obtain ⟨x, y, z, hT, har⟩ := listed_iff.1 hside
  obtain ⟨e, he, ha, br, hbr, hsol, p, hp, face, hface, x', y', z', hT', e1, e2, e3⟩ := h1 o v s x y z hocc hsm hT
  have mem : ∀ {face : PlaneGeo F} {x y z : Vertex F}, TriangleOf face.vertices face.indices x y z →
      x ∈ face.vertices ∧ y ∈ face.vertices ∧ z ∈ face.vertices := by
    rintro face x y z ⟨t, i, j, k, -, -, -, h4, h5, h6⟩
    exact ⟨List.mem_of_getElem? h4, List.mem_of_getElem? h5, List.mem_of_getElem? h6⟩
  obtain ⟨geo, hgeo⟩ := brush_builds (textures := config.textureInfo) (entity := e) (brush := br) fun q hq => by
    obtain ⟨f, hf, -⟩ := h2 e he ha br hbr hsol q hq
    exact ⟨f, hf⟩
  obtain ⟨m1, m2, m3⟩ := mem hT'
  have hreal := (hs e he ha br hbr hsol).1 p hp face hface
  rw [hreal _ m1 _ e1, hreal _ m2 _ e2, hreal _ m3 _ e3] at har
  obtain ⟨a', b', hab', n1, n2⟩ := (hs e he ha br hbr hsol).2 geo hgeo a b
    ((triSide_triangle hgeo real a b).2 ⟨p, hp, face, hface, x', y', z', hT', har⟩)
  obtain ⟨q, hq, f, hf, u, v, w, hT2, har2⟩ := (triSide_triangle hgeo real b' a').1 hab'
  obtain ⟨f', hf', hd⟩ := h2 e he ha br hbr hsol q hq
  rw [hf] at hf'; cases hf'
  obtain ⟨o', v', s', u', w', t', hocc', hsm', hT3, k1, k2, k3⟩ := hd u v w hT2
  obtain ⟨m1, m2, m3⟩ := mem hT2
  have hreal := (hs e he ha br hbr hsol).1 q hq f hf
  rw [← hreal _ m1 _ k1, ← hreal _ m2 _ k2, ← hreal _ m3 _ k3] at har2
  exact ⟨a', b', ⟨o', v', s', hocc', hsm', listed_iff.2 ⟨_, _, _, hT3, har2⟩⟩, n1, n2⟩

end

section
variable [RealText] [Platform]

/-- C127: with exact arithmetic the meshes of proper brushes that are shown wholly or not at all have no holes: with each
side of a triangle the scene has the opposite side of a triangle. -/
theorem C127_drawn (depth : Nat)
    (order : List (Str × List (BrushGeo ℝ)) → List (Str × List (BrushGeo ℝ))) (horder : ∀ l, (order l).Perm l)
    (config : Config ℝ) (nodes : List (Node ℝ)) (h : Quarch.run depth order config = .ok nodes)
    (text : Str) (ht : config.mapFile = some text) (entities : List (Entity ℝ)) (hl : LoadsAs text entities)
    (hb : ∀ e ∈ entities, Anchored entities e → ∀ br ∈ e.brushes, ∀ p ∈ br.planes, ShownFace config e br p →
      ProperBrush br.planes ∧ ∀ q ∈ br.planes, ShownFace config e br q)
    (a b : V3 ℝ) (hab : DrawnSide id nodes a b) : DrawnSide id nodes b a := by
  obtain ⟨a', b', hd, rfl, rfl⟩ := drawn_holes depth order horder config nodes h text ht entities hl id (· = ·)
    (fun e he ha br hbr p hp hs => (hb e he ha br hbr p hp hs).2)
    (fun e he ha br hbr p hp hs => ⟨fun face hface v hv x hx => samePlace_real.1 hx, fun geo hg a b hab => by
      obtain ⟨face, hf, t, s, m, n, v, w, hs3, k1, k2, k3, k4, k5, k6⟩ := hab
      obtain ⟨i, hi⟩ := List.getElem?_of_mem hf
      obtain ⟨i', t', s', hs', face', m', n', v', w', l1, l2, l3, l4, l5, l6, l7⟩ :=
        C78_watertight config.textureInfo e br geo hg (hb e he ha br hbr p hp hs).1 i t s a b
          ⟨hs3, face, m, n, v, w, hi, k1, k2, k3, k4, k5, k6⟩
      exact ⟨a, b, ⟨face', List.mem_of_getElem? l1, t', s', m', n', v', w', hs', l2, l3, l4, l5, l6, l7⟩, rfl, rfl⟩⟩)
    a b hab
  exact hd

/-- C127: the same for the concave collision shapes; the blacklists play no role. -/
theorem C127_solid (depth : Nat)
    (order : List (Str × List (BrushGeo ℝ)) → List (Str × List (BrushGeo ℝ))) (horder : ∀ l, (order l).Perm l)
    (config : Config ℝ) (nodes : List (Node ℝ)) (h : Quarch.run depth order config = .ok nodes)
    (text : Str) (ht : config.mapFile = some text) (entities : List (Entity ℝ)) (hl : LoadsAs text entities)
    (hb : ∀ e ∈ entities, Anchored entities e → ∀ br ∈ e.brushes, SolidAs config e br .concave → ProperBrush br.planes)
    (a b : V3 ℝ) (hab : SolidSide id nodes a b) : SolidSide id nodes b a := by
  obtain ⟨a', b', hd, rfl, rfl⟩ := solid_holes depth order horder config nodes h text ht entities hl id (· = ·)
    (fun e he ha br hbr hs => ⟨fun p hp face hface v hv x hx => samePlace_real.1 hx, fun geo hg a b hab => by
      obtain ⟨face, hf, t, s, m, n, v, w, hs3, k1, k2, k3, k4, k5, k6⟩ := hab
      obtain ⟨i, hi⟩ := List.getElem?_of_mem hf
      obtain ⟨i', t', s', hs', face', m', n', v', w', l1, l2, l3, l4, l5, l6, l7⟩ :=
        C78_watertight config.textureInfo e br geo hg (hb e he ha br hbr hs) i t s a b
          ⟨hs3, face, m, n, v, w, hi, k1, k2, k3, k4, k5, k6⟩
      exact ⟨a, b, ⟨face', List.mem_of_getElem? l1, t', s', m', n', v', w', hs', l2, l3, l4, l5, l6, l7⟩, rfl, rfl⟩⟩)
    a b hab
  exact hd

end

section
open Spec.F32 Spec.Box
variable [F32Lib] [Platform]

theorem triSide_close [AccurateAtan2] {textures : TextureInfo} {entity : Entity F32} {brush : Brush F32} {geo : BrushGeo F32}
    {g : Nat} {R : ℝ} (hg : buildBrush textures entity brush = .ok geo) (hf : FirmBrush g R brush.planes) (a b : V3 ℝ)
    (hab : TriSide vec geo a b) : ∃ a' b', TriSide vec geo b' a' ∧ Close (1 / 1000) a' a ∧ Close (1 / 1000) b' b := by
  obtain ⟨face, hm, t, s, m, n, v, w, hs3, k1, k2, k3, k4, rfl, rfl⟩ := hab
  obtain ⟨i, hi⟩ := List.getElem?_of_mem hm
  obtain ⟨i', t', s', a', b', ⟨hs', face', m', n', v', w', l1, l2, l3, l4, l5, l6, l7⟩, c1, c2⟩ :=
    C119_watertight textures entity brush geo hg hf i t s v.pos w.pos
      ⟨hs3, face, m, n, v, w, hi, k1, k2, k3, k4, rfl, rfl⟩
  exact ⟨vec a', vec b', ⟨face', List.mem_of_getElem? l1, t', s', m', n', v', w', hs', l2, l3, l4, l5, by rw [l6], by rw [l7]⟩,
    c1, c2⟩

/-- C127: in single precision the meshes of firm brushes that are shown wholly or not at all have no holes wider than 1/1000
of a unit. -/
theorem C127_drawn_firm [AccurateAtan2] (depth : Nat)
    (order : List (Str × List (BrushGeo F32)) → List (Str × List (BrushGeo F32))) (horder : ∀ l, (order l).Perm l)
    (config : Config F32) (nodes : List (Node F32)) (h : Quarch.run depth order config = .ok nodes)
    (text : Str) (ht : config.mapFile = some text) (entities : List (Entity F32)) (hl : LoadsAs text entities)
    (hb : ∀ e ∈ entities, Anchored entities e → ∀ br ∈ e.brushes, ∀ p ∈ br.planes, ShownFace config e br p →
      IsFirm br.planes ∧ ∀ q ∈ br.planes, ShownFace config e br q)
    (a b : V3 ℝ) (hab : DrawnSide vec nodes a b) :
    ∃ a' b', DrawnSide vec nodes b' a' ∧ Close (1 / 1000) a' a ∧ Close (1 / 1000) b' b := by
  refine drawn_holes depth order horder config nodes h text ht entities hl vec (Close (1 / 1000))
    (fun e he ha br hbr p hp hs => (hb e he ha br hbr p hp hs).2) (fun e he ha br hbr p hp hs => ?_) a b hab
  obtain ⟨⟨g, R, hf⟩, -⟩ := hb e he ha br hbr p hp hs
  exact ⟨fun face hface v hv x hx => same_vec (firm_finite hf.toClearBody hp hface v hv) hx,
    fun geo hg => triSide_close hg hf⟩

/-- C127: the same for the concave collision shapes. -/
theorem C127_solid_firm [AccurateAtan2] (depth : Nat)
    (order : List (Str × List (BrushGeo F32)) → List (Str × List (BrushGeo F32))) (horder : ∀ l, (order l).Perm l)
    (config : Config F32) (nodes : List (Node F32)) (h : Quarch.run depth order config = .ok nodes)
    (text : Str) (ht : config.mapFile = some text) (entities : List (Entity F32)) (hl : LoadsAs text entities)
    (hb : ∀ e ∈ entities, Anchored entities e → ∀ br ∈ e.brushes, SolidAs config e br .concave → IsFirm br.planes)
    (a b : V3 ℝ) (hab : SolidSide vec nodes a b) :
    ∃ a' b', SolidSide vec nodes b' a' ∧ Close (1 / 1000) a' a ∧ Close (1 / 1000) b' b := by
  refine solid_holes depth order horder config nodes h text ht entities hl vec (Close (1 / 1000))
    (fun e he ha br hbr hs => ?_) a b hab
  obtain ⟨g, R, hf⟩ := hb e he ha br hbr hs
  exact ⟨fun p hp face hface v hv x hx => same_vec (firm_finite hf.toClearBody hp hface v hv) hx,
    fun geo hg => triSide_close hg hf⟩

/-- C127: in single precision the meshes and concave shapes of boxes on grids with first edges along an axis have no holes at
all. -/
theorem C127_boxes [QuadrantAtan2] (depth : Nat)
    (order : List (Str × List (BrushGeo F32)) → List (Str × List (BrushGeo F32))) (horder : ∀ l, (order l).Perm l)
    (config : Config F32) (nodes : List (Node F32)) (h : Quarch.run depth order config = .ok nodes)
    (text : Str) (ht : config.mapFile = some text) (entities : List (Entity F32)) (hl : LoadsAs text entities)
    (hb : ∀ e ∈ entities, Anchored entities e → ∀ br ∈ e.brushes, ∃ b : GridBox, b.IsAligned br.planes) :
    ((∀ e ∈ entities, Anchored entities e → ∀ br ∈ e.brushes, ∀ p ∈ br.planes, ShownFace config e br p →
      ∀ q ∈ br.planes, ShownFace config e br q) → ∀ a b, DrawnSide vec nodes a b → DrawnSide vec nodes b a) ∧
    ∀ a b, SolidSide vec nodes a b → SolidSide vec nodes b a := by
  have key : ∀ e ∈ entities, Anchored entities e → ∀ br ∈ e.brushes,
      (∀ p ∈ br.planes, ∀ face, buildPlane config.textureInfo e br.planes p = .ok face → ∀ v ∈ face.vertices, ∀ x,
        SamePlace x v.pos → vec x = vec v.pos) ∧
      ∀ geo, buildBrush config.textureInfo e br = .ok geo → ∀ a b, TriSide vec geo a b →
        ∃ a' b', TriSide vec geo b' a' ∧ a' = a ∧ b' = b := by
    intro e he ha br hbr
    obtain ⟨bx, hbx⟩ := hb e he ha br hbr
    refine ⟨fun p hp face hface v hv x hx => ?_, fun geo hg a b hab => ?_⟩
    · obtain ⟨ax, up, hsd⟩ := hbx.1.1 p hp
      exact same_vec ((side_picture config.textureInfo e hbx hp hsd hface).1 v hv) hx
    · obtain ⟨geo', hg', hc⟩ := C109_box config.textureInfo e br bx hbx
      rw [hg] at hg'; cases hg'
      exact ⟨a, b, hc a b hab, rfl, rfl⟩
  refine ⟨fun hw a b hab => ?_, fun a b hab => ?_⟩
  · obtain ⟨a', b', hd, rfl, rfl⟩ := drawn_holes depth order horder config nodes h text ht entities hl vec (· = ·) hw
      (fun e he ha br hbr p hp hs => ⟨(key e he ha br hbr).1 p hp, (key e he ha br hbr).2⟩) a b hab
    exact hd
  · obtain ⟨a', b', hd, rfl, rfl⟩ := solid_holes depth order horder config nodes h text ht entities hl vec (· = ·)
      (fun e he ha br hbr hs => key e he ha br hbr) a b hab
    exact hd

/-- C127: a map file whose brushes are firm loads, under the conditions on its entities of C91; if all is to be shown, the
meshes have no holes wider than 1/1000 of a unit, and its concave collision shapes have none in any case. -/
theorem C127_loads [AccurateAtan2] (depth : Nat)
    (order : List (Str × List (BrushGeo F32)) → List (Str × List (BrushGeo F32))) (horder : ∀ l, (order l).Perm l)
    (config : Config F32) (text : Str) (ht : config.mapFile = some text) (entities : List (Entity F32))
    (hm : MapIs text entities) (hb : ∀ e ∈ entities, ∀ br ∈ e.brushes, IsFirm br.planes)
    (hworld : ∃ pre w post, entities = pre ++ w :: post ∧ w.properties (str! "classname") = some (str! "worldspawn") ∧
      ∀ e ∈ pre ++ post, e.properties (str! "classname") ≠ some (str! "worldspawn"))
    (hnamed : ∀ e ∈ entities, ∃ name, e.properties (str! "classname") = some name)
    (hids : ∀ e ∈ entities, ∀ k ∈ [str! "_tb_id", str! "_tb_group"], ∀ s, e.properties k = some s → ∃ i, ReadsI32 s i)
    (htree : ¬ Loop entities) (hd : entities.length ≤ depth) :
    ∃ nodes, Quarch.run depth order config = .ok nodes ∧
      ((∀ e ∈ entities, ∀ br ∈ e.brushes, ∀ p ∈ br.planes, ShownFace config e br p) → ∀ a b, DrawnSide vec nodes a b →
        ∃ a' b', DrawnSide vec nodes b' a' ∧ Close (1 / 1000) a' a ∧ Close (1 / 1000) b' b) ∧
      ∀ a b, SolidSide vec nodes a b →
        ∃ a' b', SolidSide vec nodes b' a' ∧ Close (1 / 1000) a' a ∧ Close (1 / 1000) b' b := by
  obtain ⟨nodes, hn, -⟩ := C123_loads depth order horder config text ht entities hm hb hworld hnamed hids htree hd
  have hl := (C92_text text entities).2 hm
  exact ⟨nodes, hn, fun hs => C127_drawn_firm depth order horder config nodes hn text ht entities hl
    fun e he _ br hbr p _ _ => ⟨hb e he br hbr, hs e he br hbr⟩,
    C127_solid_firm depth order horder config nodes hn text ht entities hl fun e he _ br hbr _ => hb e he br hbr⟩

end
end Quarch
