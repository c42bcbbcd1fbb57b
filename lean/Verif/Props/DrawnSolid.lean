import Verif.Props.DrawnExamples
import Verif.Props.Shading
/-
C111: what is drawn is solid.
-/
set_option linter.unusedSectionVars false
namespace Quarch
namespace Spec
section
variable {F : Type}

/-- Whatever the game data gives a mesh has this collision type. -/
def MeshesAre (gd : GameData F) (ct : CollisionType) : Prop :=
  (∀ d ∈ gd.entities, ∀ pd bd, d.data = .brush pd bd → bd.visualType = .mesh → bd.collisionType = ct) ∧
  ∀ layer ∈ gd.worldspawnLayers, layer.visualType = .mesh → layer.collisionType = ct

/-- Whatever the game data gives this collision type has a mesh. -/
def AllMeshes (gd : GameData F) (ct : CollisionType) : Prop :=
  (∀ d ∈ gd.entities, ∀ pd bd, d.data = .brush pd bd → bd.collisionType = ct → bd.visualType = .mesh) ∧
  ∀ layer ∈ gd.worldspawnLayers, layer.collisionType = ct → layer.visualType = .mesh
end
end Spec
open Spec Scene

section
variable {F : Type} [Arith F] [Platform]

theorem defOf_mem {gd : GameData F} {e : Entity F} {d : EntityDef F} (h : DefOf gd e d) : d ∈ gd.entities := by
  obtain ⟨_, _, pre, post, hl, _⟩ := h
  simp [hl]

theorem theLayer_mem {ls : List WorldspawnLayer} {t : Str} {layer : WorldspawnLayer} (h : TheLayer ls t layer) :
    layer ∈ ls := by
  obtain ⟨pre, post, hl, _⟩ := h
  simp [hl]

theorem shown_solid {config : Config F} {ct : CollisionType} (hm : MeshesAre config.quarchitectGameData ct)
    {e : Entity F} {br : Brush F} {p : BrushPlane F} (h : ShownFace config e br p) : SolidAs config e br ct := by
  rcases h with ⟨t, layer, h1, h2, h3⟩ | ⟨h1, ⟨d, pd, bd, hd, hdata, hv⟩, _⟩
  · exact .inl ⟨t, layer, h1, h2, hm.2 layer (theLayer_mem h2) h3⟩
  · exact .inr ⟨h1, d, pd, bd, hd, hdata, hm.1 d (defOf_mem hd) pd bd hdata hv⟩

theorem solid_shown {config : Config F} {ct : CollisionType} (hm : AllMeshes config.quarchitectGameData ct)
    {e : Entity F} {br : Brush F} {p : BrushPlane F} (hp : p ∈ br.planes) (h : SolidAs config e br ct)
    (h1 : ∀ t, knownTexture config.textureInfo p = some t →
      t ∉ config.textureBlacklist.brush ∧ t ∉ config.textureBlacklist.plane) : ShownFace config e br p := by
  rcases h with ⟨t, layer, k1, k2, k3⟩ | ⟨k1, d, pd, bd, hd, hdata, hv⟩
  · exact .inl ⟨t, layer, k1, k2, hm.2 layer (theLayer_mem k2) k3⟩
  · exact .inr ⟨k1, ⟨d, pd, bd, hd, hdata, hm.1 d (defOf_mem hd) pd bd hdata hv⟩,
      ⟨p, hp, fun t ht => (h1 t ht).1⟩, fun t ht => (h1 t ht).2⟩

/-- C111 With concave collision for everything that has a mesh, every triangle that is drawn is also a triangle of
collision, with its corners in the same order and places. -/
theorem C111_drawn_is_solid [LawfulEq F] (depth : Nat)
    (order : List (Str × List (BrushGeo F)) → List (Str × List (BrushGeo F))) (horder : ∀ l, (order l).Perm l)
    (config : Config F) (nodes : List (Node F)) (h : Quarch.run depth order config = .ok nodes)
    (text : Str) (ht : config.mapFile = some text) (entities : List (Entity F)) (hl : LoadsAs text entities)
    (hm : MeshesAre config.quarchitectGameData .concave) (o : V3 F) (v : VisualGeometry F) (s : MeshSurface F)
    (a b c : V3 F) (hv : Occurs (.visual o v) nodes) (hs : s ∈ surfaces v)
    (hT : TriangleOf s.vertices s.indices a b c) :
    ∃ o' shapes s' a' b' c', Occurs (.collision o' (.concave shapes)) nodes ∧ s' ∈ shapes ∧
      TriangleOf s'.vertices s'.indices a' b' c' ∧ SamePlace a' a ∧ SamePlace b' b ∧ SamePlace c' c := by
  obtain ⟨e, he, ha, br, hbr, p, hp, hsh, face, hf, x, y, z, hT', e1, e2, e3⟩ :=
    (C87_triangles depth order horder config nodes h text ht entities hl).1 o v s a b c hv hs hT
  obtain ⟨face', hf', hall⟩ := (C88_concave depth order horder config nodes h text ht entities hl).2 e he ha br hbr
    (shown_solid hm hsh) p hp
  rw [hf] at hf'; cases hf'
  obtain ⟨o', shapes, s', a', b', c', k1, k2, k3, k4, k5, k6⟩ := hall x y z hT'
  exact ⟨o', shapes, s', a', b', c', k1, k2, k3, samePlace_trans k4 (samePlace_symm e1),
    samePlace_trans k5 (samePlace_symm e2), samePlace_trans k6 (samePlace_symm e3)⟩

/-- C111 With convex collision for everything that has a mesh, the corners of a triangle that is drawn are corners
of one convex shape. -/
theorem C111_corners [LawfulEq F] (depth : Nat)
    (order : List (Str × List (BrushGeo F)) → List (Str × List (BrushGeo F))) (horder : ∀ l, (order l).Perm l)
    (config : Config F) (nodes : List (Node F)) (h : Quarch.run depth order config = .ok nodes)
    (text : Str) (ht : config.mapFile = some text) (entities : List (Entity F)) (hl : LoadsAs text entities)
    (hm : MeshesAre config.quarchitectGameData .convex) (o : V3 F) (v : VisualGeometry F) (s : MeshSurface F)
    (a b c : V3 F) (hv : Occurs (.visual o v) nodes) (hs : s ∈ surfaces v)
    (hT : TriangleOf s.vertices s.indices a b c) :
    ∃ o' shapes shape, Occurs (.collision o' (.convex shapes)) nodes ∧ shape ∈ shapes ∧
      ∀ x ∈ [a, b, c], ∃ x' ∈ shape.points, SamePlace x' x := by
  obtain ⟨e, he, ha, br, hbr, p, hp, hsh, face, hf, x, y, z, ⟨_, _, _, _, _, _, _, hx, hy, hz⟩, e1, e2, e3⟩ :=
    (C87_triangles depth order horder config nodes h text ht entities hl).1 o v s a b c hv hs hT
  obtain ⟨bg, hb, o', shapes, shape, k1, k2, _, _, k3, _⟩ :=
    (C88_convex depth order horder config nodes h text ht entities hl).2 e he ha br hbr
      (List.ne_nil_of_mem hp) (shown_solid hm hsh)
  obtain ⟨face', hfm, hf'⟩ := forall₂_left (brush_faces hb) hp
  rw [hf] at hf'; cases hf'
  refine ⟨o', shapes, shape, k1, k2, ?_⟩
  have key : ∀ (q : V3 F) (w : Vertex F), w ∈ face.vertices → SamePlace q w.pos →
      ∃ x' ∈ shape.points, SamePlace x' q := by
    intro q w hw hq
    obtain ⟨x', hx', hs'⟩ := k3 face hfm w hw
    exact ⟨x', hx', samePlace_trans hs' (samePlace_symm hq)⟩
  intro q hq
  simp only [List.mem_cons, List.not_mem_nil, or_false] at hq
  rcases hq with rfl | rfl | rfl
  · exact key _ x (List.mem_of_getElem? hx) e1
  · exact key _ y (List.mem_of_getElem? hy) e2
  · exact key _ z (List.mem_of_getElem? hz) e3

/-- C111 If everything with concave collision has a mesh and no texture is on a blacklist, every triangle of concave
collision is drawn. -/
theorem C111_solid_is_drawn [LawfulEq F] (depth : Nat)
    (order : List (Str × List (BrushGeo F)) → List (Str × List (BrushGeo F))) (horder : ∀ l, (order l).Perm l)
    (config : Config F) (nodes : List (Node F)) (h : Quarch.run depth order config = .ok nodes)
    (text : Str) (ht : config.mapFile = some text) (entities : List (Entity F)) (hl : LoadsAs text entities)
    (hm : AllMeshes config.quarchitectGameData .concave) (hb : config.textureBlacklist.brush = [])
    (hb' : config.textureBlacklist.plane = []) (o : V3 F) (shapes : List (ConcaveCollision F)) (s : ConcaveCollision F)
    (a b c : V3 F) (hv : Occurs (.collision o (.concave shapes)) nodes) (hs : s ∈ shapes)
    (hT : TriangleOf s.vertices s.indices a b c) :
    ∃ o' v s' a' b' c', Occurs (.visual o' v) nodes ∧ s' ∈ surfaces v ∧
      TriangleOf s'.vertices s'.indices a' b' c' ∧ SamePlace a' a ∧ SamePlace b' b ∧ SamePlace c' c := by
  obtain ⟨e, he, ha, br, hbr, hsol, p, hp, face, hf, x, y, z, hT', e1, e2, e3⟩ :=
    (C88_concave depth order horder config nodes h text ht entities hl).1 o shapes s a b c hv hs hT
  obtain ⟨face', hf', hall⟩ := (C87_triangles depth order horder config nodes h text ht entities hl).2 e he ha br hbr
    p hp (solid_shown hm hp hsol (by simp [hb, hb']))
  rw [hf] at hf'; cases hf'
  obtain ⟨o', v, s', a', b', c', k1, k2, k3, k4, k5, k6⟩ := hall x y z hT'
  exact ⟨o', v, s', a', b', c', k1, k2, k3, samePlace_trans k4 (samePlace_symm e1),
    samePlace_trans k5 (samePlace_symm e2), samePlace_trans k6 (samePlace_symm e3)⟩
end

section
variable [RealText] [Platform]

/-- C111 In exact arithmetic and with convex collision for everything that has a mesh: whatever is drawn is in a
solid. -/
theorem C111_inside (depth : Nat)
    (order : List (Str × List (BrushGeo ℝ)) → List (Str × List (BrushGeo ℝ))) (horder : ∀ l, (order l).Perm l)
    (config : Config ℝ) (nodes : List (Node ℝ)) (h : Quarch.run depth order config = .ok nodes)
    (text : Str) (ht : config.mapFile = some text) (entities : List (Entity ℝ)) (hl : LoadsAs text entities)
    (hp : ∀ e ∈ entities, Anchored entities e → ∀ br ∈ e.brushes, ProperBrush br.planes)
    (hm : MeshesAre config.quarchitectGameData .convex) (x : V3 ℝ) (hx : Drawn nodes x) : InSolid nodes x := by
  obtain ⟨e, he, ha, br, hbr, p, hpm, hsh, _, hon⟩ :=
    (C87_picture depth order horder config nodes h text ht entities hl hp x).1 hx
  exact (C88_filled depth order horder config nodes h text ht entities hl hp x).2
    ⟨e, he, ha, br, hbr, shown_solid hm hsh, hon.2⟩
end

/-! ### The cube -/
section
attribute [local instance] refPlatform cubeText

theorem cube_meshes (bl : TextureBlacklist) (ct : CollisionType) :
    MeshesAre (cubeConfig bl ct).quarchitectGameData ct := by
  refine ⟨fun d hd pd bd h _ => ?_, fun l hl => by cases hl⟩
  cases List.mem_singleton.1 hd
  cases h; rfl

/-- A point of the top is drawn, whatever the collision. -/
theorem cube_top (ct : CollisionType) {nodes : List (Node ℝ)}
    (h : Quarch.run 1 id (cubeConfig ⟨[], []⟩ ct) = .ok nodes) : Drawn nodes ⟨1 / 2, 1 / 3, 1⟩ := by
  have hshown : ∀ p ∈ Cube.planes, ShownFace (cubeConfig ⟨[], []⟩ ct) cubeEntity ⟨Cube.planes⟩ p :=
    fun p hp => .inr ⟨cube_layer _ _, ⟨_, _, _, ⟨str! "worldspawn", rfl, [], [], rfl, rfl, by simp⟩, rfl, rfl⟩,
      ⟨p, hp, fun _ _ => List.not_mem_nil⟩, fun _ _ => List.not_mem_nil⟩
  refine (C87_everything 1 id (fun _ => .refl _) _ nodes h cubeMap rfl [cubeEntity] cube_loads
    (fun e he br hbr => by
      cases List.mem_singleton.1 he
      cases List.mem_singleton.1 hbr
      exact Cube.proper)
    (fun e he => by cases List.mem_singleton.1 he; exact .world rfl)
    (fun e he br hbr p hp => by
      cases List.mem_singleton.1 he
      cases List.mem_singleton.1 hbr
      exact hshown p hp) _).2 ⟨cubeEntity, by simp, ⟨Cube.planes⟩,
        List.mem_singleton.2 rfl, ?_, Cube.zp, by simp [Cube.planes], ?_⟩
  · rw [Cube.inside]; norm_num
  · norm_num [OnPlane, Cube.face, Cube.zp, rawNormal, dotR, crossR, subR]

/-- C111 for the cube with convex collision: its top is drawn and solid. -/
example : ∃ nodes, Quarch.run 1 id (cubeConfig ⟨[], []⟩ .convex) = .ok nodes ∧
    (∀ x, Drawn nodes x → InSolid nodes x) ∧ Drawn nodes ⟨1 / 2, 1 / 3, 1⟩ := by
  obtain ⟨nodes, h⟩ := cube_run ⟨[], []⟩ .convex
  exact ⟨nodes, h, fun x => C111_inside 1 id (fun _ => .refl _) _ nodes h cubeMap rfl [cubeEntity] cube_loads
    cube_proper (cube_meshes _ _) x, cube_top _ h⟩

/-- C111 for the cube with convex collision: there is a triangle that is drawn, and a convex shape with its
corners. -/
example : ∃ nodes, Quarch.run 1 id (cubeConfig ⟨[], []⟩ .convex) = .ok nodes ∧
    ∃ o v s a b c o' shapes shape, Occurs (.visual o v) nodes ∧ s ∈ surfaces v ∧
      TriangleOf s.vertices s.indices a b c ∧ Occurs (.collision o' (.convex shapes)) nodes ∧ shape ∈ shapes ∧
      ∀ x ∈ [a, b, c], ∃ x' ∈ shape.points, SamePlace x' x := by
  obtain ⟨nodes, h⟩ := cube_run ⟨[], []⟩ .convex
  obtain ⟨o, v, s, a, b, c, h1, h2, h3, _⟩ := cube_top _ h
  obtain ⟨o', shapes, shape, k⟩ := C111_corners 1 id (fun _ => .refl _) _ nodes h cubeMap rfl [cubeEntity] cube_loads
    (cube_meshes _ _) o v s a b c h1 h2 h3
  exact ⟨nodes, h, o, v, s, a, b, c, o', shapes, shape, h1, h2, h3, k⟩

/-- C111 for the cube with concave collision: there is a triangle that is drawn, the same triangle is solid, and this
again is drawn. -/
example : ∃ nodes, Quarch.run 1 id (cubeConfig ⟨[], []⟩ .concave) = .ok nodes ∧
    ∃ o v s a b c o' shapes s' a' b' c', Occurs (.visual o v) nodes ∧ s ∈ surfaces v ∧
      TriangleOf s.vertices s.indices a b c ∧ Occurs (.collision o' (.concave shapes)) nodes ∧ s' ∈ shapes ∧
      TriangleOf s'.vertices s'.indices a' b' c' ∧ SamePlace a' a ∧ SamePlace b' b ∧ SamePlace c' c ∧
      ∃ o v s, Occurs (.visual o v) nodes ∧ s ∈ surfaces v ∧
        ∃ a b c, TriangleOf s.vertices s.indices a b c ∧ SamePlace a a' := by
  obtain ⟨nodes, h⟩ := cube_run ⟨[], []⟩ .concave
  obtain ⟨o, v, s, a, b, c, h1, h2, h3, _⟩ := cube_top _ h
  obtain ⟨o', shapes, s', a', b', c', k1, k2, k3, k4, k5, k6⟩ := C111_drawn_is_solid 1 id (fun _ => .refl _) _ nodes h
    cubeMap rfl [cubeEntity] cube_loads (cube_meshes _ _) o v s a b c h1 h2 h3
  obtain ⟨o2, v2, s2, a2, b2, c2, l1, l2, l3, l4, _⟩ := C111_solid_is_drawn 1 id (fun _ => .refl _) _ nodes h
    cubeMap rfl [cubeEntity] cube_loads ⟨fun d hd pd bd h _ => by
      cases List.mem_singleton.1 hd
      cases h; rfl, fun l hl => by cases hl⟩ rfl rfl o' shapes s' a' b' c' k1 k2 k3
  exact ⟨nodes, h, o, v, s, a, b, c, o', shapes, s', a', b', c', h1, h2, h3, k1, k2, k3, k4, k5, k6,
    o2, v2, s2, l1, l2, a2, b2, c2, l3, l4⟩

/-- The hypothesis of `C111_inside` is needed: without collision the cube is drawn and nothing is solid. -/
example : ∃ nodes, Quarch.run 1 id (cubeConfig ⟨[], []⟩ .none) = .ok nodes ∧
    Drawn nodes ⟨1 / 2, 1 / 3, 1⟩ ∧ ¬ InSolid nodes ⟨1 / 2, 1 / 3, 1⟩ := by
  obtain ⟨nodes, h⟩ := cube_run ⟨[], []⟩ .none
  refine ⟨nodes, h, cube_top _ h, fun hs => ?_⟩
  obtain ⟨e, he, _, br, hbr, hsol, _⟩ := (C88_filled 1 id (fun _ => .refl _) _ nodes h cubeMap rfl [cubeEntity]
    cube_loads cube_proper _).1 hs
  cases List.mem_singleton.1 he
  cases List.mem_singleton.1 hbr
  rcases hsol with ⟨t, _, hl, _⟩ | ⟨_, d, pd, bd, hd, hdata, hc⟩
  · exact cube_layer _ _ t hl
  · cases List.mem_singleton.1 (defOf_mem hd)
    cases hdata
    cases hc
end
end Quarch
