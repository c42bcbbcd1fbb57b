import Verif.Props.BoxMap
import Verif.Props.Solid
/-
C93: collision shapes of boxes, from the text to the scene, in single precision.
-/
set_option linter.unusedSectionVars false
namespace Quarch
namespace Spec

/-- The eight corners of the box, in steps. -/
def GridBox.corners (b : GridBox) : List (V3 Int) :=
  [⟨b.lo.x, b.lo.y, b.lo.z⟩, ⟨b.lo.x, b.lo.y, b.hi.z⟩, ⟨b.lo.x, b.hi.y, b.lo.z⟩, ⟨b.lo.x, b.hi.y, b.hi.z⟩,
   ⟨b.hi.x, b.lo.y, b.lo.z⟩, ⟨b.hi.x, b.lo.y, b.hi.z⟩, ⟨b.hi.x, b.hi.y, b.lo.z⟩, ⟨b.hi.x, b.hi.y, b.hi.z⟩]

/-- The point is in the box or on its border. -/
def GridBox.Inside (b : GridBox) (x : V3 ℝ) : Prop :=
  ∀ c : Axis, ((c.of b.lo : Int) : ℝ) / 2 ^ b.g ≤ c.of x ∧ c.of x ≤ c.of b.hi / 2 ^ b.g

/-- The points are exactly the corners of the box, each once. -/
def GridBox.CornersAre (b : GridBox) (points : List (V3 F32)) : Prop :=
  (∀ x ∈ points, Finite3 x) ∧ (points.map vec).Perm (b.corners.map b.point)

/-- The point is in the hull of a convex collision shape of the scene. -/
def InSolid32 [Arith F32] (nodes : List (Node F32)) (x : V3 ℝ) : Prop :=
  ∃ o shapes, ∃ shape ∈ shapes, Occurs (.collision o (.convex shapes)) nodes ∧ InHullOf (shape.points.map vec) x

/-- The point is in a triangle of a concave collision shape of the scene. -/
def OnSolid32 [Arith F32] (nodes : List (Node F32)) (x : V3 ℝ) : Prop :=
  ∃ o shapes, ∃ s ∈ shapes, Occurs (.collision o (.concave shapes)) nodes ∧
    ∃ a b c, TriangleOf s.vertices s.indices a b c ∧ InTriangle (vec a) (vec b) (vec c) x

end Spec
open Quarch.Spec Quarch.Spec.F32 Quarch.Geo Quarch.Spec.Box Scene

/-! ### the hull of the corners -/

theorem corners_mem {b : GridBox} {n : V3 Int} :
    n ∈ b.corners ↔ ∀ d : Axis, d.of n = d.of b.lo ∨ d.of n = d.of b.hi := by
  obtain ⟨x, y, z⟩ := n
  constructor
  · intro h
    simp only [GridBox.corners, List.mem_cons, List.not_mem_nil, or_false, V3.mk.injEq] at h
    intro d
    cases d <;> simp only [Axis.of] <;> omega
  · intro hd
    have hx := hd .x; have hy := hd .y; have hz := hd .z
    simp only [Axis.of] at hx hy hz
    rcases hx with rfl | rfl <;> rcases hy with rfl | rfl <;> rcases hz with rfl | rfl <;> simp [GridBox.corners]

theorem corners_nodup (b : GridBox) : b.corners.Nodup := by
  have hx := (b.lt .x).ne; have hy := (b.lt .y).ne; have hz := (b.lt .z).ne
  simp only [Axis.of] at hx hy hz
  simp [GridBox.corners, hx, hy, hz]

theorem point_inj (b : GridBox) {m n : V3 Int} (h : b.point m = b.point n) : m = n := by
  have hp : (2 : ℝ) ^ b.g ≠ 0 := by positivity
  obtain ⟨x, y, z⟩ := m; obtain ⟨x', y', z'⟩ := n
  simp only [GridBox.point, V3.mk.injEq, div_left_inj' hp, Int.cast_inj] at h
  simp [h]

section
variable [F32Lib] [Platform]

theorem box_hull (b : GridBox) (x : V3 ℝ) : InHullOf (b.corners.map b.point) x ↔ b.Inside x := by
  constructor
  · intro h
    refine h b.Inside (fun u v hu hv t h0 h1 c => ?_) fun p hp => ?_
    · have e : c.of (addR (smulR (1 - t) u) (smulR t v)) = (1 - t) * c.of u + t * c.of v := by cases c <;> rfl
      obtain ⟨u1, u2⟩ := hu c
      obtain ⟨v1, v2⟩ := hv c
      rw [e]
      constructor <;> nlinarith
    · obtain ⟨n, hn, rfl⟩ := List.mem_map.1 hp
      intro c
      have hp : (0 : ℝ) < 2 ^ b.g := by positivity
      have hlt := b.lt c
      rw [of_point, div_le_div_iff_of_pos_right hp, div_le_div_iff_of_pos_right hp, Int.cast_le, Int.cast_le]
      rcases corners_mem.1 hn c with e | e <;> rw [e] <;> constructor <;> omega
  · intro h C hC hp
    obtain ⟨α, a0, a1, ea⟩ := (side_param b .x true x).1 (h .x)
    obtain ⟨β, b0, b1, eb⟩ := (side_param b .y true x).1 (h .y)
    obtain ⟨γ, c0, c1, ec⟩ := (side_param b .z true x).1 (h .z)
    simp only [GridBox.side, Bool.not_true, if_true, Bool.false_eq_true, if_false, Axis.of] at ea eb ec
    have corner : ∀ n ∈ b.corners, C (b.point n) := fun n hn => hp _ (List.mem_map_of_mem hn)
    have edge : ∀ y z : Int, (y = b.lo.y ∨ y = b.hi.y) → (z = b.lo.z ∨ z = b.hi.z) →
        C ⟨x.x, y / 2 ^ b.g, z / 2 ^ b.g⟩ := by
      intro y z hy hz
      have k := hC _ _ (corner ⟨b.lo.x, y, z⟩ (corners_mem.2 fun d => by cases d <;> simp [Axis.of, hy, hz]))
        (corner ⟨b.hi.x, y, z⟩ (corners_mem.2 fun d => by cases d <;> simp [Axis.of, hy, hz])) α a0 a1
      convert k using 1
      simp only [GridBox.point, addR, smulR, V3.mk.injEq]
      exact ⟨ea, by ring, by ring⟩
    have face : ∀ z : Int, (z = b.lo.z ∨ z = b.hi.z) → C ⟨x.x, x.y, z / 2 ^ b.g⟩ := by
      intro z hz
      have k := hC _ _ (edge b.lo.y z (.inl rfl) hz) (edge b.hi.y z (.inr rfl) hz) β b0 b1
      convert k using 1
      simp only [addR, smulR, V3.mk.injEq]
      exact ⟨by ring, eb, by ring⟩
    have k := hC _ _ (face b.lo.z (.inl rfl)) (face b.hi.z (.inr rfl)) γ c0 c1
    convert k using 1
    obtain ⟨x1, x2, x3⟩ := x
    simp only [addR, smulR, V3.mk.injEq]
    exact ⟨by ring, by ring, ec⟩

theorem hull_perm {l l' : List (V3 ℝ)} (h : l.Perm l') (x : V3 ℝ) : InHullOf l x ↔ InHullOf l' x := by
  unfold InHullOf
  simp only [h.mem_iff]

theorem val_eq {x y : F32} (hx : isFin x) (hy : isFin y) (h : F32.val x = F32.val y) : Arith.eq x y = true := by
  change rel (· = ·) x y = true
  rcases y with _ | _ | ⟨s, y, ry⟩ <;> simp only [isFin] at hy
  rcases x with _ | _ | ⟨t, x, rx⟩ <;> simp only [isFin] at hx
  exact (rel_eq _ _).2 ⟨_, rfl, by
    simp only [ext, Option.some.injEq, EReal.coe_eq_coe_iff]
    exact h.symm⟩

theorem vec_same {v w : V3 F32} (hv : Finite3 v) (hw : Finite3 w) (h : vec v = vec w) : V3.beq v w = true := by
  simp only [vec, V3.mk.injEq] at h
  unfold V3.beq
  rw [val_eq hv.1 hw.1 h.1, val_eq hv.2.1 hw.2.1 h.2.1, val_eq hv.2.2 hw.2.2 h.2.2]
  rfl

/-- The corners of the faces of a box, each once, are the corners of the box. -/
theorem shape_corners (textures : TextureInfo) (entity : Entity F32) (brush : Brush F32) (b : GridBox)
    (hb : b.IsBrush brush.planes) {bg : BrushGeo F32} (h : buildBrush textures entity brush = .ok bg)
    {points : List (V3 F32)} (h1 : ∀ x ∈ points, ∃ p ∈ bg.planes, ∃ v ∈ p.vertices, v.pos = x)
    (h2 : ∀ p ∈ bg.planes, ∀ v ∈ p.vertices, ∃ x ∈ points, SamePlace x v.pos)
    (h3 : AllDifferent points) : b.CornersAre points := by
  obtain ⟨geo, h', hf, -⟩ := C90_brush textures entity brush b hb
  rw [h] at h'
  cases h'
  have key : ∀ x ∈ points, Finite3 x ∧ ∃ n ∈ b.corners, vec x = b.point n := by
    intro x hx
    obtain ⟨p, hp, v, hv, rfl⟩ := h1 x hx
    obtain ⟨pl, hpl, hex⟩ := forall₂_right hf hp
    obtain ⟨a, up, hs⟩ := hb.1 pl hpl
    have hex := hex a up hs
    have hm : vec v.pos ∈ (b.rect a up).map b.point :=
      hex.corners.mem_iff.1 (List.mem_map.2 ⟨v, hv, rfl⟩)
    obtain ⟨n, hn, e⟩ := List.mem_map.1 hm
    exact ⟨hex.finite.2 v hv, n, corners_mem.2 (rect_mem.1 hn).2, e.symm⟩
  refine ⟨fun x hx => (key x hx).1, (List.perm_ext_iff_of_nodup ?_ ?_).2 fun y => ?_⟩
  · rw [List.Nodup, List.pairwise_map]
    refine List.Pairwise.imp_of_mem (fun {x y} hx hy hxy e => ?_) (allDifferent_iff.1 h3)
    rw [vec_same (key x hx).1 (key y hy).1 e] at hxy
    cases hxy.1
  · exact (corners_nodup b).map_on fun _ _ _ _ e => point_inj b e
  · constructor
    · intro hy
      obtain ⟨x, hx, rfl⟩ := List.mem_map.1 hy
      obtain ⟨-, n, hn, e⟩ := key x hx
      exact List.mem_map.2 ⟨n, hn, e.symm⟩
    · intro hy
      obtain ⟨n, hn, rfl⟩ := List.mem_map.1 hy
      have hd := corners_mem.1 hn
      obtain ⟨up, hup⟩ : ∃ up, Axis.of .x n = b.side .x up := by
        rcases hd .x with e | e
        · exact ⟨false, by simpa [GridBox.side] using e⟩
        · exact ⟨true, by simpa [GridBox.side] using e⟩
      obtain ⟨pl, hpl, hs⟩ := hb.2 .x up
      obtain ⟨g, hg, hex⟩ := forall₂_left hf hpl
      have hex := hex .x up hs
      have hm : b.point n ∈ g.vertices.map fun v => vec v.pos :=
        hex.corners.mem_iff.2 (List.mem_map_of_mem (rect_mem.2 ⟨hup, hd⟩))
      obtain ⟨v, hv, e⟩ := List.mem_map.1 hm
      obtain ⟨x, hx, hs⟩ := h2 g hg v hv
      exact List.mem_map.2 ⟨x, hx, (same_vec (hex.finite.2 v hv) hs).trans e⟩

theorem brush_nonempty {b : GridBox} {planes : List (BrushPlane F32)} (hb : b.IsBrush planes) : planes ≠ [] := by
  obtain ⟨p, hp, -⟩ := hb.2 .x true
  exact List.ne_nil_of_mem hp

/-- C93: in single precision the convex shape of a box on a grid has as its points exactly the eight corners, each
once, and as its centre, if the brush has six faces, exactly the middle of the box. -/
theorem C93_shapes (depth : Nat)
    (order : List (Str × List (BrushGeo F32)) → List (Str × List (BrushGeo F32))) (horder : ∀ l, (order l).Perm l)
    (config : Config F32) (nodes : List (Node F32)) (h : Quarch.run depth order config = .ok nodes)
    (text : Str) (ht : config.mapFile = some text) (entities : List (Entity F32)) (hl : LoadsAs text entities) :
    (∀ o shapes shape, Occurs (.collision o (.convex shapes)) nodes → shape ∈ shapes →
      ∃ e ∈ entities, Anchored entities e ∧ ∃ br ∈ e.brushes, SolidAs config e br .convex ∧
      ∀ b : GridBox, b.IsBrush br.planes → b.CornersAre shape.points ∧
        (br.planes.length = 6 → Finite3 shape.center ∧ vec shape.center = b.middle)) ∧
    (∀ e ∈ entities, Anchored entities e → ∀ br ∈ e.brushes, SolidAs config e br .convex →
      ∀ b : GridBox, b.IsBrush br.planes →
      ∃ o shapes shape, Occurs (.collision o (.convex shapes)) nodes ∧ shape ∈ shapes ∧ b.CornersAre shape.points ∧
        (br.planes.length = 6 → Finite3 shape.center ∧ vec shape.center = b.middle)) := by
  obtain ⟨h1, h2⟩ := C88_convex depth order horder config nodes h text ht entities hl
  have center : ∀ {e : Entity F32} {br : Brush F32} {bg : BrushGeo F32} {b : GridBox},
      buildBrush config.textureInfo e br = .ok bg → b.IsBrush br.planes → br.planes.length = 6 →
      Finite3 bg.center ∧ vec bg.center = b.middle := by
    intro e br bg b hbg hb
    obtain ⟨geo, h', -, hc⟩ := C90_brush config.textureInfo e br b hb
    rw [hbg] at h'
    cases h'
    exact hc
  constructor
  · intro o shapes shape hocc hs
    obtain ⟨e, he, ha, br, hbr, hsolid, bg, hbg, hc, k1, k2, k3⟩ := h1 o shapes shape hocc hs
    refine ⟨e, he, ha, br, hbr, hsolid, fun b hb => ⟨shape_corners _ _ _ b hb hbg k1 k2 k3, ?_⟩⟩
    rw [hc]
    exact center hbg hb
  · intro e he ha br hbr hsolid b hb
    obtain ⟨bg, hbg, o, shapes, shape, hocc, hs, hc, k1, k2, k3⟩ := h2 e he ha br hbr (brush_nonempty hb) hsolid
    refine ⟨o, shapes, shape, hocc, hs, shape_corners _ _ _ b hb hbg k1 k2 k3, ?_⟩
    rw [hc]
    exact center hbg hb

/-- C93: in single precision the convex collision of a map of boxes on grids fills exactly these boxes. -/
theorem C93_filled (depth : Nat)
    (order : List (Str × List (BrushGeo F32)) → List (Str × List (BrushGeo F32))) (horder : ∀ l, (order l).Perm l)
    (config : Config F32) (nodes : List (Node F32)) (h : Quarch.run depth order config = .ok nodes)
    (text : Str) (ht : config.mapFile = some text) (entities : List (Entity F32)) (hl : LoadsAs text entities)
    (hb : ∀ e ∈ entities, Anchored entities e → ∀ br ∈ e.brushes, ∃ b : GridBox, b.IsBrush br.planes) (x : V3 ℝ) :
    InSolid32 nodes x ↔ ∃ e ∈ entities, Anchored entities e ∧ ∃ br ∈ e.brushes, SolidAs config e br .convex ∧
      ∃ b : GridBox, b.IsBrush br.planes ∧ b.Inside x := by
  obtain ⟨h1, h2⟩ := C93_shapes depth order horder config nodes h text ht entities hl
  constructor
  · rintro ⟨o, shapes, shape, hs, hocc, hx⟩
    obtain ⟨e, he, ha, br, hbr, hsolid, hk⟩ := h1 o shapes shape hocc hs
    obtain ⟨b, hbx⟩ := hb e he ha br hbr
    exact ⟨e, he, ha, br, hbr, hsolid, b, hbx, (box_hull b x).1 ((hull_perm (hk b hbx).1.2 x).1 hx)⟩
  · rintro ⟨e, he, ha, br, hbr, hsolid, b, hbx, hx⟩
    obtain ⟨o, shapes, shape, hocc, hs, hk, -⟩ := h2 e he ha br hbr hsolid b hbx
    exact ⟨o, shapes, shape, hs, hocc, (hull_perm hk.2 x).2 ((box_hull b x).2 hx)⟩

/-- C93: in single precision the triangles of the concave collision of a map of boxes on grids cover exactly the sides
of these boxes. -/
theorem C93_covered [QuadrantAtan2] (depth : Nat)
    (order : List (Str × List (BrushGeo F32)) → List (Str × List (BrushGeo F32))) (horder : ∀ l, (order l).Perm l)
    (config : Config F32) (nodes : List (Node F32)) (h : Quarch.run depth order config = .ok nodes)
    (text : Str) (ht : config.mapFile = some text) (entities : List (Entity F32)) (hl : LoadsAs text entities)
    (hb : ∀ e ∈ entities, Anchored entities e → ∀ br ∈ e.brushes, ∃ b : GridBox, b.IsAligned br.planes) (x : V3 ℝ) :
    OnSolid32 nodes x ↔ ∃ e ∈ entities, Anchored entities e ∧ ∃ br ∈ e.brushes, SolidAs config e br .concave ∧
      ∃ b : GridBox, b.IsAligned br.planes ∧ ∃ a up, b.OnSide a up x := by
  obtain ⟨h1, h2⟩ := C88_concave depth order horder config nodes h text ht entities hl
  constructor
  · rintro ⟨o, shapes, s, hs, hocc, a, b, c, hT, hx⟩
    obtain ⟨e, he, ha, br, hbr, hsolid, p, hpm, face, hf, u, v, w, hT', e1, e2, e3⟩ := h1 o shapes s a b c hocc hs hT
    obtain ⟨bx, hbx⟩ := hb e he ha br hbr
    obtain ⟨ax, up, hsd⟩ := hbx.1.1 p hpm
    obtain ⟨hfin, hcov⟩ := side_picture config.textureInfo e hbx hpm hsd hf
    obtain ⟨m1, m2, m3⟩ := triangle_mem hT'
    rw [same_vec (hfin _ m1) e1, same_vec (hfin _ m2) e2, same_vec (hfin _ m3) e3] at hx
    exact ⟨e, he, ha, br, hbr, hsolid, bx, hbx, ax, up, (hcov x).1 ⟨u, v, w, hT', hx⟩⟩
  · rintro ⟨e, he, ha, br, hbr, hsolid, bx, hbx, ax, up, hx⟩
    obtain ⟨p, hpm, hsd⟩ := hbx.1.2 ax up
    obtain ⟨face, hf, hd⟩ := h2 e he ha br hbr hsolid p hpm
    obtain ⟨hfin, hcov⟩ := side_picture config.textureInfo e hbx hpm hsd hf
    obtain ⟨u, v, w, hT, hx⟩ := (hcov x).2 hx
    obtain ⟨o, shapes, s, a, b, c, hocc, hs, hT', e1, e2, e3⟩ := hd u v w hT
    obtain ⟨m1, m2, m3⟩ := triangle_mem hT
    rw [← same_vec (hfin _ m1) e1, ← same_vec (hfin _ m2) e2, ← same_vec (hfin _ m3) e3] at hx
    exact ⟨o, shapes, s, hs, hocc, a, b, c, hT', hx⟩

/-- Two descriptions of a brush as a box are of the same box. -/
theorem box_unique {b b' : GridBox} {planes : List (BrushPlane F32)} (h : b.IsBrush planes) (h' : b'.IsBrush planes)
    (x : V3 ℝ) : (b.Inside x ↔ b'.Inside x) ∧ ∀ a up, b.OnSide a up x ↔ b'.OnSide a up x := by
  have key : ∀ a up, ((b.side a up : Int) : ℝ) / 2 ^ b.g = ((b'.side a up : Int) : ℝ) / 2 ^ b'.g := by
    intro a up
    obtain ⟨p, hp, n0, n1, n2, g0, g1, g2, hs⟩ := h.2 a up
    obtain ⟨a', up', hs'⟩ := h'.1 p hp
    have e : (a, up) = (a', up') := by
      have n := (side_face b.fine ⟨n0, n1, n2, g0, g1, g2, hs⟩).normal
      have n' := (side_face b'.fine hs').normal
      have := (beq_grid n n').1 ((beq_grid n n).2 rfl)
      revert this
      cases a <;> cases a' <;> cases up <;> cases up' <;> simp [nrm, sgn]
    cases e
    obtain ⟨m0, m1, m2, k0, k1, k2, hs'⟩ := hs'
    rw [← hs.1, ← hs'.1]
    cases a
    · exact g0.x.2.symm.trans k0.x.2
    · exact g0.y.2.symm.trans k0.y.2
    · exact g0.z.2.symm.trans k0.z.2
  have hlo := fun a => key a false
  have hhi := fun a => key a true
  simp only [GridBox.side, if_true, Bool.false_eq_true, if_false] at hlo hhi
  constructor
  · unfold GridBox.Inside
    simp only [hlo, hhi]
  · intro a up
    unfold GridBox.OnSide
    simp only [key, hlo, hhi]

/-- C93: a map file whose brushes are boxes written in decimal numbers loads, under the conditions on its entities of
C91; if all brushes are to have convex collision it fills exactly the boxes, and if all are to have concave collision it
covers exactly their sides. -/
theorem C93_loads [QuadrantAtan2] [DecimalText] (depth : Nat)
    (order : List (Str × List (BrushGeo F32)) → List (Str × List (BrushGeo F32))) (horder : ∀ l, (order l).Perm l)
    (config : Config F32) (text : Str) (ht : config.mapFile = some text) (f : MapFile) (hf : TextIs text f)
    (hb : ∀ block ∈ f.blocks, ∀ faces, Spec.Item.brush faces ∈ block → ∃ b, BoxText b faces)
    (entities : List (Entity F32)) (hm : MapIs text entities)
    (hworld : ∃ pre w post, entities = pre ++ w :: post ∧ w.properties (str! "classname") = some (str! "worldspawn") ∧
      ∀ e ∈ pre ++ post, e.properties (str! "classname") ≠ some (str! "worldspawn"))
    (hnamed : ∀ e ∈ entities, ∃ name, e.properties (str! "classname") = some name)
    (hids : ∀ e ∈ entities, ∀ k ∈ [str! "_tb_id", str! "_tb_group"], ∀ s, e.properties k = some s → ∃ i, ReadsI32 s i)
    (htree : ¬ Loop entities) (hd : entities.length ≤ depth) :
    ∃ nodes, Quarch.run depth order config = .ok nodes ∧
      ((∀ e ∈ entities, Anchored entities e) →
       ((∀ e ∈ entities, ∀ br ∈ e.brushes, SolidAs config e br .convex) →
        ∀ x, InSolid32 nodes x ↔ ∃ block ∈ f.blocks, ∃ faces, Spec.Item.brush faces ∈ block ∧
          ∃ b, BoxText b faces ∧ b.Inside x) ∧
       ((∀ e ∈ entities, ∀ br ∈ e.brushes, SolidAs config e br .concave) →
        ∀ x, OnSolid32 nodes x ↔ ∃ block ∈ f.blocks, ∃ faces, Spec.Item.brush faces ∈ block ∧
          ∃ b, BoxText b faces ∧ ∃ a up, b.OnSide a up x)) := by
  obtain ⟨nodes, hn, -⟩ := C91_loads depth order horder config text ht f hf hb entities hm hworld hnamed hids htree hd
  refine ⟨nodes, hn, fun ha => ?_⟩
  have hl := (C92_text text entities).2 hm
  have key := C91_text text f hf entities hl
  have hbox : ∀ e ∈ entities, Anchored entities e → ∀ br ∈ e.brushes, ∃ b : GridBox, b.IsAligned br.planes := by
    intro e he _ br hbr
    obtain ⟨block, hbl, hbe⟩ := forall₂_right key he
    obtain ⟨faces, hfm, hfb⟩ := forall₂_right hbe hbr
    obtain ⟨b, hbt⟩ := hb block hbl faces (forall₂_filterMap_mem.1 hfm)
    exact ⟨b, hfb b hbt⟩
  have from_brush : ∀ e ∈ entities, ∀ br ∈ e.brushes, ∃ block ∈ f.blocks, ∃ faces, Spec.Item.brush faces ∈ block ∧
      ∃ b, BoxText b faces ∧ b.IsAligned br.planes := by
    intro e he br hbr
    obtain ⟨block, hbl, hbe⟩ := forall₂_right key he
    obtain ⟨faces, hfm, hfb⟩ := forall₂_right hbe hbr
    obtain ⟨b, hbt⟩ := hb block hbl faces (forall₂_filterMap_mem.1 hfm)
    exact ⟨block, hbl, faces, forall₂_filterMap_mem.1 hfm, b, hbt, hfb b hbt⟩
  have to_brush : ∀ block ∈ f.blocks, ∀ faces, Spec.Item.brush faces ∈ block → ∃ e ∈ entities, ∃ br ∈ e.brushes,
      ∀ b, BoxText b faces → b.IsAligned br.planes := by
    intro block hbl faces hfm
    obtain ⟨e, he, hbe⟩ := forall₂_left key hbl
    obtain ⟨br, hbr, hfb⟩ := forall₂_left hbe (forall₂_filterMap_mem.2 hfm)
    exact ⟨e, he, br, hbr, hfb⟩
  constructor
  · intro hs x
    rw [C93_filled depth order horder config nodes hn text ht entities hl
      (fun e he ha br hbr => (hbox e he ha br hbr).imp fun _ h => h.1) x]
    constructor
    · rintro ⟨e, he, -, br, hbr, -, b, hbx, hx⟩
      obtain ⟨block, hbl, faces, hfm, b', hbt, hbx'⟩ := from_brush e he br hbr
      exact ⟨block, hbl, faces, hfm, b', hbt, ((box_unique hbx hbx'.1 x).1).1 hx⟩
    · rintro ⟨block, hbl, faces, hfm, b, hbt, hx⟩
      obtain ⟨e, he, br, hbr, hfb⟩ := to_brush block hbl faces hfm
      exact ⟨e, he, ha e he, br, hbr, hs e he br hbr, b, (hfb b hbt).1, hx⟩
  · intro hs x
    rw [C93_covered depth order horder config nodes hn text ht entities hl hbox x]
    constructor
    · rintro ⟨e, he, -, br, hbr, -, b, hbx, a, up, hx⟩
      obtain ⟨block, hbl, faces, hfm, b', hbt, hbx'⟩ := from_brush e he br hbr
      exact ⟨block, hbl, faces, hfm, b', hbt, a, up, ((box_unique hbx.1 hbx'.1 x).2 a up).1 hx⟩
    · rintro ⟨block, hbl, faces, hfm, b, hbt, a, up, hx⟩
      obtain ⟨e, he, br, hbr, hfb⟩ := to_brush block hbl faces hfm
      exact ⟨e, he, ha e he, br, hbr, hs e he br hbr, b, hfb b hbt, a, up, hx⟩

end
end Quarch
