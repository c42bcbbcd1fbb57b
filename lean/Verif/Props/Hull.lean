import Verif.Props.WatertightExamples
import Verif.Props.Surface
import Mathlib.Analysis.LocallyConvex.Separation
import Mathlib.Analysis.Convex.Topology
/-
C79: convex collision shapes are the brushes. C80: concave collision shapes are closed surfaces.
-/
set_option linter.unusedSectionVars false
namespace Quarch
namespace Spec

/-- Convex hull: `x` is in every convex set that contains the points. -/
def InHullOf (pts : List (V3 ℝ)) (x : V3 ℝ) : Prop :=
  ∀ C : V3 ℝ → Prop,
    (∀ a b, C a → C b → ∀ t : ℝ, 0 ≤ t → t ≤ 1 → C (addR (smulR (1 - t) a) (smulR t b))) →
    (∀ p ∈ pts, C p) → C x

/-- The list of triangle corners, three per triangle, has the directed side from `a` to `b`. -/
def HasSide (cs : List (V3 ℝ)) (a b : V3 ℝ) : Prop :=
  ∃ t s, s < 3 ∧ cs[3 * t + s]? = some a ∧ cs[3 * t + (s + 1) % 3]? = some b

end Spec

open Spec Geo Poly

/-! ### convex hulls -/

def toE (x : V3 ℝ) : ℝ × ℝ × ℝ := (x.x, x.y, x.z)
def ofE (e : ℝ × ℝ × ℝ) : V3 ℝ := ⟨e.1, e.2.1, e.2.2⟩

/-- A point that is in no direction beyond all of the points is in their hull. -/
theorem hull_of_support {pts : List (V3 ℝ)} {x : V3 ℝ} (h : ∀ w, ∃ c ∈ pts, dotR w x ≤ dotR w c) : InHullOf pts x := by
  intro C hC hp
  have hconv : Convex ℝ {e | C (ofE e)} := by
    intro a ha b hb s t hs ht hst
    have := hC _ _ ha hb t ht (by linarith)
    show C (ofE (s • a + t • b))
    have e : ofE (s • a + t • b) = addR (smulR (1 - t) (ofE a)) (smulR t (ofE b)) := by
      rw [show 1 - t = s by linarith]
      apply V3.ext' <;> simp [ofE, addR, smulR]
    rw [e]; exact this
  have hfin : {e | ∃ p ∈ pts, e = toE p}.Finite := by
    refine ((List.finite_toSet pts).image toE).subset ?_
    rintro e ⟨p, hp, rfl⟩
    exact ⟨p, hp, rfl⟩
  have hsub : convexHull ℝ {e | ∃ p ∈ pts, e = toE p} ⊆ {e | C (ofE e)} := by
    refine convexHull_min ?_ hconv
    rintro e ⟨p, hpm, rfl⟩
    exact hp p hpm
  have hmem : toE x ∈ convexHull ℝ {e | ∃ p ∈ pts, e = toE p} := by
    by_contra hn
    obtain ⟨f, u, h1, h2⟩ := geometric_hahn_banach_point_closed (convex_convexHull ℝ _)
      (hfin.isClosed_convexHull ℝ) hn
    have hf : ∀ y : V3 ℝ, f (toE y) = dotR ⟨f (1, 0, 0), f (0, 1, 0), f (0, 0, 1)⟩ y := by
      intro y
      have : toE y = y.x • ((1, 0, 0) : ℝ × ℝ × ℝ) + y.y • ((0, 1, 0) : ℝ × ℝ × ℝ) + y.z • ((0, 0, 1) : ℝ × ℝ × ℝ) := by
        simp [toE]
      rw [this, map_add, map_add, map_smul, map_smul, map_smul]
      simp only [dotR, smul_eq_mul]
      ring
    obtain ⟨c, hc, hle⟩ := h (smulR (-1) ⟨f (1, 0, 0), f (0, 1, 0), f (0, 0, 1)⟩)
    have h3 := h2 (toE c) (subset_convexHull ℝ _ ⟨c, hc, rfl⟩)
    rw [hf] at h1 h3
    have hneg : ∀ w y : V3 ℝ, dotR (smulR (-1) w) y = -dotR w y := by
      intro w y; simp only [dotR, smulR]; ring
    rw [hneg, hneg] at hle
    linarith
  exact hsub hmem

section
variable [RealText] [Platform]

/-- In a bounded body no point is beyond all corners, in any direction. -/
theorem corner_beyond_body {planes : List (BrushPlane ℝ)} (hb : Bounded planes)
    (hnd : ∀ p ∈ planes, NonDegenerate p) {x : V3 ℝ} (hx : In planes x) (w : V3 ℝ) :
    ∃ f ∈ planes, ∃ c, Corner planes f c ∧ dotR w x ≤ dotR w c := by
  obtain ⟨d, hd, hw⟩ : ∃ d, d ≠ zeroR ∧ 0 ≤ dotR w d := by
    by_cases h0 : w = zeroR
    · exact ⟨⟨1, 0, 0⟩, by simp [zeroR], by rw [h0]; simp [dotR, zeroR]⟩
    · exact ⟨w, h0, (self_ne h0).le⟩
  obtain ⟨t, ht, hin, g, hg, _, hon⟩ := slide hb hx hd
  obtain ⟨c, hc, hle⟩ := corner_beyond hb (hnd g hg) hin hon w
  refine ⟨g, hg, c, hc, le_trans ?_ hle⟩
  rw [dot_go]
  have := mul_nonneg ht hw
  linarith

theorem samePlace_real {a b : V3 ℝ} : SamePlace a b ↔ a = b := by
  unfold SamePlace
  constructor
  · rintro (h | h)
    · exact h
    · simpa using eqV3_iff.1 h
  · exact .inl

/-- Brushes of an entity and what they were built from. -/
theorem entity_brushes {textures : TextureInfo} {entity : Entity ℝ} {geo : EntityGeo ℝ}
    (h : buildEntity textures entity = .ok geo) :
    List.Forall₂ (fun brush b => buildBrush textures entity brush = .ok b) entity.brushes geo.brushes := by
  unfold buildEntity at h
  obtain ⟨bgs, h1, h2⟩ := Outcome.bind_eq_ok.1 h
  cases h2
  exact mapOut_eq_ok.1 h1

/-- The vertices of a proper brush: its corners. -/
theorem brush_points {textures : TextureInfo} {entity : Entity ℝ} {brush : Brush ℝ} {b : BrushGeo ℝ}
    (h : buildBrush textures entity brush = .ok b) (hp : ProperBrush brush.planes) (x : V3 ℝ) :
    (∃ p ∈ b.planes, ∃ v ∈ p.vertices, v.pos = x) ↔ ∃ f ∈ brush.planes, Corner brush.planes f x := by
  unfold buildBrush at h
  obtain ⟨pgs, h1, h2⟩ := Outcome.bind_eq_ok.1 h
  cases h2
  constructor
  · rintro ⟨p, hpm, v, hv, rfl⟩
    obtain ⟨f, hf, hb⟩ := mapOut_mem h1 hpm
    exact ⟨f, hf, (proper_corner hp hf hb v.pos).1 (List.mem_map_of_mem hv)⟩
  · rintro ⟨f, hf, hc⟩
    obtain ⟨p, hpm, hb⟩ := mapOut_mem' h1 hf
    obtain ⟨v, hv, e⟩ := List.mem_map.1 ((proper_corner hp hf hb x).2 hc)
    exact ⟨p, hpm, v, hv, e⟩

/-- The hull of the corners of a proper brush. -/
theorem corners_hull {textures : TextureInfo} {entity : Entity ℝ} {brush : Brush ℝ} {b : BrushGeo ℝ}
    (hb : buildBrush textures entity brush = .ok b) (hp : ProperBrush brush.planes) {points : List (V3 ℝ)}
    (hs1 : ∀ x ∈ points, ∃ p ∈ b.planes, ∃ v ∈ p.vertices, v.pos = x)
    (hs2 : ∀ p ∈ b.planes, ∀ v ∈ p.vertices, ∃ x ∈ points, SamePlace x v.pos) (x : V3 ℝ) :
    InHullOf points x ↔ ∀ p ∈ brush.planes, WithinR 0 p x := by
  constructor
  · intro hx
    refine hx (fun y => ∀ p ∈ brush.planes, WithinR 0 p y) ?_ ?_
    · intro a c ha hc t ht0 ht1 p hpm
      have e1 := (within_zero p a).1 (ha p hpm)
      have e2 := (within_zero p c).1 (hc p hpm)
      rw [within_zero]
      have e : ht p (addR (smulR (1 - t) a) (smulR t c)) = (1 - t) * ht p a + t * ht p c := by
        simp only [ht, dotR, subR, addR, smulR]; ring
      rw [e]
      have := mul_nonpos_of_nonneg_of_nonpos (sub_nonneg.2 ht1) e1
      have := mul_nonpos_of_nonneg_of_nonpos ht0 e2
      linarith
    · intro y hy p hpm
      obtain ⟨f, _, hc⟩ := (brush_points hb hp y).1 (hs1 y hy)
      exact (within_zero p y).2 (hc.1 p hpm)
  · intro hx
    apply hull_of_support
    intro w
    obtain ⟨f, hf, c, hc, hle⟩ := corner_beyond_body (proper_bounded hp) hp.points
      (fun p hpm => (within_zero p x).1 (hx p hpm)) w
    obtain ⟨p, hpm, v, hv, e⟩ := (brush_points hb hp c).2 ⟨f, hf, hc⟩
    obtain ⟨y, hy, hsame⟩ := hs2 p hpm v hv
    rw [samePlace_real, e] at hsame
    exact ⟨c, hsame ▸ hy, hle⟩

/-- C79: the convex hull of the points of a convex collision shape is the brush it was made from. -/
theorem C79_hull_is_brush (textures : TextureInfo) (entity : Entity ℝ) (geo : EntityGeo ℝ)
    (h : buildEntity textures entity = .ok geo) :
    ∃ shapes, Scene.collisionOf .convex geo = .ok (.convex shapes) ∧
      List.Forall₂ (fun (brush : Brush ℝ) (shape : ConvexCollision ℝ) => ProperBrush brush.planes →
        ∀ x, InHullOf shape.points x ↔ ∀ p ∈ brush.planes, WithinR 0 p x) entity.brushes shapes := by
  obtain ⟨shapes, h1, h2⟩ := C40_convex geo
  refine ⟨shapes, h1, ?_⟩
  have h3 := entity_brushes h
  have hlen : entity.brushes.length = shapes.length := h3.length_eq.trans h2.length_eq
  rw [List.forall₂_iff_get]
  refine ⟨hlen, fun i hi hi' => ?_⟩
  have hb := (List.forall₂_iff_get.1 h3).2 i hi (by rw [← h3.length_eq]; exact hi)
  obtain ⟨_, hs1, hs2, _⟩ := (List.forall₂_iff_get.1 h2).2 i (by rw [← h3.length_eq]; exact hi) hi'
  generalize entity.brushes.get ⟨i, hi⟩ = brush at *
  generalize geo.brushes.get ⟨i, _⟩ = b at *
  generalize shapes.get ⟨i, hi'⟩ = shape at *
  exact fun hp x => corners_hull hb hp hs1 hs2 x

/-! ### sides of triangle lists -/

theorem hasSide_append {l1 l2 : List (V3 ℝ)} (h : 3 ∣ l1.length) (a b : V3 ℝ) :
    HasSide (l1 ++ l2) a b ↔ HasSide l1 a b ∨ HasSide l2 a b := by
  obtain ⟨k, hk⟩ := h
  constructor
  · rintro ⟨t, s, hs, h1, h2⟩
    have hm : (s + 1) % 3 < 3 := Nat.mod_lt _ (by omega)
    by_cases hlt : t < k
    · left
      rw [List.getElem?_append_left (by omega)] at h1 h2
      exact ⟨t, s, hs, h1, h2⟩
    · right
      rw [List.getElem?_append_right (by omega)] at h1 h2
      refine ⟨t - k, s, hs, ?_, ?_⟩
      · rw [← h1]; congr 1; omega
      · rw [← h2]; congr 1; omega
  · rintro (⟨t, s, hs, h1, h2⟩ | ⟨t, s, hs, h1, h2⟩)
    · have e1 := (List.getElem?_eq_some_iff.1 h1).1
      have e2 := (List.getElem?_eq_some_iff.1 h2).1
      exact ⟨t, s, hs, by rw [List.getElem?_append_left e1, h1], by rw [List.getElem?_append_left e2, h2]⟩
    · refine ⟨t + k, s, hs, ?_, ?_⟩
      · rw [List.getElem?_append_right (by omega), ← h1]; congr 1; omega
      · rw [List.getElem?_append_right (by omega), ← h2]; congr 1; omega

theorem hasSide_flatMap {α : Type} {f : α → List (V3 ℝ)} {l : List α} (h : ∀ x ∈ l, 3 ∣ (f x).length) (a b : V3 ℝ) :
    HasSide (l.flatMap f) a b ↔ ∃ x ∈ l, HasSide (f x) a b := by
  induction l with
  | nil => simp [HasSide]
  | cons x l ih =>
    rw [List.flatMap_cons, hasSide_append (h x (by simp)), ih fun y hy => h y (by simp [hy])]
    simp

theorem dvd_flatMap {α : Type} {f : α → List (V3 ℝ)} {l : List α} (h : ∀ x ∈ l, 3 ∣ (f x).length) :
    3 ∣ (l.flatMap f).length := by
  induction l with
  | nil => simp
  | cons x l ih =>
    rw [List.flatMap_cons, List.length_append]
    exact Nat.dvd_add (h x (by simp)) (ih fun y hy => h y (by simp [hy]))

theorem filterMap_getElem? {α β : Type} {f : α → Option β} {l : List α} (h : ∀ x ∈ l, (f x).isSome = true) (k : Nat) :
    (l.filterMap f)[k]? = l[k]?.bind f := by
  induction l generalizing k with
  | nil => simp
  | cons x l ih =>
    obtain ⟨y, hy⟩ := Option.isSome_iff_exists.1 (h x (by simp))
    rw [List.filterMap_cons_some hy]
    cases k with
    | zero => simp [hy]
    | succ k => simpa using ih (fun z hz => h z (by simp [hz])) k

/-- Corner positions of the triangles of a face. -/
def places (p : PlaneGeo ℝ) : List (V3 ℝ) := (faceCorners p).map (·.pos)

theorem places_dvd {p : PlaneGeo ℝ} (h : IsFan p.vertices.length p.indices) : 3 ∣ (places p).length := by
  unfold places
  rw [List.length_map, faceCorners_length h]
  exact isFan_length h

theorem places_side {p : PlaneGeo ℝ} (h : IsFan p.vertices.length p.indices) (a b : V3 ℝ) :
    HasSide (places p) a b ↔ ∃ t s m n v w, s < 3 ∧ p.indices[3 * t + s]? = some m ∧
      p.indices[3 * t + (s + 1) % 3]? = some n ∧ p.vertices[m]? = some v ∧ p.vertices[n]? = some w ∧
      v.pos = a ∧ w.pos = b := by
  have hv : ∀ i ∈ p.indices, (p.vertices[i]?).isSome = true := by
    intro i hi
    obtain ⟨t, ht, h1⟩ := isFan_mem h hi
    rw [List.getElem?_eq_getElem (by omega)]; rfl
  have key : ∀ (k : Nat) (x : V3 ℝ), (places p)[k]? = some x ↔ ∃ (i : Nat) (v : Vertex ℝ), p.indices[k]? = some i ∧ p.vertices[i]? = some v ∧ v.pos = x := by
    intro k x
    unfold places faceCorners
    rw [List.getElem?_map, filterMap_getElem? hv, Option.map_eq_some_iff]
    constructor
    · rintro ⟨v, h1, rfl⟩
      obtain ⟨i, h2, h3⟩ := Option.bind_eq_some_iff.1 h1
      exact ⟨i, v, h2, h3, rfl⟩
    · rintro ⟨i, v, h1, h2, rfl⟩
      exact ⟨v, Option.bind_eq_some_iff.2 ⟨i, h1, h2⟩, rfl⟩
  constructor
  · rintro ⟨t, s, hs, h1, h2⟩
    obtain ⟨m, v, h3, h4, h5⟩ := (key _ _).1 h1
    obtain ⟨n, w, h6, h7, h8⟩ := (key _ _).1 h2
    exact ⟨t, s, m, n, v, w, hs, h3, h6, h4, h7, h5, h8⟩
  · rintro ⟨t, s, m, n, v, w, hs, h3, h6, h4, h7, h5, h8⟩
    exact ⟨t, s, hs, (key _ _).2 ⟨m, v, h3, h4, h5⟩, (key _ _).2 ⟨n, w, h6, h7, h8⟩⟩

theorem brush_fan {textures : TextureInfo} {entity : Entity ℝ} {brush : Brush ℝ} {b : BrushGeo ℝ}
    (h : buildBrush textures entity brush = .ok b) : ∀ p ∈ b.planes, IsFan p.vertices.length p.indices := by
  unfold buildBrush at h
  obtain ⟨pgs, h1, h2⟩ := Outcome.bind_eq_ok.1 h
  cases h2
  intro p hp
  obtain ⟨f, _, hb⟩ := mapOut_mem h1 hp
  exact C19_fan _ _ _ _ _ hb

/-- The triangles of a proper brush: every side occurs in both directions. -/
theorem brush_closed {textures : TextureInfo} {entity : Entity ℝ} {brush : Brush ℝ} {b : BrushGeo ℝ}
    (h : buildBrush textures entity brush = .ok b) (hp : ProperBrush brush.planes) {x y : V3 ℝ}
    (hs : ∃ p ∈ b.planes, HasSide (places p) x y) : ∃ p ∈ b.planes, HasSide (places p) y x := by
  have hfan := brush_fan h
  obtain ⟨p, hpm, hs⟩ := hs
  obtain ⟨t, s, m, n, v, w, h1, h2, h3, h4, h5, h6, h7⟩ := (places_side (hfan p hpm) x y).1 hs
  obtain ⟨i, hi⟩ := List.mem_iff_getElem?.1 hpm
  obtain ⟨i', t', s', hs', q, m', n', v', w', k1, k2, k3, k4, k5, k6, k7⟩ :=
    C78_watertight textures entity brush b h hp i t s x y ⟨h1, p, m, n, v, w, hi, h2, h3, h4, h5, h6, h7⟩
  have hq := List.mem_of_getElem? k1
  exact ⟨q, hq, (places_side (hfan q hq) y x).2 ⟨t', s', m', n', v', w', hs', k2, k3, k4, k5, k6, k7⟩⟩

theorem forall₂_samePlace {l1 l2 : List (V3 ℝ)} (h : List.Forall₂ SamePlace l1 l2) : l1 = l2 := by
  induction h with
  | nil => rfl
  | cons h _ ih => rw [samePlace_real.1 h, ih]

theorem corners_unique {α : Type} {vs : List α} {is : List Nat} {c1 c2 : List α} (h1 : Corners vs is c1)
    (h2 : Corners vs is c2) : c1 = c2 := by
  unfold Corners at h1 h2
  exact List.map_injective_iff.2 (Option.some_injective _) (h1.symm.trans h2)

theorem geo_fanned {textures : TextureInfo} {entity : Entity ℝ} {geo : EntityGeo ℝ}
    (h : buildEntity textures entity = .ok geo) : Fanned geo.brushes := by
  intro b hb p hp
  obtain ⟨i, hi, rfl⟩ := List.getElem_of_mem hb
  have h3 := entity_brushes h
  have := (List.forall₂_iff_get.1 h3).2 i (by rw [h3.length_eq]; exact hi) hi
  exact brush_fan this p hp

theorem geo_closed {textures : TextureInfo} {entity : Entity ℝ} {geo : EntityGeo ℝ}
    (h : buildEntity textures entity = .ok geo) (hp : ∀ brush ∈ entity.brushes, ProperBrush brush.planes)
    {b : BrushGeo ℝ} (hb : b ∈ geo.brushes) {x y : V3 ℝ} (hs : ∃ p ∈ b.planes, HasSide (places p) x y) :
    ∃ p ∈ b.planes, HasSide (places p) y x := by
  obtain ⟨i, hi, rfl⟩ := List.getElem_of_mem hb
  have h3 := entity_brushes h
  have := (List.forall₂_iff_get.1 h3).2 i (by rw [h3.length_eq]; exact hi) hi
  exact brush_closed this (hp _ (List.get_mem _ _)) hs

/-- C80: a concave collision shape of proper brushes is a closed surface: every directed side of a triangle
occurs in the opposite direction. -/
theorem C80_concave_closed (textures : TextureInfo) (entity : Entity ℝ) (geo : EntityGeo ℝ)
    (h : buildEntity textures entity = .ok geo) (hp : ∀ brush ∈ entity.brushes, ProperBrush brush.planes)
    (shapes : List (ConcaveCollision ℝ)) (hc : Scene.collisionOf .concave geo = .ok (.concave shapes))
    (shape : ConcaveCollision ℝ) (hs : shape ∈ shapes) :
    ∃ cs, Corners shape.vertices shape.indices cs ∧ ∀ a b, HasSide cs a b → HasSide cs b a := by
  have hfan := geo_fanned h
  rcases C41_concave geo hfan with ⟨_, h1⟩ | ⟨_, sh, h1, _, _, ⟨cs, hcs, hpl⟩, _⟩
  · rw [hc] at h1; cases h1
  · rw [hc] at h1
    cases h1
    cases List.mem_singleton.1 hs
    refine ⟨cs, hcs, ?_⟩
    have e : cs = geo.brushes.flatMap fun b => b.planes.flatMap places := by
      rw [forall₂_samePlace hpl, List.map_flatMap]
      congr 1
      funext b
      rw [List.map_flatMap]
      rfl
    have hd : ∀ b ∈ geo.brushes, ∀ p ∈ b.planes, 3 ∣ (places p).length := fun b hb p hpm =>
      places_dvd (hfan b hb p hpm)
    have hside : ∀ x y, HasSide cs x y ↔ ∃ b ∈ geo.brushes, ∃ p ∈ b.planes, HasSide (places p) x y := by
      intro x y
      rw [e, hasSide_flatMap fun b hb => dvd_flatMap (hd b hb)]
      constructor
      · rintro ⟨b, hb, h2⟩
        exact ⟨b, hb, (hasSide_flatMap (hd b hb) x y).1 h2⟩
      · rintro ⟨b, hb, h2⟩
        exact ⟨b, hb, (hasSide_flatMap (hd b hb) x y).2 h2⟩
    intro x y hxy
    obtain ⟨b, hb, h2⟩ := (hside x y).1 hxy
    exact (hside y x).2 ⟨b, hb, geo_closed h hp hb h2⟩

theorem geo_fromEntity {textures : TextureInfo} {entity : Entity ℝ} {geo : EntityGeo ℝ}
    (h : buildEntity textures entity = .ok geo) : FromEntity entity geo.brushes := by
  intro b hb p hp t ht
  obtain ⟨eb, heb, hb'⟩ := forall₂_right (entity_brushes h) hb
  unfold buildBrush at hb'
  obtain ⟨pgs, h1, h2⟩ := Outcome.bind_eq_ok.1 hb'
  cases h2
  obtain ⟨ep, hep, hp'⟩ := mapOut_mem h1 hp
  refine ⟨eb, heb, ep, hep, ?_⟩
  obtain ⟨_, _, _, _, _, _, _, e⟩ := buildPlane_ok hp'
  rw [e] at ht
  split at ht
  · exact Option.some.inj ht
  · cases ht

/-- C80: so are all surfaces of an entity together, if nothing of it is blacklisted. -/
theorem C80_visual_closed (textures : TextureInfo) (entity : Entity ℝ) (geo : EntityGeo ℝ)
    (h : buildEntity textures entity = .ok geo) (hp : ∀ brush ∈ entity.brushes, ProperBrush brush.planes)
    (bd : BrushData) (hbd : bd.visualType = .mesh) (bl : TextureBlacklist) (v : VisualGeometry ℝ)
    (hv : Scene.brushVisual entity geo bd bl = .ok v)
    (hbl : ∀ brush ∈ entity.brushes, ∀ p ∈ brush.planes, p.texture ∉ bl.plane ∧ p.texture ∉ bl.brush)
    (s : MeshSurface ℝ) (hs : s ∈ surfaces v) :
    ∃ cs, Corners s.vertices s.indices cs ∧ ∀ a b, HasSide cs a b →
      ∃ s' ∈ surfaces v, ∃ cs', Corners s'.vertices s'.indices cs' ∧ HasSide cs' b a := by
  have hfan := geo_fanned h
  have hfrom := geo_fromEntity h
  obtain ⟨cs, hcs, hpl⟩ := C34_triangles_kept entity geo bd bl v hfan hv s hs
  refine ⟨cs, hcs, fun x y hxy => ?_⟩
  rw [forall₂_samePlace hpl, List.map_flatMap] at hxy
  have hmem : ∀ p ∈ (shownFaces bl s.texture geo.brushes).flatten, ∃ b ∈ geo.brushes, p ∈ b.planes := by
    intro p hpm
    obtain ⟨ps, h1, h2⟩ := List.mem_flatten.1 hpm
    obtain ⟨b, hb, _, rfl⟩ := shown_mem h1
    exact ⟨b, hb, (List.mem_filter.1 h2).1⟩
  obtain ⟨p, hpm, hside⟩ := (hasSide_flatMap (f := places) (fun p hpm => by
    obtain ⟨b, hb, hpb⟩ := hmem p hpm
    exact places_dvd (hfan b hb p hpb)) x y).1 hxy
  obtain ⟨b, hb, hpb⟩ := hmem p hpm
  obtain ⟨q, hq, hside'⟩ := geo_closed h hp hb ⟨p, hpb, hside⟩
  have hqf := hfan b hb q hq
  have hne : q.vertices ≠ [] := by
    intro h0
    obtain ⟨_, _, m, _, v, _, _, _, _, h4, _⟩ := (places_side hqf y x).1 hside'
    rw [h0] at h4
    simp at h4
  have hshow : ∀ t, q.texture = some t → t ∉ bl.plane ∧ t ∉ bl.brush := by
    intro t ht
    obtain ⟨eb, heb, ep, hep, rfl⟩ := hfrom b hb q hq t ht
    exact hbl eb heb ep hep
  have hhid : ¬ Hidden bl b := by
    intro hh
    have := hh q hq
    cases ht : q.texture with
    | none => rw [ht] at this; cases this
    | some t =>
      rw [ht] at this
      exact (hshow t ht).2 (of_decide_eq_true this)
  obtain ⟨s', hs', _, _, pre, mid, post, hcs', hmid, hpre⟩ := C39_nothing_lost entity geo bd bl v hfan hfrom hbd hv
    b hb hhid q hq hne fun t ht => (hshow t ht).1
  refine ⟨s', hs', _, hcs', ?_⟩
  have e : mid = places q := forall₂_samePlace hmid
  subst e
  rw [hasSide_append (by rw [List.length_append]; exact Nat.dvd_add hpre (places_dvd hqf)), hasSide_append hpre]
  exact .inl (.inr hside')

/-! ### the cube -/

/-- An entity that is the unit cube, and its geometry. -/
theorem Cube.entity (textures : TextureInfo) : ∃ geo b pgs,
    buildEntity textures (⟨Map.empty, [⟨Cube.planes⟩]⟩ : Entity ℝ) = .ok geo ∧ geo.brushes = [b] ∧ b.planes = pgs ∧
    mapOut (fun p => buildPlane textures (⟨Map.empty, [⟨Cube.planes⟩]⟩ : Entity ℝ) Cube.planes p) Cube.planes = .ok pgs := by
  obtain ⟨pgs, hp⟩ := mapOut_isOk.2 fun (plane : BrushPlane ℝ) (_ : plane ∈ Cube.planes) =>
    buildPlane_real textures (⟨Map.empty, [⟨Cube.planes⟩]⟩ : Entity ℝ) Cube.planes plane
  have h : buildBrush textures (⟨Map.empty, [⟨Cube.planes⟩]⟩ : Entity ℝ) ⟨Cube.planes⟩ =
      .ok ⟨mean (pgs.map (·.center)), pgs⟩ := by
    unfold buildBrush; simp only []; rw [hp]; rfl
  refine ⟨⟨mean [mean (pgs.map (·.center))], [⟨mean (pgs.map (·.center)), pgs⟩]⟩, _, pgs, ?_, rfl, rfl, hp⟩
  unfold buildEntity
  simp only [mapOut, h]
  rfl

/-- C79 for the cube: there is one shape, the hull of its points is the cube. -/
example (textures : TextureInfo) : ∃ geo shape,
    buildEntity textures (⟨Map.empty, [⟨Cube.planes⟩]⟩ : Entity ℝ) = .ok geo ∧
    Scene.collisionOf .convex geo = .ok (.convex [shape]) ∧
    InHullOf shape.points ⟨1 / 2, 1 / 3, 1⟩ ∧ ¬ InHullOf shape.points ⟨1 / 2, 1 / 3, 2⟩ := by
  obtain ⟨geo, b, pgs, h, -⟩ := Cube.entity textures
  obtain ⟨shapes, h1, h2⟩ := C79_hull_is_brush textures _ geo h
  obtain ⟨shape, _, h3, h4, rfl⟩ := List.forall₂_cons_left_iff.1 h2
  cases h4
  refine ⟨geo, shape, h, h1, ?_, ?_⟩
  · rw [h3 Cube.proper, Cube.inside]; norm_num
  · rw [h3 Cube.proper, Cube.inside]; norm_num

/-- C80 for the cube: there is a shape, and it has triangles. -/
example (textures : TextureInfo) : ∃ geo shape cs,
    buildEntity textures (⟨Map.empty, [⟨Cube.planes⟩]⟩ : Entity ℝ) = .ok geo ∧
    Scene.collisionOf .concave geo = .ok (.concave [shape]) ∧ Corners shape.vertices shape.indices cs ∧
    (∀ a b, HasSide cs a b → HasSide cs b a) ∧ ∃ a b, HasSide cs a b := by
  obtain ⟨geo, b, pgs, h, hb, hpl, hp⟩ := Cube.entity textures
  obtain ⟨f, hfm, hf⟩ := mapOut_mem' hp (show Cube.xp ∈ Cube.planes by simp [Cube.planes])
  have h4 := Cube.four _ _ _ hf
  have hfan := C19_fan _ _ _ _ _ hf
  rcases C41_concave geo (geo_fanned h) with ⟨h0, _⟩ | ⟨_, shape, h1, _, _, ⟨cs, hcs, hpl'⟩, _⟩
  · have := h0 b (by rw [hb]; simp) f (by rw [hpl]; exact hfm)
    rw [this] at h4; cases h4
  · obtain ⟨cs', hcs', hclosed⟩ := C80_concave_closed textures _ geo h
      (fun brush hbm => by cases List.mem_singleton.1 hbm; exact Cube.proper) _ h1 shape (by simp)
    cases corners_unique hcs hcs'
    refine ⟨geo, shape, cs, h, h1, hcs, hclosed, ?_⟩
    have e := forall₂_samePlace hpl'
    have hlen : 6 ≤ cs.length := by
      rw [e, hb]
      simp only [List.flatMap_cons, List.flatMap_nil, List.append_nil, List.length_map, hpl]
      obtain ⟨l1, l2, rfl⟩ := List.append_of_mem hfm
      have : (faceCorners f).length = 6 := by rw [faceCorners_length hfan, hfan.1, h4]
      simp only [List.flatMap_append, List.flatMap_cons, List.length_append]
      omega
    exact ⟨cs[0], cs[1], 0, 0, by omega, List.getElem?_eq_getElem _, List.getElem?_eq_getElem _⟩

/-- C80 for the surfaces of the cube: they exist, and every side has its opposite. -/
example (textures : TextureInfo) (scene : BrushData) (hm : scene.visualType = .mesh) : ∃ geo v,
    buildEntity textures (⟨Map.empty, [⟨Cube.planes⟩]⟩ : Entity ℝ) = .ok geo ∧
    Scene.brushVisual (⟨Map.empty, [⟨Cube.planes⟩]⟩ : Entity ℝ) geo scene ⟨[], []⟩ = .ok v ∧ surfaces v ≠ [] ∧
    ∀ s ∈ surfaces v, ∃ cs, Corners s.vertices s.indices cs ∧ ∀ a b, HasSide cs a b →
      ∃ s' ∈ surfaces v, ∃ cs', Corners s'.vertices s'.indices cs' ∧ HasSide cs' b a := by
  obtain ⟨geo, b, pgs, h, hb, hpl, hp⟩ := Cube.entity textures
  obtain ⟨v, hv⟩ := C34_succeeds (⟨Map.empty, [⟨Cube.planes⟩]⟩ : Entity ℝ) geo scene ⟨[], []⟩ (geo_fanned h)
  obtain ⟨f, hfm, hf⟩ := mapOut_mem' hp (show Cube.xp ∈ Cube.planes by simp [Cube.planes])
  have h4 := Cube.four _ _ _ hf
  refine ⟨geo, v, h, hv, ?_, fun s hs => C80_visual_closed textures _ geo h
      (fun brush hbm => by cases List.mem_singleton.1 hbm; exact Cube.proper) scene hm _ v hv (by simp) s hs⟩
  obtain ⟨s, hs, _⟩ := C39_nothing_lost _ geo scene ⟨[], []⟩ v (geo_fanned h) (geo_fromEntity h) hm hv b
    (by rw [hb]; simp)
    (fun hh => by
      have := hh f (by rw [hpl]; exact hfm)
      cases ht : f.texture <;> rw [ht] at this <;> simp [knownIn] at this)
    f (by rw [hpl]; exact hfm) (by intro h0; rw [h0] at h4; cases h4) (by simp)
  exact List.ne_nil_of_mem hs

end
end Quarch
