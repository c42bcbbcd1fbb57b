import Verif.Spec.Volume
import Verif.Proofs.Simplex
import Verif.Props.Enclosed
/-
C129: the volume enclosed by the triangles of a brush is the volume of the brush.
-/
set_option linter.unusedSectionVars false
namespace Quarch
open Spec Geo Poly Simplex

/-! ### lists of triangles -/

def trip : List (V3 ℝ) → List (V3 ℝ × V3 ℝ × V3 ℝ)
  | a :: b :: c :: rest => (a, b, c) :: trip rest
  | _ => []

theorem trip_get : ∀ (cs : List (V3 ℝ)) (t : Nat) (a b c : V3 ℝ), (trip cs)[t]? = some (a, b, c) ↔
    cs[3 * t]? = some a ∧ cs[3 * t + 1]? = some b ∧ cs[3 * t + 2]? = some c
  | [], t, a, b, c => by simp [trip]
  | [_], t, a, b, c => by simp [trip]
  | [_, _], t, a, b, c => by simp [trip]
  | x :: y :: z :: rest, 0, a, b, c => by simp [trip]
  | x :: y :: z :: rest, t + 1, a, b, c => by
    have := trip_get rest t a b c
    simpa [trip, show 3 * (t + 1) = 3 * t + 1 + 1 + 1 by ring] using this

theorem trip_append : ∀ (l1 l2 : List (V3 ℝ)), 3 ∣ l1.length → trip (l1 ++ l2) = trip l1 ++ trip l2
  | [], l2, _ => by simp [trip]
  | [_], _, h => by simp at h
  | [_, _], _, h => by simp at h
  | a :: b :: c :: rest, l2, h => by
    have h' : 3 ∣ rest.length := by simp only [List.length_cons] at h; omega
    simp [trip, trip_append rest l2 h']

theorem trip_flatMap {α : Type} {f : α → List (V3 ℝ)} : ∀ {l : List α}, (∀ x ∈ l, 3 ∣ (f x).length) →
    trip (l.flatMap f) = l.flatMap fun x => trip (f x)
  | [], _ => by simp [trip]
  | x :: l, h => by
    rw [List.flatMap_cons, List.flatMap_cons, trip_append _ _ (h x (by simp)),
      trip_flatMap fun y hy => h y (by simp [hy])]

theorem sixVolume_trip (y : V3 ℝ) : ∀ cs : List (V3 ℝ),
    sixVolume y cs = ((trip cs).map fun t => beneath t.1 t.2.1 t.2.2 y).sum
  | [] => by simp [trip, sixVolume]
  | [_] => by simp [trip, sixVolume]
  | [_, _] => by simp [trip, sixVolume]
  | a :: b :: c :: rest => by simp [trip, sixVolume, sixVolume_trip y rest]

/-! ### the tetrahedron over a triangle -/

def fin3 (v : V3 ℝ) : R3 := ![v.x, v.y, v.z]

def tetra (y : V3 ℝ) (t : V3 ℝ × V3 ℝ × V3 ℝ) : R3 → R3 :=
  place (fin3 y) (fin3 (subR t.1 y)) (fin3 (subR t.2.1 y)) (fin3 (subR t.2.2 y))

theorem tetra_det (y a b c : V3 ℝ) :
    Matrix.det !![fin3 (subR a y) 0, fin3 (subR b y) 0, fin3 (subR c y) 0;
      fin3 (subR a y) 1, fin3 (subR b y) 1, fin3 (subR c y) 1;
      fin3 (subR a y) 2, fin3 (subR b y) 2, fin3 (subR c y) 2] = - beneath a b c y := by
  rw [Matrix.det_fin_three]
  simp [fin3, beneath, dotR, crossR, subR]
  ring

theorem tetra_volume (y : V3 ℝ) (t : V3 ℝ × V3 ℝ × V3 ℝ) (h : 0 < beneath t.1 t.2.1 t.2.2 y) {S : Set R3}
    (hS : MeasureTheory.volume S = ENNReal.ofReal (1 / 6)) :
    MeasureTheory.volume (tetra y t '' S) = ENNReal.ofReal (beneath t.1 t.2.1 t.2.2 y / 6) := by
  unfold tetra
  rw [place_image, tetra_det, abs_neg, abs_of_pos h, hS, ← ENNReal.ofReal_mul h.le]
  congr 1
  ring

theorem sum_ofReal {α : Type} {f : α → ℝ} : ∀ {l : List α}, (∀ x ∈ l, 0 < f x) →
    (l.map fun x => ENNReal.ofReal (f x / 6)).sum = ENNReal.ofReal ((l.map f).sum / 6) ∧ 0 ≤ (l.map f).sum
  | [], _ => by simp
  | x :: l, h => by
    obtain ⟨h1, h2⟩ := sum_ofReal (l := l) fun y hy => h y (by simp [hy])
    have := h x (by simp)
    simp only [List.map_cons, List.sum_cons]
    rw [h1, ← ENNReal.ofReal_add (by positivity) (by positivity)]
    exact ⟨by congr 1; ring, by linarith⟩

/-- A set filled by the tetrahedra over the triangles of a list. -/
theorem filled {B : Set R3} {y : V3 ℝ} {cs : List (V3 ℝ)} (hpos : ∀ t ∈ trip cs, 0 < beneath t.1 t.2.1 t.2.2 y)
    (hup : ∀ x ∈ B, ∃ t ∈ trip cs, x ∈ tetra y t '' outer) (hlo : ∀ t ∈ trip cs, ∀ x ∈ tetra y t '' inner, x ∈ B)
    (hd : (trip cs).Pairwise fun s t => Disjoint (tetra y s '' inner) (tetra y t '' inner)) :
    MeasureTheory.volume B = ENNReal.ofReal (sixVolume y cs / 6) := by
  have e : ∀ S : Set R3, MeasureTheory.volume S = ENNReal.ofReal (1 / 6) →
      ((trip cs).map fun t => MeasureTheory.volume (tetra y t '' S)).sum = ENNReal.ofReal (sixVolume y cs / 6) := by
    intro S hS
    rw [sixVolume_trip, ← (sum_ofReal hpos).1]
    congr 1
    exact List.map_congr_left fun t ht => tetra_volume y t (hpos t ht) hS
  apply le_antisymm
  · rw [← e outer outer_volume]
    exact (MeasureTheory.measure_mono hup).trans (upper (fun t => tetra y t '' outer) _)
  · rw [← e inner inner_volume]
    refine (lower (fun t => tetra y t '' inner) _ (fun t ht => ?_) hd).trans (MeasureTheory.measure_mono ?_)
    · apply place_measurable
      rw [tetra_det]
      exact neg_ne_zero.2 (hpos t ht).ne'
    · rintro x ⟨t, ht, hx⟩
      exact hlo t ht x hx

def v3 (x : R3) : V3 ℝ := ⟨x 0, x 1, x 2⟩

theorem v3_inj {x y : R3} (h : v3 x = v3 y) : x = y := by
  simp only [v3, V3.mk.injEq] at h
  funext i
  fin_cases i
  · exact h.1
  · exact h.2.1
  · exact h.2.2

/-- A point of the tetrahedron lies between its top and a point of the triangle. -/
theorem tetra_outer {y a b c z : V3 ℝ} {s : ℝ} (hs : 0 ≤ s) (hs1 : s ≤ 1) (hz : InTriangle a b c z) {x : R3}
    (hx : v3 x = addR (smulR (1 - s) y) (smulR s z)) : x ∈ tetra y (a, b, c) '' outer := by
  obtain ⟨r, u, t, hr, hu, ht, h1, rfl⟩ := hz
  refine ⟨![s * r, s * u, s * t], ⟨?_, ?_, ?_, ?_⟩, v3_inj ?_⟩
  · simpa using mul_nonneg hs hr
  · simpa using mul_nonneg hs hu
  · simpa using mul_nonneg hs ht
  · have : s * r + s * u + s * t = s := by rw [← mul_add, ← mul_add, h1, mul_one]
    simpa [this] using hs1
  · rw [hx]
    have ht' : t = 1 - r - u := by linarith
    subst ht'
    simp only [v3, tetra, place, fin3, addR, smulR, subR, V3.mk.injEq]
    refine ⟨?_, ?_, ?_⟩ <;> simp <;> ring

theorem tetra_inner {y a b c : V3 ℝ} {x : R3} (hx : x ∈ tetra y (a, b, c) '' inner) :
    ∃ s z, 0 < s ∧ s < 1 ∧ InsideTriangle a b c z ∧ v3 x = addR (smulR (1 - s) y) (smulR s z) := by
  obtain ⟨w, ⟨h0, h1, h2, h3⟩, rfl⟩ := hx
  have hs : 0 < w 0 + w 1 + w 2 := by positivity
  refine ⟨w 0 + w 1 + w 2, _, hs, h3, ⟨w 0 / (w 0 + w 1 + w 2), w 1 / (w 0 + w 1 + w 2), w 2 / (w 0 + w 1 + w 2),
    div_pos h0 hs, div_pos h1 hs, div_pos h2 hs, by field_simp, rfl⟩, ?_⟩
  simp only [v3, tetra, place, fin3, addR, smulR, subR, V3.mk.injEq]
  refine ⟨?_, ?_, ?_⟩ <;> simp <;> field_simp <;> ring

/-- From a point inside, a bounded body has a border point in every direction. -/
theorem border_ray {planes : List (BrushPlane ℝ)} {y d : V3 ℝ} (hy : ∀ p ∈ planes, ht p y < 0) (hd : d ≠ zeroR)
    (hb : ∃ R : ℝ, ∀ x, In planes x → |x.x| ≤ R ∧ |x.y| ≤ R ∧ |x.z| ≤ R) :
    ∃ s : ℝ, 0 < s ∧ In planes (go y s d) ∧ ∃ p ∈ planes, ht p (go y s d) = 0 := by
  obtain ⟨R, hR⟩ := hb
  have hout : ∃ m : ℝ, 0 < m ∧ ∃ p ∈ planes, 0 < ht p (go y m d) := by
    by_contra hc
    push Not at hc
    have key : ∀ (u v : ℝ), v ≠ 0 → ∃ m : ℝ, 0 < m ∧ R < |u + m * v| := by
      intro u v hv
      have hv' := abs_pos.2 hv
      refine ⟨(|R| + |u| + 1) / |v|, by positivity, ?_⟩
      have h1 := abs_sub_abs_le_abs_sub ((|R| + |u| + 1) / |v| * v) (-u)
      rw [abs_mul, abs_div, abs_abs, div_mul_cancel₀ _ hv'.ne', abs_neg, sub_neg_eq_add,
        abs_of_pos (by positivity : (0 : ℝ) < |R| + |u| + 1)] at h1
      rw [add_comm u]
      linarith [le_abs_self R]
    have hcoord : d.x ≠ 0 ∨ d.y ≠ 0 ∨ d.z ≠ 0 := by
      by_contra h
      push Not at h
      apply hd
      cases d
      simp_all [zeroR]
    rcases hcoord with h | h | h
    · obtain ⟨m, hm, hlt⟩ := key y.x d.x h
      have := (hR _ (hc m hm)).1
      simp only [go, addR, smulR] at this
      linarith
    · obtain ⟨m, hm, hlt⟩ := key y.y d.y h
      have := (hR _ (hc m hm)).2.1
      simp only [go, addR, smulR] at this
      linarith
    · obtain ⟨m, hm, hlt⟩ := key y.z d.z h
      have := (hR _ (hc m hm)).2.2
      simp only [go, addR, smulR] at this
      linarith
  obtain ⟨m, hm, hp⟩ := hout
  obtain ⟨s, h0, _, hin, p, hpm, hz⟩ := border_between hy hp
  have e : addR (smulR (1 - s) y) (smulR s (go y m d)) = go y (s * m) d := by
    simp only [go, addR, smulR, V3.mk.injEq]
    refine ⟨?_, ?_, ?_⟩ <;> ring
  rw [e] at hin hz
  exact ⟨s * m, mul_pos h0 hm, hin, p, hpm, hz⟩

theorem mix_cancel {y z z' : V3 ℝ} {s : ℝ} (hs : s ≠ 0)
    (h : addR (smulR (1 - s) y) (smulR s z) = addR (smulR (1 - s) y) (smulR s z')) : z = z' := by
  cases z; cases z'
  simp only [addR, smulR, V3.mk.injEq, add_right_inj, mul_eq_mul_left_iff, hs, or_false] at h ⊢
  exact h

section
variable [RealText] [Platform]

/-- A plane that touches a body with a triangle from outside in a point inside the triangle is the plane of the triangle. -/
theorem same_plane {q : BrushPlane ℝ} (hq : NonDegenerate q) {a b c z y : V3 ℝ} (hz : InsideTriangle a b c z)
    (ha : ht q a ≤ 0) (hb : ht q b ≤ 0) (hc : ht q c ≤ 0) (h0 : ht q z = 0) (hy : beneath a b c y ≠ 0) (x : V3 ℝ) :
    beneath a b c x = 0 ↔ ht q x = 0 := by
  obtain ⟨r, s, t, hr, hs, ht', h1, rfl⟩ := hz
  have e : ht q (addR (smulR r a) (addR (smulR s b) (smulR t c))) = r * ht q a + s * ht q b + t * ht q c := by
    have hr : r = 1 - s - t := by linarith
    subst hr
    simp only [ht, dotR, subR, addR, smulR]; ring
  rw [e] at h0
  have ea := mul_nonpos_of_nonneg_of_nonpos hr.le ha
  have eb := mul_nonpos_of_nonneg_of_nonpos hs.le hb
  have ec := mul_nonpos_of_nonneg_of_nonpos ht'.le hc
  have ca : ht q a = 0 := (mul_eq_zero.1 (by linarith : r * ht q a = 0)).resolve_left hr.ne'
  have cb : ht q b = 0 := (mul_eq_zero.1 (by linarith : s * ht q b = 0)).resolve_left hs.ne'
  have cc : ht q c = 0 := (mul_eq_zero.1 (by linarith : t * ht q c = 0)).resolve_left ht'.ne'
  have nb : dotR (rawNormal q) (subR b a) = 0 := by rw [ht_sub, ca, cb]; ring
  have nc : dotR (rawNormal q) (subR c a) = 0 := by rw [ht_sub, ca, cc]; ring
  have hal := cross_along (n := subR b a) (p := subR c a) (u := rawNormal q)
    (by rw [← nb]; simp only [dotR]; ring) (by rw [← nc]; simp only [dotR]; ring)
  have hnn : 0 < dotR (rawNormal q) (rawNormal q) := by
    have := lenR_pos hq
    unfold lenR at this
    exact Real.sqrt_pos.1 this
  have hd : ∀ x, dotR (rawNormal q) (rawNormal q) * beneath a b c x =
      dotR (rawNormal q) (crossR (subR b a) (subR c a)) * ht q x := by
    intro x
    have hx : dotR (rawNormal q) (subR x a) = ht q x := by rw [ht_sub, ca]; ring
    have h1 := congrArg (fun v => dotR v (subR x a)) hal
    rw [← hx]
    unfold beneath
    simp only [dotR, smulR] at h1 ⊢
    linarith
  have hne : dotR (rawNormal q) (crossR (subR b a) (subR c a)) ≠ 0 := by
    intro h
    have := hd y
    rw [h, zero_mul] at this
    exact hy ((mul_eq_zero.1 this).resolve_left hnn.ne')
  constructor
  · intro h
    have := hd x
    rw [h, mul_zero] at this
    exact (mul_eq_zero.1 this.symm).resolve_left hne
  · intro h
    have := hd x
    rw [h, mul_zero] at this
    exact (mul_eq_zero.1 this).resolve_left hnn.ne'

/-- C129: the volume enclosed by the triangles of a brush, measured from anywhere, is the Lebesgue measure of the brush. -/
theorem C129_measure (textures : TextureInfo) (entity : Entity ℝ) (brush : Brush ℝ) (geo : BrushGeo ℝ)
    (h : buildBrush textures entity brush = .ok geo) (hp : ProperBrush brush.planes)
    (hd : brush.planes.Pairwise fun p q => ¬ ∀ x, OnPlane p x ↔ OnPlane q x) (x : V3 ℝ) :
    bodyVolume brush.planes =
      ENNReal.ofReal (sixVolume x (geo.planes.flatMap fun face => (faceCorners face).map (·.pos)) / 6) := by
  obtain ⟨y, hy⟩ := hp.solid
  obtain ⟨V, _, hV⟩ := (C129_volume _ _ _ _ h hp hd _ rfl).2
  rw [hV, ← hV y]
  change ∀ p ∈ brush.planes, ht p y < 0 at hy
  obtain ⟨hlen, hface⟩ := brush_face h
  have hfan := brush_fan h
  have h3 : ∀ p ∈ geo.planes, 3 ∣ (places p).length := fun p hpm => places_dvd (hfan p hpm)
  -- the triangles of a face
  have hget : ∀ (face : PlaneGeo ℝ), face ∈ geo.planes → ∀ t a b c, (trip (places face))[t]? = some (a, b, c) ↔
      FaceTriangle face t a b c := by
    intro face hf t a b c
    rw [trip_get, places_get (hfan face hf), places_get (hfan face hf), places_get (hfan face hf)]
    constructor
    · rintro ⟨⟨i, u, i1, i2, i3⟩, ⟨j, v, j1, j2, j3⟩, ⟨k, w, k1, k2, k3⟩⟩
      exact ⟨i, j, k, u, v, w, i1, j1, k1, i2, j2, k2, i3, j3, k3⟩
    · rintro ⟨i, j, k, u, v, w, i1, j1, k1, i2, j2, k2, i3, j3, k3⟩
      exact ⟨⟨i, u, i1, i2, i3⟩, ⟨j, v, j1, j2, j3⟩, ⟨k, w, k1, k2, k3⟩⟩
  have hplane : ∀ face ∈ geo.planes, ∃ plane ∈ brush.planes, buildPlane textures entity brush.planes plane = .ok face := by
    intro face hf
    obtain ⟨j, hj⟩ := List.mem_iff_getElem?.1 hf
    have hjl := (List.getElem?_eq_some_iff.1 hj).1
    have hgf : brush.planes[j]? = some (brush.planes[j]'(by omega)) := List.getElem?_eq_getElem _
    exact ⟨_, List.mem_of_getElem? hgf, hface j _ face hgf hj⟩
  have hon : ∀ {plane : BrushPlane ℝ} {face : PlaneGeo ℝ}, plane ∈ brush.planes →
      buildPlane textures entity brush.planes plane = .ok face → ∀ {t a b c z}, FaceTriangle face t a b c →
      InTriangle a b c z → ht plane z = 0 ∧ In brush.planes z := by
    intro plane face hm hb t a b c z hT hz
    have h3 : 3 ≤ face.vertices.length := by
      have := (List.getElem?_eq_some_iff.1 ((faceTriangle_iff hb t a b c).1 hT).2.2).1
      rw [List.length_map] at this
      omega
    obtain ⟨h1, h2⟩ := (C85_covers _ _ _ hp _ hm face hb h3 _).2 ⟨t, a, b, c, hT, hz⟩
    exact ⟨h1, fun p hpm => (within_zero p z).1 (h2 p hpm)⟩
  have hin : ∀ {a b c z : V3 ℝ}, InsideTriangle a b c z → InTriangle a b c z := by
    rintro a b c z ⟨r, s, t, h1, h2, h3, h4⟩
    exact ⟨r, s, t, h1.le, h2.le, h3.le, h4⟩
  have hmem : ∀ T ∈ trip (geo.planes.flatMap places), ∃ face ∈ geo.planes, ∃ t, FaceTriangle face t T.1 T.2.1 T.2.2 := by
    rintro ⟨a, b, c⟩ hT
    rw [trip_flatMap h3] at hT
    obtain ⟨face, hf, hT⟩ := List.mem_flatMap.1 hT
    obtain ⟨t, ht⟩ := List.mem_iff_getElem?.1 hT
    exact ⟨face, hf, t, (hget face hf t a b c).1 ht⟩
  -- two points on a ray from `y`
  have hray : ∀ {plane plane' : BrushPlane ℝ} {z z' : V3 ℝ} {s s' : ℝ}, plane ∈ brush.planes → plane' ∈ brush.planes →
      ht plane z = 0 → In brush.planes z → ht plane' z' = 0 → In brush.planes z' → 0 < s → 0 < s' →
      addR (smulR (1 - s) y) (smulR s z) = addR (smulR (1 - s') y) (smulR s' z') → s ≤ s' := by
    intro plane plane' z z' s s' hm hm' hz hzi hz' hzi' hs hs' he
    have h1 := congrArg (ht plane) he
    rw [ht_mix, ht_mix, hz] at h1
    have h2 := hzi' plane hm
    have h3 := hy plane hm
    by_contra hc
    push Not at hc
    nlinarith
  change _ = ENNReal.ofReal (sixVolume y (geo.planes.flatMap places) / 6)
  refine filled ?_ ?_ ?_ ?_
  · intro T hT
    obtain ⟨face, hf, t, hFT⟩ := hmem T hT
    obtain ⟨plane, hm, hb⟩ := hplane face hf
    obtain ⟨k, hk, e⟩ := beneath_plane hp hm hb hFT
    rw [e]
    have := mul_neg_of_pos_of_neg hk (hy _ hm)
    linarith
  · intro X hX
    have hXin : In brush.planes (v3 X) := fun p hpm => (within_zero p _).1 (hX p hpm)
    have hbd : ∃ R : ℝ, ∀ x, In brush.planes x → |x.x| ≤ R ∧ |x.y| ≤ R ∧ |x.z| ≤ R := by
      obtain ⟨R, hR⟩ := hp.bounded
      exact ⟨R, fun x hx => hR x fun p hpm => (within_zero p x).2 (hx p hpm)⟩
    have hborder : ∀ z, In brush.planes z → (∃ p ∈ brush.planes, ht p z = 0) →
        ∃ a b c, (a, b, c) ∈ trip (geo.planes.flatMap places) ∧ InTriangle a b c z := by
      intro z hz hz0
      obtain ⟨face, hf, t, a, b, c, hT, hzT⟩ := (C85_boundary _ _ _ _ h hp z).1
        ⟨fun p hpm => (within_zero p z).2 (hz p hpm), hz0⟩
      refine ⟨a, b, c, ?_, hzT⟩
      rw [trip_flatMap h3]
      exact List.mem_flatMap.2 ⟨face, hf, List.mem_of_getElem? ((hget face hf t a b c).2 hT)⟩
    by_cases hXy : subR (v3 X) y = zeroR
    · obtain ⟨s, hs, hzin, hz0⟩ := border_ray (d := ⟨1, 0, 0⟩) hy (by simp [zeroR]) hbd
      obtain ⟨a, b, c, hT, hzT⟩ := hborder _ hzin hz0
      refine ⟨_, hT, tetra_outer le_rfl zero_le_one hzT ?_⟩
      simp only [subR, zeroR, V3.mk.injEq] at hXy
      simp only [addR, smulR]
      obtain ⟨e1, e2, e3⟩ := hXy
      have e : v3 X = ⟨(v3 X).x, (v3 X).y, (v3 X).z⟩ := rfl
      rw [e, V3.mk.injEq]
      exact ⟨by linarith, by linarith, by linarith⟩
    · obtain ⟨s, hs, hzin, p, hpm, hz0⟩ := border_ray (d := subR (v3 X) y) hy hXy hbd
      obtain ⟨a, b, c, hT, hzT⟩ := hborder _ hzin ⟨p, hpm, hz0⟩
      have hs1 : 1 ≤ s := by
        rw [ht_go, ht_sub] at hz0
        have h1 := hXin p hpm
        have h2 := hy p hpm
        by_contra hc
        push Not at hc
        nlinarith
      refine ⟨_, hT, tetra_outer (s := 1 / s) (by positivity) (by rw [div_le_one hs]; exact hs1) hzT ?_⟩
      have e : v3 X = ⟨(v3 X).x, (v3 X).y, (v3 X).z⟩ := rfl
      simp only [go, addR, smulR, subR]
      rw [e, V3.mk.injEq]
      refine ⟨?_, ?_, ?_⟩ <;> field_simp <;> ring
  · rintro ⟨a, b, c⟩ hT X hX p hpm
    obtain ⟨face, hf, t, hFT⟩ := hmem _ hT
    obtain ⟨plane, hm, hb⟩ := hplane face hf
    obtain ⟨s, z, hs, hs1, hz, e⟩ := tetra_inner hX
    have h1 := (hon hm hb hFT (hin hz)).2 p hpm
    have h2 := hy p hpm
    change WithinR 0 p (v3 X)
    rw [within_zero, e, ht_mix]
    nlinarith
  · rw [trip_flatMap h3, List.pairwise_flatMap]
    constructor
    · intro face hf
      obtain ⟨plane, hm, hb⟩ := hplane face hf
      rw [List.pairwise_iff_getElem]
      intro i j hi hj hij
      have gi := (hget face hf i (trip (places face))[i].1 (trip (places face))[i].2.1 (trip (places face))[i].2.2).1
        (List.getElem?_eq_getElem hi)
      have gj := (hget face hf j (trip (places face))[j].1 (trip (places face))[j].2.1 (trip (places face))[j].2.2).1
        (List.getElem?_eq_getElem hj)
      rw [Set.disjoint_left]
      intro X h1 h2
      obtain ⟨s, z, hs, hs1, hz, e⟩ := tetra_inner h1
      obtain ⟨s', z', hs', hs1', hz', e'⟩ := tetra_inner h2
      obtain ⟨a1, a2⟩ := hon hm hb gi (hin hz)
      obtain ⟨b1, b2⟩ := hon hm hb gj (hin hz')
      have hss : s = s' := le_antisymm (hray hm hm a1 a2 b1 b2 hs hs' (e.symm.trans e'))
        (hray hm hm b1 b2 a1 a2 hs' hs (e'.symm.trans e))
      subst hss
      have hzz : z = z' := mix_cancel hs.ne' (e.symm.trans e')
      subst hzz
      have := C85_no_overlap _ _ _ hp _ hm face hb i j _ _ _ _ _ _ z gi gj hz hz'
      omega
    · rw [List.pairwise_iff_getElem]
      rintro i j hi hj hij ⟨a, b, c⟩ hT ⟨a', b', c'⟩ hT'
      obtain ⟨t, hT⟩ := List.mem_iff_getElem?.1 hT
      obtain ⟨t', hT'⟩ := List.mem_iff_getElem?.1 hT'
      have gi := (hget _ (List.getElem_mem hi) _ _ _ _).1 hT
      have gj := (hget _ (List.getElem_mem hj) _ _ _ _).1 hT'
      have hi' : i < brush.planes.length := by omega
      have hj' : j < brush.planes.length := by omega
      have hm := List.getElem_mem hi'
      have hm' := List.getElem_mem hj'
      have hb := hface i _ _ (List.getElem?_eq_getElem hi') (List.getElem?_eq_getElem hi)
      have hb' := hface j _ _ (List.getElem?_eq_getElem hj') (List.getElem?_eq_getElem hj)
      rw [Set.disjoint_left]
      intro X h1 h2
      obtain ⟨s, z, hs, hs1, hz, e⟩ := tetra_inner h1
      obtain ⟨s', z', hs', hs1', hz', e'⟩ := tetra_inner h2
      obtain ⟨a1, a2⟩ := hon hm hb gi (hin hz)
      obtain ⟨b1, b2⟩ := hon hm' hb' gj (hin hz')
      have hss : s = s' := le_antisymm (hray hm hm' a1 a2 b1 b2 hs hs' (e.symm.trans e'))
        (hray hm' hm b1 b2 a1 a2 hs' hs (e'.symm.trans e))
      subst hss
      have hzz : z = z' := mix_cancel hs.ne' (e.symm.trans e')
      subst hzz
      -- the triangle of the first face lies in the second plane
      obtain ⟨k, hk, ek⟩ := beneath_plane hp hm hb gi
      have hyk : beneath a b c y ≠ 0 := by
        rw [ek]
        have := mul_neg_of_pos_of_neg hk (hy _ hm)
        linarith
      have hc : ∀ v ∈ [a, b, c], In brush.planes v := by
        intro v hv
        obtain ⟨ga, gb, gc⟩ := (faceTriangle_iff hb t a b c).1 gi
        have hcorner : ∀ v, v ∈ (geo.planes[i]).vertices.map (·.pos) → In brush.planes v := fun v hv =>
          ((proper_corner hp hm hb v).1 hv).1
        simp only [List.mem_cons, List.not_mem_nil, or_false] at hv
        rcases hv with rfl | rfl | rfl
        · exact hcorner _ (List.mem_of_getElem? ga)
        · exact hcorner _ (List.mem_of_getElem? gb)
        · exact hcorner _ (List.mem_of_getElem? gc)
      refine List.pairwise_iff_getElem.1 hd i j hi' hj' hij fun x => ?_
      have := same_plane (hp.points _ hm') hz (hc a (by simp) _ hm') (hc b (by simp) _ hm') (hc c (by simp) _ hm') b1 hyk x
      rw [ek, neg_eq_zero, mul_eq_zero, or_iff_right hk.ne'] at this
      exact this

/-- C129 for the collision: the volume enclosed by a concave collision shape, measured from anywhere, is the sum of the
Lebesgue measures of its brushes. -/
theorem C129_concave_measure (textures : TextureInfo) (entity : Entity ℝ) (geo : EntityGeo ℝ)
    (h : buildEntity textures entity = .ok geo) (hp : ∀ brush ∈ entity.brushes, ProperBrush brush.planes)
    (hd : ∀ brush ∈ entity.brushes, brush.planes.Pairwise fun p q => ¬ ∀ x, OnPlane p x ↔ OnPlane q x)
    (shapes : List (ConcaveCollision ℝ)) (hc : Scene.collisionOf .concave geo = .ok (.concave shapes))
    (shape : ConcaveCollision ℝ) (hs : shape ∈ shapes) (x : V3 ℝ) :
    ∃ cs, Corners shape.vertices shape.indices cs ∧
      (entity.brushes.map fun b => bodyVolume b.planes).sum = ENNReal.ofReal (sixVolume x cs / 6) := by
  obtain ⟨cs, hcs, _, hsum, _⟩ := C129_concave textures entity geo h hp hd shapes hc shape hs
  refine ⟨cs, hcs, ?_⟩
  rw [hsum]
  have key : ∀ {bs : List (Brush ℝ)} {gs : List (BrushGeo ℝ)},
      List.Forall₂ (fun b g => buildBrush textures entity b = .ok g) bs gs → (∀ b ∈ bs, ProperBrush b.planes) →
      (∀ b ∈ bs, b.planes.Pairwise fun p q => ¬ ∀ x, OnPlane p x ↔ OnPlane q x) →
      (bs.map fun b => bodyVolume b.planes).sum = ENNReal.ofReal ((gs.map fun b => sixVolume x (b.planes.flatMap fun face =>
        (faceCorners face).map (·.pos))).sum / 6) ∧ 0 ≤ (gs.map fun b => sixVolume x (b.planes.flatMap fun face =>
        (faceCorners face).map (·.pos))).sum := by
    intro bs gs hf
    induction hf with
    | nil => intro _ _; simp
    | @cons b g bs gs hb _ ih =>
      intro h1 h2
      obtain ⟨i1, i2⟩ := ih (fun b hb => h1 b (by simp [hb])) (fun b hb => h2 b (by simp [hb]))
      obtain ⟨V, hV, e⟩ := (C129_volume _ _ _ _ hb (h1 b (by simp)) (h2 b (by simp)) _ rfl).2
      have hx := e x
      simp only [List.map_cons, List.sum_cons]
      rw [C129_measure _ _ _ _ hb (h1 b (by simp)) (h2 b (by simp)) x, i1,
        ← ENNReal.ofReal_add (by rw [hx]; positivity) (by positivity)]
      exact ⟨by congr 1; ring, by rw [hx]; positivity⟩
  exact (key (entity_brushes h) hp hd).1

/-- C129 for the cube: its triangles enclose the volume 1. -/
example (textures : TextureInfo) (entity : Entity ℝ) : ∃ geo, buildBrush textures entity ⟨Cube.planes⟩ = .ok geo ∧
    ∀ x, sixVolume x (geo.planes.flatMap fun face => (faceCorners face).map (·.pos)) = 6 := by
  obtain ⟨pgs, hp⟩ := mapOut_isOk.2 fun (plane : BrushPlane ℝ) (_ : plane ∈ Cube.planes) =>
    buildPlane_real textures entity Cube.planes plane
  have hb : ∃ geo, buildBrush textures entity ⟨Cube.planes⟩ = .ok geo := by
    unfold buildBrush; rw [hp]; exact ⟨_, rfl⟩
  obtain ⟨geo, h⟩ := hb
  refine ⟨geo, h, fun x => ?_⟩
  obtain ⟨V, hV, e⟩ := (C129_volume _ _ _ geo h Cube.proper Cube.distinct _ rfl).2
  have hm := C129_measure _ _ _ geo h Cube.proper Cube.distinct x
  have hbody : bodyVolume Cube.planes = 1 := by
    unfold bodyVolume
    have : {x : Fin 3 → ℝ | ∀ p ∈ Cube.planes, WithinR 0 p ⟨x 0, x 1, x 2⟩} = Set.Icc (fun _ => 0) (fun _ => 1) := by
      ext x
      rw [Set.mem_ofPred_eq, Cube.inside]
      simp only [Set.mem_Icc, Pi.le_def, Fin.forall_fin_succ, Fin.forall_fin_zero]
      simp
      tauto
    rw [this, Real.volume_Icc_pi]
    simp
  rw [hbody, e] at hm
  rw [e]
  have := (ENNReal.ofReal_eq_one (r := V / 6)).1 hm.symm
  linarith

end
end Quarch
