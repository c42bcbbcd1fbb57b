import Verif.Spec.Enclosed
import Verif.Props.Tiling
/-
C129: the triangles of a brush enclose exactly the brush.
-/
set_option linter.unusedSectionVars false
namespace Quarch
open Spec Geo Poly

/-! ### closed lists of triangles -/

/-- The directed sides of the triangles. -/
def sides : List (V3 ℝ) → List (V3 ℝ × V3 ℝ)
  | a :: b :: c :: rest => (a, b) :: (b, c) :: (c, a) :: sides rest
  | _ => []

theorem sides_get : ∀ (cs : List (V3 ℝ)), 3 ∣ cs.length → ∀ (t s : Nat), s < 3 → ∀ x y,
    (sides cs)[3 * t + s]? = some (x, y) → cs[3 * t + s]? = some x ∧ cs[3 * t + (s + 1) % 3]? = some y
  | [], _, t, s, _, x, y, h => by simp [sides] at h
  | [_], h3, _, _, _, _, _, _ => by simp at h3
  | [_, _], h3, _, _, _, _, _, _ => by simp at h3
  | a :: b :: c :: rest, h3, t, s, hs, x, y, h => by
    have h3' : 3 ∣ rest.length := by
      simp only [List.length_cons] at h3; omega
    cases t with
    | zero =>
      have : s = 0 ∨ s = 1 ∨ s = 2 := by omega
      rcases this with rfl | rfl | rfl <;> simpa [sides] using h
    | succ t =>
      have e : 3 * (t + 1) + s = (3 * t + s) + 3 := by omega
      have e' : 3 * (t + 1) + (s + 1) % 3 = (3 * t + (s + 1) % 3) + 3 := by omega
      rw [e] at h ⊢
      rw [e']
      exact sides_get rest h3' t s hs x y h

theorem sides_append : ∀ (l1 l2 : List (V3 ℝ)), 3 ∣ l1.length → sides (l1 ++ l2) = sides l1 ++ sides l2
  | [], _, _ => rfl
  | [_], _, h3 => by simp at h3
  | [_, _], _, h3 => by simp at h3
  | a :: b :: c :: rest, l2, h3 => by
    have h3' : 3 ∣ rest.length := by
      simp only [List.length_cons] at h3; omega
    simp [sides, sides_append rest l2 h3']

/-- Sums over sides in both directions cancel. -/
theorem sum_swap {L : List (V3 ℝ × V3 ℝ)} (hn : L.Nodup) (hc : ∀ x y, (x, y) ∈ L → (y, x) ∈ L)
    {g : V3 ℝ → V3 ℝ → ℝ} (hg : ∀ x y, g y x = - g x y) : (L.map fun e => g e.1 e.2).sum = 0 := by
  have hp : (L.map Prod.swap).Perm L := by
    apply (List.perm_ext_iff_of_nodup (hn.map Prod.swap_injective) hn).2
    rintro ⟨x, y⟩
    constructor
    · intro h
      obtain ⟨⟨u, v⟩, h1, h2⟩ := List.mem_map.1 h
      cases h2
      exact hc _ _ h1
    · intro h
      exact List.mem_map.2 ⟨(y, x), hc _ _ h, rfl⟩
  have h1 := (hp.map fun e => g e.1 e.2).sum_eq
  rw [List.map_map] at h1
  have h2 : (L.map ((fun e => g e.1 e.2) ∘ Prod.swap)).sum = - (L.map fun e => g e.1 e.2).sum := by
    clear h1 hp hc hn
    induction L with
    | nil => simp
    | cons e L ih => simp only [List.map_cons, List.sum_cons, ih, Function.comp, Prod.swap, hg e.1 e.2]; ring
  linarith

theorem area_sides (p : V3 ℝ) : ∀ cs : List (V3 ℝ),
    dotR p (directedArea cs) = ((sides cs).map fun e => dotR p (crossR e.1 e.2)).sum
  | [] => by simp [directedArea, sides, dotR, zeroR]
  | [_] => by simp [directedArea, sides, dotR, zeroR]
  | [_, _] => by simp [directedArea, sides, dotR, zeroR]
  | a :: b :: c :: rest => by
    have ih := area_sides p rest
    simp only [directedArea, sides, List.map_cons, List.sum_cons, ← ih]
    simp only [dotR, addR, crossR, subR]; ring

theorem volume_move (x y : V3 ℝ) : ∀ cs : List (V3 ℝ),
    sixVolume x cs = sixVolume y cs + dotR (subR x y) (directedArea cs)
  | [] => by simp [directedArea, sixVolume, dotR, zeroR]
  | [_] => by simp [directedArea, sixVolume, dotR, zeroR]
  | [_, _] => by simp [directedArea, sixVolume, dotR, zeroR]
  | a :: b :: c :: rest => by
    have ih := volume_move x y rest
    simp only [directedArea, sixVolume, ih, beneath]
    simp only [dotR, addR, crossR, subR]; ring

theorem area_zero {cs : List (V3 ℝ)} (hn : (sides cs).Nodup) (hc : ∀ x y, (x, y) ∈ sides cs → (y, x) ∈ sides cs) :
    directedArea cs = zeroR := by
  have h : ∀ p, dotR p (directedArea cs) = 0 := fun p => by
    rw [area_sides]
    exact sum_swap hn hc (g := fun x y => dotR p (crossR x y)) fun x y => by simp only [dotR, crossR]; ring
  have h1 := h ⟨1, 0, 0⟩
  have h2 := h ⟨0, 1, 0⟩
  have h3 := h ⟨0, 0, 1⟩
  simp only [dotR] at h1 h2 h3
  apply V3.ext' <;> simp only [zeroR] <;> linarith

theorem area_append : ∀ (l1 l2 : List (V3 ℝ)), 3 ∣ l1.length →
    directedArea (l1 ++ l2) = addR (directedArea l1) (directedArea l2)
  | [], l2, _ => by apply V3.ext' <;> simp [directedArea, addR, zeroR]
  | [_], _, h3 => by simp at h3
  | [_, _], _, h3 => by simp at h3
  | a :: b :: c :: rest, l2, h3 => by
    have h3' : 3 ∣ rest.length := by
      simp only [List.length_cons] at h3; omega
    simp only [List.cons_append, directedArea, area_append rest l2 h3']
    apply V3.ext' <;> simp only [addR] <;> ring

theorem volume_append (x : V3 ℝ) : ∀ (l1 l2 : List (V3 ℝ)), 3 ∣ l1.length →
    sixVolume x (l1 ++ l2) = sixVolume x l1 + sixVolume x l2
  | [], l2, _ => by simp [sixVolume]
  | [_], _, h3 => by simp at h3
  | [_, _], _, h3 => by simp at h3
  | a :: b :: c :: rest, l2, h3 => by
    have h3' : 3 ∣ rest.length := by
      simp only [List.length_cons] at h3; omega
    simp only [List.cons_append, sixVolume, volume_append x rest l2 h3']
    ring

/-- A sum of positive parts is positive. -/
theorem volume_pos (x : V3 ℝ) : ∀ cs : List (V3 ℝ), 3 ∣ cs.length →
    (∀ t a b c, cs[3 * t]? = some a → cs[3 * t + 1]? = some b → cs[3 * t + 2]? = some c → 0 < beneath a b c x) →
    0 ≤ sixVolume x cs ∧ (cs ≠ [] → 0 < sixVolume x cs)
  | [], _, _ => by simp [sixVolume]
  | [_], h3, _ => by simp at h3
  | [_, _], h3, _ => by simp at h3
  | a :: b :: c :: rest, h3, h => by
    have h3' : 3 ∣ rest.length := by
      simp only [List.length_cons] at h3; omega
    have ih := (volume_pos x rest h3' fun t u v w h1 h2 h3 => h (t + 1) u v w h1 h2 h3).1
    have h0 := h 0 a b c rfl rfl rfl
    simp only [sixVolume]
    exact ⟨by linarith, fun _ => by linarith⟩

/-- From a point inside to one outside one meets the border. -/
theorem border_between {planes : List (BrushPlane ℝ)} {y x : V3 ℝ} (hy : ∀ p ∈ planes, ht p y < 0)
    (hx : ∃ p ∈ planes, 0 < ht p x) : ∃ s : ℝ, 0 < s ∧ s < 1 ∧
      In planes (addR (smulR (1 - s) y) (smulR s x)) ∧
      ∃ p ∈ planes, ht p (addR (smulR (1 - s) y) (smulR s x)) = 0 := by
  classical
  have hmix : ∀ (p : BrushPlane ℝ) (s : ℝ), ht p (addR (smulR (1 - s) y) (smulR s x)) = ht p y + s * (ht p x - ht p y) :=
    fun p s => by simp only [ht, dotR, subR, addR, smulR]; ring
  obtain ⟨p1, h1, h1x⟩ := hx
  obtain ⟨p0, h0, hmin⟩ := Finset.exists_min_image (planes.toFinset.filter fun p => 0 < ht p x)
    (fun p => (- ht p y) / (ht p x - ht p y)) ⟨p1, by simp [h1, h1x]⟩
  simp only [Finset.mem_filter, List.mem_toFinset] at h0 hmin
  have hd : 0 < ht p0 x - ht p0 y := by have := hy p0 h0.1; linarith [h0.2]
  have hy0 := hy p0 h0.1
  refine ⟨(- ht p0 y) / (ht p0 x - ht p0 y), div_pos (by linarith) hd, (div_lt_one hd).2 (by linarith [h0.2]),
    fun p hp => ?_, p0, h0.1, ?_⟩
  · rw [hmix]
    have hyp := hy p hp
    have hs0 : 0 < (- ht p0 y) / (ht p0 x - ht p0 y) := div_pos (by linarith) hd
    have hs1 : (- ht p0 y) / (ht p0 x - ht p0 y) < 1 := (div_lt_one hd).2 (by linarith [h0.2])
    by_cases hpx : 0 < ht p x
    · have hm := hmin p ⟨hp, hpx⟩
      have hdp : 0 < ht p x - ht p y := by linarith
      rw [le_div_iff₀ hdp] at hm
      linarith
    · nlinarith
  · rw [hmix]
    field_simp
    ring

section
variable [RealText] [Platform]

theorem sides_mem : ∀ (cs : List (V3 ℝ)), 3 ∣ cs.length → ∀ (x y : V3 ℝ), HasSide cs x y → (x, y) ∈ sides cs
  | [], _, x, y, h => by obtain ⟨t, s, _, h, _⟩ := h; simp at h
  | [_], h3, _, _, _ => by simp at h3
  | [_, _], h3, _, _, _ => by simp at h3
  | a :: b :: c :: rest, h3, x, y, h => by
    have h3' : 3 ∣ rest.length := by
      simp only [List.length_cons] at h3; omega
    have h' : HasSide ([a, b, c] ++ rest) x y := h
    rcases (hasSide_append (by simp) x y).1 h' with ⟨t, s, hs, h1, h2⟩ | h1
    · have ht : t = 0 := by
        have := (List.getElem?_eq_some_iff.1 h1).1
        simp at this; omega
      subst ht
      have : s = 0 ∨ s = 1 ∨ s = 2 := by omega
      rcases this with rfl | rfl | rfl <;> simp at h1 h2 <;> subst h1 <;> subst h2 <;> simp [sides]
    · have := sides_mem rest h3' x y h1
      simp [sides, this]

/-- The side of a triangle on which a point is, is the side of the plane. -/
theorem beneath_plane {textures : TextureInfo} {entity : Entity ℝ} {planes : List (BrushPlane ℝ)}
    (hp : ProperBrush planes) {plane : BrushPlane ℝ} (hm : plane ∈ planes) {face : PlaneGeo ℝ}
    (h : buildPlane textures entity planes plane = .ok face) {t : Nat} {a b c : V3 ℝ} (hT : FaceTriangle face t a b c) :
    ∃ k : ℝ, 0 < k ∧ ∀ x, beneath a b c x = - (k * ht plane x) := by
  obtain ⟨ha, hb, hc⟩ := (faceTriangle_iff h t a b c).1 hT
  have htri := proper_turns hp hm h 0 (t + 1) (t + 2) a b c (by omega) (by omega) ha hb hc
  have ca := ((proper_corner hp hm h a).1 (List.mem_of_getElem? ha)).2.1
  have cb := ((proper_corner hp hm h b).1 (List.mem_of_getElem? hb)).2.1
  have cc := ((proper_corner hp hm h c).1 (List.mem_of_getElem? hc)).2.1
  have nb : dotR (rawNormal plane) (subR b a) = 0 := by rw [ht_sub, ca, cb]; ring
  have nc : dotR (rawNormal plane) (subR c a) = 0 := by rw [ht_sub, ca, cc]; ring
  have hal := cross_along (n := subR b a) (p := subR c a) (u := rawNormal plane)
    (by rw [← nb]; simp only [dotR]; ring) (by rw [← nc]; simp only [dotR]; ring)
  have hnn : 0 < dotR (rawNormal plane) (rawNormal plane) := by
    have := lenR_pos (hp.points _ hm)
    unfold lenR at this
    exact Real.sqrt_pos.1 this
  have e : dotR (rawNormal plane) (crossR (subR b a) (subR c a)) = tri (rawNormal plane) a b c := by
    simp only [tri, dotR]; ring
  refine ⟨- tri (rawNormal plane) a b c / dotR (rawNormal plane) (rawNormal plane), div_pos (by linarith) hnn,
    fun x => ?_⟩
  have hx : dotR (rawNormal plane) (subR x a) = ht plane x := by rw [ht_sub, ca]; ring
  rw [e] at hal
  have hd : dotR (rawNormal plane) (rawNormal plane) * beneath a b c x =
      tri (rawNormal plane) a b c * ht plane x := by
    have h1 := congrArg (fun v => dotR v (subR x a)) hal
    rw [← hx]
    unfold beneath
    simp only [dotR, smulR] at h1 ⊢
    linarith
  field_simp
  linarith

/-- C129: the triangles of a brush tell what is inside it: a point is in the brush exactly if no triangle faces it. -/
theorem C129_inside (textures : TextureInfo) (entity : Entity ℝ) (brush : Brush ℝ) (geo : BrushGeo ℝ)
    (h : buildBrush textures entity brush = .ok geo) (hp : ProperBrush brush.planes) (x : V3 ℝ) :
    (∀ p ∈ brush.planes, WithinR 0 p x) ↔
    ∀ face ∈ geo.planes, ∀ t a b c, FaceTriangle face t a b c → 0 ≤ beneath a b c x := by
  obtain ⟨hlen, hface⟩ := brush_face h
  have hget : ∀ face ∈ geo.planes, ∃ plane ∈ brush.planes, buildPlane textures entity brush.planes plane = .ok face := by
    intro face hf
    obtain ⟨j, hj⟩ := List.mem_iff_getElem?.1 hf
    have hjl := (List.getElem?_eq_some_iff.1 hj).1
    have hgf : brush.planes[j]? = some (brush.planes[j]'(by omega)) := List.getElem?_eq_getElem _
    exact ⟨_, List.mem_of_getElem? hgf, hface j _ face hgf hj⟩
  constructor
  · intro hx face hf t a b c hT
    obtain ⟨plane, hm, hb⟩ := hget face hf
    obtain ⟨k, hk, e⟩ := beneath_plane hp hm hb hT
    have := (within_zero plane x).1 (hx plane hm)
    rw [e]
    nlinarith
  · intro hx
    by_contra hc
    push Not at hc
    obtain ⟨q, hq, hqx⟩ := hc
    obtain ⟨y, hy⟩ := hp.solid
    obtain ⟨s, hs0, hs1, hin, p, hpm, hz⟩ := border_between (planes := brush.planes) (y := y) (x := x) hy
      ⟨q, hq, by by_contra hle; exact hqx ((within_zero q x).2 (not_lt.1 hle))⟩
    obtain ⟨face, hf, t, a, b, c, hT, hzT⟩ := (C85_boundary _ _ _ _ h hp _).1
      ⟨fun r hr => (within_zero r _).2 (hin r hr), p, hpm, hz⟩
    obtain ⟨plane, hm, hb⟩ := hget face hf
    obtain ⟨k, hk, e⟩ := beneath_plane hp hm hb hT
    have h3 : 3 ≤ face.vertices.length := by
      have := (List.getElem?_eq_some_iff.1 ((faceTriangle_iff hb t a b c).1 hT).2.2).1
      rw [List.length_map] at this
      omega
    have h0 : ht plane (addR (smulR (1 - s) y) (smulR s x)) = 0 :=
      ((C85_covers _ _ _ hp _ hm face hb h3 _).2 ⟨t, a, b, c, hT, hzT⟩).1
    rw [ht_mix] at h0
    have h1 := hx face hf t a b c hT
    rw [e] at h1
    have h2 : ht plane y < 0 := hy plane hm
    have h4 : ht plane x ≤ 0 := by
      by_contra hpos
      have := mul_pos hk (not_le.1 hpos)
      linarith
    nlinarith

theorem places_get {p : PlaneGeo ℝ} (h : IsFan p.vertices.length p.indices) (k : Nat) (x : V3 ℝ) :
    (places p)[k]? = some x ↔
      ∃ (i : Nat) (v : Vertex ℝ), p.indices[k]? = some i ∧ p.vertices[i]? = some v ∧ v.pos = x := by
  have hv : ∀ i ∈ p.indices, (p.vertices[i]?).isSome = true := by
    intro i hi
    obtain ⟨t, ht, h1⟩ := isFan_mem h hi
    rw [List.getElem?_eq_getElem (by omega)]; rfl
  unfold places faceCorners
  rw [List.getElem?_map, filterMap_getElem? hv, Option.map_eq_some_iff]
  constructor
  · rintro ⟨v, h1, rfl⟩
    obtain ⟨i, h2, h3⟩ := Option.bind_eq_some_iff.1 h1
    exact ⟨i, v, h2, h3, rfl⟩
  · rintro ⟨i, v, h1, h2, rfl⟩
    exact ⟨v, Option.bind_eq_some_iff.2 ⟨i, h1, h2⟩, rfl⟩

theorem sides_flatMap {α : Type} {f : α → List (V3 ℝ)} {l : List α} (h : ∀ x ∈ l, 3 ∣ (f x).length) :
    sides (l.flatMap f) = l.flatMap fun x => sides (f x) := by
  induction l with
  | nil => rfl
  | cons x l ih =>
    rw [List.flatMap_cons, List.flatMap_cons, sides_append _ _ (h x (by simp)), ih fun y hy => h y (by simp [hy])]

theorem sides_index {cs : List (V3 ℝ)} (h3 : 3 ∣ cs.length) {n : Nat} {x y : V3 ℝ} (h : (sides cs)[n]? = some (x, y)) :
    cs[3 * (n / 3) + n % 3]? = some x ∧ cs[3 * (n / 3) + (n % 3 + 1) % 3]? = some y :=
  sides_get cs h3 (n / 3) (n % 3) (Nat.mod_lt _ (by omega)) x y (by rw [Nat.div_add_mod]; exact h)

/-- The sides of the triangles of a brush without repeated planes are all different and occur in both directions. -/
theorem brush_sides {textures : TextureInfo} {entity : Entity ℝ} {brush : Brush ℝ} {geo : BrushGeo ℝ}
    (h : buildBrush textures entity brush = .ok geo) (hp : ProperBrush brush.planes)
    (hd : brush.planes.Pairwise fun p q => ¬ ∀ x, OnPlane p x ↔ OnPlane q x) :
    (sides (geo.planes.flatMap places)).Nodup ∧
    ∀ x y, (x, y) ∈ sides (geo.planes.flatMap places) → (y, x) ∈ sides (geo.planes.flatMap places) := by
  have hfan := brush_fan h
  have h3 : ∀ p ∈ geo.planes, 3 ∣ (places p).length := fun p hpm => places_dvd (hfan p hpm)
  have hside : ∀ (i : Nat) (face : PlaneGeo ℝ), geo.planes[i]? = some face → ∀ (n : Nat) (x y : V3 ℝ),
      (sides (places face))[n]? = some (x, y) → Side geo i (n / 3) (n % 3) x y := by
    intro i face hi n x y hn
    have hm := List.mem_of_getElem? hi
    obtain ⟨h1, h2⟩ := sides_index (h3 face hm) hn
    obtain ⟨m, v, a1, a2, a3⟩ := (places_get (hfan face hm) _ _).1 h1
    obtain ⟨m', v', b1, b2, b3⟩ := (places_get (hfan face hm) _ _).1 h2
    exact ⟨Nat.mod_lt _ (by omega), face, m, m', v, v', hi, a1, b1, a2, b2, a3, b3⟩
  refine ⟨?_, ?_⟩
  · rw [sides_flatMap h3, List.nodup_flatMap]
    constructor
    · intro face hf
      obtain ⟨i, hi⟩ := List.mem_iff_getElem?.1 hf
      rw [List.nodup_iff_getElem?_ne_getElem?]
      intro n m hnm hm e
      obtain ⟨⟨x, y⟩, hx⟩ : ∃ e, (sides (places face))[m]? = some e := ⟨_, List.getElem?_eq_getElem hm⟩
      have s1 := hside i face hi m x y hx
      have s2 := hside i face hi n x y (e.trans hx)
      obtain ⟨_, e1, e2⟩ := C78_once _ _ _ _ h hp hd _ _ _ _ _ _ _ _ s1 s2
      omega
    · rw [List.pairwise_iff_getElem]
      intro i j hi hj hij
      show List.Disjoint _ _
      rintro ⟨x, y⟩ h1 h2
      obtain ⟨n, hn⟩ := List.mem_iff_getElem?.1 h1
      obtain ⟨m, hm⟩ := List.mem_iff_getElem?.1 h2
      have s1 := hside i _ (List.getElem?_eq_getElem hi) n x y hn
      have s2 := hside j _ (List.getElem?_eq_getElem hj) m x y hm
      have := (C78_once _ _ _ _ h hp hd _ _ _ _ _ _ _ _ s1 s2).1
      omega
  · intro x y hxy
    rw [sides_flatMap h3] at hxy ⊢
    obtain ⟨face, hf, hxy⟩ := List.mem_flatMap.1 hxy
    obtain ⟨n, hn⟩ := List.mem_iff_getElem?.1 hxy
    obtain ⟨k1, k2⟩ := sides_index (h3 face hf) hn
    obtain ⟨face', hf', hs⟩ := brush_closed h hp ⟨face, hf, n / 3, n % 3, Nat.mod_lt _ (by omega), k1, k2⟩
    exact List.mem_flatMap.2 ⟨face', hf', sides_mem _ (h3 face' hf') _ _ hs⟩

theorem volume_flatMap {α : Type} {f : α → List (V3 ℝ)} {l : List α} (h : ∀ x ∈ l, 3 ∣ (f x).length) (y : V3 ℝ) :
    sixVolume y (l.flatMap f) = (l.map fun x => sixVolume y (f x)).sum := by
  induction l with
  | nil => rfl
  | cons x l ih =>
    rw [List.flatMap_cons, volume_append _ _ _ (h x (by simp)), ih fun y hy => h y (by simp [hy])]; rfl

theorem area_flatMap {α : Type} {f : α → List (V3 ℝ)} {l : List α} (h : ∀ x ∈ l, 3 ∣ (f x).length)
    (h0 : ∀ x ∈ l, directedArea (f x) = zeroR) : directedArea (l.flatMap f) = zeroR := by
  induction l with
  | nil => rfl
  | cons x l ih =>
    rw [List.flatMap_cons, area_append _ _ (h x (by simp)), h0 x (by simp), ih (fun y hy => h y (by simp [hy]))
      fun y hy => h0 y (by simp [hy])]
    simp [addR, zeroR]

theorem sum_pos_of {l : List ℝ} (h : ∀ x ∈ l, 0 ≤ x) (h' : ∃ x ∈ l, 0 < x) : 0 < l.sum := by
  induction l with
  | nil => obtain ⟨_, h, _⟩ := h'; simp at h
  | cons a l ih =>
    rw [List.sum_cons]
    have ha := h a (by simp)
    have hl : 0 ≤ l.sum := List.sum_nonneg fun x hx => h x (by simp [hx])
    obtain ⟨x, hx, hpos⟩ := h'
    rcases List.mem_cons.1 hx with rfl | hx
    · linarith
    · have := ih (fun x hx => h x (by simp [hx])) ⟨x, hx, hpos⟩
      linarith

/-- C129: the directed areas of the triangles of a brush add up to nothing, so that the volume they enclose does not
depend on the point from which it is measured, and this volume is positive: the surface is not inside out. -/
theorem C129_volume (textures : TextureInfo) (entity : Entity ℝ) (brush : Brush ℝ) (geo : BrushGeo ℝ)
    (h : buildBrush textures entity brush = .ok geo) (hp : ProperBrush brush.planes)
    (hd : brush.planes.Pairwise fun p q => ¬ ∀ x, OnPlane p x ↔ OnPlane q x) (cs : List (V3 ℝ))
    (hcs : cs = geo.planes.flatMap fun face => (faceCorners face).map (·.pos)) :
    directedArea cs = zeroR ∧ ∃ V : ℝ, 0 < V ∧ ∀ x, sixVolume x cs = V := by
  have e : cs = geo.planes.flatMap places := hcs
  subst e
  obtain ⟨hn, hc⟩ := brush_sides h hp hd
  have ha := area_zero hn hc
  have hfan := brush_fan h
  have h3 : ∀ p ∈ geo.planes, 3 ∣ (places p).length := fun p hpm => places_dvd (hfan p hpm)
  obtain ⟨hlen, hface⟩ := brush_face h
  obtain ⟨y, hy⟩ := hp.solid
  refine ⟨ha, sixVolume y (geo.planes.flatMap places), ?_, fun x => ?_⟩
  · have hpart : ∀ face ∈ geo.planes, 0 ≤ sixVolume y (places face) ∧
        (places face ≠ [] → 0 < sixVolume y (places face)) := by
      intro face hf
      apply volume_pos y _ (h3 face hf)
      intro t a b c h1 h2 h3
      obtain ⟨i, u, i1, i2, i3⟩ := (places_get (hfan face hf) _ _).1 h1
      obtain ⟨j, v, j1, j2, j3⟩ := (places_get (hfan face hf) _ _).1 h2
      obtain ⟨k, w, k1, k2, k3⟩ := (places_get (hfan face hf) _ _).1 h3
      obtain ⟨n, hn⟩ := List.mem_iff_getElem?.1 hf
      have hjl := (List.getElem?_eq_some_iff.1 hn).1
      have hgf : brush.planes[n]? = some (brush.planes[n]'(by omega)) := List.getElem?_eq_getElem _
      have hm := List.mem_of_getElem? hgf
      obtain ⟨q, hq, e⟩ := beneath_plane hp hm (hface n _ face hgf hn)
        (t := t) ⟨i, j, k, u, v, w, i1, j1, k1, i2, j2, k2, i3, j3, k3⟩
      rw [e]
      have := mul_neg_of_pos_of_neg hq (hy _ hm)
      unfold ht
      linarith
    rw [volume_flatMap h3]
    apply sum_pos_of
    · intro v hv
      obtain ⟨face, hf, rfl⟩ := List.mem_map.1 hv
      exact (hpart face hf).1
    · -- there is a point of the border, and a triangle there
      obtain ⟨R, hR⟩ := hp.bounded
      obtain ⟨s, _, _, hin, p, hpm, hz⟩ := border_between (planes := brush.planes) (y := y) (x := ⟨|R| + 1, 0, 0⟩) hy
        (by
          by_contra hc
          push Not at hc
          have := (hR ⟨|R| + 1, 0, 0⟩ fun p hpm => (within_zero p _).2 (hc p hpm)).1
          have h1 := le_abs_self R
          rw [abs_of_pos (by positivity)] at this
          linarith)
      obtain ⟨face, hf, t, a, b, c, hT, _⟩ := (C85_boundary _ _ _ _ h hp _).1
        ⟨fun r hr => (within_zero r _).2 (hin r hr), p, hpm, hz⟩
      refine ⟨_, List.mem_map.2 ⟨face, hf, rfl⟩, (hpart face hf).2 ?_⟩
      obtain ⟨i, _, _, u, _, _, h1, _, _, h2, _⟩ := hT
      have := (places_get (hfan face hf) (3 * t) u.pos).2 ⟨i, u, h1, h2, rfl⟩
      intro e
      rw [e] at this
      simp at this
  · rw [volume_move x y, ha]
    simp [dotR, zeroR]

/-- C129 for the collision: the directed areas of the triangles of a concave collision shape add up to nothing, and
it encloses a positive volume, the sum of the volumes of its brushes, from wherever it is measured. -/
theorem C129_concave (textures : TextureInfo) (entity : Entity ℝ) (geo : EntityGeo ℝ)
    (h : buildEntity textures entity = .ok geo) (hp : ∀ brush ∈ entity.brushes, ProperBrush brush.planes)
    (hd : ∀ brush ∈ entity.brushes, brush.planes.Pairwise fun p q => ¬ ∀ x, OnPlane p x ↔ OnPlane q x)
    (shapes : List (ConcaveCollision ℝ)) (hc : Scene.collisionOf .concave geo = .ok (.concave shapes))
    (shape : ConcaveCollision ℝ) (hs : shape ∈ shapes) :
    ∃ cs, Corners shape.vertices shape.indices cs ∧ directedArea cs = zeroR ∧
      (∀ x, sixVolume x cs = (geo.brushes.map fun b => sixVolume x (b.planes.flatMap fun face =>
        (faceCorners face).map (·.pos))).sum) ∧
      ∃ V : ℝ, 0 < V ∧ ∀ x, sixVolume x cs = V := by
  have hfan := geo_fanned h
  rcases C41_concave geo hfan with ⟨_, h1⟩ | ⟨⟨b0, hb0, _⟩, sh, h1, _, _, ⟨cs, hcs, hpl⟩, _⟩
  · rw [hc] at h1; cases h1
  · rw [hc] at h1
    cases h1
    cases List.mem_singleton.1 hs
    have e : cs = geo.brushes.flatMap fun b => b.planes.flatMap places := by
      rw [forall₂_samePlace hpl, List.map_flatMap]
      congr 1
      funext b
      rw [List.map_flatMap]
      rfl
    have hdv : ∀ b ∈ geo.brushes, 3 ∣ (b.planes.flatMap places).length := fun b hb =>
      dvd_flatMap fun p hpm => places_dvd (hfan b hb p hpm)
    have hb : ∀ b ∈ geo.brushes, directedArea (b.planes.flatMap places) = zeroR ∧
        ∃ V : ℝ, 0 < V ∧ ∀ x, sixVolume x (b.planes.flatMap places) = V := by
      intro b hb
      obtain ⟨eb, heb, hb'⟩ := forall₂_right (entity_brushes h) hb
      exact C129_volume _ _ _ _ hb' (hp eb heb) (hd eb heb) _ rfl
    have hvol : ∀ x, sixVolume x cs = (geo.brushes.map fun b => sixVolume x (b.planes.flatMap places)).sum :=
      fun x => by rw [e, volume_flatMap hdv]
    have harea : directedArea cs = zeroR := by
      rw [e]
      exact area_flatMap hdv fun b hbm => (hb b hbm).1
    refine ⟨cs, hcs, harea, hvol, sixVolume zeroR cs, ?_, fun x => ?_⟩
    · rw [hvol]
      apply sum_pos_of
      · intro v hv
        obtain ⟨b, hbm, rfl⟩ := List.mem_map.1 hv
        obtain ⟨V, hV, e⟩ := (hb b hbm).2
        show 0 ≤ sixVolume _ _
        rw [e]; exact hV.le
      · obtain ⟨V, hV, e⟩ := (hb b0 hb0).2
        exact ⟨_, List.mem_map.2 ⟨b0, hb0, rfl⟩, by show 0 < sixVolume _ _; rw [e]; exact hV⟩
    · rw [volume_move x zeroR, harea]
      simp [dotR, zeroR]

/-- C129 for the cube: its middle is in it, a point beside it faces a triangle, and its surface encloses a volume. -/
example (textures : TextureInfo) (entity : Entity ℝ) : ∃ geo, buildBrush textures entity ⟨Cube.planes⟩ = .ok geo ∧
    (∀ face ∈ geo.planes, ∀ t a b c, FaceTriangle face t a b c → 0 ≤ beneath a b c ⟨1 / 2, 1 / 2, 1 / 2⟩) ∧
    (∃ face ∈ geo.planes, ∃ t a b c, FaceTriangle face t a b c ∧ beneath a b c ⟨2, 1 / 2, 1 / 2⟩ < 0) ∧
    ∃ V : ℝ, 0 < V ∧ ∀ x, sixVolume x (geo.planes.flatMap fun face => (faceCorners face).map (·.pos)) = V := by
  obtain ⟨pgs, hp⟩ := mapOut_isOk.2 fun (plane : BrushPlane ℝ) (_ : plane ∈ Cube.planes) =>
    buildPlane_real textures entity Cube.planes plane
  have hb : ∃ geo, buildBrush textures entity ⟨Cube.planes⟩ = .ok geo := by
    unfold buildBrush; rw [hp]; exact ⟨_, rfl⟩
  obtain ⟨geo, h⟩ := hb
  refine ⟨geo, h, (C129_inside _ _ _ geo h Cube.proper _).1 ?_, ?_,
    (C129_volume _ _ _ geo h Cube.proper Cube.distinct _ rfl).2⟩
  · rw [Cube.inside]; norm_num
  · by_contra hc
    push Not at hc
    have := (C129_inside _ _ _ geo h Cube.proper ⟨2, 1 / 2, 1 / 2⟩).2 hc
    rw [Cube.inside] at this
    norm_num at this

/-- C129 for the collision of an entity that is the cube. -/
example (textures : TextureInfo) : ∃ geo shape,
    buildEntity textures (⟨Map.empty, [⟨Cube.planes⟩]⟩ : Entity ℝ) = .ok geo ∧
    Scene.collisionOf .concave geo = .ok (.concave [shape]) ∧
    ∃ cs, Corners shape.vertices shape.indices cs ∧ directedArea cs = zeroR ∧ ∃ V : ℝ, 0 < V ∧ ∀ x, sixVolume x cs = V := by
  obtain ⟨geo, b, pgs, h, hb, hpl, hp⟩ := Cube.entity textures
  obtain ⟨f, hfm, hf⟩ := mapOut_mem' hp (show Cube.xp ∈ Cube.planes by simp [Cube.planes])
  have h4 := Cube.four _ _ _ hf
  rcases C41_concave geo (geo_fanned h) with ⟨h0, _⟩ | ⟨_, shape, h1, _⟩
  · have := h0 b (by rw [hb]; simp) f (by rw [hpl]; exact hfm)
    rw [this] at h4; cases h4
  · obtain ⟨cs, hcs, ha, _, hV⟩ := C129_concave textures _ geo h
      (fun brush hbm => by cases List.mem_singleton.1 hbm; exact Cube.proper)
      (fun brush hbm => by cases List.mem_singleton.1 hbm; exact Cube.distinct) _ h1 shape (by simp)
    exact ⟨geo, shape, h, h1, cs, hcs, ha, hV⟩

end
end Quarch
