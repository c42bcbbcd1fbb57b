import Verif.Props.Pointed
import Verif.Props.RenderedExamples
/-
A map file with a square pyramid, loaded in single precision: examples for C125.
-/
namespace Quarch
open Quarch.Spec Quarch.Spec.F32 Quarch.Geo
section

theorem pyramid_clear (s : IntFace) (hs : s ∈ pyramid) : ∀ t ∈ pyramid, ∀ r ∈ pyramid, clearCheck 28 60 pyramid s t r = true := by
  revert s
  decide

theorem pyramid_near [F32Lib] : (∀ t ∈ pyramid, SingleFace t (singleFace t)) ∧
    ∀ p ∈ pyramid.map singleFace, NearFace 0 ((28 : Int) : ℝ) p := by
  have h1 : ∀ t ∈ pyramid, SingleFace t (singleFace t) := fun t ht => singleFace_is fun a => by
    simp only [pyramid, List.mem_cons, List.not_mem_nil, or_false] at ht
    cases a <;> rcases ht with rfl | rfl | rfl | rfl | rfl <;> decide
  refine ⟨h1, fun p hp => ?_⟩
  obtain ⟨t, ht, rfl⟩ := List.mem_map.1 hp
  refine ⟨⟨_, _, _, h1 t ht, ?_, ?_⟩, ?_⟩
  · intro h
    have hx := h .x
    have hy := h .y
    have hz := h .z
    simp only [pyramid, List.mem_cons, List.not_mem_nil, or_false] at ht
    rcases ht with rfl | rfl | rfl | rfl | rfl <;> revert hx hy hz <;> decide
  · simp only [pyramid, List.mem_cons, List.not_mem_nil, or_false] at ht
    rintro (_ | _ | _) <;> rcases ht with rfl | rfl | rfl | rfl | rfl <;> decide
  · have len : ∀ {t : IntFace}, t.1.x * t.1.x + t.1.y * t.1.y + t.1.z * t.1.z ≤ 28 * 28 → lenR (intTri t).1 ≤ ((28 : Int) : ℝ) := by
      intro t h
      unfold lenR
      refine Real.sqrt_le_iff.2 ⟨by norm_num, ?_⟩
      rw [pow_two]
      simp only [dotR, intTri]
      exact_mod_cast h
    have := single_tri (h1 t ht)
    have e : vec (singleFace t).v0 = (intTri t).1 := congrArg Prod.fst this
    rw [e]
    refine len ?_
    simp only [pyramid, List.mem_cons, List.not_mem_nil, or_false] at ht
    rcases ht with rfl | rfl | rfl | rfl | rfl <;> decide

/-- The corners of the pyramid. -/
def pyramidPoints : List (V3 Int) := [⟨-16, -16, -8⟩, ⟨16, -16, -8⟩, ⟨-16, 16, -8⟩, ⟨16, 16, -8⟩, ⟨0, 0, 8⟩]

/-- The corners of one of its faces. -/
def pyramidFace (f : IntFace) : List (V3 Int) := pyramidPoints.filter fun c => intDot (intRaw f) c = intDot (intRaw f) f.1

theorem pyramidFace_exact : ∀ s ∈ pyramid, cornersCheck pyramid s (pyramidFace s) = true := by decide

/-- Directions, in quarters, in which the corners stick out. -/
def pyramidOut (c : V3 Int) : V3 Int := if c.z = 8 then ⟨0, 0, 2⟩ else ⟨c.x.sign * 2, c.y.sign * 2, 0⟩

theorem pyramidOut_out : ∀ c ∈ pyramidPoints, intDot (pyramidOut c) (pyramidOut c) ≤ 16 ∧
    ∀ d ∈ pyramidPoints, d ≠ c → intDot (pyramidOut c) d + 1 ≤ intDot (pyramidOut c) c := by decide

/-- The pairs of faces that meet the face `s` at the point `c`. -/
def pyramidPairs (s : IntFace) (c : V3 Int) : List (IntFace × IntFace) :=
  (pyramid ×ˢ pyramid).filter fun q => decide (intDot (intRaw q.1) c = intDot (intRaw q.1) q.1.1) &&
    decide (intDot (intRaw q.2) c = intDot (intRaw q.2) q.2.1) && decide (0 < intDet s q.1 q.2)

theorem pyramidPairs_few : ∀ s ∈ pyramid, ∀ c ∈ pyramidFace s, (pyramidPairs s c).length ≤ 3 := by decide

/-- At the top of the pyramid a slanted face is met by three pairs of others. -/
example : ∀ s ∈ pyramid.tail, (pyramidPairs s ⟨0, 0, 8⟩).length = 3 := by decide

theorem pyramid_above [F32Lib] {t : IntFace} (ht : t ∈ pyramid) (x : V3 ℝ) : ∃ k > 0, (triOf (singleFace t)).above x = k * bevelHeight t x := by
  have hl := nearFace_len (g := 0) (R := ((28 : Int) : ℝ)) (by norm_num) (by norm_num) (by norm_num)
    (pyramid_near.2 _ (List.mem_map_of_mem ht))
  rw [single_tri (pyramid_near.1 t ht)] at hl ⊢
  refine ⟨1 / lenR (intTri t).raw, by positivity, ?_⟩
  rw [tri_above, intTri_raw]
  simp only [dotR, subR, intTri, bevelHeight]

theorem pyramid_below [F32Lib] {t : IntFace} (ht : t ∈ pyramid) (x : V3 ℝ) : (triOf (singleFace t)).above x ≤ 0 ↔ bevelHeight t x ≤ 0 := by
  obtain ⟨k, hk, e⟩ := pyramid_above ht x
  rw [e]
  exact mul_nonpos_iff_pos_imp_nonpos.trans ⟨fun h => h.1 hk, fun h => ⟨fun _ => h, fun h' => by
    by_contra hc
    have := not_le.1 hc
    linarith⟩⟩

theorem pyramid_level [F32Lib] {t : IntFace} (ht : t ∈ pyramid) (x : V3 ℝ) : (triOf (singleFace t)).above x = 0 ↔ bevelHeight t x = 0 := by
  obtain ⟨k, hk, e⟩ := pyramid_above ht x
  rw [e, mul_eq_zero]
  exact ⟨fun h => h.resolve_left hk.ne', .inr⟩

/-- The pyramid is pointed. -/
theorem pyramid_pointed [F32Lib] : PointedBrush 0 ((28 : Int) : ℝ) (pyramid.map singleFace) := by
  have ht : ∀ t ∈ pyramid, triOf (singleFace t) = intTri t := fun t h => single_tri (pyramid_near.1 t h)
  have hm : (pyramid.map singleFace).map triOf = pyramid.map intTri := by
    rw [List.map_map]
    exact List.map_congr_left ht
  have hco : ∀ s ∈ pyramid, ∀ x, x ∈ (pyramidFace s).map intVec ↔
      TrueCorner ((28 : Int) : ℝ) ((pyramid.map singleFace).map triOf) (triOf (singleFace s)) x := by
    intro s hs x
    rw [hm, ht s hs]
    exact cornersCheck_corners (by norm_num) (pyramid_clear s hs) (pyramidFace_exact s hs) x
  refine ⟨⟨by norm_num, by norm_num, by norm_num, pyramid_near.2, by simp [pyramid], ?clear, ?firm, ⟨⟨0, 0, 0⟩, ?solid⟩,
    ⟨16, ?bounded⟩⟩, ?corners⟩
  case clear =>
    intro p hp
    obtain ⟨s, hs, rfl⟩ := List.mem_map.1 hp
    rw [hm, ht s hs]
    exact clearCheck_true (by norm_num) (X := 60) (by norm_num) (pyramid_clear s hs)
  case firm =>
    intro p hp q hq r hr
    obtain ⟨s, hs, rfl⟩ := List.mem_map.1 hp
    obtain ⟨t, htm, rfl⟩ := List.mem_map.1 hq
    obtain ⟨f, hf, rfl⟩ := List.mem_map.1 hr
    rw [ht s hs, ht t htm, ht f hf]
    by_cases hd : 0 < Tri.spread (intTri s) (intTri t) (intTri f)
    · right
      have hd' := spread_pos hd
      have hk := pyramid_clear s hs t htm f hf
      simp only [clearCheck, Bool.or_eq_true, Bool.and_eq_true, decide_eq_true_eq] at hk
      obtain ⟨-, ⟨⟨-, hw⟩, -⟩ | ⟨⟨-, hw⟩, -⟩⟩ := hk.resolve_left (not_le.2 hd')
      · have := intTri_spread_ge hd' (R := 28) (by norm_num) (k := 64) (by norm_num) (by simpa using hw)
        norm_num at this ⊢
        linarith
      · have := intTri_spread_ge hd' (R := 60) (by norm_num) (k := 1000) (by norm_num) (by simpa using hw)
        norm_num at this ⊢
        linarith
    · exact .inl (not_lt.1 hd)
  case solid =>
    intro p hp
    obtain ⟨s, hs, rfl⟩ := List.mem_map.1 hp
    obtain ⟨k, hk, e⟩ := pyramid_above hs ⟨0, 0, 0⟩
    rw [e]
    refine mul_neg_of_pos_of_neg hk ?_
    have all : ∀ s ∈ pyramid, 0 < intDot (intRaw s) s.1 := by decide
    have hposr : (0 : ℝ) < ((intDot (intRaw s) s.1 : Int) : ℝ) := by exact_mod_cast all s hs
    simp only [intDot] at hposr
    push_cast at hposr
    simp only [bevelHeight]
    linarith
  case bounded =>
    intro x hx
    have k : ∀ s ∈ pyramid, bevelHeight s x ≤ 0 := fun s hs => (pyramid_below hs x).1 (hx _ (List.mem_map_of_mem hs))
    simp only [pyramid, List.forall_mem_cons, bevelHeight, intRaw, Spec.turn] at k
    norm_num at k
    obtain ⟨k1, k2, k3, k4, k5⟩ := k
    refine ⟨abs_le.2 ⟨?_, ?_⟩, abs_le.2 ⟨?_, ?_⟩, abs_le.2 ⟨?_, ?_⟩⟩ <;> linarith
  case corners =>
    intro p hp
    obtain ⟨s, hs, rfl⟩ := List.mem_map.1 hp
    refine ⟨3, (pyramidFace s).map intVec, by norm_num, hco s hs, ?_, ?_, ?_⟩
    · rw [List.length_map]
      have h1 : (pyramidFace s).length ≤ pyramidPoints.length := List.length_filter_le _ _
      have h2 : pyramidPoints.length = 5 := rfl
      omega
    · intro x hx
      obtain ⟨c, hc, rfl⟩ := List.mem_map.1 hx
      obtain ⟨o1, o2⟩ := pyramidOut_out c (List.mem_filter.1 hc).1
      refine ⟨smulR (1 / 4) (intVec (pyramidOut c)), ?_, ?_⟩
      · refine Real.sqrt_le_one.2 ?_
        have : ((intDot (pyramidOut c) (pyramidOut c) : Int) : ℝ) ≤ 16 := by exact_mod_cast o1
        simp only [intDot] at this
        push_cast at this
        simp only [dotR, smulR, intVec]
        linarith
      · intro y hy hne
        obtain ⟨d, hd, rfl⟩ := List.mem_map.1 hy
        have h1 := o2 d (List.mem_filter.1 hd).1 fun e => hne (by rw [e])
        have : ((intDot (pyramidOut c) d : Int) : ℝ) + 1 ≤ ((intDot (pyramidOut c) c : Int) : ℝ) := by exact_mod_cast h1
        simp only [intDot] at this
        push_cast at this
        simp only [dotR, smulR, intVec]
        push_cast
        linarith
    · intro x hx
      obtain ⟨c, hc, rfl⟩ := List.mem_map.1 hx
      refine ⟨(pyramidPairs s c).map fun q => (singleFace q.1, singleFace q.2), ?_, ?_⟩
      · rw [List.length_map]
        exact pyramidPairs_few s hs c hc
      · intro p1 h1 p2 h2 a1 a2 hsp
        obtain ⟨t, htm, rfl⟩ := List.mem_map.1 h1
        obtain ⟨r, hrm, rfl⟩ := List.mem_map.1 h2
        rw [ht s hs, ht t htm, ht r hrm] at hsp
        have hd := spread_pos (lt_trans (by norm_num) hsp)
        have lev : ∀ {t : IntFace}, bevelHeight t (intVec c) = 0 → intDot (intRaw t) c = intDot (intRaw t) t.1 := by
          intro t h
          have : ((intDot (intRaw t) c : Int) : ℝ) = ((intDot (intRaw t) t.1 : Int) : ℝ) := by
            simp only [intDot]
            push_cast
            simp only [bevelHeight, intVec] at h
            linarith
          exact_mod_cast this
        have b1 := lev ((pyramid_level htm _).1 a1)
        have b2 := lev ((pyramid_level hrm _).1 a2)
        refine List.mem_map.2 ⟨(t, r), List.mem_filter.2 ⟨List.pair_mem_product.2 ⟨htm, hrm⟩, ?_⟩, rfl⟩
        simp [b1, b2, hd]

/-- The corners of the faces of the pyramid. -/
theorem pyramid_corner [F32Lib] {s : IntFace} (hs : s ∈ pyramid) {c : V3 Int} (hc : c ∈ pyramidFace s) :
    TrueCorner ((28 : Int) : ℝ) ((pyramid.map singleFace).map triOf) (triOf (singleFace s)) (intVec c) := by
  have ht : ∀ t ∈ pyramid, triOf (singleFace t) = intTri t := fun t h => single_tri (pyramid_near.1 t h)
  have hm : (pyramid.map singleFace).map triOf = pyramid.map intTri := by
    rw [List.map_map]
    exact List.map_congr_left ht
  rw [hm, ht s hs]
  exact (cornersCheck_corners (by norm_num) (pyramid_clear s hs) (pyramidFace_exact s hs) _).1 (List.mem_map_of_mem (f := intVec) hc)

/-- C125: a triangle of a slanted face near its three corners, in either order, is seen from outside. -/
example [F32Lib] [Platform] [AccurateAtan2] (textures : TextureInfo) (entity : Entity F32) (face : PlaneGeo F32)
    (h : buildPlane textures entity (pyramid.map singleFace) (singleFace (⟨0, 0, 8⟩, ⟨16, -16, -8⟩, ⟨-16, -16, -8⟩)) = .ok face)
    (u v w : Vertex F32) (hT : TriangleOf face.vertices face.indices u v w)
    (hu : Close (1 / 2000) (vec u.pos) (intVec ⟨0, 0, 8⟩)) (hv : Close (1 / 2000) (vec v.pos) (intVec ⟨16, -16, -8⟩))
    (hw : Close (1 / 2000) (vec w.pos) (intVec ⟨-16, -16, -8⟩)) :
    dotR (crossR (subR (vec v.pos) (vec u.pos)) (subR (vec w.pos) (vec u.pos)))
      (triOf (singleFace (⟨0, 0, 8⟩, ⟨16, -16, -8⟩, ⟨-16, -16, -8⟩))).normal < 0 := by
  have hs : (⟨0, 0, 8⟩, ⟨16, -16, -8⟩, ⟨-16, -16, -8⟩) ∈ pyramid := by decide
  have hne : ∀ {c d : V3 Int}, c ≠ d → intVec c ≠ intVec d := fun h e => h (intVec_inj e)
  exact C125_facing pyramid_pointed textures entity _ (List.mem_map_of_mem hs) face h u v w hT _ _ _
    (pyramid_corner hs (by decide)) (pyramid_corner hs (by decide)) (pyramid_corner hs (by decide)) hu hv hw
    (hne (by decide)) (hne (by decide)) (hne (by decide))

/-- The pyramid is not firm, as more than three planes meet at its top. -/
example [F32Lib] : ¬ FirmBrush 0 ((28 : Int) : ℝ) (pyramid.map singleFace) := by
  intro hf
  have ht : ∀ t ∈ pyramid, triOf (singleFace t) = intTri t := fun t h => single_tri (pyramid_near.1 t h)
  obtain ⟨s, hs, t, htm, r, hr, q, hq, hd1, hd2, hsp, htr, hn⟩ : ∃ s ∈ pyramid, ∃ t ∈ pyramid, ∃ r ∈ pyramid, ∃ q ∈ pyramid,
      0 < intDet s t r ∧ 0 < intDet s t q ∧ (⟨0, 0, 8⟩ : V3 Int) ∈ pyramidFace s ∧
      (∀ f ∈ [t, r, q], intDot (intRaw f) ⟨0, 0, 8⟩ = intDot (intRaw f) f.1) ∧
      (intRaw r).y ≠ (intRaw q).y := by
    decide
  have pos : ∀ {s t r : IntFace}, s ∈ pyramid → t ∈ pyramid → r ∈ pyramid → 0 < intDet s t r →
      1 / 2000 < Tri.spread (triOf (singleFace s)) (triOf (singleFace t)) (triOf (singleFace r)) := by
    intro s t r hs htm hr hd
    refine (hf.firm _ (List.mem_map_of_mem hs) _ (List.mem_map_of_mem htm) _ (List.mem_map_of_mem hr)).resolve_left ?_
    rw [ht s hs, ht t htm, ht r hr, intTri_spread, not_le]
    have l : ∀ {s : IntFace}, s ∈ pyramid → 0 < lenR (intTri s).raw := by
      intro s hs
      rw [← ht s hs]
      exact firm_len hf.toClearBody (List.mem_map_of_mem hs)
    have := l hs
    have := l htm
    have := l hr
    have hd' : (0 : ℝ) < ((intDet s t r : Int) : ℝ) := by exact_mod_cast hd
    positivity
  have lev : ∀ f ∈ [t, r, q], f ∈ pyramid → (triOf (singleFace f)).above (intVec ⟨0, 0, 8⟩) = 0 := by
    intro f hfm hfp
    rw [pyramid_level hfp]
    have : ((intDot (intRaw f) ⟨0, 0, 8⟩ : Int) : ℝ) = ((intDot (intRaw f) f.1 : Int) : ℝ) := by rw [htr f hfm]
    simp only [intDot] at this
    push_cast at this
    simp only [bevelHeight, intVec]
    push_cast
    linarith
  have e := (hf.simple _ (List.mem_map_of_mem hs) _ (pyramid_corner hs hsp) _ (List.mem_map_of_mem htm) _ (List.mem_map_of_mem hr)
    _ (List.mem_map_of_mem htm) _ (List.mem_map_of_mem hq) (lev t (by simp) htm) (lev r (by simp) hr) (lev t (by simp) htm)
    (lev q (by simp) hq) (pos hs htm hr hd1) (pos hs htm hq hd2)).2
  have e2 : intTri r = intTri q := by rw [← ht r hr, ← ht q hq, e]
  have e3 := congrArg Tri.raw e2
  rw [intTri_raw, intTri_raw] at e3
  have e4 := congrArg V3.y e3
  simp only [Int.cast_inj] at e4
  exact hn e4

attribute [local instance] wholeLib wholeLib_accurate refPlatform

def pyramidMap : Str :=
  str! "{\n\"classname\" \"worldspawn\"\n{\n( -16 -16 -8 ) ( 16 -16 -8 ) ( -16 16 -8 ) brick 0 0 0 1 1\n( 00 00 8 ) ( 16 -16 -8 ) ( -16 -16 -8 ) brick 0 0 0 1 1\n( 00 00 8 ) ( 16 16 -8 ) ( 16 -16 -8 ) brick 0 0 0 1 1\n( 00 00 8 ) ( -16 16 -8 ) ( 16 16 -8 ) brick 0 0 0 1 1\n( 00 00 8 ) ( -16 -16 -8 ) ( -16 16 -8 ) brick 0 0 0 1 1\n}\n}\n"

def pyramidTokens : List Token :=
  [.openBrace, .property (str! "classname") (str! "worldspawn"), .openBrace,
    .brushPlane (str! "( -16 -16 -8 ) ( 16 -16 -8 ) ( -16 16 -8 ) brick 0 0 0 1 1"),
    .brushPlane (str! "( 00 00 8 ) ( 16 -16 -8 ) ( -16 -16 -8 ) brick 0 0 0 1 1"),
    .brushPlane (str! "( 00 00 8 ) ( 16 16 -8 ) ( 16 -16 -8 ) brick 0 0 0 1 1"),
    .brushPlane (str! "( 00 00 8 ) ( -16 16 -8 ) ( 16 16 -8 ) brick 0 0 0 1 1"),
    .brushPlane (str! "( 00 00 8 ) ( -16 -16 -8 ) ( -16 16 -8 ) brick 0 0 0 1 1"),
    .closeBrace, .closeBrace]

set_option maxRecDepth 100000 in
theorem pyramid_tokens : Tokenizer.run (Platform.bareCR) pyramidMap = .ok pyramidTokens := by decide

noncomputable def pyramidEntity : Entity F32 :=
  ⟨fun k => if k = str! "classname" then some (str! "worldspawn") else none, [⟨pyramid.map singleFace⟩]⟩

set_option maxRecDepth 100000 in
theorem pyramid_parse : ∃ paths, Parser.run (F := F32) pyramidTokens = .ok (paths, [pyramidEntity]) := ⟨_, rfl⟩

theorem pyramid_loads : LoadsAs pyramidMap [pyramidEntity] := by
  obtain ⟨paths, h⟩ := pyramid_parse
  exact ⟨_, _, pyramid_tokens, h⟩

/-- The worldspawn is shown with the given collision; nothing is on a blacklist. -/
noncomputable def pyramidConfig (ct : CollisionType) : Config F32 :=
  ⟨some pyramidMap, fun _ => none, ⟨[], []⟩, ⟨[], [], []⟩,
    ⟨[⟨str! "worldspawn", .brush ⟨.cls (str! "world"), .script [], .properties, Map.empty⟩ ⟨.mesh, ct⟩⟩], []⟩⟩

theorem pyramid_isPointed : ∀ e ∈ [pyramidEntity], ∀ br ∈ e.brushes, IsPointed br.planes := by
  intro e he br hbr
  cases List.mem_singleton.1 he
  cases List.mem_singleton.1 hbr
  exact ⟨_, _, pyramid_pointed⟩

theorem pyramid_anchored : ∀ e ∈ [pyramidEntity], Anchored [pyramidEntity] e := by
  intro e he
  cases List.mem_singleton.1 he
  exact .world rfl

theorem pyramid_world : ∃ pre w post, [pyramidEntity] = pre ++ w :: post ∧
    w.properties (str! "classname") = some (str! "worldspawn") ∧
    ∀ e ∈ pre ++ post, e.properties (str! "classname") ≠ some (str! "worldspawn") := ⟨[], _, [], rfl, rfl, by simp⟩

theorem pyramid_named : ∀ e ∈ [pyramidEntity], ∃ name, e.properties (str! "classname") = some name := by
  intro e he
  cases List.mem_singleton.1 he
  exact ⟨_, rfl⟩

theorem pyramid_ids : ∀ e ∈ [pyramidEntity], ∀ k ∈ [str! "_tb_id", str! "_tb_group"], ∀ s, e.properties k = some s →
    ∃ i, ReadsI32 s i := by
  intro e he k hk s hs
  cases List.mem_singleton.1 he
  simp only [List.mem_cons, List.not_mem_nil, or_false] at hk
  rcases hk with rfl | rfl <;> cases hs

theorem pyramid_tree : ¬ Loop [pyramidEntity] := no_loop_of_unique (List.pairwise_singleton _ _)

/-- The points of the pyramid. -/
theorem in_pyramid (y : V3 ℝ) : InBrush32 (pyramid.map singleFace) y ↔ -8 ≤ y.z ∧ y.z - 8 ≤ y.x ∧ y.x ≤ 8 - y.z ∧
    y.z - 8 ≤ y.y ∧ y.y ≤ 8 - y.z := by
  have h : InBrush32 (pyramid.map singleFace) y ↔ ∀ t ∈ pyramid, bevelHeight t y ≤ 0 := by
    simp only [InBrush32, List.forall_mem_map]
    exact forall₂_congr fun t ht => pyramid_below ht y
  rw [h]
  simp only [pyramid, List.forall_mem_cons, bevelHeight, intRaw, Spec.turn]
  norm_num
  constructor
  · rintro ⟨h1, h2, h3, h4, h5⟩
    refine ⟨?_, ?_, ?_, ?_, ?_⟩ <;> linarith
  · rintro ⟨h1, h2, h3, h4, h5⟩
    refine ⟨?_, ?_, ?_, ?_, ?_⟩ <;> linarith

/-- The points of its border. -/
theorem border_pyramid (y : V3 ℝ) : OnBorder32 (pyramid.map singleFace) y ↔ InBrush32 (pyramid.map singleFace) y ∧
    (y.z = -8 ∨ y.y = y.z - 8 ∨ y.x = 8 - y.z ∨ y.y = 8 - y.z ∨ y.x = y.z - 8) := by
  have h : (∃ p ∈ pyramid.map singleFace, (triOf p).above y = 0) ↔ ∃ t ∈ pyramid, bevelHeight t y = 0 := by
    constructor
    · rintro ⟨p, hp, h0⟩
      obtain ⟨t, ht, rfl⟩ := List.mem_map.1 hp
      exact ⟨t, ht, (pyramid_level ht y).1 h0⟩
    · rintro ⟨t, ht, h0⟩
      exact ⟨_, List.mem_map_of_mem ht, (pyramid_level ht y).2 h0⟩
  rw [OnBorder32, h]
  refine and_congr_right fun _ => ?_
  simp only [pyramid, List.exists_mem_cons_iff, bevelHeight, intRaw, Spec.turn]
  norm_num
  constructor
  · rintro (h | h | h | h | h)
    · exact .inl (by linarith)
    · exact .inr (.inl (by linarith))
    · exact .inr (.inr (.inl (by linarith)))
    · exact .inr (.inr (.inr (.inl (by linarith))))
    · exact .inr (.inr (.inr (.inr (by linarith))))
  · rintro (h | h | h | h | h)
    · exact .inl (by linarith)
    · exact .inr (.inl (by linarith))
    · exact .inr (.inr (.inl (by linarith)))
    · exact .inr (.inr (.inr (.inl (by linarith))))
    · exact .inr (.inr (.inr (.inr (by linarith))))

theorem pyramid_solid (ct : CollisionType) : ∀ e ∈ [pyramidEntity], ∀ br ∈ e.brushes, SolidAs (pyramidConfig ct) e br ct := by
  intro e he br hbr
  cases List.mem_singleton.1 he
  cases List.mem_singleton.1 hbr
  refine .inr ⟨?_, ⟨_, _, _, ⟨str! "worldspawn", rfl, [], [], rfl, rfl, by simp⟩, rfl, rfl⟩⟩
  rintro t ⟨_, _, hall⟩
  cases hall (singleFace (pyramid.head (by decide))) (List.mem_map_of_mem (by decide))

theorem pyramid_shown (ct : CollisionType) : ∀ e ∈ [pyramidEntity], ∀ br ∈ e.brushes, ∀ p ∈ br.planes,
    ShownFace (pyramidConfig ct) e br p := by
  intro e he br hbr p hp
  cases List.mem_singleton.1 he
  cases List.mem_singleton.1 hbr
  refine .inr ⟨?_, ⟨_, _, _, ⟨str! "worldspawn", rfl, [], [], rfl, rfl, by simp⟩, rfl, rfl⟩, ⟨p, hp, ?_⟩, ?_⟩
  · rintro t ⟨_, _, hall⟩
    cases hall p hp
  · intro t ht; cases ht
  · intro t ht; cases ht

/-- C125: the map loads; there are drawn points near the top and near a point of a slanted face, none near the middle of the
pyramid, and none well above a slanted face. -/
example : ∃ nodes, Quarch.run 1 id (pyramidConfig .convex) = .ok nodes ∧
    (∃ x, Drawn32 nodes x ∧ Close (1 / 2000) x ⟨0, 0, 8⟩) ∧ (∃ x, Drawn32 nodes x ∧ Close (1 / 2000) x ⟨4, -6, 2⟩) ∧
    (∀ x, Drawn32 nodes x → ¬ Close 3 x ⟨0, 0, 0⟩) ∧ ∀ x, Drawn32 nodes x → ¬ Close 3 x ⟨8, 8, 8⟩ := by
  obtain ⟨nodes, hn, h⟩ := C125_loads 1 id (fun _ => .refl _) (pyramidConfig .convex) pyramidMap rfl [pyramidEntity]
    ((C92_text _ _).1 pyramid_loads) pyramid_isPointed pyramid_world pyramid_named pyramid_ids pyramid_tree (by simp)
  obtain ⟨h1, h2⟩ := h pyramid_anchored (pyramid_shown _)
  have key : ∀ x, Drawn32 nodes x → ∃ y, OnBorder32 (pyramid.map singleFace) y ∧ Close (1 / 2000) x y := by
    intro x hx
    obtain ⟨y, ⟨e, he, br, hbr, hy⟩, hc⟩ := h1 x hx
    cases List.mem_singleton.1 he
    cases List.mem_singleton.1 hbr
    exact ⟨y, hy, hc⟩
  refine ⟨nodes, hn, h2 _ ⟨_, List.mem_singleton.2 rfl, _, List.mem_singleton.2 rfl, ?_⟩,
    h2 _ ⟨_, List.mem_singleton.2 rfl, _, List.mem_singleton.2 rfl, ?_⟩, fun x hx hc => ?_, fun x hx hc => ?_⟩
  · refine (border_pyramid _).2 ⟨(in_pyramid _).2 ?_, ?_⟩ <;> norm_num
  · refine (border_pyramid _).2 ⟨(in_pyramid _).2 ?_, ?_⟩ <;> norm_num
  · obtain ⟨y, hy, c1, c2, c3⟩ := key x hx
    obtain ⟨-, hb⟩ := (border_pyramid _).1 hy
    obtain ⟨d1, d2, d3⟩ := hc
    rw [abs_le] at c1 c2 c3 d1 d2 d3
    simp only at d1 d2 d3
    rcases hb with hb | hb | hb | hb | hb <;> linarith
  · obtain ⟨y, hy, c1, c2, c3⟩ := key x hx
    obtain ⟨h1, h2, h3, h4, h5⟩ := (in_pyramid _).1 ((border_pyramid _).1 hy).1
    obtain ⟨d1, d2, d3⟩ := hc
    rw [abs_le] at c1 c2 c3 d1 d2 d3
    simp only at d1 d2 d3
    linarith

/-- C125: with convex collision the top and the middle are nearly solid, and nothing well above a slanted face is. -/
example : ∃ nodes, Quarch.run 1 id (pyramidConfig .convex) = .ok nodes ∧
    (∃ x, InSolid32 nodes x ∧ Close (1 / 2000) x ⟨0, 0, 8⟩) ∧ (∃ x, InSolid32 nodes x ∧ Close (1 / 2000) x ⟨0, 0, 0⟩) ∧
    ∀ x, InSolid32 nodes x → ¬ Close 3 x ⟨8, 8, 8⟩ := by
  obtain ⟨nodes, hn, h⟩ := C125_solid_loads 1 id (fun _ => .refl _) (pyramidConfig .convex) pyramidMap rfl [pyramidEntity]
    ((C92_text _ _).1 pyramid_loads) pyramid_isPointed pyramid_world pyramid_named pyramid_ids pyramid_tree (by simp)
  obtain ⟨h1, h2⟩ := (h pyramid_anchored).1 (pyramid_solid _)
  refine ⟨nodes, hn, h2 _ ⟨_, List.mem_singleton.2 rfl, _, List.mem_singleton.2 rfl, ?_⟩,
    h2 _ ⟨_, List.mem_singleton.2 rfl, _, List.mem_singleton.2 rfl, ?_⟩, fun x hx hc => ?_⟩
  · refine (in_pyramid _).2 ?_
    norm_num
  · refine (in_pyramid _).2 ?_
    norm_num
  · obtain ⟨y, ⟨e, he, br, hbr, hy⟩, c1, c2, c3⟩ := h1 x hx
    cases List.mem_singleton.1 he
    cases List.mem_singleton.1 hbr
    obtain ⟨k1, k2, k3, k4, k5⟩ := (in_pyramid _).1 hy
    obtain ⟨d1, d2, d3⟩ := hc
    rw [abs_le] at c1 c2 c3 d1 d2 d3
    simp only at d1 d2 d3
    linarith

end
end Quarch
