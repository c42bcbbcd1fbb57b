import Verif.Props.Rendered
import Verif.Props.Texels
import Verif.Props.Spin
import Verif.Props.BoxMapExamples
/-
A map file with a bevelled block, loaded in single precision: examples for C123 and C124.
-/
namespace Quarch
open Quarch.Spec Quarch.Spec.F32 Quarch.Geo
section

/-- A library that reads some whole numbers and whose arc tangent and rotations are the numbers nearest to the true ones. -/
@[reducible] noncomputable def wholeLib : F32Lib where
  recip := false
  parse w :=
    if w = str! "-16" then some (F32.ofReal (-16 : Int)) else if w = str! "16" then some (F32.ofReal (16 : Int)) else
    if w = str! "8" then some (F32.ofReal (8 : Int)) else if w = str! "-8" then some (F32.ofReal (-8 : Int)) else if w = str! "0" then some (F32.num false 0 rep_zero) else
    if w = str! "00" then some (F32.ofReal (0 : Int)) else if w = str! "1" then some (F32.num false 1 rep_one) else none
  disp _ := []
  cos a := a
  atan2 := arcLib.atan2
  rotate := spinLib.rotate
  rotate2 := turnLib.rotate2

theorem wholeLib_accurate : @AccurateAtan2 wholeLib := by
  let _ := wholeLib
  exact ⟨fun y x hy hx h => arcLib_accurate.1 y x hy hx h⟩

attribute [local instance] wholeLib wholeLib_accurate refPlatform

def bevelMap : Str :=
  str! "{\n\"classname\" \"worldspawn\"\n{\n( -16 -16 -16 ) ( -16 16 -16 ) ( -16 -16 16 ) brick 0 0 0 1 1\n( 16 -16 -16 ) ( 16 -16 16 ) ( 16 8 -16 ) brick 0 0 0 1 1\n( -16 -16 -16 ) ( -16 -16 16 ) ( 16 -16 -16 ) brick 0 0 0 1 1\n( -16 16 -16 ) ( 8 16 -16 ) ( -16 16 16 ) brick 0 0 0 1 1\n( -16 -16 -16 ) ( 16 -16 -16 ) ( -16 16 -16 ) brick 0 0 0 1 1\n( -16 -16 16 ) ( -16 16 16 ) ( 16 -16 16 ) brick 0 0 0 1 1\n( 16 8 -16 ) ( 16 8 16 ) ( 8 16 -16 ) brick 0 0 0 1 1\n}\n}\n"

def bevelTokens : List Token :=
  [.openBrace, .property (str! "classname") (str! "worldspawn"), .openBrace,
    .brushPlane (str! "( -16 -16 -16 ) ( -16 16 -16 ) ( -16 -16 16 ) brick 0 0 0 1 1"),
    .brushPlane (str! "( 16 -16 -16 ) ( 16 -16 16 ) ( 16 8 -16 ) brick 0 0 0 1 1"),
    .brushPlane (str! "( -16 -16 -16 ) ( -16 -16 16 ) ( 16 -16 -16 ) brick 0 0 0 1 1"),
    .brushPlane (str! "( -16 16 -16 ) ( 8 16 -16 ) ( -16 16 16 ) brick 0 0 0 1 1"),
    .brushPlane (str! "( -16 -16 -16 ) ( 16 -16 -16 ) ( -16 16 -16 ) brick 0 0 0 1 1"),
    .brushPlane (str! "( -16 -16 16 ) ( -16 16 16 ) ( 16 -16 16 ) brick 0 0 0 1 1"),
    .brushPlane (str! "( 16 8 -16 ) ( 16 8 16 ) ( 8 16 -16 ) brick 0 0 0 1 1"), .closeBrace, .closeBrace]

set_option maxRecDepth 100000 in
theorem bevel_tokens : Tokenizer.run (Platform.bareCR) bevelMap = .ok bevelTokens := by decide

noncomputable def bevelEntity : Entity F32 :=
  ⟨fun k => if k = str! "classname" then some (str! "worldspawn") else none, [⟨bevel.map singleFace⟩]⟩

set_option maxRecDepth 100000 in
theorem bevel_parse : ∃ paths, Parser.run (F := F32) bevelTokens = .ok (paths, [bevelEntity]) := ⟨_, rfl⟩

theorem bevel_loads : LoadsAs bevelMap [bevelEntity] := by
  obtain ⟨paths, h⟩ := bevel_parse
  exact ⟨_, _, bevel_tokens, h⟩

/-- The worldspawn is shown with the given collision; nothing is on a blacklist. -/
noncomputable def bevelConfig (ct : CollisionType) : Config F32 :=
  ⟨some bevelMap, fun _ => none, ⟨[], []⟩, ⟨[], [], []⟩,
    ⟨[⟨str! "worldspawn", .brush ⟨.cls (str! "world"), .script [], .properties, Map.empty⟩ ⟨.mesh, ct⟩⟩], []⟩⟩

theorem bevel_isFirm : ∀ e ∈ [bevelEntity], ∀ br ∈ e.brushes, IsFirm br.planes := by
  intro e he br hbr
  cases List.mem_singleton.1 he
  cases List.mem_singleton.1 hbr
  exact ⟨_, _, bevel_firm⟩

theorem bevel_anchored : ∀ e ∈ [bevelEntity], Anchored [bevelEntity] e := by
  intro e he
  cases List.mem_singleton.1 he
  exact .world rfl

theorem bevel_world : ∃ pre w post, [bevelEntity] = pre ++ w :: post ∧
    w.properties (str! "classname") = some (str! "worldspawn") ∧
    ∀ e ∈ pre ++ post, e.properties (str! "classname") ≠ some (str! "worldspawn") := ⟨[], _, [], rfl, rfl, by simp⟩

theorem bevel_named : ∀ e ∈ [bevelEntity], ∃ name, e.properties (str! "classname") = some name := by
  intro e he
  cases List.mem_singleton.1 he
  exact ⟨_, rfl⟩

theorem bevel_ids : ∀ e ∈ [bevelEntity], ∀ k ∈ [str! "_tb_id", str! "_tb_group"], ∀ s, e.properties k = some s →
    ∃ i, ReadsI32 s i := by
  intro e he k hk s hs
  cases List.mem_singleton.1 he
  simp only [List.mem_cons, List.not_mem_nil, or_false] at hk
  rcases hk with rfl | rfl <;> cases hs

theorem bevel_tree : ¬ Loop [bevelEntity] := no_loop_of_unique (List.pairwise_singleton _ _)

/-- The height over a face of the block, up to a positive factor. -/
def bevelHeight (t : IntFace) (x : V3 ℝ) : ℝ :=
  (intRaw t).x * (x.x - t.1.x) + (intRaw t).y * (x.y - t.1.y) + (intRaw t).z * (x.z - t.1.z)

theorem bevel_above {t : IntFace} (ht : t ∈ bevel) (x : V3 ℝ) : ∃ k > 0, (triOf (singleFace t)).above x = k * bevelHeight t x := by
  have hl := nearFace_len (g := 0) (R := ((28 : Int) : ℝ)) (by norm_num) (by norm_num) (by norm_num)
    (bevel_near.2 _ (List.mem_map_of_mem ht))
  rw [single_tri (bevel_near.1 t ht)] at hl ⊢
  refine ⟨1 / lenR (intTri t).raw, by positivity, ?_⟩
  rw [tri_above, intTri_raw]
  simp only [dotR, subR, intTri, bevelHeight]

theorem bevel_below {t : IntFace} (ht : t ∈ bevel) (x : V3 ℝ) : (triOf (singleFace t)).above x ≤ 0 ↔ bevelHeight t x ≤ 0 := by
  obtain ⟨k, hk, e⟩ := bevel_above ht x
  rw [e]
  exact mul_nonpos_iff_pos_imp_nonpos.trans ⟨fun h => h.1 hk, fun h => ⟨fun _ => h, fun h' => by
    by_contra hc
    have := not_le.1 hc
    linarith⟩⟩

theorem bevel_level {t : IntFace} (ht : t ∈ bevel) (x : V3 ℝ) : (triOf (singleFace t)).above x = 0 ↔ bevelHeight t x = 0 := by
  obtain ⟨k, hk, e⟩ := bevel_above ht x
  rw [e, mul_eq_zero]
  exact ⟨fun h => h.resolve_left hk.ne', .inr⟩

/-- The points of the block. -/
theorem in_bevel (y : V3 ℝ) : InBrush32 (bevel.map singleFace) y ↔ (-16 ≤ y.x ∧ y.x ≤ 16) ∧ (-16 ≤ y.y ∧ y.y ≤ 16) ∧
    (-16 ≤ y.z ∧ y.z ≤ 16) ∧ y.x + y.y ≤ 24 := by
  have h : InBrush32 (bevel.map singleFace) y ↔ ∀ t ∈ bevel, bevelHeight t y ≤ 0 := by
    simp only [InBrush32, List.forall_mem_map]
    exact forall₂_congr fun t ht => bevel_below ht y
  rw [h]
  simp only [bevel, List.forall_mem_cons, bevelHeight, intRaw, Spec.turn]
  norm_num
  constructor
  · rintro ⟨h1, h2, h3, h4, h5, h6, h7⟩
    refine ⟨⟨?_, ?_⟩, ⟨?_, ?_⟩, ⟨?_, ?_⟩, ?_⟩ <;> linarith
  · rintro ⟨⟨h1, h2⟩, ⟨h3, h4⟩, ⟨h5, h6⟩, h7⟩
    refine ⟨?_, ?_, ?_, ?_, ?_, ?_, ?_⟩ <;> linarith

/-- The points of its border. -/
theorem border_bevel (y : V3 ℝ) : OnBorder32 (bevel.map singleFace) y ↔ InBrush32 (bevel.map singleFace) y ∧
    (y.x = -16 ∨ y.x = 16 ∨ y.y = -16 ∨ y.y = 16 ∨ y.z = -16 ∨ y.z = 16 ∨ y.x + y.y = 24) := by
  have h : (∃ p ∈ bevel.map singleFace, (triOf p).above y = 0) ↔ ∃ t ∈ bevel, bevelHeight t y = 0 := by
    constructor
    · rintro ⟨p, hp, h0⟩
      obtain ⟨t, ht, rfl⟩ := List.mem_map.1 hp
      exact ⟨t, ht, (bevel_level ht y).1 h0⟩
    · rintro ⟨t, ht, h0⟩
      exact ⟨_, List.mem_map_of_mem ht, (bevel_level ht y).2 h0⟩
  rw [OnBorder32, h]
  refine and_congr_right fun _ => ?_
  simp only [bevel, List.exists_mem_cons_iff, bevelHeight, intRaw, Spec.turn]
  norm_num
  constructor
  · rintro (h | h | h | h | h | h | h)
    · exact .inl (by linarith)
    · exact .inr (.inl (by linarith))
    · exact .inr (.inr (.inl (by linarith)))
    · exact .inr (.inr (.inr (.inl (by linarith))))
    · exact .inr (.inr (.inr (.inr (.inl (by linarith)))))
    · exact .inr (.inr (.inr (.inr (.inr (.inl (by linarith))))))
    · exact .inr (.inr (.inr (.inr (.inr (.inr (by linarith))))))
  · rintro (h | h | h | h | h | h | h)
    · exact .inl (by linarith)
    · exact .inr (.inl (by linarith))
    · exact .inr (.inr (.inl (by linarith)))
    · exact .inr (.inr (.inr (.inl (by linarith))))
    · exact .inr (.inr (.inr (.inr (.inl (by linarith)))))
    · exact .inr (.inr (.inr (.inr (.inr (.inl (by linarith))))))
    · exact .inr (.inr (.inr (.inr (.inr (.inr (by linarith))))))

theorem bevel_solid (ct : CollisionType) : ∀ e ∈ [bevelEntity], ∀ br ∈ e.brushes, SolidAs (bevelConfig ct) e br ct := by
  intro e he br hbr
  cases List.mem_singleton.1 he
  cases List.mem_singleton.1 hbr
  refine .inr ⟨?_, ⟨_, _, _, ⟨str! "worldspawn", rfl, [], [], rfl, rfl, by simp⟩, rfl, rfl⟩⟩
  rintro t ⟨_, _, hall⟩
  cases hall (singleFace (bevel.head (by decide))) (List.mem_map_of_mem (by decide))

theorem bevel_shown (ct : CollisionType) : ∀ e ∈ [bevelEntity], ∀ br ∈ e.brushes, ∀ p ∈ br.planes,
    ShownFace (bevelConfig ct) e br p := by
  intro e he br hbr p hp
  cases List.mem_singleton.1 he
  cases List.mem_singleton.1 hbr
  refine .inr ⟨?_, ⟨_, _, _, ⟨str! "worldspawn", rfl, [], [], rfl, rfl, by simp⟩, rfl, rfl⟩, ⟨p, hp, ?_⟩, ?_⟩
  · rintro t ⟨_, _, hall⟩
    cases hall p hp
  · intro t ht; cases ht
  · intro t ht; cases ht

/-- C123: the map loads; there is a drawn point near the middle of the slanted face, none near the middle of the block, and
none near the edge that was cut off. -/
example : ∃ nodes, Quarch.run 1 id (bevelConfig .convex) = .ok nodes ∧
    (∃ x, Drawn32 nodes x ∧ Close (1 / 2000) x ⟨12, 12, 0⟩) ∧
    (∀ x, Drawn32 nodes x → ¬ Close 11 x ⟨0, 0, 0⟩) ∧ ∀ x, Drawn32 nodes x → ¬ Close 3 x ⟨16, 16, 0⟩ := by
  obtain ⟨nodes, hn, h⟩ := C123_loads 1 id (fun _ => .refl _) (bevelConfig .convex) bevelMap rfl [bevelEntity]
    ((C92_text _ _).1 bevel_loads) bevel_isFirm bevel_world bevel_named bevel_ids bevel_tree (by simp)
  obtain ⟨h1, h2⟩ := h bevel_anchored (bevel_shown _)
  have key : ∀ x, Drawn32 nodes x → ∃ y, OnBorder32 (bevel.map singleFace) y ∧ Close (1 / 2000) x y := by
    intro x hx
    obtain ⟨y, ⟨e, he, br, hbr, hy⟩, hc⟩ := h1 x hx
    cases List.mem_singleton.1 he
    cases List.mem_singleton.1 hbr
    exact ⟨y, hy, hc⟩
  refine ⟨nodes, hn, h2 _ ⟨_, List.mem_singleton.2 rfl, _, List.mem_singleton.2 rfl, ?_⟩, fun x hx hc => ?_, fun x hx hc => ?_⟩
  · refine (border_bevel _).2 ⟨(in_bevel _).2 ?_, ?_⟩ <;> norm_num
  · obtain ⟨y, hy, c1, c2, c3⟩ := key x hx
    obtain ⟨-, hb⟩ := (border_bevel _).1 hy
    obtain ⟨d1, d2, d3⟩ := hc
    rw [abs_le] at c1 c2 c3 d1 d2 d3
    simp only at d1 d2 d3
    rcases hb with hb | hb | hb | hb | hb | hb | hb <;> linarith
  · obtain ⟨y, hy, c1, c2, c3⟩ := key x hx
    obtain ⟨-, -, -, hb⟩ := (in_bevel _).1 ((border_bevel _).1 hy).1
    obtain ⟨d1, d2, d3⟩ := hc
    rw [abs_le] at c1 c2 c3 d1 d2 d3
    simp only at d1 d2 d3
    linarith

/-- C124: with convex collision the middle of the block is nearly solid and nothing is solid near the edge that was cut
off. -/
example : ∃ nodes, Quarch.run 1 id (bevelConfig .convex) = .ok nodes ∧
    (∃ x, InSolid32 nodes x ∧ Close (1 / 2000) x ⟨0, 0, 0⟩) ∧ ∀ x, InSolid32 nodes x → ¬ Close 3 x ⟨16, 16, 0⟩ := by
  obtain ⟨nodes, hn, h⟩ := C124_loads 1 id (fun _ => .refl _) (bevelConfig .convex) bevelMap rfl [bevelEntity]
    ((C92_text _ _).1 bevel_loads) bevel_isFirm bevel_world bevel_named bevel_ids bevel_tree (by simp)
  obtain ⟨h1, h2⟩ := (h bevel_anchored).1 (bevel_solid _)
  refine ⟨nodes, hn, h2 _ ⟨_, List.mem_singleton.2 rfl, _, List.mem_singleton.2 rfl, ?_⟩, fun x hx hc => ?_⟩
  · refine (in_bevel _).2 ?_
    norm_num
  · obtain ⟨y, ⟨e, he, br, hbr, hy⟩, c1, c2, c3⟩ := h1 x hx
    cases List.mem_singleton.1 he
    cases List.mem_singleton.1 hbr
    obtain ⟨-, -, -, hb⟩ := (in_bevel _).1 hy
    obtain ⟨d1, d2, d3⟩ := hc
    rw [abs_le] at c1 c2 c3 d1 d2 d3
    simp only at d1 d2 d3
    linarith

/-- C124: with concave collision the slanted face is nearly solid and nothing is near the middle of the block. -/
example : ∃ nodes, Quarch.run 1 id (bevelConfig .concave) = .ok nodes ∧
    (∃ x, OnSolid32 nodes x ∧ Close (1 / 2000) x ⟨12, 12, 0⟩) ∧ ∀ x, OnSolid32 nodes x → ¬ Close 11 x ⟨0, 0, 0⟩ := by
  obtain ⟨nodes, hn, h⟩ := C124_loads 1 id (fun _ => .refl _) (bevelConfig .concave) bevelMap rfl [bevelEntity]
    ((C92_text _ _).1 bevel_loads) bevel_isFirm bevel_world bevel_named bevel_ids bevel_tree (by simp)
  obtain ⟨h1, h2⟩ := (h bevel_anchored).2 (bevel_solid _)
  refine ⟨nodes, hn, h2 _ ⟨_, List.mem_singleton.2 rfl, _, List.mem_singleton.2 rfl, ?_⟩, fun x hx hc => ?_⟩
  · refine (border_bevel _).2 ⟨(in_bevel _).2 ?_, ?_⟩ <;> norm_num
  · obtain ⟨y, ⟨e, he, br, hbr, hy⟩, c1, c2, c3⟩ := h1 x hx
    cases List.mem_singleton.1 he
    cases List.mem_singleton.1 hbr
    obtain ⟨-, hb⟩ := (border_bevel _).1 hy
    obtain ⟨d1, d2, d3⟩ := hc
    rw [abs_le] at c1 c2 c3 d1 d2 d3
    simp only at d1 d2 d3
    rcases hb with hb | hb | hb | hb | hb | hb | hb <;> linarith

end
end Quarch
