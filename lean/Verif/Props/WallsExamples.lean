import Verif.Props.Walls
import Verif.Props.CutExamples
import Verif.Props.WalkSingleExamples
/-
Walls that are built of different brushes, for C147.
-/
set_option linter.unusedSectionVars false
namespace Quarch
open Quarch.Spec Quarch.Spec.F32 Quarch.Geo Scene

/-! ### The box of C143, in one piece and in two -/
section
attribute [local instance] refPlatform stepText

theorem plank_points (x : V3 ℝ) : SolidPoint { stepConfig with mapFile := some plankMap } [plankWorld [plank]] x ↔
    SolidPoint { stepConfig with mapFile := some sawMap } [plankWorld [sawn plank sawCut, sawn plank sawCut']] x := by
  constructor
  · rintro ⟨e, he, _, br, hbr, hs, hin⟩
    cases List.mem_singleton.1 he
    cases List.mem_singleton.1 hbr
    rcases (halves_in saw_cut.turned x).1 hin with hin | hin
    · exact ⟨_, List.mem_singleton.2 rfl, .world rfl, sawn plank sawCut, by simp [plankWorld],
        (half_solid (config := stepConfig) rfl saw_cut.texture _).2 hs, hin⟩
    · exact ⟨_, List.mem_singleton.2 rfl, .world rfl, sawn plank sawCut', by simp [plankWorld],
        (half_solid (config := stepConfig) rfl saw_cut.texture' _).2 hs, hin⟩
  · rintro ⟨e, he, _, br, hbr, hs, hin⟩
    cases List.mem_singleton.1 he
    simp only [plankWorld, List.mem_cons, List.not_mem_nil, or_false] at hbr
    rcases hbr with rfl | rfl
    · exact ⟨_, List.mem_singleton.2 rfl, .world rfl, plank, List.mem_singleton.2 rfl,
        (half_solid (config := stepConfig) rfl saw_cut.texture _).1 hs, (half_in.1 hin).1⟩
    · exact ⟨_, List.mem_singleton.2 rfl, .world rfl, plank, List.mem_singleton.2 rfl,
        (half_solid (config := stepConfig) rfl saw_cut.texture' _).1 hs, (half_in.1 hin).1⟩

theorem plank_all : ∀ e ∈ [plankWorld [plank]], Anchored [plankWorld [plank]] e → ∀ br ∈ e.brushes, ProperBrush br.planes := by
  intro e he _ br hbr
  cases List.mem_singleton.1 he
  cases List.mem_singleton.1 hbr
  exact plank_proper

theorem saw_all : ∀ e ∈ [plankWorld [sawn plank sawCut, sawn plank sawCut']],
    Anchored [plankWorld [sawn plank sawCut, sawn plank sawCut']] e → ∀ br ∈ e.brushes, ProperBrush br.planes := by
  intro e he _ br hbr
  cases List.mem_singleton.1 he
  simp only [plankWorld, List.mem_cons, List.not_mem_nil, or_false] at hbr
  rcases hbr with rfl | rfl
  · exact sawn_proper cut_axis (a := 1 / 2) (by norm_num) (by norm_num)
      (by norm_num [sawCut, rawNormal, stepPlane, crossR, subR, dotR])
  · exact sawn_proper cut_axis' (a := 3 / 2) (by norm_num) (by norm_num)
      (by norm_num [sawCut', rawNormal, stepPlane, crossR, subR, dotR])

theorem plank_solid : SolidAs { stepConfig with mapFile := some plankMap } (plankWorld [plank]) plank .convex := by
  refine .inr ⟨?_, ⟨_, _, _, ⟨str! "worldspawn", rfl, [], _, rfl, rfl, by simp⟩, rfl, rfl⟩⟩
  rintro t ⟨_, ht, hall⟩
  have h := hall _ List.mem_cons_self
  have h' : knownTexture stepConfig.textureInfo (stepPlane ⟨2, 0, 0⟩ ⟨2, 0, 1⟩ ⟨2, 1, 0⟩) = some (str! "brick") := rfl
  rw [h'] at h
  cases h
  rcases ht with ht | ht <;> exact absurd ht (by decide)

/-- C147: the box in one piece and the box in two pieces are solid at the same points, and a point on the surface of the solid is
drawn. -/
example : ∃ nodes nodes', Quarch.run 1 id { stepConfig with mapFile := some plankMap } = .ok nodes ∧
    Quarch.run 1 id { stepConfig with mapFile := some sawMap } = .ok nodes' ∧
    (∀ x, InSolid nodes' x ↔ InSolid nodes x) ∧ InSolid nodes' ⟨1, 1 / 2, 1 / 2⟩ ∧ Drawn nodes ⟨2, 1 / 2, 1 / 2⟩ := by
  obtain ⟨nodes, h⟩ := plank_run
  obtain ⟨nodes', h'⟩ := saw_run
  have same := C147_exact 1 1 id id (fun _ => .refl _) (fun _ => .refl _) { stepConfig with mapFile := some plankMap }
    { stepConfig with mapFile := some sawMap } plankMap sawMap rfl rfl _ _ plank_loads saw_loads nodes nodes' h h'
    plank_all saw_all plank_points
  have filled := C88_filled 1 id (fun _ => .refl _) { stepConfig with mapFile := some plankMap } nodes h plankMap rfl _
    plank_loads plank_all
  have inside : ∀ a : ℝ, 0 ≤ a → a ≤ 2 → InSolid nodes ⟨a, 1 / 2, 1 / 2⟩ := fun a h0 h2 => (filled _).2 ⟨_,
    List.mem_singleton.2 rfl, .world rfl, plank, List.mem_singleton.2 rfl, plank_solid, by
      simp only [plank, List.mem_cons, List.not_mem_nil, or_false, forall_eq_or_imp, forall_eq, WithinR, zero_mul]
      norm_num [rawNormal, stepPlane, crossR, subR, dotR]
      exact ⟨by linarith, by linarith⟩⟩
  refine ⟨nodes, nodes', h, h', same, (same _).2 (inside 1 (by norm_num) (by norm_num)), ?_⟩
  refine C147_surface 1 id (fun _ => .refl _) { stepConfig with mapFile := some plankMap } nodes h plankMap rfl _
    plank_loads plank_all ⟨fun d hd pd bd hdd _ => ?_, fun l hl => by cases hl⟩
    (fun _ _ _ _ _ _ _ _ _ _ => ⟨List.not_mem_nil, List.not_mem_nil⟩) _ ⟨inside 2 (by norm_num) le_rfl, fun d hd => ?_⟩
  · simp only [stepConfig, List.mem_cons, List.not_mem_nil, or_false] at hd
    rcases hd with rfl | rfl
    · cases hdd; rfl
    · cases hdd
  · refine ⟨⟨2 + d, 1 / 2, 1 / 2⟩, ⟨?_, ?_, ?_⟩, fun hh => ?_⟩
    · simp only [add_sub_cancel_left]; exact (abs_of_pos hd).le
    · simpa using hd.le
    · simpa using hd.le
    · obtain ⟨e, he, _, br, hbr, _, hin⟩ := (filled _).1 hh
      cases List.mem_singleton.1 he
      cases List.mem_singleton.1 hbr
      have := (abs_le.1 (plank_bounded _ hin).1).2
      simp only at this
      linarith
end

/-! ### The pyramid of C125, once and twice -/
section
attribute [local instance] wholeLib wholeLib_accurate refPlatform

def pyramidsMap : Str :=
  str! "{\n\"classname\" \"worldspawn\"\n{\n( -16 -16 -8 ) ( 16 -16 -8 ) ( -16 16 -8 ) brick 0 0 0 1 1\n( 00 00 8 ) ( 16 -16 -8 ) ( -16 -16 -8 ) brick 0 0 0 1 1\n( 00 00 8 ) ( 16 16 -8 ) ( 16 -16 -8 ) brick 0 0 0 1 1\n( 00 00 8 ) ( -16 16 -8 ) ( 16 16 -8 ) brick 0 0 0 1 1\n( 00 00 8 ) ( -16 -16 -8 ) ( -16 16 -8 ) brick 0 0 0 1 1\n}\n{\n( -16 -16 -8 ) ( 16 -16 -8 ) ( -16 16 -8 ) brick 0 0 0 1 1\n( 00 00 8 ) ( 16 -16 -8 ) ( -16 -16 -8 ) brick 0 0 0 1 1\n( 00 00 8 ) ( 16 16 -8 ) ( 16 -16 -8 ) brick 0 0 0 1 1\n( 00 00 8 ) ( -16 16 -8 ) ( 16 16 -8 ) brick 0 0 0 1 1\n( 00 00 8 ) ( -16 -16 -8 ) ( -16 16 -8 ) brick 0 0 0 1 1\n}\n}\n"

def pyramidsTokens : List Token :=
  [.openBrace, .property (str! "classname") (str! "worldspawn"),
    .openBrace,
    .brushPlane (str! "( -16 -16 -8 ) ( 16 -16 -8 ) ( -16 16 -8 ) brick 0 0 0 1 1"),
    .brushPlane (str! "( 00 00 8 ) ( 16 -16 -8 ) ( -16 -16 -8 ) brick 0 0 0 1 1"),
    .brushPlane (str! "( 00 00 8 ) ( 16 16 -8 ) ( 16 -16 -8 ) brick 0 0 0 1 1"),
    .brushPlane (str! "( 00 00 8 ) ( -16 16 -8 ) ( 16 16 -8 ) brick 0 0 0 1 1"),
    .brushPlane (str! "( 00 00 8 ) ( -16 -16 -8 ) ( -16 16 -8 ) brick 0 0 0 1 1"),
    .closeBrace,
    .openBrace,
    .brushPlane (str! "( -16 -16 -8 ) ( 16 -16 -8 ) ( -16 16 -8 ) brick 0 0 0 1 1"),
    .brushPlane (str! "( 00 00 8 ) ( 16 -16 -8 ) ( -16 -16 -8 ) brick 0 0 0 1 1"),
    .brushPlane (str! "( 00 00 8 ) ( 16 16 -8 ) ( 16 -16 -8 ) brick 0 0 0 1 1"),
    .brushPlane (str! "( 00 00 8 ) ( -16 16 -8 ) ( 16 16 -8 ) brick 0 0 0 1 1"),
    .brushPlane (str! "( 00 00 8 ) ( -16 -16 -8 ) ( -16 16 -8 ) brick 0 0 0 1 1"),
    .closeBrace,
    .closeBrace]

set_option maxRecDepth 100000 in
theorem pyramids_tokens : Tokenizer.run (Platform.bareCR) pyramidsMap = .ok pyramidsTokens := by decide

noncomputable def pyramidsEntity : Entity F32 := { pyramidEntity with brushes := [⟨pyramid.map singleFace⟩, ⟨pyramid.map singleFace⟩] }

set_option maxRecDepth 100000 in
theorem pyramids_parse : ∃ paths, Parser.run (F := F32) pyramidsTokens = .ok (paths, [pyramidsEntity]) := ⟨_, rfl⟩

theorem pyramids_loads : LoadsAs pyramidsMap [pyramidsEntity] := by
  obtain ⟨paths, h⟩ := pyramids_parse
  exact ⟨_, _, pyramids_tokens, h⟩

theorem pyramids_brush {br : Brush F32} : br ∈ pyramidsEntity.brushes ↔ br = ⟨pyramid.map singleFace⟩ := by
  simp [pyramidsEntity]

theorem pyramids_isPointed : ∀ e ∈ [pyramidsEntity], ∀ br ∈ e.brushes, IsPointed br.planes := by
  intro e he br hbr
  cases List.mem_singleton.1 he
  cases pyramids_brush.1 hbr
  exact ⟨_, _, pyramid_pointed⟩

theorem pyramids_points (x : V3 ℝ) : SolidPoint32 (pyramidConfig .convex) [pyramidEntity] x ↔
    SolidPoint32 { pyramidConfig .convex with mapFile := some pyramidsMap } [pyramidsEntity] x := by
  constructor
  · rintro ⟨e, he, _, br, hbr, hs, hin⟩
    cases List.mem_singleton.1 he
    cases List.mem_singleton.1 hbr
    exact ⟨_, List.mem_singleton.2 rfl, .world rfl, _, pyramids_brush.2 rfl, hs, hin⟩
  · rintro ⟨e, he, _, br, hbr, hs, hin⟩
    cases List.mem_singleton.1 he
    cases pyramids_brush.1 hbr
    exact ⟨_, List.mem_singleton.2 rfl, .world rfl, _, List.mem_singleton.2 rfl, hs, hin⟩

/-- C147 in single precision: the map with the pyramid and the map with the same pyramid twice are solid at the same points up to a
thousandth of a unit, and something is drawn near the top of the pyramid. -/
example : ∃ nodes nodes', Quarch.run 1 id (pyramidConfig .convex) = .ok nodes ∧
    Quarch.run 1 id { pyramidConfig .convex with mapFile := some pyramidsMap } = .ok nodes' ∧
    Agrees (1 / 1000) (InSolid32 nodes') (InSolid32 nodes) ∧ ∃ x, Drawn32 nodes x ∧ Close (1 / 2000) x ⟨0, 0, 8⟩ := by
  obtain ⟨nodes, hn, _⟩ := C125_solid_loads 1 id (fun _ => .refl _) (pyramidConfig .convex) pyramidMap rfl [pyramidEntity]
    ((C92_text _ _).1 pyramid_loads) pyramid_isPointed pyramid_world pyramid_named pyramid_ids pyramid_tree (by simp)
  obtain ⟨nodes', hn', _⟩ := C125_solid_loads 1 id (fun _ => .refl _) { pyramidConfig .convex with mapFile := some pyramidsMap }
    pyramidsMap rfl [pyramidsEntity] ((C92_text _ _).1 pyramids_loads) pyramids_isPointed ⟨[], _, [], rfl, rfl, by simp⟩
    (fun e he => by cases List.mem_singleton.1 he; exact ⟨_, rfl⟩)
    (fun e he k hk s hs => by
      cases List.mem_singleton.1 he
      exact pyramid_ids pyramidEntity (by simp) k hk s hs)
    (no_loop_of_unique (List.pairwise_singleton _ _)) (by simp)
  refine ⟨nodes, nodes', hn, hn', C147_single 1 1 id id (fun _ => .refl _) (fun _ => .refl _) (pyramidConfig .convex)
    { pyramidConfig .convex with mapFile := some pyramidsMap } pyramidMap pyramidsMap rfl rfl _ _ pyramid_loads pyramids_loads
    nodes nodes' hn hn' (fun e he _ => pyramid_isPointed e he) (fun e he _ => pyramids_isPointed e he) pyramids_points, ?_⟩
  refine C147_surface_single 1 id (fun _ => .refl _) (pyramidConfig .convex) nodes hn pyramidMap rfl [pyramidEntity] pyramid_loads
    (fun e he _ => pyramid_isPointed e he) ⟨fun d hd pd bd h _ => ?_, fun l hl => by cases hl⟩
    (fun _ _ _ _ _ _ _ _ _ _ => ⟨List.not_mem_nil, List.not_mem_nil⟩) _ ⟨?_, fun d hd => ?_⟩
  · cases List.mem_singleton.1 hd
    cases h; rfl
  · exact ⟨pyramidEntity, by simp, pyramid_anchored _ (by simp), _, List.mem_singleton.2 rfl,
      pyramid_solid .convex _ (by simp) _ (List.mem_singleton.2 rfl), (in_pyramid _).2 (by norm_num)⟩
  · refine ⟨⟨0, 0, 8 + d⟩, ⟨?_, ?_, ?_⟩, fun hh => ?_⟩
    · simpa using hd.le
    · simpa using hd.le
    · simp only [add_sub_cancel_left]; exact (abs_of_pos hd).le
    · obtain ⟨e, he, _, br, hbr, _, hin⟩ := hh
      cases List.mem_singleton.1 he
      cases List.mem_singleton.1 hbr
      obtain ⟨_, h1, _⟩ := (in_pyramid _).1 hin
      simp only at h1
      linarith

end
end Quarch
