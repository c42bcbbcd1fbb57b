import Verif.Props.Solid
/-
A map with a cube in exact arithmetic, for C87 and C88.
-/
set_option linter.unusedSectionVars false
namespace Quarch
open Spec Scene Geo

section
attribute [local instance] refPlatform

/-- The texts of the numbers in the example. -/
@[instance_reducible] noncomputable def cubeText : RealText where
  parse w := if w = str! "0" then some 0 else if w = str! "1" then some 1 else
    if w = str! "0.015625" then some (1 / 64) else none
  disp _ := []

attribute [local instance] cubeText

/-- The worldspawn with the unit cube. -/
def cubeMap : Str :=
  str! "{\n\"classname\" \"worldspawn\"\n{\n( 1 0 0 ) ( 1 0 1 ) ( 1 1 0 ) brick [ 0 1 0 0 ] [ 0 0 1 0 ] 0 0.015625 0.015625\n( 0 0 0 ) ( 0 1 0 ) ( 0 0 1 ) brick [ 0 1 0 0 ] [ 0 0 1 0 ] 0 0.015625 0.015625\n( 0 1 0 ) ( 1 1 0 ) ( 0 1 1 ) brick [ 0 1 0 0 ] [ 0 0 1 0 ] 0 0.015625 0.015625\n( 0 0 0 ) ( 0 0 1 ) ( 1 0 0 ) brick [ 0 1 0 0 ] [ 0 0 1 0 ] 0 0.015625 0.015625\n( 0 0 1 ) ( 0 1 1 ) ( 1 0 1 ) brick [ 0 1 0 0 ] [ 0 0 1 0 ] 0 0.015625 0.015625\n( 0 0 0 ) ( 1 0 0 ) ( 0 1 0 ) brick [ 0 1 0 0 ] [ 0 0 1 0 ] 0 0.015625 0.015625\n}\n}\n"

def cubeLine (a b c : Str) : Str :=
  str! "( " ++ a ++ str! " ) ( " ++ b ++ str! " ) ( " ++ c ++
    str! " ) brick [ 0 1 0 0 ] [ 0 0 1 0 ] 0 0.015625 0.015625"

def cubeTokens : List Token :=
  [.openBrace, .property (str! "classname") (str! "worldspawn"), .openBrace,
    .brushPlane (cubeLine (str! "1 0 0") (str! "1 0 1") (str! "1 1 0")),
    .brushPlane (cubeLine (str! "0 0 0") (str! "0 1 0") (str! "0 0 1")),
    .brushPlane (cubeLine (str! "0 1 0") (str! "1 1 0") (str! "0 1 1")),
    .brushPlane (cubeLine (str! "0 0 0") (str! "0 0 1") (str! "1 0 0")),
    .brushPlane (cubeLine (str! "0 0 1") (str! "0 1 1") (str! "1 0 1")),
    .brushPlane (cubeLine (str! "0 0 0") (str! "1 0 0") (str! "0 1 0")), .closeBrace, .closeBrace]

set_option maxRecDepth 100000 in
theorem cube_tokens : Tokenizer.run (Platform.bareCR) cubeMap = .ok cubeTokens := by decide

noncomputable def cubeEntity : Entity ℝ :=
  ⟨fun k => if k = str! "classname" then some (str! "worldspawn") else none, [⟨Cube.planes⟩]⟩

set_option maxRecDepth 100000 in
theorem cube_parse : ∃ paths, Parser.run (F := ℝ) cubeTokens = .ok (paths, [cubeEntity]) := ⟨_, rfl⟩

/-- The worldspawn has a mesh; its texture is known. -/
noncomputable def cubeConfig (bl : TextureBlacklist) (ct : CollisionType := .convex) : Config ℝ :=
  ⟨some cubeMap, fun t => if t = str! "brick" then some ⟨64, 64⟩ else none, bl, ⟨[], [], []⟩,
    ⟨[⟨str! "worldspawn", .brush ⟨.cls (str! "world"), .script [], .properties, Map.empty⟩ ⟨.mesh, ct⟩⟩], []⟩⟩

theorem cube_loads : LoadsAs cubeMap [cubeEntity] := by
  obtain ⟨paths, h⟩ := cube_parse
  exact ⟨_, _, cube_tokens, h⟩

theorem cube_run (bl : TextureBlacklist) (ct : CollisionType := .convex) : ∃ nodes, Quarch.run 1 id (cubeConfig bl ct) = .ok nodes := by
  obtain ⟨paths, hp⟩ := cube_parse
  obtain ⟨g, hg⟩ := buildEntity_real (cubeConfig bl ct).textureInfo cubeEntity
  have hgs : Geo.run (cubeConfig bl ct).textureInfo [cubeEntity] = .ok [g] := by
    unfold Geo.run
    rw [mapOut_cons, hg]; rfl
  obtain ⟨rest, layers, hl⟩ := C17_worldspawn_first [] [] cubeEntity g rfl (by simp)
  have hm : (cubeConfig bl ct).mapFile = some cubeMap := rfl
  unfold Quarch.run
  simp only [hm, cube_tokens, Outcome.ok_bind, hp, hgs]
  have hz : ([cubeEntity].zip [g]) = [] ++ (cubeEntity, g) :: [] := rfl
  rw [hz, hl, Outcome.ok_bind]
  have hf : Fanned rest := by
    have hs := (C18_split_by_texture _ cubeEntity g (by simp) rfl _ _ hl).2
    rw [List.head?_cons, Option.some.injEq, Prod.mk.injEq] at hs
    have hb := congrArg EntityGeo.brushes hs.2
    simp only at hb
    intro b hbm
    rw [hb] at hbm
    exact built_fanned hg b (List.mem_filter.1 hbm).1
  obtain ⟨v, hv⟩ := C34_succeeds cubeEntity { g with brushes := rest } ⟨.mesh, ct⟩ bl hf
  unfold Scene.run
  have hls : ∃ ls, mapOut (buildLayer (cubeConfig bl ct).quarchitectGameData) layers = .ok ls :=
    mapOut_isOk.2 fun l _ => ⟨none, rfl⟩
  obtain ⟨ls, hls⟩ := hls
  have hw : ∃ n, Scene.buildEntity (cubeConfig bl ct).quarchitectGameData (cubeConfig bl ct).forgeGameData
      (cubeConfig bl ct).textureBlacklist ((cubeEntity, { g with brushes := rest }) :: ([] ++ [])) 1 V3.zero
      (cubeEntity, { g with brushes := rest }) = .ok n := by
    unfold Scene.buildEntity
    have h1 : entityVisual (cubeConfig bl ct).quarchitectGameData (cubeConfig bl ct).textureBlacklist cubeEntity
      { g with brushes := rest } = .ok v := hv
    obtain ⟨c, hc⟩ : ∃ c, collisionOf ct { g with brushes := rest } = .ok c := by
      cases ct with
      | none => exact ⟨_, rfl⟩
      | convex => exact ⟨_, rfl⟩
      | concave => rcases C41_concave { g with brushes := rest } hf with ⟨_, h'⟩ | ⟨_, _, h', _⟩ <;> exact ⟨_, h'⟩
    have h2 : entityCollision (cubeConfig bl ct).quarchitectGameData cubeEntity { g with brushes := rest } = .ok c := hc
    rw [h1, Outcome.ok_bind, h2, Outcome.ok_bind]
    exact ⟨_, rfl⟩
  obtain ⟨n, hn⟩ := hw
  simp only [List.append_nil] at hn
  simp only [List.take_succ_cons, List.take_zero, mapOut_cons, hn, Outcome.ok_bind, mapOut_nil, id_eq, hls,
    List.drop_succ_cons, List.drop_zero, List.append_nil, List.filter_nil]
  exact ⟨_, rfl⟩

theorem cube_shown (bl : TextureBlacklist) (p : BrushPlane ℝ) (hp : p ∈ Cube.planes) :
    ShownFace (cubeConfig bl) cubeEntity ⟨Cube.planes⟩ p ↔ str! "brick" ∉ bl.plane ∧ str! "brick" ∉ bl.brush := by
  have htex : ∀ q ∈ Cube.planes, knownTexture (cubeConfig bl).textureInfo q = some (str! "brick") := by
    intro q hq
    rcases Cube.mem_planes hq with rfl | rfl | rfl | rfl | rfl | rfl <;> rfl
  have hlay : ∀ t, ¬ LayerBrush (cubeConfig bl).textureInfo cubeEntity ⟨Cube.planes⟩ t := by
    rintro t ⟨_, ht, hall⟩
    have := hall p hp
    rw [htex p hp] at this
    cases this
    rcases ht with ht | ht <;> exact absurd ht (by decide)
  constructor
  · rintro (⟨t, _, h, _⟩ | ⟨_, _, ⟨q, hq, hqt⟩, hpt⟩)
    · exact absurd h (hlay t)
    · exact ⟨hpt _ (htex p hp), hqt _ (htex q hq)⟩
  · rintro ⟨h1, h2⟩
    refine .inr ⟨hlay, ⟨_, _, _, ⟨str! "worldspawn", rfl, [], [], rfl, rfl, by simp⟩, rfl, rfl⟩, ⟨p, hp, ?_⟩, ?_⟩
    · intro t ht
      rw [htex p hp] at ht
      cases ht; exact h2
    · intro t ht
      rw [htex p hp] at ht
      cases ht; exact h1

/-- C87 for the cube: a point of the top is drawn, a point inside is not. -/
example : ∃ nodes, Quarch.run 1 id (cubeConfig ⟨[], []⟩) = .ok nodes ∧ Drawn nodes ⟨1 / 2, 1 / 3, 1⟩ ∧
    ¬ Drawn nodes ⟨1 / 2, 1 / 2, 1 / 2⟩ := by
  obtain ⟨nodes, h⟩ := cube_run ⟨[], []⟩
  have key := C87_everything 1 id (fun _ => .refl _) _ nodes h cubeMap rfl [cubeEntity] cube_loads
    (fun e he br hbr => by
      cases List.mem_singleton.1 he
      cases List.mem_singleton.1 hbr
      exact Cube.proper)
    (fun e he => by cases List.mem_singleton.1 he; exact .world rfl)
    (fun e he br hbr p hp => by
      cases List.mem_singleton.1 he
      cases List.mem_singleton.1 hbr
      exact (cube_shown _ p hp).2 ⟨by simp, by simp⟩)
  refine ⟨nodes, h, (key _).2 ⟨cubeEntity, by simp, ⟨Cube.planes⟩, List.mem_singleton.2 rfl, ?_, Cube.zp,
    by simp [Cube.planes], ?_⟩, fun hd => ?_⟩
  · rw [Cube.inside]; norm_num
  · norm_num [OnPlane, Cube.face, Cube.zp, rawNormal, dotR, crossR, subR]
  · obtain ⟨e, he, br, hbr, _, p, hp, h0⟩ := (key _).1 hd
    cases List.mem_singleton.1 he
    cases List.mem_singleton.1 hbr
    rcases Cube.mem_planes hp with rfl | rfl | rfl | rfl | rfl | rfl <;>
      norm_num [OnPlane, Cube.face, Cube.xp, Cube.xn, Cube.yp, Cube.yn, Cube.zp, Cube.zn, rawNormal, dotR, crossR,
        subR] at h0

/-- C87 for the cube with its texture on the plane blacklist: nothing is drawn. -/
example : ∃ nodes, Quarch.run 1 id (cubeConfig ⟨[], [str! "brick"]⟩) = .ok nodes ∧ ∀ x, ¬ Drawn nodes x := by
  obtain ⟨nodes, h⟩ := cube_run ⟨[], [str! "brick"]⟩
  refine ⟨nodes, h, fun x hx => ?_⟩
  obtain ⟨e, he, _, br, hbr, p, hp, hs, _⟩ := (C87_picture 1 id (fun _ => .refl _) _ nodes h cubeMap rfl [cubeEntity]
    cube_loads (fun e he _ br hbr => by
      cases List.mem_singleton.1 he
      cases List.mem_singleton.1 hbr
      exact Cube.proper) x).1 hx
  cases List.mem_singleton.1 he
  cases List.mem_singleton.1 hbr
  have := ((cube_shown _ p hp).1 hs)
  revert this
  decide

theorem cube_layer (bl : TextureBlacklist) (ct : CollisionType) (t : Str) :
    ¬ LayerBrush (cubeConfig bl ct).textureInfo cubeEntity ⟨Cube.planes⟩ t := by
  rintro ⟨_, ht, hall⟩
  have h := hall Cube.zp (by simp [Cube.planes])
  have h' : knownTexture (cubeConfig bl ct).textureInfo Cube.zp = some (str! "brick") := rfl
  rw [h'] at h
  cases h
  rcases ht with ht | ht <;> exact absurd ht (by decide)

theorem cube_solid (bl : TextureBlacklist) (ct : CollisionType) :
    SolidAs (cubeConfig bl ct) cubeEntity ⟨Cube.planes⟩ ct :=
  .inr ⟨cube_layer bl ct, _, _, _, ⟨str! "worldspawn", rfl, [], [], rfl, rfl, by simp⟩, rfl, rfl⟩

theorem cube_proper : ∀ e ∈ [cubeEntity], Anchored [cubeEntity] e → ∀ br ∈ e.brushes, ProperBrush br.planes := by
  intro e he _ br hbr
  cases List.mem_singleton.1 he
  cases List.mem_singleton.1 hbr
  exact Cube.proper

/-- C88 for the cube with convex collision: its middle is solid, a point above is not; and there is nothing
concave. -/
example : ∃ nodes, Quarch.run 1 id (cubeConfig ⟨[], []⟩ .convex) = .ok nodes ∧ InSolid nodes ⟨1 / 2, 1 / 2, 1 / 2⟩ ∧
    ¬ InSolid nodes ⟨1 / 2, 1 / 2, 2⟩ := by
  obtain ⟨nodes, h⟩ := cube_run ⟨[], []⟩ .convex
  have key := C88_filled 1 id (fun _ => .refl _) _ nodes h cubeMap rfl [cubeEntity] cube_loads cube_proper
  refine ⟨nodes, h, (key _).2 ⟨cubeEntity, by simp, .world rfl, ⟨Cube.planes⟩, List.mem_singleton.2 rfl,
    cube_solid _ _, ?_⟩, fun hd => ?_⟩
  · rw [Cube.inside]; norm_num
  · obtain ⟨e, he, _, br, hbr, _, hin⟩ := (key _).1 hd
    cases List.mem_singleton.1 he
    cases List.mem_singleton.1 hbr
    rw [Cube.inside] at hin
    norm_num at hin

/-- C88 for the cube with concave collision: the top is covered, the middle is not. -/
example : ∃ nodes, Quarch.run 1 id (cubeConfig ⟨[], []⟩ .concave) = .ok nodes ∧ OnSolid nodes ⟨1 / 2, 1 / 3, 1⟩ ∧
    ¬ OnSolid nodes ⟨1 / 2, 1 / 2, 1 / 2⟩ := by
  obtain ⟨nodes, h⟩ := cube_run ⟨[], []⟩ .concave
  have key := C88_covered 1 id (fun _ => .refl _) _ nodes h cubeMap rfl [cubeEntity] cube_loads cube_proper
  refine ⟨nodes, h, (key _).2 ⟨cubeEntity, by simp, .world rfl, ⟨Cube.planes⟩, List.mem_singleton.2 rfl,
    cube_solid _ _, ?_, Cube.zp, by simp [Cube.planes], ?_⟩, fun hd => ?_⟩
  · rw [Cube.inside]; norm_num
  · norm_num [OnPlane, Cube.face, Cube.zp, rawNormal, dotR, crossR, subR]
  · obtain ⟨e, he, _, br, hbr, _, _, p, hp, h0⟩ := (key _).1 hd
    cases List.mem_singleton.1 he
    cases List.mem_singleton.1 hbr
    rcases Cube.mem_planes hp with rfl | rfl | rfl | rfl | rfl | rfl <;>
      norm_num [OnPlane, Cube.face, Cube.xp, Cube.xn, Cube.yp, Cube.yn, Cube.zp, Cube.zn, rawNormal, dotR, crossR,
        subR] at h0

end
end Quarch
