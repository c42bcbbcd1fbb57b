import Verif.Props.Moving
import Verif.Props.DrawnExamples
import Verif.Props.TexturingExamples
/-
A map with a cube and a lamp and the same map one step to the side, for C101.
-/
set_option linter.unusedSectionVars false
set_option linter.unusedSimpArgs false
namespace Quarch
open Spec Scene Geo

section
attribute [local instance] refPlatform

/-- The texts of the numbers in the example. -/
@[instance_reducible] noncomputable def stepText : RealText where
  parse w := if w = str! "0" then some 0 else if w = str! "1" then some 1 else if w = str! "2" then some 2 else
    if w = str! "0.015625" then some (1 / 64) else if w = str! "3" then some 3 else
    if w = str! "0.03125" then some (1 / 32) else none
  disp _ := []

attribute [local instance] stepText

/-- The unit cube and a lamp at (0,1,0). -/
def stepMap : Str :=
  str! "{\n\"classname\" \"worldspawn\"\n{\n( 1 0 0 ) ( 1 0 1 ) ( 1 1 0 ) brick [ 0 1 0 0 ] [ 0 0 1 0 ] 0 0.015625 0.015625\n( 0 0 0 ) ( 0 1 0 ) ( 0 0 1 ) brick [ 0 1 0 0 ] [ 0 0 1 0 ] 0 0.015625 0.015625\n( 0 1 0 ) ( 1 1 0 ) ( 0 1 1 ) brick [ 0 1 0 0 ] [ 0 0 1 0 ] 0 0.015625 0.015625\n( 0 0 0 ) ( 0 0 1 ) ( 1 0 0 ) brick [ 0 1 0 0 ] [ 0 0 1 0 ] 0 0.015625 0.015625\n( 0 0 1 ) ( 0 1 1 ) ( 1 0 1 ) brick [ 0 1 0 0 ] [ 0 0 1 0 ] 0 0.015625 0.015625\n( 0 0 0 ) ( 1 0 0 ) ( 0 1 0 ) brick [ 0 1 0 0 ] [ 0 0 1 0 ] 0 0.015625 0.015625\n}\n}\n{\n\"classname\" \"lamp\"\n\"origin\" \"0 1 0\"\n}\n"

/-- The same, moved by (1,0,0). -/
def stepMap' : Str :=
  str! "{\n\"classname\" \"worldspawn\"\n{\n( 2 0 0 ) ( 2 0 1 ) ( 2 1 0 ) brick [ 0 1 0 0 ] [ 0 0 1 0 ] 0 0.015625 0.015625\n( 1 0 0 ) ( 1 1 0 ) ( 1 0 1 ) brick [ 0 1 0 0 ] [ 0 0 1 0 ] 0 0.015625 0.015625\n( 1 1 0 ) ( 2 1 0 ) ( 1 1 1 ) brick [ 0 1 0 0 ] [ 0 0 1 0 ] 0 0.015625 0.015625\n( 1 0 0 ) ( 1 0 1 ) ( 2 0 0 ) brick [ 0 1 0 0 ] [ 0 0 1 0 ] 0 0.015625 0.015625\n( 1 0 1 ) ( 1 1 1 ) ( 2 0 1 ) brick [ 0 1 0 0 ] [ 0 0 1 0 ] 0 0.015625 0.015625\n( 1 0 0 ) ( 2 0 0 ) ( 1 1 0 ) brick [ 0 1 0 0 ] [ 0 0 1 0 ] 0 0.015625 0.015625\n}\n}\n{\n\"classname\" \"lamp\"\n\"origin\" \"1 1 0\"\n}\n"

def stepTokens : List Token :=
  [.openBrace, .property (str! "classname") (str! "worldspawn"), .openBrace,
    .brushPlane (cubeLine (str! "1 0 0") (str! "1 0 1") (str! "1 1 0")),
    .brushPlane (cubeLine (str! "0 0 0") (str! "0 1 0") (str! "0 0 1")),
    .brushPlane (cubeLine (str! "0 1 0") (str! "1 1 0") (str! "0 1 1")),
    .brushPlane (cubeLine (str! "0 0 0") (str! "0 0 1") (str! "1 0 0")),
    .brushPlane (cubeLine (str! "0 0 1") (str! "0 1 1") (str! "1 0 1")),
    .brushPlane (cubeLine (str! "0 0 0") (str! "1 0 0") (str! "0 1 0")),
    .closeBrace, .closeBrace, .openBrace, .property (str! "classname") (str! "lamp"),
    .property (str! "origin") (str! "0 1 0"), .closeBrace]

def stepTokens' : List Token :=
  [.openBrace, .property (str! "classname") (str! "worldspawn"), .openBrace,
    .brushPlane (cubeLine (str! "2 0 0") (str! "2 0 1") (str! "2 1 0")),
    .brushPlane (cubeLine (str! "1 0 0") (str! "1 1 0") (str! "1 0 1")),
    .brushPlane (cubeLine (str! "1 1 0") (str! "2 1 0") (str! "1 1 1")),
    .brushPlane (cubeLine (str! "1 0 0") (str! "1 0 1") (str! "2 0 0")),
    .brushPlane (cubeLine (str! "1 0 1") (str! "1 1 1") (str! "2 0 1")),
    .brushPlane (cubeLine (str! "1 0 0") (str! "2 0 0") (str! "1 1 0")),
    .closeBrace, .closeBrace, .openBrace, .property (str! "classname") (str! "lamp"),
    .property (str! "origin") (str! "1 1 0"), .closeBrace]

set_option maxRecDepth 100000 in
theorem step_tokens : Tokenizer.run (Platform.bareCR) stepMap = .ok stepTokens := by decide

set_option maxRecDepth 100000 in
theorem step_tokens' : Tokenizer.run (Platform.bareCR) stepMap' = .ok stepTokens' := by decide

noncomputable def stepLamp (o : Str) : Entity ℝ :=
  ⟨fun k => if k = str! "origin" then some o else if k = str! "classname" then some (str! "lamp") else none, []⟩

noncomputable def stepPlane (a b c : V3 ℝ) : BrushPlane ℝ :=
  ⟨a, b, c, str! "brick", .valve ⟨0, 1, 0⟩ 0 ⟨0, 0, 1⟩ 0, 0, ⟨1 / 64, 1 / 64⟩, .none⟩

/-- The faces of the moved cube, as they are read. -/
noncomputable def stepPlanes : List (BrushPlane ℝ) :=
  [stepPlane ⟨2, 0, 0⟩ ⟨2, 0, 1⟩ ⟨2, 1, 0⟩,
   stepPlane ⟨1, 0, 0⟩ ⟨1, 1, 0⟩ ⟨1, 0, 1⟩,
   stepPlane ⟨1, 1, 0⟩ ⟨2, 1, 0⟩ ⟨1, 1, 1⟩,
   stepPlane ⟨1, 0, 0⟩ ⟨1, 0, 1⟩ ⟨2, 0, 0⟩,
   stepPlane ⟨1, 0, 1⟩ ⟨1, 1, 1⟩ ⟨2, 0, 1⟩,
   stepPlane ⟨1, 0, 0⟩ ⟨2, 0, 0⟩ ⟨1, 1, 0⟩]

noncomputable def stepWorld (planes : List (BrushPlane ℝ)) : Entity ℝ :=
  ⟨fun k => if k = str! "classname" then some (str! "worldspawn") else none, [⟨planes⟩]⟩

set_option maxRecDepth 100000 in
theorem step_parse : ∃ paths, Parser.run (F := ℝ) stepTokens =
    .ok (paths, [stepWorld Cube.planes, stepLamp (str! "0 1 0")]) := ⟨_, rfl⟩

set_option maxRecDepth 100000 in
theorem step_parse' : ∃ paths, Parser.run (F := ℝ) stepTokens' =
    .ok (paths, [stepWorld stepPlanes, stepLamp (str! "1 1 0")]) := ⟨_, rfl⟩

theorem step_loads : LoadsAs stepMap [stepWorld Cube.planes, stepLamp (str! "0 1 0")] := by
  obtain ⟨paths, h⟩ := step_parse
  exact ⟨_, _, step_tokens, h⟩

theorem step_loads' : LoadsAs stepMap' [stepWorld stepPlanes, stepLamp (str! "1 1 0")] := by
  obtain ⟨paths, h⟩ := step_parse'
  exact ⟨_, _, step_tokens', h⟩

theorem step_planes : stepPlanes = Cube.planes.map (movePlane ⟨1, 0, 0⟩) := by
  simp only [stepPlanes, Cube.planes, List.map_cons, List.map_nil, movePlane, Cube.xp, Cube.xn, Cube.yp, Cube.yn, Cube.zp,
    Cube.zn, Cube.face, stepPlane, addR]
  norm_num

theorem step_moved : List.Forall₂ (MovedBy ⟨1, 0, 0⟩) [stepWorld Cube.planes, stepLamp (str! "0 1 0")]
    [stepWorld stepPlanes, stepLamp (str! "1 1 0")] := by
  refine .cons ⟨fun _ _ => rfl, .inl ⟨rfl, rfl⟩, ?_⟩ (.cons ⟨?_, .inr ⟨str! "0 1 0", str! "1 1 0", ⟨0, 1, 0⟩, rfl, rfl, ?_, ?_⟩, rfl⟩ .nil)
  · unfold stepWorld
    simp only [step_planes, List.map_cons, List.map_nil]
  · intro key hk
    simp only [stepLamp, if_neg hk]
  · exact ⟨str! "0", str! "1", str! "0", by decide, by decide, by decide, rfl, rfl, rfl, rfl⟩
  · refine ⟨str! "1", str! "1", str! "0", by decide, by decide, by decide, rfl, ?_, ?_, ?_⟩ <;>
      simp [RealText.parse, addR]

theorem Cube.corner (p : BrushPlane ℝ) (hp : p ∈ Cube.planes) : ∃ x, Found Cube.planes p x := by
  have key : ∀ (p q r : BrushPlane ℝ) (x : V3 ℝ), q ∈ Cube.planes → r ∈ Cube.planes → unitDet p q r = 1 → OnPlane p x →
      OnPlane q x → OnPlane r x → (0 ≤ x.x ∧ x.x ≤ 1 ∧ 0 ≤ x.y ∧ x.y ≤ 1 ∧ 0 ≤ x.z ∧ x.z ≤ 1) → Found Cube.planes p x := by
    intro p q r x hq hr hd h1 h2 h3 hx
    refine found_real.2 ⟨⟨q, hq, r, hr, by rw [hd]; norm_num, h1, h2, h3⟩, ?_⟩
    rw [Cube.inside]
    refine ⟨?_, ?_, ?_, ?_, ?_, ?_⟩ <;> linarith [hx.1, hx.2.1, hx.2.2.1, hx.2.2.2.1, hx.2.2.2.2.1, hx.2.2.2.2.2]
  rcases Cube.mem_planes hp with rfl | rfl | rfl | rfl | rfl | rfl
  · exact ⟨⟨1, 1, 1⟩, key _ Cube.yp Cube.zp _ (by simp [Cube.planes]) (by simp [Cube.planes])
      (by simp [unitDet, Cube.raw_xp, Cube.raw_xn, Cube.raw_yp, Cube.raw_yn, Cube.raw_zp, Cube.raw_zn, detR, dotR, crossR, lenR])
      (by simp [Cube.on_xp]) (by simp [Cube.on_yp]) (by simp [Cube.on_zp]) (by norm_num)⟩
  · exact ⟨⟨0, 1, 1⟩, key _ Cube.zp Cube.yp _ (by simp [Cube.planes]) (by simp [Cube.planes])
      (by simp [unitDet, Cube.raw_xp, Cube.raw_xn, Cube.raw_yp, Cube.raw_yn, Cube.raw_zp, Cube.raw_zn, detR, dotR, crossR, lenR])
      (by simp [Cube.on_xn]) (by simp [Cube.on_zp]) (by simp [Cube.on_yp]) (by norm_num)⟩
  · exact ⟨⟨1, 1, 1⟩, key _ Cube.zp Cube.xp _ (by simp [Cube.planes]) (by simp [Cube.planes])
      (by simp [unitDet, Cube.raw_xp, Cube.raw_xn, Cube.raw_yp, Cube.raw_yn, Cube.raw_zp, Cube.raw_zn, detR, dotR, crossR, lenR])
      (by simp [Cube.on_yp]) (by simp [Cube.on_zp]) (by simp [Cube.on_xp]) (by norm_num)⟩
  · exact ⟨⟨1, 0, 1⟩, key _ Cube.xp Cube.zp _ (by simp [Cube.planes]) (by simp [Cube.planes])
      (by simp [unitDet, Cube.raw_xp, Cube.raw_xn, Cube.raw_yp, Cube.raw_yn, Cube.raw_zp, Cube.raw_zn, detR, dotR, crossR, lenR])
      (by simp [Cube.on_yn]) (by simp [Cube.on_xp]) (by simp [Cube.on_zp]) (by norm_num)⟩
  · exact ⟨⟨1, 1, 1⟩, key _ Cube.xp Cube.yp _ (by simp [Cube.planes]) (by simp [Cube.planes])
      (by simp [unitDet, Cube.raw_xp, Cube.raw_xn, Cube.raw_yp, Cube.raw_yn, Cube.raw_zp, Cube.raw_zn, detR, dotR, crossR, lenR])
      (by simp [Cube.on_zp]) (by simp [Cube.on_xp]) (by simp [Cube.on_yp]) (by norm_num)⟩
  · exact ⟨⟨1, 1, 0⟩, key _ Cube.yp Cube.xp _ (by simp [Cube.planes]) (by simp [Cube.planes])
      (by simp [unitDet, Cube.raw_xp, Cube.raw_xn, Cube.raw_yp, Cube.raw_yn, Cube.raw_zp, Cube.raw_zn, detR, dotR, crossR, lenR])
      (by simp [Cube.on_zn]) (by simp [Cube.on_yp]) (by simp [Cube.on_xp]) (by norm_num)⟩

theorem step_places : ∀ e ∈ [stepWorld Cube.planes, stepLamp (str! "0 1 0")], Settled e := by
  intro e he
  rw [List.mem_cons, List.mem_singleton] at he
  rcases he with rfl | rfl
  · refine ⟨.inr (by simp [stepWorld]), fun b hb => ?_, fun b hb p hp => ?_⟩
    · cases List.mem_singleton.1 hb
      simp [Cube.planes]
    · cases List.mem_singleton.1 hb
      exact Cube.corner p hp
  · exact ⟨.inl (by simp [stepLamp]), fun b hb => absurd hb (by simp [stepLamp]), fun b hb => absurd hb (by simp [stepLamp])⟩

noncomputable def stepConfig : Config ℝ :=
  ⟨some stepMap, fun t => if t = str! "brick" then some ⟨64, 64⟩ else none, ⟨[], []⟩, ⟨[], [], []⟩,
    ⟨[⟨str! "worldspawn", .brush ⟨.cls (str! "world"), .script [], .properties, Map.empty⟩ ⟨.mesh, .convex⟩⟩,
      ⟨str! "lamp", .point ⟨.cls (str! "light"), .script [], .properties, Map.empty⟩⟩], []⟩⟩

theorem step_run : ∃ nodes, Quarch.run 2 id stepConfig = .ok nodes := by
  refine C92_enough 2 id (fun _ => .refl _) stepConfig [stepWorld Cube.planes, stepLamp (str! "0 1 0")]
    ⟨⟨_, rfl, (C92_text _ _).1 step_loads⟩, ⟨[], _, _, rfl, rfl, fun e he => ?_⟩, ?_, ?_, ?_, ?_⟩ (Nat.le_refl _)
  · cases List.mem_singleton.1 he
    decide
  · exact (geo_succeeds stepConfig.textureInfo _).1 (mapOut_isOk.2 fun e _ => buildEntity_real _ e)
  · intro e he _
    rw [List.mem_cons, List.mem_singleton] at he
    rcases he with rfl | rfl
    · exact ⟨_, rfl⟩
    · exact ⟨str! "lamp", by decide⟩
  · intro e he _ _ k hk s hs
    exfalso
    simp only [List.mem_cons, List.not_mem_nil, or_false] at he hk
    rcases he with rfl | rfl <;> rcases hk with rfl | rfl <;> revert hs <;> simp [stepWorld, stepLamp]
  · apply no_loop_of_unique
    refine .cons (fun b hb id h => ?_) (.cons (fun b hb => by cases hb) .nil)
    cases h

/-- C101 for the cube and the lamp: both maps load, with the world first and the lamp last. -/
example : ∃ w ls e w' ls' e', Quarch.run 2 id stepConfig = .ok (w :: (ls ++ [e])) ∧
    Quarch.run 2 id { stepConfig with mapFile := some stepMap' } = .ok (w' :: (ls' ++ [e'])) ∧
    Shifted ⟨1, 0, 0⟩ ⟨1, 0, 0⟩ ⟨1, 0, 0⟩ w w' ∧ Shifted ⟨1, 0, 0⟩ ⟨1, 0, 0⟩ ⟨1, 0, 0⟩ e e' := by
  obtain ⟨nodes, h⟩ := step_run
  obtain ⟨w, ls, es, w', ls', ls'', es', rfl, h', hn, hw, hperm, hls, hes⟩ := C101_moved 2 id id (fun _ => .refl _)
    (fun _ => .refl _) stepConfig stepMap stepMap' rfl _ _ step_loads step_loads' ⟨1, 0, 0⟩ step_moved step_places nodes h
  have hone : ([stepWorld Cube.planes, stepLamp (str! "0 1 0")].countP fun e => decide (TopLevel e)) = 1 := by
    have h1 : decide (TopLevel (stepWorld Cube.planes)) = false := by
      rw [decide_eq_false_iff_not]
      exact fun h => h.1 rfl
    have h2 : decide (TopLevel (stepLamp (str! "0 1 0"))) = true := by
      rw [decide_eq_true_eq]
      exact ⟨by decide, by decide⟩
    rw [List.countP_cons, List.countP_cons, List.countP_nil, h1, h2]
    rfl
  rw [hone] at hn
  obtain ⟨e, rfl⟩ := List.length_eq_one_iff.1 hn
  obtain ⟨e', hes', rfl⟩ : ∃ e', Shifted ⟨1, 0, 0⟩ ⟨1, 0, 0⟩ ⟨1, 0, 0⟩ e e' ∧ es' = [e'] := by
    cases hes with
    | cons a b => cases b; exact ⟨_, a, rfl⟩
  exact ⟨w, ls, e, w', ls', e', h, h', hw, hes'⟩

end
end Quarch
