import Verif.Props.MovingExamples
import Verif.Props.WatertightExamples
import Verif.Props.Locked
/-
The map with a cube and a lamp of C101, turned by 120 degrees about the diagonal, made twice as large and moved by
(0,1,0), with its texture, for C106.
-/
set_option linter.unusedSectionVars false
set_option linter.unusedSimpArgs false
namespace Quarch
open Spec Scene Geo

section
attribute [local instance] refPlatform stepText

/-- `(x, y, z)` goes to `(2z, 2x + 1, 2y)`. -/
noncomputable def screw : Similar :=
  ⟨⟨⟨0, 1, 0⟩, ⟨0, 0, 1⟩, ⟨1, 0, 0⟩, ⟨0, 1, 0⟩, by simp [dotR], by simp [dotR], by simp [dotR], by simp [crossR]⟩,
    2, by norm_num⟩

theorem screw_turn (v : V3 ℝ) : screw.toRigid.turn v = ⟨v.z, v.x, v.y⟩ := by
  simp only [screw, Rigid.turn, addR, smulR]
  apply V3.ext' <;> simp only [] <;> ring

theorem screw_move (v : V3 ℝ) : screw.move v = ⟨2 * v.z, 2 * v.x + 1, 2 * v.y⟩ := by
  unfold Similar.move Similar.turn
  rw [screw_turn]
  simp only [screw, addR, smulR]
  apply V3.ext' <;> simp only [] <;> ring

/-- The cube and the lamp, moved with the texture. -/
def lockMap : Str :=
  str! "{\n\"classname\" \"worldspawn\"\n{\n( 0 3 0 ) ( 2 3 0 ) ( 0 3 2 ) brick [ 0 0 1 0 ] [ 1 0 0 0 ] 0 0.03125 0.03125\n( 0 1 0 ) ( 0 1 2 ) ( 2 1 0 ) brick [ 0 0 1 0 ] [ 1 0 0 0 ] 0 0.03125 0.03125\n( 0 1 2 ) ( 0 3 2 ) ( 2 1 2 ) brick [ 0 0 1 0 ] [ 1 0 0 0 ] 0 0.03125 0.03125\n( 0 1 0 ) ( 2 1 0 ) ( 0 3 0 ) brick [ 0 0 1 0 ] [ 1 0 0 0 ] 0 0.03125 0.03125\n( 2 1 0 ) ( 2 1 2 ) ( 2 3 0 ) brick [ 0 0 1 0 ] [ 1 0 0 0 ] 0 0.03125 0.03125\n( 0 1 0 ) ( 0 3 0 ) ( 0 1 2 ) brick [ 0 0 1 0 ] [ 1 0 0 0 ] 0 0.03125 0.03125\n}\n}\n{\n\"classname\" \"lamp\"\n\"origin\" \"0 1 2\"\n}\n"

def lockLine (a b c : Str) : Str :=
  str! "( " ++ a ++ str! " ) ( " ++ b ++ str! " ) ( " ++ c ++
    str! " ) brick [ 0 0 1 0 ] [ 1 0 0 0 ] 0 0.03125 0.03125"

def lockTokens : List Token :=
  [.openBrace, .property (str! "classname") (str! "worldspawn"), .openBrace,
    .brushPlane (lockLine (str! "0 3 0") (str! "2 3 0") (str! "0 3 2")),
    .brushPlane (lockLine (str! "0 1 0") (str! "0 1 2") (str! "2 1 0")),
    .brushPlane (lockLine (str! "0 1 2") (str! "0 3 2") (str! "2 1 2")),
    .brushPlane (lockLine (str! "0 1 0") (str! "2 1 0") (str! "0 3 0")),
    .brushPlane (lockLine (str! "2 1 0") (str! "2 1 2") (str! "2 3 0")),
    .brushPlane (lockLine (str! "0 1 0") (str! "0 3 0") (str! "0 1 2")),
    .closeBrace, .closeBrace, .openBrace, .property (str! "classname") (str! "lamp"),
    .property (str! "origin") (str! "0 1 2"), .closeBrace]

set_option maxRecDepth 100000 in
theorem lock_tokens : Tokenizer.run (Platform.bareCR) lockMap = .ok lockTokens := by decide

noncomputable def lockPlane (a b c : V3 ℝ) : BrushPlane ℝ :=
  ⟨a, b, c, str! "brick", .valve ⟨0, 0, 1⟩ 0 ⟨1, 0, 0⟩ 0, 0, ⟨1 / 32, 1 / 32⟩, .none⟩

/-- The faces of the moved cube, as they are read. -/
noncomputable def lockPlanes : List (BrushPlane ℝ) :=
  [lockPlane ⟨0, 3, 0⟩ ⟨2, 3, 0⟩ ⟨0, 3, 2⟩,
   lockPlane ⟨0, 1, 0⟩ ⟨0, 1, 2⟩ ⟨2, 1, 0⟩,
   lockPlane ⟨0, 1, 2⟩ ⟨0, 3, 2⟩ ⟨2, 1, 2⟩,
   lockPlane ⟨0, 1, 0⟩ ⟨2, 1, 0⟩ ⟨0, 3, 0⟩,
   lockPlane ⟨2, 1, 0⟩ ⟨2, 1, 2⟩ ⟨2, 3, 0⟩,
   lockPlane ⟨0, 1, 0⟩ ⟨0, 3, 0⟩ ⟨0, 1, 2⟩]

set_option maxRecDepth 100000 in
theorem lock_parse : ∃ paths, Parser.run (F := ℝ) lockTokens =
    .ok (paths, [stepWorld lockPlanes, stepLamp (str! "0 1 2")]) := ⟨_, rfl⟩

theorem lock_loads : LoadsAs lockMap [stepWorld lockPlanes, stepLamp (str! "0 1 2")] := by
  obtain ⟨paths, h⟩ := lock_parse
  exact ⟨_, _, lock_tokens, h⟩

theorem lock_face {a b c a' b' c' : V3 ℝ} (ha : a' = screw.move a) (hb : b' = screw.move b) (hc : c' = screw.move c) :
    LockedFace screw (stepPlane a b c) (lockPlane a' b' c') := by
  refine ⟨⟨ha, hb, hc, rfl⟩, .inl ⟨⟨0, 1, 0⟩, ⟨0, 0, 1⟩, 0, 0, 0, 0, rfl, ?_, fun x => ?_⟩, rfl⟩
  · simp only [screw_turn, lockPlane]
  · simp only [onTexture, screw_turn, screw_move, lockPlane, stepPlane, dotR, V2.mk.injEq]
    constructor <;> ring

theorem lock_planes : List.Forall₂ (LockedFace screw) Cube.planes lockPlanes := by
  unfold Cube.planes lockPlanes
  repeat'
    first
    | exact List.Forall₂.nil
    | refine List.Forall₂.cons (lock_face ?_ ?_ ?_) ?_
  all_goals
    simp only [screw_move]
    norm_num

theorem lock_locked : List.Forall₂ (LockedBy screw) [stepWorld Cube.planes, stepLamp (str! "0 1 0")]
    [stepWorld lockPlanes, stepLamp (str! "0 1 2")] := by
  refine .cons ⟨⟨fun _ _ => rfl, .inl ⟨rfl, rfl⟩, .cons (lock_planes.imp fun _ _ h => h.face) .nil⟩, .cons lock_planes .nil⟩
    (.cons ⟨⟨?_, .inr ⟨str! "0 1 0", str! "0 1 2", ⟨0, 1, 0⟩, rfl, rfl, ?_, ?_⟩, .nil⟩, .nil⟩ .nil)
  · intro key hk
    simp only [stepLamp, if_neg hk]
  · exact ⟨str! "0", str! "1", str! "0", by decide, by decide, by decide, rfl, rfl, rfl, rfl⟩
  · refine ⟨str! "0", str! "1", str! "2", by decide, by decide, by decide, rfl, ?_, ?_, ?_⟩ <;>
      simp [RealText.parse, screw_move]

/-- C106 for the cube and the lamp: both maps load, with the world and the lamp moved. -/
example : ∃ w ls e w' ls' e', Quarch.run 2 id stepConfig = .ok (w :: (ls ++ [e])) ∧
    Quarch.run 2 id { stepConfig with mapFile := some lockMap } = .ok (w' :: (ls' ++ [e'])) ∧
    Turned (CarriedSurface screw) screw.move screw.turn screw.move screw.move w w' ∧
    Turned (CarriedSurface screw) screw.move screw.turn screw.move screw.move e e' := by
  obtain ⟨nodes, h⟩ := step_run
  obtain ⟨w, ls, es, w', ls', ls'', es', rfl, h', hn, hw, hperm, hls, hes⟩ := C106_locked 2 id id (fun _ => .refl _)
    (fun _ => .refl _) stepConfig stepMap lockMap rfl _ _ step_loads lock_loads screw lock_locked step_places (.inr ⟨(by
      intro e he b hb
      rw [List.mem_cons, List.mem_singleton] at he
      rcases he with rfl | rfl
      · rw [stepWorld, List.mem_singleton] at hb
        subst hb
        exact proper_crisp Cube.proper
      · cases hb), (by
      intro e he b hb
      rw [List.mem_cons, List.mem_singleton] at he
      rcases he with rfl | rfl
      · rw [stepWorld, List.mem_singleton] at hb
        subst hb
        exact crisp_enlarged (S := screw) (by norm_num [screw]) (lock_planes.imp fun _ _ h => h.face)
          (proper_crisp Cube.proper)
      · cases hb)⟩) nodes h
  have hone : ([stepWorld Cube.planes, stepLamp (str! "0 1 0")].countP fun e => decide (TopLevel e)) = 1 := by
    have h1 : decide (TopLevel (stepWorld Cube.planes)) = false := by
      rw [decide_eq_false_iff_not]
      exact fun h => h.1 rfl
    have h2 : decide (TopLevel (stepLamp (str! "0 1 0"))) = true := by
      rw [decide_eq_true_eq]
      exact ⟨by decide, by decide⟩
    rw [List.countP_cons, List.countP_cons, List.countP_nil, h1, h2]
    rfl
  rw [hone] at hn
  obtain ⟨e, rfl⟩ := List.length_eq_one_iff.1 hn
  cases hes with
  | cons a b => cases b; exact ⟨w, ls, e, w', ls', _, h, h', hw, a⟩

/-- `(x, y, z)` goes to `(2x, 2y + 1, 2z)`. -/
noncomputable def lift : Similar :=
  ⟨⟨⟨1, 0, 0⟩, ⟨0, 1, 0⟩, ⟨0, 0, 1⟩, ⟨0, 1, 0⟩, by simp [dotR], by simp [dotR], by simp [dotR], by simp [crossR]⟩,
    2, by norm_num⟩

theorem lift_turn (v : V3 ℝ) : lift.toRigid.turn v = v := by
  simp only [lift, Rigid.turn, addR, smulR]
  apply V3.ext' <;> simp only [] <;> ring

theorem lift_move (v : V3 ℝ) : lift.move v = ⟨2 * v.x, 2 * v.y + 1, 2 * v.z⟩ := by
  unfold Similar.move Similar.turn
  rw [lift_turn]
  simp only [lift, addR, smulR]
  apply V3.ext' <;> simp only [] <;> ring

/-- C106 for a face seen from the top without texture axes of its own, offset by (3, 5): at twice the size, one further up
in `y`, the offset is (3, 5.5). -/
example : LockedFace lift ⟨⟨0, 0, 1⟩, ⟨0, 1, 1⟩, ⟨1, 0, 1⟩, str! "brick", .quake 3 5, 0, ⟨1, 1⟩, .none⟩
    ⟨⟨0, 1, 2⟩, ⟨0, 3, 2⟩, ⟨2, 1, 2⟩, str! "brick", .quake 3 (11 / 2), 0, ⟨2, 2⟩, .none⟩ := by
  refine ⟨⟨?_, ?_, ?_, rfl⟩, .inr ⟨lift_turn, rfl, ?_, 3, 5, 3, 11 / 2, rfl, rfl, ?_⟩, rfl⟩
  · rw [lift_move]; norm_num
  · rw [lift_move]; norm_num
  · rw [lift_move]; norm_num
  · norm_num [lift]
  · intro x a b a' b' h h'
    simp only [Projected, rawNormal, crossR, subR] at h h'
    norm_num at h h'
    obtain ⟨rfl, rfl⟩ := h
    obtain ⟨rfl, rfl⟩ := h'
    simp only [onTurnedTexture, lift_move, V2.mk.injEq]
    constructor <;> norm_num <;> ring

end
end Quarch
