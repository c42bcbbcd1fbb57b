import Verif.Props.MovingExamples
import Verif.Props.WatertightExamples
import Verif.Props.Reorder
/-
The map with a cube and a lamp of C101 with the lamp first and the faces of the cube in another order, for C104.
-/
set_option linter.unusedSectionVars false
set_option linter.unusedSimpArgs false
namespace Quarch
open Spec Scene Geo

section
attribute [local instance] refPlatform stepText

/-- The lamp first, and the last face of the cube first. -/
def mixedMap : Str :=
  str! "{\n\"classname\" \"lamp\"\n\"origin\" \"0 1 0\"\n}\n{\n\"classname\" \"worldspawn\"\n{\n( 0 0 0 ) ( 1 0 0 ) ( 0 1 0 ) brick [ 0 1 0 0 ] [ 0 0 1 0 ] 0 0.015625 0.015625\n( 1 0 0 ) ( 1 0 1 ) ( 1 1 0 ) brick [ 0 1 0 0 ] [ 0 0 1 0 ] 0 0.015625 0.015625\n( 0 0 0 ) ( 0 1 0 ) ( 0 0 1 ) brick [ 0 1 0 0 ] [ 0 0 1 0 ] 0 0.015625 0.015625\n( 0 1 0 ) ( 1 1 0 ) ( 0 1 1 ) brick [ 0 1 0 0 ] [ 0 0 1 0 ] 0 0.015625 0.015625\n( 0 0 0 ) ( 0 0 1 ) ( 1 0 0 ) brick [ 0 1 0 0 ] [ 0 0 1 0 ] 0 0.015625 0.015625\n( 0 0 1 ) ( 0 1 1 ) ( 1 0 1 ) brick [ 0 1 0 0 ] [ 0 0 1 0 ] 0 0.015625 0.015625\n}\n}\n"

def mixedTokens : List Token :=
  [.openBrace, .property (str! "classname") (str! "lamp"),
    .property (str! "origin") (str! "0 1 0"), .closeBrace,
    .openBrace, .property (str! "classname") (str! "worldspawn"), .openBrace,
    .brushPlane (cubeLine (str! "0 0 0") (str! "1 0 0") (str! "0 1 0")),
    .brushPlane (cubeLine (str! "1 0 0") (str! "1 0 1") (str! "1 1 0")),
    .brushPlane (cubeLine (str! "0 0 0") (str! "0 1 0") (str! "0 0 1")),
    .brushPlane (cubeLine (str! "0 1 0") (str! "1 1 0") (str! "0 1 1")),
    .brushPlane (cubeLine (str! "0 0 0") (str! "0 0 1") (str! "1 0 0")),
    .brushPlane (cubeLine (str! "0 0 1") (str! "0 1 1") (str! "1 0 1")),
    .closeBrace, .closeBrace]

set_option maxRecDepth 100000 in
theorem mixed_tokens : Tokenizer.run (Platform.bareCR) mixedMap = .ok mixedTokens := by decide

noncomputable def mixedPlanes : List (BrushPlane ℝ) := [Cube.zn, Cube.xp, Cube.xn, Cube.yp, Cube.yn, Cube.zp]

set_option maxRecDepth 100000 in
theorem mixed_parse : ∃ paths, Parser.run (F := ℝ) mixedTokens =
    .ok (paths, [stepLamp (str! "0 1 0"), stepWorld mixedPlanes]) := ⟨_, rfl⟩

theorem mixed_loads : LoadsAs mixedMap [stepLamp (str! "0 1 0"), stepWorld mixedPlanes] := by
  obtain ⟨paths, h⟩ := mixed_parse
  exact ⟨_, _, mixed_tokens, h⟩

theorem mixed_shuffled : Reordered Shuffled [stepWorld Cube.planes, stepLamp (str! "0 1 0")]
    [stepLamp (str! "0 1 0"), stepWorld mixedPlanes] := by
  refine ⟨[stepLamp (str! "0 1 0"), stepWorld Cube.planes], .swap _ _ _, .cons ⟨rfl, .of .nil⟩ (.cons ⟨rfl, .of (.cons ?_ .nil)⟩ .nil)⟩
  have : Cube.planes = [Cube.xp, Cube.xn, Cube.yp, Cube.yn, Cube.zp] ++ [Cube.zn] := rfl
  show Cube.planes.Perm ([Cube.zn] ++ [Cube.xp, Cube.xn, Cube.yp, Cube.yn, Cube.zp])
  rw [this]
  exact List.perm_append_comm

/-- C104 for the cube and the lamp: both maps load, with the same world first and the same lamp last. -/
example : ∃ w ls e w' ls' e', Quarch.run 2 id stepConfig = .ok (w :: (ls ++ [e])) ∧
    Quarch.run 2 id { stepConfig with mapFile := some mixedMap } = .ok (w' :: (ls' ++ [e'])) ∧
    SameNode w w' ∧ SameNode e e' := by
  obtain ⟨nodes, h⟩ := step_run
  obtain ⟨w, ls, es, w', ls', es', rfl, h', hn, hw, hls, hes⟩ := C104_reordered 2 id id (fun _ => .refl _)
    (fun _ => .refl _) stepConfig stepMap mixedMap rfl _ _ step_loads mixed_loads mixed_shuffled (by
      intro e he b hb
      rw [List.mem_cons, List.mem_singleton] at he
      rcases he with rfl | rfl
      · rw [stepWorld, List.mem_singleton] at hb
        subst hb
        exact proper_crisp Cube.proper
      · cases hb) nodes h
  have hone : ([stepWorld Cube.planes, stepLamp (str! "0 1 0")].countP fun e => decide (TopLevel e)) = 1 := by
    have h1 : decide (TopLevel (stepWorld Cube.planes)) = false := by
      rw [decide_eq_false_iff_not]
      exact fun h => h.1 rfl
    have h2 : decide (TopLevel (stepLamp (str! "0 1 0"))) = true := by
      rw [decide_eq_true_eq]
      exact ⟨by decide, by decide⟩
    rw [List.countP_cons, List.countP_cons, List.countP_nil, h1, h2]
    rfl
  rw [hone] at hn
  obtain ⟨e, rfl⟩ := List.length_eq_one_iff.1 hn
  obtain ⟨mid, j1, j2⟩ := hes
  rw [List.singleton_perm] at j1
  subst j1
  cases j2 with
  | cons a b => cases b; exact ⟨w, ls, e, w', ls', _, h, h', hw, a⟩

end
end Quarch
