import Verif.Props.Turning
/-
C101: a moved map gives the moved scene, in exact arithmetic.
-/
set_option linter.unusedSectionVars false
namespace Quarch
open Spec Scene Geo

section
variable [RealText]

/-- Moving without turning. -/
noncomputable def shift (t : V3 ℝ) : Rigid :=
  ⟨⟨1, 0, 0⟩, ⟨0, 1, 0⟩, ⟨0, 0, 1⟩, t, by simp [dotR], by simp [dotR], by simp [dotR], by simp [crossR]⟩

theorem shift_turn (t v : V3 ℝ) : (shift t).turn v = v := by simp [shift, Rigid.turn, addR, smulR]

theorem shift_move (t v : V3 ℝ) : (shift t).move v = addR v t := by
  unfold Rigid.move
  rw [shift_turn]
  rfl

theorem shift_zero (v : V3 ℝ) : v = addR v zeroR := by simp [addR, zeroR]

theorem turnedBy_shift {t : V3 ℝ} {e e' : Entity ℝ} (h : MovedBy t e e') : TurnedBy (shift t).move e e' := by
  refine ⟨h.properties, ?_, ?_⟩
  · simp only [shift_move]
    exact h.origin
  · rw [h.brushes, List.forall₂_map_right_iff, List.forall₂_same]
    intro b _
    rw [List.forall₂_map_right_iff, List.forall₂_same]
    intro p _
    exact ⟨(shift_move _ _).symm, (shift_move _ _).symm, (shift_move _ _).symm, rfl⟩

theorem shiftedVisual_of {t : V3 ℝ} {v v' : VisualGeometry ℝ} (h : TakenVisual (TakenSurface (shift t).move) v v') :
    ShiftedVisual t v v' := by
  have e : (shift t).move = (addR · t) := funext (shift_move t)
  rw [e] at h
  cases v <;> cases v' <;> exact h

theorem shiftedCollision_of {t s : V3 ℝ} {f : V3 ℝ → V3 ℝ} (hf : ∀ v, f v = addR v s) {c c' : CollisionGeometry ℝ}
    (h : TakenCollision (shift t).move f c c') : ShiftedCollision t s c c' := by
  have e : (shift t).move = (addR · t) := funext (shift_move t)
  have e' : f = (addR · s) := funext hf
  rw [e, e'] at h
  cases c <;> cases c' <;> exact h

mutual
theorem shifted_of {t own leaf : V3 ℝ} {f g : V3 ℝ → V3 ℝ} (hf : ∀ v, f v = addR v own) (hg : ∀ v, g v = addR v leaf) :
    ∀ {n n' : Node ℝ}, Turned (TakenSurface (shift t).move) (shift t).move (shift t).turn f g n n' → Shifted t own leaf n n'
  | .actor o _ _, .actor _ _ _, h => ⟨h.1.trans (hf o), h.2.1, shiftedAll_of hg h.2.2⟩
  | .actor _ _ _, .visual _ _, h => h.elim
  | .actor _ _ _, .collision _ _, h => h.elim
  | .visual o _, .visual _ _, h => ⟨h.1.trans (hg o), shiftedVisual_of h.2⟩
  | .visual _ _, .actor _ _ _, h => h.elim
  | .visual _ _, .collision _ _, h => h.elim
  | .collision o _, .collision _ _, h => ⟨h.1.trans (hg o), shiftedCollision_of hg h.2⟩
  | .collision _ _, .actor _ _ _, h => h.elim
  | .collision _ _, .visual _ _, h => h.elim
theorem shiftedAll_of {t leaf : V3 ℝ} {g : V3 ℝ → V3 ℝ} (hg : ∀ v, g v = addR v leaf) :
    ∀ {ns ns' : List (Node ℝ)}, TurnedAll (TakenSurface (shift t).move) (shift t).move (shift t).turn g ns ns' → ShiftedAll t leaf ns ns'
  | [], [], _ => trivial
  | [], _ :: _, h => h.elim
  | _ :: _, [], h => h.elim
  | _ :: _, _ :: _, h => ⟨shifted_of (fun v => (shift_turn t v).trans (shift_zero v)) hg h.1, shiftedAll_of hg h.2⟩
end

variable [Platform] [NaturalSort]

/-- C101: a map whose entities are all moved by `t` loads if the original map does, and gives the same scene with
everything moved: the worldspawn and the top level entities are moved by `t`, with the visual and collision nodes in them;
the nodes of entities in groups keep their places relative to their parents; layer nodes stay at the zero point and the
geometry in them moves. -/
theorem C101_moved (depth : Nat) (order order' : List (Str × List (BrushGeo ℝ)) → List (Str × List (BrushGeo ℝ)))
    (horder : ∀ l, (order l).Perm l) (horder' : ∀ l, (order' l).Perm l) (config : Config ℝ) (map map' : Str)
    (hfile : config.mapFile = some map) (entities entities' : List (Entity ℝ)) (hl : LoadsAs map entities)
    (hl' : LoadsAs map' entities') (t : V3 ℝ) (hm : List.Forall₂ (MovedBy t) entities entities')
    (hp : ∀ e ∈ entities, Settled e) (nodes : List (Node ℝ)) (h : Quarch.run depth order config = .ok nodes) :
    ∃ w ls es w' ls' ls'' es', nodes = w :: (ls ++ es) ∧
      Quarch.run depth order' { config with mapFile := some map' } = .ok (w' :: (ls' ++ es')) ∧
      es.length = entities.countP (fun e => TopLevel e) ∧
      Shifted t t t w w' ∧ ls''.Perm ls' ∧ List.Forall₂ (Shifted t zeroR zeroR) ls ls'' ∧
      List.Forall₂ (Shifted t t t) es es' := by
  obtain ⟨w, ls, es, w', ls', ls'', es', h1, h2, h3, h4, h5, h6, h7⟩ := C103_turned depth order order' horder horder' config
    map map' hfile entities entities' hl hl' (shift t) (hm.imp fun _ _ => turnedBy_shift) hp nodes h
  exact ⟨w, ls, es, w', ls', ls'', es', h1, h2, h3, shifted_of (shift_move t) (shift_move t) h4, h5,
    h6.imp fun _ _ h => shifted_of shift_zero shift_zero h,
    h7.imp fun _ _ h => shifted_of (shift_move t) (shift_move t) h⟩

end
end Quarch
