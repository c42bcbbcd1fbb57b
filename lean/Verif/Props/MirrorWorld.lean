import Verif.Spec.MirrorWorld
import Verif.Props.Mirror
/-
C141: a map that is mirrored with the points of every face put back into order gives the mirrored scene.
-/
set_option linter.unusedSectionVars false
namespace Quarch
open Spec Scene Geo Poly

section
variable {F : Type}

/-- The same properties except perhaps the origin. -/
def NamedAlike (e e' : Entity F) : Prop := ∀ key, key ≠ str! "origin" → e.properties key = e'.properties key

/-- The same textures in the same order. -/
def PaintedAlike (b b' : Brush F) : Prop := List.Forall₂ (fun p p' : BrushPlane F => p.texture = p'.texture) b.planes b'.planes

theorem namedAlike_symm {e e' : Entity F} (h : NamedAlike e e') : NamedAlike e' e := fun k hk => (h k hk).symm

theorem paintedAlike_symm {b b' : Brush F} (h : PaintedAlike b b') : PaintedAlike b' b :=
  List.Forall₂.flip (h.imp fun _ _ h => h.symm)

theorem anchored_named {entities entities' : List (Entity F)} (hm : List.Forall₂ NamedAlike entities entities')
    {e : Entity F} (h : Anchored entities e) : ∀ e', NamedAlike e e' → Anchored entities' e' := by
  induction h with
  | world h => intro e' he; exact .world (by rw [← he _ (by decide)]; exact h)
  | top h => intro e' he; exact .top (by unfold groupOf at *; rw [← he _ (by decide)]; exact h)
  | under hp hu _ ih =>
    intro e' he
    obtain ⟨p', hp', hpp⟩ := forall₂_left hm hp
    refine .under hp' ?_ (ih p' hpp)
    unfold Under groupOf idOf at *
    rw [← he _ (by decide), ← hpp _ (by decide)]
    exact hu

theorem layerBrush_painted {textures : TextureInfo} {e e' : Entity F} {b b' : Brush F} (he : NamedAlike e e')
    (hb : PaintedAlike b b') {t : Str} (h : LayerBrush textures e b t) : LayerBrush textures e' b' t := by
  refine ⟨?_, h.2.1, fun q' hq' => ?_⟩
  · have := h.1
    unfold IsWorld at *
    rw [← he _ (by decide)]
    exact this
  · obtain ⟨q, hq, hqq⟩ := forall₂_right hb hq'
    have := h.2.2 q hq
    unfold knownTexture at *
    rw [← hqq]
    exact this

theorem defOf_named {gd : GameData F} {e e' : Entity F} (he : NamedAlike e e') {d : EntityDef F} (h : DefOf gd e d) :
    DefOf gd e' d := by
  obtain ⟨c, h1, h2⟩ := h
  exact ⟨c, by rw [← he _ (by decide)]; exact h1, h2⟩

theorem shown_painted {config : Config F} {e e' : Entity F} {b b' : Brush F} (he : NamedAlike e e') (hb : PaintedAlike b b')
    {p p' : BrushPlane F} (hp : p.texture = p'.texture) (h : ShownFace config e b p) : ShownFace config e' b' p' := by
  rcases h with ⟨t, layer, h1, h2⟩ | ⟨h1, ⟨d, pd, bd, h2, h3⟩, ⟨q, hq, h4⟩, h5⟩
  · exact .inl ⟨t, layer, layerBrush_painted he hb h1, h2⟩
  · refine .inr ⟨fun t ht => h1 t (layerBrush_painted (namedAlike_symm he) (paintedAlike_symm hb) ht),
      ⟨d, pd, bd, defOf_named he h2, h3⟩, ?_, ?_⟩
    · obtain ⟨q', hq', hqq⟩ := forall₂_left hb hq
      refine ⟨q', hq', ?_⟩
      unfold knownTexture at *
      rw [← hqq]
      exact h4
    · unfold knownTexture at *
      rw [← hp]
      exact h5

theorem solid_painted {config : Config F} {e e' : Entity F} {b b' : Brush F} (he : NamedAlike e e') (hb : PaintedAlike b b')
    {ct : CollisionType} (h : SolidAs config e b ct) : SolidAs config e' b' ct := by
  rcases h with ⟨t, layer, h1, h2⟩ | ⟨h1, d, pd, bd, h2, h3⟩
  · exact .inl ⟨t, layer, layerBrush_painted he hb h1, h2⟩
  · exact .inr ⟨fun t ht => h1 t (layerBrush_painted (namedAlike_symm he) (paintedAlike_symm hb) ht),
      d, pd, bd, defOf_named he h2, h3⟩

end

section
variable [RealText]

theorem reflect_dot (M : Rigid) {p q : BrushPlane ℝ} (h : MirroredFace M.reflect p q) (x : V3 ℝ) :
    dotR (rawNormal q) (subR (M.reflect x) q.v0) = dotR (rawNormal p) (subR x p.v0) := by
  rw [reflect_raw M h.v0 h.v1 h.v2, h.v0, reflect_sub, Rigid.turn_dot, mirrorR_dot]

theorem reflect_on (M : Rigid) {p q : BrushPlane ℝ} (h : MirroredFace M.reflect p q) (x : V3 ℝ) :
    OnPlane q (M.reflect x) ↔ OnPlane p x := by
  unfold OnPlane
  rw [reflect_dot M h]

theorem reflect_all (M : Rigid) {planes planes' : List (BrushPlane ℝ)}
    (h : List.Forall₂ (MirroredFace M.reflect) planes planes') (r : ℝ) (x : V3 ℝ) :
    (∀ q ∈ planes', WithinR r q (M.reflect x)) ↔ ∀ p ∈ planes, WithinR r p x := by
  constructor
  · intro hx p hp
    obtain ⟨q, hq, hpq⟩ := forall₂_left h hp
    exact (reflect_within M hpq.v0 hpq.v1 hpq.v2 r x).1 (hx q hq)
  · intro hx q hq
    obtain ⟨p, hp, hpq⟩ := forall₂_right h hq
    exact (reflect_within M hpq.v0 hpq.v1 hpq.v2 r x).2 (hx p hp)

theorem turn_mirror_zero (M : Rigid) {v : V3 ℝ} : M.turn (mirrorR v) = zeroR ↔ v = zeroR := by
  constructor
  · intro h
    have := Rigid.turn_inj M (h.trans (Rigid.turn_zero M).symm)
    rw [← mirrorR_mirrorR v, this]
    simp [mirrorR, zeroR]
  · rintro rfl
    rw [show mirrorR zeroR = zeroR by simp [mirrorR, zeroR], Rigid.turn_zero]

theorem reflect_cross (M : Rigid) (a b c : V3 ℝ) :
    crossR (subR (M.reflect b) (M.reflect a)) (subR (M.reflect c) (M.reflect a)) =
      M.turn (mirrorR (smulR (-1) (crossR (subR b a) (subR c a)))) := by
  rw [reflect_sub, reflect_sub, Rigid.turn_cross]
  congr 1
  simp only [mirrorR, crossR, subR, smulR]
  apply V3.ext' <;> simp only [] <;> ring

theorem reflect_onFace (M : Rigid) {planes planes' : List (BrushPlane ℝ)}
    (h : List.Forall₂ (MirroredFace M.reflect) planes planes') {p q : BrushPlane ℝ} (hpq : MirroredFace M.reflect p q)
    (x : V3 ℝ) : OnFace planes' q (M.reflect x) ↔ OnFace planes p x :=
  and_congr (reflect_on M hpq x) (reflect_all M h 0 x)

theorem reflect_area (M : Rigid) {planes planes' : List (BrushPlane ℝ)}
    (h : List.Forall₂ (MirroredFace M.reflect) planes planes') {p q : BrushPlane ℝ} (hpq : MirroredFace M.reflect p q) :
    HasArea planes' q ↔ HasArea planes p := by
  have key : ∀ a b c : V3 ℝ, crossR (subR (M.reflect b) (M.reflect a)) (subR (M.reflect c) (M.reflect a)) = ⟨0, 0, 0⟩ ↔
      crossR (subR b a) (subR c a) = ⟨0, 0, 0⟩ := by
    intro a b c
    rw [reflect_cross]
    refine (turn_mirror_zero M).trans ?_
    generalize crossR (subR b a) (subR c a) = w
    obtain ⟨w1, w2, w3⟩ := w
    simp [smulR, zeroR]
  constructor
  · rintro ⟨a, b, c, h1, h2, h3, h4⟩
    obtain ⟨a, rfl⟩ := reflect_surj M a
    obtain ⟨b, rfl⟩ := reflect_surj M b
    obtain ⟨c, rfl⟩ := reflect_surj M c
    exact ⟨a, b, c, (reflect_onFace M h hpq a).1 h1, (reflect_onFace M h hpq b).1 h2, (reflect_onFace M h hpq c).1 h3,
      fun e => h4 ((key a b c).2 e)⟩
  · rintro ⟨a, b, c, h1, h2, h3, h4⟩
    exact ⟨_, _, _, (reflect_onFace M h hpq a).2 h1, (reflect_onFace M h hpq b).2 h2, (reflect_onFace M h hpq c).2 h3,
      fun e => h4 ((key a b c).1 e)⟩

theorem reflect_unitDet (M : Rigid) {p q r p' q' r' : BrushPlane ℝ} (hp : MirroredFace M.reflect p p')
    (hq : MirroredFace M.reflect q q') (hr : MirroredFace M.reflect r r') : unitDet p' q' r' = -unitDet p q r := by
  have hl : ∀ v, lenR (M.turn (mirrorR v)) = lenR v := by
    intro v
    rw [Rigid.turn_len]
    unfold lenR
    rw [mirrorR_dot]
  unfold unitDet
  rw [reflect_raw M hp.v0 hp.v1 hp.v2, reflect_raw M hq.v0 hq.v1 hq.v2, reflect_raw M hr.v0 hr.v1 hr.v2, hl, hl, hl]
  unfold detR
  rw [Rigid.turn_cross, Rigid.turn_dot, ← neg_div]
  congr 1
  simp only [mirrorR, crossR, dotR]
  ring

/-- C141: the mirror image of a proper brush, with its points put back into order, is a proper brush. -/
theorem C141_proper (M : Rigid) (planes planes' : List (BrushPlane ℝ)) (hp : ProperBrush planes)
    (h : List.Forall₂ (MirroredFace M.reflect) planes planes') : ProperBrush planes' := by
  refine ⟨?_, ?_, ?_, ?_, ?_⟩
  · intro q hq
    obtain ⟨p, hpm, hpq⟩ := forall₂_right h hq
    unfold NonDegenerate
    rw [reflect_raw M hpq.v0 hpq.v1 hpq.v2]
    exact fun e => hp.points p hpm ((turn_mirror_zero M).1 e)
  · intro p' hp' q' hq' r' hr'
    obtain ⟨p, hpm, hpp⟩ := forall₂_right h hp'
    obtain ⟨q, hqm, hqq⟩ := forall₂_right h hq'
    obtain ⟨r, hrm, hrr⟩ := forall₂_right h hr'
    rw [reflect_unitDet M hpp hqq hrr, neg_eq_zero, abs_neg]
    exact hp.spread p hpm q hqm r hrm
  · intro p' hp' q' hq' r' hr' hd x h1 h2 h3 h4
    obtain ⟨p, hpm, hpp⟩ := forall₂_right h hp'
    obtain ⟨q, hqm, hqq⟩ := forall₂_right h hq'
    obtain ⟨r, hrm, hrr⟩ := forall₂_right h hr'
    obtain ⟨x, rfl⟩ := reflect_surj M x
    rw [reflect_unitDet M hpp hqq hrr, neg_ne_zero] at hd
    exact (reflect_all M h 0 x).2 (hp.clear p hpm q hqm r hrm hd x ((reflect_on M hpp x).1 h1) ((reflect_on M hqq x).1 h2)
      ((reflect_on M hrr x).1 h3) ((reflect_all M h _ x).1 h4))
  · obtain ⟨y, hy⟩ := hp.solid
    refine ⟨M.reflect y, fun q hq => ?_⟩
    obtain ⟨p, hpm, hpq⟩ := forall₂_right h hq
    rw [reflect_dot M hpq]
    exact hy p hpm
  · obtain ⟨R, hR⟩ := hp.bounded
    exact reflect_bounded M fun x hx => hR x ((reflect_all M h 0 x).1 hx)

variable [Platform]

/-- C141: if a map of proper brushes and its mirror image, with the points of the faces put back into order, both load, then a
point is drawn in the second scene if and only if it is the mirror image of a point that is drawn in the first; the same holds
for the convex and for the concave collision shapes. -/
theorem C141_scene (depth depth' : Nat)
    (order order' : List (Str × List (BrushGeo ℝ)) → List (Str × List (BrushGeo ℝ)))
    (horder : ∀ l, (order l).Perm l) (horder' : ∀ l, (order' l).Perm l)
    (config : Config ℝ) (text text' : Str) (ht : config.mapFile = some text)
    (entities entities' : List (Entity ℝ)) (hl : LoadsAs text entities) (hl' : LoadsAs text' entities')
    (nodes nodes' : List (Node ℝ)) (h : Quarch.run depth order config = .ok nodes)
    (h' : Quarch.run depth' order' { config with mapFile := some text' } = .ok nodes')
    (M : Rigid) (hm : List.Forall₂ (MirroredBy M.reflect) entities entities')
    (hp : ∀ e ∈ entities, Anchored entities e → ∀ br ∈ e.brushes, ProperBrush br.planes) (x : V3 ℝ) :
    (Drawn nodes' (M.reflect x) ↔ Drawn nodes x) ∧ (InSolid nodes' (M.reflect x) ↔ InSolid nodes x) ∧
      (OnSolid nodes' (M.reflect x) ↔ OnSolid nodes x) := by
  have hn : List.Forall₂ NamedAlike entities entities' := hm.imp fun _ _ h => h.properties
  have hn' : List.Forall₂ NamedAlike entities' entities := List.Forall₂.flip (hn.imp fun _ _ h => namedAlike_symm h)
  have painted : ∀ {b b' : Brush ℝ}, List.Forall₂ (MirroredFace M.reflect) b.planes b'.planes → PaintedAlike b b' :=
    fun h => h.imp fun _ _ h => h.texture.symm
  have hp' : ∀ e ∈ entities', Anchored entities' e → ∀ br ∈ e.brushes, ProperBrush br.planes := by
    intro e' he' ha br' hbr'
    obtain ⟨e, he, hee⟩ := forall₂_right hm he'
    obtain ⟨br, hbr, hbb⟩ := forall₂_right hee.brushes hbr'
    exact C141_proper M _ _ (hp e he (anchored_named hn' ha e (namedAlike_symm hee.properties)) br hbr) hbb
  refine ⟨?_, ?_, ?_⟩
  · rw [C87_picture depth order horder config nodes h text ht entities hl hp,
      C87_picture depth' order' horder' { config with mapFile := some text' } nodes' h' text' rfl entities' hl' hp']
    constructor
    · rintro ⟨e', he', ha, br', hbr', p', hpm', hs, hA, hF⟩
      obtain ⟨e, he, hee⟩ := forall₂_right hm he'
      obtain ⟨br, hbr, hbb⟩ := forall₂_right hee.brushes hbr'
      obtain ⟨p, hpm, hpp⟩ := forall₂_right hbb hpm'
      exact ⟨e, he, anchored_named hn' ha e (namedAlike_symm hee.properties), br, hbr, p, hpm,
        shown_painted (config := config) (namedAlike_symm hee.properties) (paintedAlike_symm (painted hbb)) hpp.texture hs,
        (reflect_area M hbb hpp).1 hA, (reflect_onFace M hbb hpp x).1 hF⟩
    · rintro ⟨e, he, ha, br, hbr, p, hpm, hs, hA, hF⟩
      obtain ⟨e', he', hee⟩ := forall₂_left hm he
      obtain ⟨br', hbr', hbb⟩ := forall₂_left hee.brushes hbr
      obtain ⟨p', hpm', hpp⟩ := forall₂_left hbb hpm
      exact ⟨e', he', anchored_named hn ha e' hee.properties, br', hbr', p', hpm',
        shown_painted (config := config) hee.properties (painted hbb) hpp.texture.symm hs,
        (reflect_area M hbb hpp).2 hA, (reflect_onFace M hbb hpp x).2 hF⟩
  · rw [C88_filled depth order horder config nodes h text ht entities hl hp,
      C88_filled depth' order' horder' { config with mapFile := some text' } nodes' h' text' rfl entities' hl' hp']
    constructor
    · rintro ⟨e', he', ha, br', hbr', hs, hF⟩
      obtain ⟨e, he, hee⟩ := forall₂_right hm he'
      obtain ⟨br, hbr, hbb⟩ := forall₂_right hee.brushes hbr'
      exact ⟨e, he, anchored_named hn' ha e (namedAlike_symm hee.properties), br, hbr,
        solid_painted (config := config) (namedAlike_symm hee.properties) (paintedAlike_symm (painted hbb)) hs,
        (reflect_all M hbb 0 x).1 hF⟩
    · rintro ⟨e, he, ha, br, hbr, hs, hF⟩
      obtain ⟨e', he', hee⟩ := forall₂_left hm he
      obtain ⟨br', hbr', hbb⟩ := forall₂_left hee.brushes hbr
      exact ⟨e', he', anchored_named hn ha e' hee.properties, br', hbr',
        solid_painted (config := config) hee.properties (painted hbb) hs, (reflect_all M hbb 0 x).2 hF⟩
  · rw [C88_covered depth order horder config nodes h text ht entities hl hp,
      C88_covered depth' order' horder' { config with mapFile := some text' } nodes' h' text' rfl entities' hl' hp']
    constructor
    · rintro ⟨e', he', ha, br', hbr', hs, hF, p', hpm', hO⟩
      obtain ⟨e, he, hee⟩ := forall₂_right hm he'
      obtain ⟨br, hbr, hbb⟩ := forall₂_right hee.brushes hbr'
      obtain ⟨p, hpm, hpp⟩ := forall₂_right hbb hpm'
      exact ⟨e, he, anchored_named hn' ha e (namedAlike_symm hee.properties), br, hbr,
        solid_painted (config := config) (namedAlike_symm hee.properties) (paintedAlike_symm (painted hbb)) hs,
        (reflect_all M hbb 0 x).1 hF, p, hpm, (reflect_on M hpp x).1 hO⟩
    · rintro ⟨e, he, ha, br, hbr, hs, hF, p, hpm, hO⟩
      obtain ⟨e', he', hee⟩ := forall₂_left hm he
      obtain ⟨br', hbr', hbb⟩ := forall₂_left hee.brushes hbr
      obtain ⟨p', hpm', hpp⟩ := forall₂_left hbb hpm
      exact ⟨e', he', anchored_named hn ha e' hee.properties, br', hbr',
        solid_painted (config := config) hee.properties (painted hbb) hs, (reflect_all M hbb 0 x).2 hF, p', hpm',
        (reflect_on M hpp x).2 hO⟩

end
end Quarch
