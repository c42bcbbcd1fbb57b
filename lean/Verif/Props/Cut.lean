import Verif.Spec.Cut
import Verif.Props.MirrorWorld
/-
C143: cutting brushes in two changes nothing that is solid, and adds only the faces of the cuts to what is drawn.
-/
set_option linter.unusedSectionVars false
namespace Quarch
open Spec Scene Geo Poly

section
variable {C : Brush ℝ → BrushPlane ℝ → Prop}

theorem cut_forth {l l' : List (Brush ℝ)} (h : CutInto C l l') {br : Brush ℝ} (hbr : br ∈ l) :
    br ∈ l' ∨ ∃ p p', C br p ∧ SawnBy br p p' ∧ sawn br p ∈ l' ∧ sawn br p' ∈ l' := by
  induction h with
  | nil => cases hbr
  | keep _ ih =>
    rcases List.mem_cons.1 hbr with rfl | hbr
    · exact .inl List.mem_cons_self
    · rcases ih hbr with h | ⟨p, p', h1, h2, h3, h4⟩
      · exact .inl (List.mem_cons_of_mem _ h)
      · exact .inr ⟨p, p', h1, h2, List.mem_cons_of_mem _ h3, List.mem_cons_of_mem _ h4⟩
  | cut hC hc _ ih =>
    rcases List.mem_cons.1 hbr with rfl | hbr
    · exact .inr ⟨_, _, hC, hc, by simp, by simp⟩
    · rcases ih hbr with h | ⟨p, p', h1, h2, h3, h4⟩
      · exact .inl (by simp [h])
      · exact .inr ⟨p, p', h1, h2, by simp [h3], by simp [h4]⟩

theorem cut_back {l l' : List (Brush ℝ)} (h : CutInto C l l') {br' : Brush ℝ} (hbr : br' ∈ l') :
    br' ∈ l ∨ ∃ br ∈ l, ∃ p p', C br p ∧ SawnBy br p p' ∧ (br' = sawn br p ∨ br' = sawn br p') := by
  induction h with
  | nil => cases hbr
  | keep _ ih =>
    rcases List.mem_cons.1 hbr with rfl | hbr
    · exact .inl List.mem_cons_self
    · rcases ih hbr with h | ⟨br, h0, h⟩
      · exact .inl (List.mem_cons_of_mem _ h)
      · exact .inr ⟨br, List.mem_cons_of_mem _ h0, h⟩
  | @cut br p p' _ _ hC hc _ ih =>
    rcases List.mem_cons.1 hbr with rfl | hbr
    · exact .inr ⟨br, List.mem_cons_self, p, p', hC, hc, .inl rfl⟩
    rcases List.mem_cons.1 hbr with rfl | hbr
    · exact .inr ⟨br, List.mem_cons_self, p, p', hC, hc, .inr rfl⟩
    · rcases ih hbr with h | ⟨br, h0, h⟩
      · exact .inl (List.mem_cons_of_mem _ h)
      · exact .inr ⟨br, List.mem_cons_of_mem _ h0, h⟩

theorem half_layer {textures : TextureInfo} {e e' : Entity ℝ} (he : e.properties = e'.properties) {br : Brush ℝ}
    {p : BrushPlane ℝ} (hp : ∃ q ∈ br.planes, p.texture = q.texture) (t : Str) :
    LayerBrush textures e' (sawn br p) t ↔ LayerBrush textures e br t := by
  unfold LayerBrush IsWorld
  rw [he]
  refine and_congr_right fun _ => and_congr_right fun _ => ⟨fun h q hq => h q (by simp [sawn, hq]), fun h q hq => ?_⟩
  rcases List.mem_append.1 hq with hq | hq
  · exact h q hq
  · cases List.mem_singleton.1 hq
    obtain ⟨r, hr, e⟩ := hp
    have := h r hr
    unfold knownTexture at *
    rw [e]
    exact this

theorem defOf_props {gd : GameData ℝ} {e e' : Entity ℝ} (he : e.properties = e'.properties) {d : EntityDef ℝ} :
    DefOf gd e' d ↔ DefOf gd e d := by unfold DefOf; rw [he]

theorem half_solid {config : Config ℝ} {e e' : Entity ℝ} (he : e.properties = e'.properties) {br : Brush ℝ}
    {p : BrushPlane ℝ} (hp : ∃ q ∈ br.planes, p.texture = q.texture) (ct : CollisionType) :
    SolidAs config e' (sawn br p) ct ↔ SolidAs config e br ct := by
  unfold SolidAs
  simp only [half_layer he hp, defOf_props he]

theorem half_shown {config : Config ℝ} {e e' : Entity ℝ} (he : e.properties = e'.properties) {br : Brush ℝ}
    {p : BrushPlane ℝ} (hp : ∃ q ∈ br.planes, p.texture = q.texture) (q : BrushPlane ℝ) :
    ShownFace config e' (sawn br p) q ↔ ShownFace config e br q := by
  have key : (∃ q ∈ (sawn br p).planes, ∀ t, knownTexture config.textureInfo q = some t → t ∉ config.textureBlacklist.brush) ↔
      ∃ q ∈ br.planes, ∀ t, knownTexture config.textureInfo q = some t → t ∉ config.textureBlacklist.brush := by
    constructor
    · rintro ⟨q, hq, h⟩
      rcases List.mem_append.1 hq with hq | hq
      · exact ⟨q, hq, h⟩
      · cases List.mem_singleton.1 hq
        obtain ⟨r, hr, e⟩ := hp
        refine ⟨r, hr, ?_⟩
        unfold knownTexture at *
        rw [← e]
        exact h
    · rintro ⟨q, hq, h⟩
      exact ⟨q, by simp [sawn, hq], h⟩
  unfold ShownFace
  simp only [half_layer he hp, defOf_props he, key]

theorem shown_props {config : Config ℝ} {e e' : Entity ℝ} (he : e.properties = e'.properties) {br : Brush ℝ}
    {q : BrushPlane ℝ} : ShownFace config e' br q ↔ ShownFace config e br q := by
  unfold ShownFace LayerBrush IsWorld DefOf
  rw [he]

theorem solid_props {config : Config ℝ} {e e' : Entity ℝ} (he : e.properties = e'.properties) {br : Brush ℝ}
    {ct : CollisionType} : SolidAs config e' br ct ↔ SolidAs config e br ct := by
  unfold SolidAs LayerBrush IsWorld DefOf
  rw [he]

variable [RealText] [Platform]

theorem half_in {br : Brush ℝ} {p : BrushPlane ℝ} {x : V3 ℝ} : (∀ q ∈ (sawn br p).planes, WithinR 0 q x) ↔
    (∀ q ∈ br.planes, WithinR 0 q x) ∧ dotR (rawNormal p) (subR x p.v0) ≤ 0 := by
  constructor
  · intro h
    have := h p (by simp [sawn])
    unfold WithinR at this
    rw [zero_mul] at this
    exact ⟨fun q hq => h q (by simp [sawn, hq]), this⟩
  · rintro ⟨h, h0⟩ q hq
    rcases List.mem_append.1 hq with hq | hq
    · exact h q hq
    · cases List.mem_singleton.1 hq
      unfold WithinR
      rw [zero_mul]
      exact h0

theorem halves_in {br : Brush ℝ} {p p' : BrushPlane ℝ} (h : TurnedRound p p') (x : V3 ℝ) :
    (∀ q ∈ br.planes, WithinR 0 q x) ↔
      (∀ q ∈ (sawn br p).planes, WithinR 0 q x) ∨ ∀ q ∈ (sawn br p').planes, WithinR 0 q x := by
  rw [half_in, half_in, (turned_front h x).1, ← and_or_left, neg_nonpos, and_iff_left (le_total _ _)]

/-- If a face of the brush has a point strictly behind the cut, it has area there. -/
theorem half_area {br : Brush ℝ} {p q : BrushPlane ℝ} (h : HasArea br.planes q) {y : V3 ℝ} (hy : OnFace br.planes q y)
    (hs : dotR (rawNormal p) (subR y p.v0) < 0) : HasArea (sawn br p).planes q := by
  obtain ⟨a, b, c, ha, hb, hc, hne⟩ := h
  -- how far towards a point one may go
  have step : ∀ a : V3 ℝ, ∃ t0 : ℝ, 0 < t0 ∧ ∀ t, 0 ≤ t → t ≤ t0 →
      dotR (rawNormal p) (subR (addR y (smulR t (subR a y))) p.v0) ≤ 0 := by
    intro a
    have e : ∀ t : ℝ, dotR (rawNormal p) (subR (addR y (smulR t (subR a y))) p.v0) =
        dotR (rawNormal p) (subR y p.v0) + t * dotR (rawNormal p) (subR a y) := by
      intro t; simp only [dotR, subR, addR, smulR]; ring
    refine ⟨-dotR (rawNormal p) (subR y p.v0) / (|dotR (rawNormal p) (subR a y)| + 1),
      div_pos (by linarith) (by positivity), fun t h0 h1 => ?_⟩
    rw [e]
    have hpos : 0 < |dotR (rawNormal p) (subR a y)| + 1 := by positivity
    rw [le_div_iff₀ hpos] at h1
    have := le_abs_self (dotR (rawNormal p) (subR a y))
    nlinarith
  have on : ∀ a, OnFace br.planes q a → ∀ t : ℝ, 0 ≤ t → t ≤ 1 → OnFace br.planes q (addR y (smulR t (subR a y))) := by
    intro a ha t h0 h1
    have e : ∀ r : BrushPlane ℝ, dotR (rawNormal r) (subR (addR y (smulR t (subR a y))) r.v0) =
        (1 - t) * dotR (rawNormal r) (subR y r.v0) + t * dotR (rawNormal r) (subR a r.v0) := by
      intro r; simp only [dotR, subR, addR, smulR]; ring
    refine ⟨?_, fun r hr => ?_⟩
    · have h1 := hy.1
      have h2 := ha.1
      unfold OnPlane at *
      rw [e, h1, h2]
      ring
    · have h2 := hy.2 r hr
      have h3 := ha.2 r hr
      unfold WithinR at *
      rw [e]
      rw [zero_mul] at *
      nlinarith
  obtain ⟨ta, pa, ka⟩ := step a
  obtain ⟨tb, pb, kb⟩ := step b
  obtain ⟨tc, pc, kc⟩ := step c
  let t := min 1 (min ta (min tb tc))
  have t0 : 0 < t := lt_min one_pos (lt_min pa (lt_min pb pc))
  have t1 : t ≤ 1 := min_le_left _ _
  have l1 : t ≤ ta := (min_le_right _ _).trans (min_le_left _ _)
  have l2 : t ≤ tb := (min_le_right _ _).trans ((min_le_right _ _).trans (min_le_left _ _))
  have l3 : t ≤ tc := (min_le_right _ _).trans ((min_le_right _ _).trans (min_le_right _ _))
  refine ⟨addR y (smulR t (subR a y)), addR y (smulR t (subR b y)), addR y (smulR t (subR c y)),
    ⟨(on a ha t t0.le t1).1, half_in.2 ⟨(on a ha t t0.le t1).2, ka t t0.le l1⟩⟩,
    ⟨(on b hb t t0.le t1).1, half_in.2 ⟨(on b hb t t0.le t1).2, kb t t0.le l2⟩⟩,
    ⟨(on c hc t t0.le t1).1, half_in.2 ⟨(on c hc t t0.le t1).2, kc t t0.le l3⟩⟩, fun e => hne ?_⟩
  have e' : crossR (subR (addR y (smulR t (subR b y))) (addR y (smulR t (subR a y))))
      (subR (addR y (smulR t (subR c y))) (addR y (smulR t (subR a y)))) = smulR (t * t) (crossR (subR b a) (subR c a)) := by
    simp only [crossR, subR, addR, smulR]
    apply V3.ext' <;> simp only [] <;> ring
  rw [e'] at e
  generalize crossR (subR b a) (subR c a) = w at e
  obtain ⟨w1, w2, w3⟩ := w
  simpa [smulR, t0.ne'] using e

/-- Every point of a face with area is on the same face, with area, of one of the two parts. -/
theorem halves_face {br : Brush ℝ} {p p' q : BrushPlane ℝ} (h : TurnedRound p p') (hA : HasArea br.planes q) {x : V3 ℝ}
    (hx : OnFace br.planes q x) :
    (HasArea (sawn br p).planes q ∧ OnFace (sawn br p).planes q x) ∨
      HasArea (sawn br p').planes q ∧ OnFace (sawn br p').planes q x := by
  have flip := fun y => (turned_front h y).1
  rcases lt_trichotomy (dotR (rawNormal p) (subR x p.v0)) 0 with hs | hs | hs
  · exact .inl ⟨half_area hA hx hs, hx.1, half_in.2 ⟨hx.2, hs.le⟩⟩
  · by_cases h1 : ∃ y, OnFace br.planes q y ∧ dotR (rawNormal p) (subR y p.v0) < 0
    · obtain ⟨y, hy, hs'⟩ := h1
      exact .inl ⟨half_area hA hy hs', hx.1, half_in.2 ⟨hx.2, hs.le⟩⟩
    by_cases h2 : ∃ y, OnFace br.planes q y ∧ 0 < dotR (rawNormal p) (subR y p.v0)
    · obtain ⟨y, hy, hs'⟩ := h2
      exact .inr ⟨half_area hA hy (by rw [flip]; linarith), hx.1, half_in.2 ⟨hx.2, by rw [flip, hs, neg_zero]⟩⟩
    -- the whole face is in the plane of the cut
    obtain ⟨a, b, c, ha, hb, hc, hne⟩ := hA
    have zero : ∀ y, OnFace br.planes q y → dotR (rawNormal p) (subR y p.v0) = 0 := fun y hy =>
      le_antisymm (not_lt.1 fun hh => h2 ⟨y, hy, hh⟩) (not_lt.1 fun hh => h1 ⟨y, hy, hh⟩)
    exact .inl ⟨⟨a, b, c, ⟨ha.1, half_in.2 ⟨ha.2, (zero a ha).le⟩⟩, ⟨hb.1, half_in.2 ⟨hb.2, (zero b hb).le⟩⟩,
      ⟨hc.1, half_in.2 ⟨hc.2, (zero c hc).le⟩⟩, hne⟩, hx.1, half_in.2 ⟨hx.2, hs.le⟩⟩
  · exact .inr ⟨half_area hA hx (by rw [flip]; linarith), hx.1, half_in.2 ⟨hx.2, by rw [flip]; linarith⟩⟩

theorem half_area_back {br : Brush ℝ} {p q : BrushPlane ℝ} (h : HasArea (sawn br p).planes q) : HasArea br.planes q := by
  obtain ⟨a, b, c, ha, hb, hc, hne⟩ := h
  exact ⟨a, b, c, ⟨ha.1, (half_in.1 ha.2).1⟩, ⟨hb.1, (half_in.1 hb.2).1⟩, ⟨hc.1, (half_in.1 hc.2).1⟩, hne⟩

/-- C143: if some brushes are cut in two by planes, and all brushes and parts are proper, then exactly the same points are in
convex collision shapes. -/
theorem C143_solid (depth depth' : Nat)
    (order order' : List (Str × List (BrushGeo ℝ)) → List (Str × List (BrushGeo ℝ)))
    (horder : ∀ l, (order l).Perm l) (horder' : ∀ l, (order' l).Perm l)
    (config : Config ℝ) (text text' : Str) (ht : config.mapFile = some text)
    (entities entities' : List (Entity ℝ)) (hl : LoadsAs text entities) (hl' : LoadsAs text' entities')
    (nodes nodes' : List (Node ℝ)) (h : Quarch.run depth order config = .ok nodes)
    (h' : Quarch.run depth' order' { config with mapFile := some text' } = .ok nodes')
    (hm : List.Forall₂ (CutEntity C) entities entities')
    (hp : ∀ e ∈ entities, Anchored entities e → ∀ br ∈ e.brushes, ProperBrush br.planes)
    (hp' : ∀ e ∈ entities', Anchored entities' e → ∀ br ∈ e.brushes, ProperBrush br.planes) (x : V3 ℝ) :
    InSolid nodes' x ↔ InSolid nodes x := by
  have hn : List.Forall₂ NamedAlike entities entities' := hm.imp fun _ _ h k _ => by rw [h.1]
  have hn' : List.Forall₂ NamedAlike entities' entities := List.Forall₂.flip (hn.imp fun _ _ h => namedAlike_symm h)
  rw [C88_filled depth order horder config nodes h text ht entities hl hp,
    C88_filled depth' order' horder' { config with mapFile := some text' } nodes' h' text' rfl entities' hl' hp']
  constructor
  · rintro ⟨e', he', ha, br', hbr', hs, hF⟩
    obtain ⟨e, he, hee⟩ := forall₂_right hm he'
    refine ⟨e, he, anchored_named hn' ha e fun k _ => by rw [hee.1], ?_⟩
    rcases cut_back hee.2 hbr' with hb | ⟨br, hb, p, p', _, hc, rfl | rfl⟩
    · exact ⟨br', hb, (solid_props (config := config) hee.1).1 hs, hF⟩
    · exact ⟨br, hb, (half_solid (config := config) hee.1 hc.texture _).1 hs, (half_in.1 hF).1⟩
    · exact ⟨br, hb, (half_solid (config := config) hee.1 hc.texture' _).1 hs, (half_in.1 hF).1⟩
  · rintro ⟨e, he, ha, br, hbr, hs, hF⟩
    obtain ⟨e', he', hee⟩ := forall₂_left hm he
    refine ⟨e', he', anchored_named hn ha e' fun k _ => by rw [hee.1], ?_⟩
    rcases cut_forth hee.2 hbr with hb | ⟨p, p', _, hc, h1, h2⟩
    · exact ⟨br, hb, (solid_props (config := config) hee.1).2 hs, hF⟩
    · rcases (halves_in hc.turned x).1 hF with hF | hF
      · exact ⟨_, h1, (half_solid (config := config) hee.1 hc.texture _).2 hs, hF⟩
      · exact ⟨_, h2, (half_solid (config := config) hee.1 hc.texture' _).2 hs, hF⟩

/-- C143: everything that was drawn before the cuts is drawn after them, and whatever is drawn only after them is in a brush that
was cut, on the plane of the cut. -/
theorem C143_drawn (depth depth' : Nat)
    (order order' : List (Str × List (BrushGeo ℝ)) → List (Str × List (BrushGeo ℝ)))
    (horder : ∀ l, (order l).Perm l) (horder' : ∀ l, (order' l).Perm l)
    (config : Config ℝ) (text text' : Str) (ht : config.mapFile = some text)
    (entities entities' : List (Entity ℝ)) (hl : LoadsAs text entities) (hl' : LoadsAs text' entities')
    (nodes nodes' : List (Node ℝ)) (h : Quarch.run depth order config = .ok nodes)
    (h' : Quarch.run depth' order' { config with mapFile := some text' } = .ok nodes')
    (hm : List.Forall₂ (CutEntity C) entities entities')
    (hp : ∀ e ∈ entities, Anchored entities e → ∀ br ∈ e.brushes, ProperBrush br.planes)
    (hp' : ∀ e ∈ entities', Anchored entities' e → ∀ br ∈ e.brushes, ProperBrush br.planes) (x : V3 ℝ) :
    (Drawn nodes x → Drawn nodes' x) ∧ (Drawn nodes' x → Drawn nodes x ∨ OnCut C x) := by
  have hn : List.Forall₂ NamedAlike entities entities' := hm.imp fun _ _ h k _ => by rw [h.1]
  have hn' : List.Forall₂ NamedAlike entities' entities := List.Forall₂.flip (hn.imp fun _ _ h => namedAlike_symm h)
  rw [C87_picture depth order horder config nodes h text ht entities hl hp,
    C87_picture depth' order' horder' { config with mapFile := some text' } nodes' h' text' rfl entities' hl' hp']
  constructor
  · rintro ⟨e, he, ha, br, hbr, q, hq, hs, hA, hF⟩
    obtain ⟨e', he', hee⟩ := forall₂_left hm he
    have ha' : Anchored entities' e' := anchored_named hn ha e' fun k _ => by rw [hee.1]
    refine ⟨e', he', ha', ?_⟩
    rcases cut_forth hee.2 hbr with hb | ⟨p, p', _, hc, h1, h2⟩
    · exact ⟨br, hb, q, hq, (shown_props (config := config) hee.1).2 hs, hA, hF⟩
    · rcases halves_face hc.turned hA hF with ⟨k1, k2⟩ | ⟨k1, k2⟩
      · exact ⟨_, h1, q, by simp [sawn, hq], (half_shown (config := config) hee.1 hc.texture q).2 hs, k1, k2⟩
      · exact ⟨_, h2, q, by simp [sawn, hq], (half_shown (config := config) hee.1 hc.texture' q).2 hs, k1, k2⟩
  · rintro ⟨e', he', ha, br', hbr', q, hq, hs, hA, hF⟩
    obtain ⟨e, he, hee⟩ := forall₂_right hm he'
    have ha' : Anchored entities e := anchored_named hn' ha e fun k _ => by rw [hee.1]
    rcases cut_back hee.2 hbr' with hb | ⟨br, hb, p, p', hC, hc, rfl | rfl⟩
    · exact .inl ⟨e, he, ha', br', hb, q, hq, (shown_props (config := config) hee.1).1 hs, hA, hF⟩
    · rcases List.mem_append.1 hq with hq | hq
      · exact .inl ⟨e, he, ha', br, hb, q, hq, (half_shown (config := config) hee.1 hc.texture q).1 hs,
          half_area_back hA, hF.1, (half_in.1 hF.2).1⟩
      · cases List.mem_singleton.1 hq
        exact .inr ⟨br, _, hC, (half_in.1 hF.2).1, hF.1⟩
    · rcases List.mem_append.1 hq with hq | hq
      · exact .inl ⟨e, he, ha', br, hb, q, hq, (half_shown (config := config) hee.1 hc.texture' q).1 hs,
          half_area_back hA, hF.1, (half_in.1 hF.2).1⟩
      · cases List.mem_singleton.1 hq
        refine .inr ⟨br, p, hC, (half_in.1 hF.2).1, ?_⟩
        have := hF.1
        unfold OnPlane at *
        rw [(turned_front hc.turned x).1, neg_eq_zero] at this
        exact this

end
end Quarch
