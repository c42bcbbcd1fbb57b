import Verif.Spec.Twice
import Verif.Props.Padded
/-
C135: faces that are written more than once.
-/
set_option linter.unusedSectionVars false
namespace Quarch
open Spec Scene Geo

section
variable [RealText] [Platform]

theorem Spec.SameCut.raw {p p' : BrushPlane ℝ} (h : SameCut p p') : rawNormal p' = rawNormal p := by
  unfold rawNormal
  rw [h.1, h.2.1, h.2.2]

theorem Spec.SameCut.on {p p' : BrushPlane ℝ} (h : SameCut p p') (x : V3 ℝ) : OnPlane p' x ↔ OnPlane p x := by
  unfold OnPlane
  rw [h.raw, h.1]

theorem Spec.SameCut.within {p p' : BrushPlane ℝ} (h : SameCut p p') (r : ℝ) (x : V3 ℝ) : WithinR r p' x ↔ WithinR r p x := by
  unfold WithinR
  rw [h.raw, h.1]

theorem Spec.SameCut.symm {p p' : BrushPlane ℝ} (h : SameCut p p') : SameCut p' p := ⟨h.1.symm, h.2.1.symm, h.2.2.symm⟩

theorem Spec.SameCuts.symm {l l' : List (BrushPlane ℝ)} (h : SameCuts l l') : SameCuts l' l :=
  ⟨fun p hp => let ⟨q, hq, hs⟩ := h.2 p hp; ⟨q, hq, hs.symm⟩, fun p hp => let ⟨q, hq, hs⟩ := h.1 p hp; ⟨q, hq, hs.symm⟩⟩

theorem Spec.SameCuts.within {l l' : List (BrushPlane ℝ)} (h : SameCuts l l') (r : ℝ) (x : V3 ℝ) :
    (∀ p ∈ l', WithinR r p x) ↔ ∀ p ∈ l, WithinR r p x := by
  constructor
  · intro hx p hp
    obtain ⟨q, hq, hs⟩ := h.1 p hp
    exact (hs.within r x).1 (hx q hq)
  · intro hx p hp
    obtain ⟨q, hq, hs⟩ := h.2 p hp
    exact (hs.within r x).2 (hx q hq)

/-- C135: the corners of a face depend only on which planes cut the brush, not on how often they are written. -/
theorem C135_corners (textures textures' : TextureInfo) (e e' : Entity ℝ) (planes planes' : List (BrushPlane ℝ))
    (hs : SameCuts planes planes') (p p' : BrushPlane ℝ) (hp : SameCut p p') (geo geo' : PlaneGeo ℝ)
    (h : buildPlane textures e planes p = .ok geo) (h' : buildPlane textures' e' planes' p' = .ok geo') :
    (geo'.vertices.map (·.pos)).Perm (geo.vertices.map (·.pos)) ∧ geo'.center = geo.center := by
  obtain ⟨n, m⟩ := C20_exact_corners _ _ _ _ _ h
  obtain ⟨n', m'⟩ := C20_exact_corners _ _ _ _ _ h'
  have key : ∀ {l l' : List (BrushPlane ℝ)} {p p' : BrushPlane ℝ}, SameCuts l l' → SameCut p p' → ∀ x,
      ((∃ p1 ∈ l, ∃ p2 ∈ l, 1 / 1000 ≤ unitDet p p1 p2 ∧ OnPlane p x ∧ OnPlane p1 x ∧ OnPlane p2 x) ∧
        ∀ p ∈ l, WithinR (1 / 1000) p x) →
      (∃ p1 ∈ l', ∃ p2 ∈ l', 1 / 1000 ≤ unitDet p' p1 p2 ∧ OnPlane p' x ∧ OnPlane p1 x ∧ OnPlane p2 x) ∧
        ∀ p ∈ l', WithinR (1 / 1000) p x := by
    rintro l l' p p' hs hp x ⟨⟨p1, h1, p2, h2, hd, o, o1, o2⟩, hw⟩
    obtain ⟨q1, hq1, s1⟩ := hs.1 p1 h1
    obtain ⟨q2, hq2, s2⟩ := hs.1 p2 h2
    refine ⟨⟨q1, hq1, q2, hq2, ?_, (hp.on x).2 o, (s1.on x).2 o1, (s2.on x).2 o2⟩, (hs.within _ x).2 hw⟩
    unfold unitDet at hd ⊢
    rw [hp.raw, s1.raw, s2.raw]
    exact hd
  have hperm : (geo'.vertices.map (·.pos)).Perm (geo.vertices.map (·.pos)) := by
    rw [List.perm_ext_iff_of_nodup n' n]
    intro x
    rw [m, m']
    exact ⟨key hs.symm hp.symm x, key hs hp x⟩
  exact ⟨hperm, isMean_unique (isMean_perm hperm (C26_face_center _ _ _ _ _ h')) (C26_face_center _ _ _ _ _ h)⟩

/-- C135: but the centre of the brush moves towards the centre of the face that is written once more. -/
theorem C135_center (textures : TextureInfo) (entity : Entity ℝ) (pre post : List (BrushPlane ℝ)) (p q : BrushPlane ℝ)
    (hp : p ∈ pre ++ post) (hpq : SameCut p q) (face : PlaneGeo ℝ) (hf : buildPlane textures entity (pre ++ post) p = .ok face)
    (geo geo' : BrushGeo ℝ) (hb : buildBrush textures entity ⟨pre ++ post⟩ = .ok geo)
    (hb' : buildBrush textures entity ⟨pre ++ q :: post⟩ = .ok geo') :
    smulR (pre.length + post.length + 1) geo'.center = addR (smulR (pre.length + post.length) geo.center) face.center := by
  have hs : SameCuts (pre ++ post) (pre ++ q :: post) := by
    constructor
    · intro r hr
      refine ⟨r, ?_, rfl, rfl, rfl⟩
      rcases List.mem_append.1 hr with hr | hr <;> simp [hr]
    · intro r hr
      rcases List.mem_append.1 hr with hr | hr
      · exact ⟨r, by simp [hr], rfl, rfl, rfl⟩
      · rcases List.mem_cons.1 hr with rfl | hr
        · exact ⟨p, hp, hpq⟩
        · exact ⟨r, by simp [hr], rfl, rfl, rfl⟩
  unfold buildBrush at hb hb'
  obtain ⟨gs, h3, hb⟩ := Outcome.bind_eq_ok.1 hb
  obtain ⟨gs', h4, hb'⟩ := Outcome.bind_eq_ok.1 hb'
  cases hb
  cases hb'
  simp only at h3 h4 ⊢
  have pairs : ∀ {l : List (BrushPlane ℝ)} {gs gs' : List (PlaneGeo ℝ)},
      mapOut (fun p => buildPlane textures entity (pre ++ post) p) l = .ok gs →
      mapOut (fun p => buildPlane textures entity (pre ++ q :: post) p) l = .ok gs' →
      gs'.map (·.center) = gs.map (·.center) ∧ gs.length = l.length := by
    intro l gs gs' h h'
    rw [mapOut_eq_ok] at h h'
    refine ⟨?_, h.length_eq.symm⟩
    induction l generalizing gs gs' with
    | nil => cases h; cases h'; rfl
    | cons a l ih =>
      cases h with
      | cons x h =>
        cases h' with
        | cons x' h' =>
          simp only [List.map_cons]
          rw [ih h h', (C135_corners _ _ _ _ _ _ hs a a ⟨rfl, rfl, rfl⟩ _ _ x x').2]
  rw [mapOut_append] at h3 h4
  obtain ⟨ga, a1, h3⟩ := Outcome.bind_eq_ok.1 h3
  obtain ⟨gb, a2, h3⟩ := Outcome.bind_eq_ok.1 h3
  cases h3
  obtain ⟨ga', a3, h4⟩ := Outcome.bind_eq_ok.1 h4
  obtain ⟨gb', a4, h4⟩ := Outcome.bind_eq_ok.1 h4
  cases h4
  rw [mapOut_cons] at a4
  obtain ⟨gq, a5, a4⟩ := Outcome.bind_eq_ok.1 a4
  obtain ⟨gc, a6, a4⟩ := Outcome.bind_eq_ok.1 a4
  cases a4
  obtain ⟨c1, l1⟩ := pairs a1 a3
  obtain ⟨c2, l2⟩ := pairs a2 a6
  have cq := (C135_corners _ _ _ _ _ _ hs p q hpq _ _ hf a5).2
  rw [mean_real, mean_real]
  simp only [List.map_append, List.map_cons, c1, c2, cq, List.length_append, List.length_cons, List.length_map, l1, l2]
  have hn : 0 < pre.length + post.length := by
    rw [← List.length_append]
    exact List.length_pos_of_mem hp
  have e1 : max (pre.length + (post.length + 1)) 1 = pre.length + post.length + 1 := by omega
  have e2 : max (pre.length + post.length) 1 = pre.length + post.length := by omega
  rw [e1, e2]
  have h5 : ((pre.length : ℝ) + post.length) ≠ 0 := by exact_mod_cast hn.ne'
  have h6 : ((pre.length : ℝ) + post.length + 1) ≠ 0 := by positivity
  have hsum : sumR (ga.map (·.center) ++ face.center :: gb.map (·.center)) =
      addR (sumR (ga.map (·.center) ++ gb.map (·.center))) face.center := by
    simp only [sumR, addR, List.map_append, List.map_cons, List.sum_append, List.sum_cons, V3.mk.injEq]
    refine ⟨?_, ?_, ?_⟩ <;> ring
  rw [hsum]
  generalize sumR _ = s
  simp only [smulR, addR, V3.mk.injEq]
  push_cast
  refine ⟨?_, ?_, ?_⟩ <;> field_simp

theorem twice_cuts {b b' : Brush ℝ} (h : TwiceBrush b b') : SameCuts b.planes b'.planes :=
  ⟨fun p hp => let ⟨q, hq, hs, _⟩ := h.1 p hp; ⟨q, hq, hs⟩, fun p hp => let ⟨q, hq, hs, _⟩ := h.2 p hp; ⟨q, hq, hs⟩⟩

theorem twice_symm {b b' : Brush ℝ} (h : TwiceBrush b b') : TwiceBrush b' b :=
  ⟨fun p hp => let ⟨q, hq, hs, ht⟩ := h.2 p hp; ⟨q, hq, hs.symm, ht.symm⟩,
    fun p hp => let ⟨q, hq, hs, ht⟩ := h.1 p hp; ⟨q, hq, hs.symm, ht.symm⟩⟩

theorem twice_textures {b b' : Brush ℝ} (h : TwiceBrush b b') (P : Str → Prop) :
    (∀ q ∈ b'.planes, P q.texture) ↔ ∀ q ∈ b.planes, P q.texture := by
  constructor
  · intro k p hp
    obtain ⟨q, hq, _, ht⟩ := h.1 p hp
    rw [← ht]
    exact k q hq
  · intro k p hp
    obtain ⟨q, hq, _, ht⟩ := h.2 p hp
    rw [ht]
    exact k q hq

theorem twice_proper {l l' : List (BrushPlane ℝ)} (h : SameCuts l l') (hp : ProperBrush l) : ProperBrush l' := by
  have det : ∀ {p q r p' q' r' : BrushPlane ℝ}, SameCut p p' → SameCut q q' → SameCut r r' → unitDet p' q' r' = unitDet p q r := by
    intro p q r p' q' r' h1 h2 h3
    unfold unitDet
    rw [h1.raw, h2.raw, h3.raw]
  refine ⟨fun p' hp' => ?_, fun p' hp' q' hq' r' hr' => ?_, fun p' hp' q' hq' r' hr' hd x o1 o2 o3 hw => ?_, ?_, ?_⟩
  · obtain ⟨p, hpm, hs⟩ := h.2 p' hp'
    have := hp.points p hpm
    unfold NonDegenerate at this ⊢
    rw [hs.raw]
    exact this
  · obtain ⟨p, hpm, s1⟩ := h.2 p' hp'
    obtain ⟨q, hqm, s2⟩ := h.2 q' hq'
    obtain ⟨r, hrm, s3⟩ := h.2 r' hr'
    rw [det s1 s2 s3]
    exact hp.spread p hpm q hqm r hrm
  · obtain ⟨p, hpm, s1⟩ := h.2 p' hp'
    obtain ⟨q, hqm, s2⟩ := h.2 q' hq'
    obtain ⟨r, hrm, s3⟩ := h.2 r' hr'
    rw [det s1 s2 s3] at hd
    exact (h.within 0 x).2 (hp.clear p hpm q hqm r hrm hd x ((s1.on x).1 o1) ((s2.on x).1 o2) ((s3.on x).1 o3)
      ((h.within _ x).1 hw))
  · obtain ⟨y, hy⟩ := hp.solid
    refine ⟨y, fun p' hp' => ?_⟩
    obtain ⟨p, hpm, hs⟩ := h.2 p' hp'
    rw [hs.raw, hs.1]
    exact hy p hpm
  · obtain ⟨R, hR⟩ := hp.bounded
    exact ⟨R, fun x hx => hR x ((h.within 0 x).1 hx)⟩

theorem twice_face {l l' : List (BrushPlane ℝ)} (h : SameCuts l l') {p p' : BrushPlane ℝ} (hp : SameCut p p') (x : V3 ℝ) :
    OnFace l' p' x ↔ OnFace l p x := by
  unfold OnFace
  rw [hp.on, h.within]

theorem twice_area {l l' : List (BrushPlane ℝ)} (h : SameCuts l l') {p p' : BrushPlane ℝ} (hp : SameCut p p') :
    HasArea l' p' ↔ HasArea l p := by
  unfold HasArea
  simp only [twice_face h hp]

variable (depth depth' : Nat)
  (order order' : List (Str × List (BrushGeo ℝ)) → List (Str × List (BrushGeo ℝ))) (horder : ∀ l, (order l).Perm l)
  (horder' : ∀ l, (order' l).Perm l) (config config' : Config ℝ) (ht : config'.textureInfo = config.textureInfo)
  (hg : config'.quarchitectGameData = config.quarchitectGameData) (hk : config'.textureBlacklist = config.textureBlacklist)
  (nodes nodes' : List (Node ℝ)) (h : Quarch.run depth order config = .ok nodes)
  (h' : Quarch.run depth' order' config' = .ok nodes') (text text' : Str) (hm : config.mapFile = some text)
  (hm' : config'.mapFile = some text') (es es' : List (Entity ℝ)) (hl : LoadsAs text es) (hl' : LoadsAs text' es')
  (hp : List.Forall₂ Twice es es') (hb : ∀ e ∈ es, Anchored es e → ∀ br ∈ e.brushes, ProperBrush br.planes) (x : V3 ℝ)
include horder horder' ht hg hk h h' hm hm' hl hl' hp hb

/-- C135: writing faces of proper brushes more than once changes nothing in the picture. -/
theorem C135_picture : Drawn nodes' x ↔ Drawn nodes x := by
  have a1 : ∀ e ∈ es, ∃ e' ∈ es', e'.properties = e.properties := fun e he =>
    let ⟨e', he', hr⟩ := paired_left hp he
    ⟨e', he', hr.1⟩
  have a2 : ∀ e' ∈ es', ∃ e ∈ es, e.properties = e'.properties := fun e' he' =>
    let ⟨e, he, hr⟩ := paired_right hp he'
    ⟨e, he, hr.1.symm⟩
  have hb' : ∀ e ∈ es', Anchored es' e → ∀ br ∈ e.brushes, ProperBrush br.planes := by
    intro e' he' ha br' hbr'
    obtain ⟨e, he, hee, hbb⟩ := paired_right hp he'
    obtain ⟨br, hbr, hbt⟩ := paired_right hbb hbr'
    exact twice_proper (twice_cuts hbt) (hb e he (padded_anchored a2 hee.symm ha) br hbr)
  rw [C87_picture depth order horder config nodes h text hm es hl hb,
    C87_picture depth' order' horder' config' nodes' h' text' hm' es' hl' hb']
  constructor
  · rintro ⟨e', he', ha, br', hbr', p', hp', hsh, har, hon⟩
    obtain ⟨e, he, hee, hbb⟩ := paired_right hp he'
    obtain ⟨br, hbr, hbt⟩ := paired_right hbb hbr'
    obtain ⟨p, hpm, hs, htx⟩ := hbt.2 p' hp'
    exact ⟨e, he, padded_anchored a2 hee.symm ha, br, hbr, p, hpm, (padded_shown ht hg hk hee (twice_textures hbt) htx).1 hsh,
      (twice_area (twice_cuts hbt) hs).1 har, (twice_face (twice_cuts hbt) hs x).1 hon⟩
  · rintro ⟨e, he, ha, br, hbr, p, hpm, hsh, har, hon⟩
    obtain ⟨e', he', hee, hbb⟩ := paired_left hp he
    obtain ⟨br', hbr', hbt⟩ := paired_left hbb hbr
    obtain ⟨p', hpm', hs, htx⟩ := hbt.1 p hpm
    exact ⟨e', he', padded_anchored a1 hee ha, br', hbr', p', hpm', (padded_shown ht hg hk hee (twice_textures hbt) htx).2 hsh,
      (twice_area (twice_cuts hbt) hs).2 har, (twice_face (twice_cuts hbt) hs x).2 hon⟩

omit hk in
/-- C135: nor in what is solid. -/
theorem C135_solid : (InSolid nodes' x ↔ InSolid nodes x) ∧ (OnSolid nodes' x ↔ OnSolid nodes x) := by
  have a1 : ∀ e ∈ es, ∃ e' ∈ es', e'.properties = e.properties := fun e he =>
    let ⟨e', he', hr⟩ := paired_left hp he
    ⟨e', he', hr.1⟩
  have a2 : ∀ e' ∈ es', ∃ e ∈ es, e.properties = e'.properties := fun e' he' =>
    let ⟨e, he, hr⟩ := paired_right hp he'
    ⟨e, he, hr.1.symm⟩
  have hb' : ∀ e ∈ es', Anchored es' e → ∀ br ∈ e.brushes, ProperBrush br.planes := by
    intro e' he' ha br' hbr'
    obtain ⟨e, he, hee, hbb⟩ := paired_right hp he'
    obtain ⟨br, hbr, hbt⟩ := paired_right hbb hbr'
    exact twice_proper (twice_cuts hbt) (hb e he (padded_anchored a2 hee.symm ha) br hbr)
  rw [C88_filled depth order horder config nodes h text hm es hl hb,
    C88_filled depth' order' horder' config' nodes' h' text' hm' es' hl' hb',
    C88_covered depth order horder config nodes h text hm es hl hb,
    C88_covered depth' order' horder' config' nodes' h' text' hm' es' hl' hb']
  refine ⟨⟨?_, ?_⟩, ⟨?_, ?_⟩⟩
  · rintro ⟨e', he', ha, br', hbr', hsol, hw⟩
    obtain ⟨e, he, hee, hbb⟩ := paired_right hp he'
    obtain ⟨br, hbr, hbt⟩ := paired_right hbb hbr'
    exact ⟨e, he, padded_anchored a2 hee.symm ha, br, hbr, (padded_solid ht hg hee (twice_textures hbt) _).1 hsol,
      ((twice_cuts hbt).within 0 x).1 hw⟩
  · rintro ⟨e, he, ha, br, hbr, hsol, hw⟩
    obtain ⟨e', he', hee, hbb⟩ := paired_left hp he
    obtain ⟨br', hbr', hbt⟩ := paired_left hbb hbr
    exact ⟨e', he', padded_anchored a1 hee ha, br', hbr', (padded_solid ht hg hee (twice_textures hbt) _).2 hsol,
      ((twice_cuts hbt).within 0 x).2 hw⟩
  · rintro ⟨e', he', ha, br', hbr', hsol, hw, p', hp', hon⟩
    obtain ⟨e, he, hee, hbb⟩ := paired_right hp he'
    obtain ⟨br, hbr, hbt⟩ := paired_right hbb hbr'
    obtain ⟨p, hpm, hs, -⟩ := hbt.2 p' hp'
    exact ⟨e, he, padded_anchored a2 hee.symm ha, br, hbr, (padded_solid ht hg hee (twice_textures hbt) _).1 hsol,
      ((twice_cuts hbt).within 0 x).1 hw, p, hpm, (hs.on x).1 hon⟩
  · rintro ⟨e, he, ha, br, hbr, hsol, hw, p, hpm, hon⟩
    obtain ⟨e', he', hee, hbb⟩ := paired_left hp he
    obtain ⟨br', hbr', hbt⟩ := paired_left hbb hbr
    obtain ⟨p', hpm', hs, -⟩ := hbt.1 p hpm
    exact ⟨e', he', padded_anchored a1 hee ha, br', hbr', (padded_solid ht hg hee (twice_textures hbt) _).2 hsol,
      ((twice_cuts hbt).within 0 x).2 hw, p', hpm', (hs.on x).2 hon⟩

end
end Quarch
