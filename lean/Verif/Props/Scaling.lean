import Verif.Props.Turning
import Verif.Props.Reorder
/-
C105: a scaled, turned and moved map gives the scaled, turned and moved scene, in exact arithmetic.
-/
set_option linter.unusedSectionVars false
namespace Quarch
open Spec Scene Geo

section
variable [RealText] [Platform] [NaturalSort]

/-- C105: a map whose entities are all scaled, turned and moved by `S` loads if the original map does, and gives the same
scene with everything scaled, turned and moved. No corner of the brushes of either map may need the tolerance of the
program, because the tolerance does not scale. -/
theorem C105_scaled (depth : Nat) (order order' : List (Str × List (BrushGeo ℝ)) → List (Str × List (BrushGeo ℝ)))
    (horder : ∀ l, (order l).Perm l) (horder' : ∀ l, (order' l).Perm l) (config : Config ℝ) (map map' : Str)
    (hfile : config.mapFile = some map) (entities entities' : List (Entity ℝ)) (hl : LoadsAs map entities)
    (hl' : LoadsAs map' entities') (S : Similar) (hm : List.Forall₂ (TurnedBy S.move) entities entities')
    (hp : ∀ e ∈ entities, Settled e) (hc : ∀ e ∈ entities, ∀ b ∈ e.brushes, Crisp b.planes)
    (hc' : ∀ e ∈ entities', ∀ b ∈ e.brushes, Crisp b.planes) (nodes : List (Node ℝ))
    (h : Quarch.run depth order config = .ok nodes) :
    ∃ w ls es w' ls' ls'' es', nodes = w :: (ls ++ es) ∧
      Quarch.run depth order' { config with mapFile := some map' } = .ok (w' :: (ls' ++ es')) ∧
      es.length = entities.countP (fun e => TopLevel e) ∧
      Turned (TakenSurface S.move) S.move S.turn S.move S.move w w' ∧ ls''.Perm ls' ∧ List.Forall₂ (Turned (TakenSurface S.move) S.move S.turn id id) ls ls'' ∧
      List.Forall₂ (Turned (TakenSurface S.move) S.move S.turn S.move S.move) es es' := by
  refine scene_turned id textureSurface_turned depth order order' horder horder' config map map' hfile entities entities' hl
    hl' ?_ nodes h
  have both : ∀ {α β : Type} {R : α → β → Prop} {l : List α} {l' : List β}, List.Forall₂ R l l' →
      List.Forall₂ (fun a b => a ∈ l ∧ b ∈ l' ∧ R a b) l l' := by
    intro α β R l l' h
    induction h with
    | nil => exact .nil
    | cons hab _ ih => exact .cons ⟨by simp, by simp, hab⟩ (ih.imp fun _ _ h => ⟨by simp [h.1], by simp [h.2.1], h.2.2⟩)
  refine (both hm).imp ?_
  rintro e e' ⟨he, he', hee⟩
  refine ⟨hee, fun g g' => geo_turned hee ((both hee.brushes).imp ?_) (hp e he)⟩
  rintro b b' ⟨hb, hb', hbb⟩
  exact inHull_crisp hbb (hc e he b hb) (hc' e' he' b' hb')

/-- Enlarging a brush keeps its corners clear. -/
theorem crisp_enlarged {S : Similar} (hs : 1 ≤ S.scale) {planes planes' : List (BrushPlane ℝ)}
    (h : List.Forall₂ (TurnedFace S.move) planes planes') (hc : Crisp planes) : Crisp planes' := by
  intro p' hp' q' hq' r' hr' hd x' h0 h1 h2 hin s' hs'
  obtain ⟨p, hp, hpp⟩ := forall₂_right h hp'
  obtain ⟨q, hq, hqq⟩ := forall₂_right h hq'
  obtain ⟨r, hr, hrr⟩ := forall₂_right h hr'
  obtain ⟨s, hs1, hss⟩ := forall₂_right h hs'
  obtain ⟨x, rfl⟩ := Similar.move_surj S x'
  rw [unitDet_turn hpp hqq hrr] at hd
  have := hc p hp q hq r hr hd x ((onPlane_turn hpp x).1 h0) ((onPlane_turn hqq x).1 h1) ((onPlane_turn hrr x).1 h2)
    (by
      intro s hs1
      obtain ⟨s', hs', hss⟩ := forall₂_left h hs1
      have hw := hin s' hs'
      rw [← withinR_turn (1 / 1000) hss x]
      unfold WithinR at hw ⊢
      have hn : (0 : ℝ) ≤ lenR (rawNormal s') := Real.sqrt_nonneg _
      refine hw.trans (mul_le_mul_of_nonneg_right ?_ hn)
      linarith) s hs1
  rw [← withinR_turn 0 hss x, mul_zero] at this
  exact this

/-- C105 for maps that are not made smaller: it is enough that the corners of the original brushes are clear. -/
theorem C105_enlarged (depth : Nat) (order order' : List (Str × List (BrushGeo ℝ)) → List (Str × List (BrushGeo ℝ)))
    (horder : ∀ l, (order l).Perm l) (horder' : ∀ l, (order' l).Perm l) (config : Config ℝ) (map map' : Str)
    (hfile : config.mapFile = some map) (entities entities' : List (Entity ℝ)) (hl : LoadsAs map entities)
    (hl' : LoadsAs map' entities') (S : Similar) (hs : 1 ≤ S.scale)
    (hm : List.Forall₂ (TurnedBy S.move) entities entities')
    (hp : ∀ e ∈ entities, Settled e) (hc : ∀ e ∈ entities, ∀ b ∈ e.brushes, Crisp b.planes) (nodes : List (Node ℝ))
    (h : Quarch.run depth order config = .ok nodes) :
    ∃ w ls es w' ls' ls'' es', nodes = w :: (ls ++ es) ∧
      Quarch.run depth order' { config with mapFile := some map' } = .ok (w' :: (ls' ++ es')) ∧
      es.length = entities.countP (fun e => TopLevel e) ∧
      Turned (TakenSurface S.move) S.move S.turn S.move S.move w w' ∧ ls''.Perm ls' ∧ List.Forall₂ (Turned (TakenSurface S.move) S.move S.turn id id) ls ls'' ∧
      List.Forall₂ (Turned (TakenSurface S.move) S.move S.turn S.move S.move) es es' := by
  refine C105_scaled depth order order' horder horder' config map map' hfile entities entities' hl hl' S hm hp hc ?_ nodes h
  intro e' he' b' hb'
  obtain ⟨e, he, hee⟩ := forall₂_right hm he'
  obtain ⟨b, hb, hbb⟩ := forall₂_right hee.brushes hb'
  exact crisp_enlarged hs hbb (hc e he b hb)

/-! ### why the corners must be clear -/

/-- Scaling by one hundredth. -/
noncomputable def hundredth : Similar :=
  ⟨⟨⟨1, 0, 0⟩, ⟨0, 1, 0⟩, ⟨0, 0, 1⟩, ⟨0, 0, 0⟩, by simp [dotR], by simp [dotR], by simp [dotR], by simp [crossR]⟩,
    1 / 100, by norm_num⟩

omit [RealText] [Platform] [NaturalSort] in
theorem hundredth_move (v : V3 ℝ) : hundredth.move v = ⟨v.x / 100, v.y / 100, v.z / 100⟩ := by
  simp only [hundredth, Similar.move, Similar.turn, Rigid.turn, addR, smulR]
  apply V3.ext' <;> simp only [] <;> ring

/-- A unit cube with the corner (1,1,1) cut off. -/
noncomputable def cutPlanes (k : ℝ) : List (BrushPlane ℝ) :=
  let face (a b c : V3 ℝ) : BrushPlane ℝ := ⟨smulR k a, smulR k b, smulR k c, [], .valve ⟨0, 1, 0⟩ 0 ⟨0, 0, 1⟩ 0, 0, ⟨1, 1⟩, .none⟩
  [face ⟨1, 0, 0⟩ ⟨1, 0, 1⟩ ⟨1, 1, 0⟩, face ⟨0, 1, 0⟩ ⟨1, 1, 0⟩ ⟨0, 1, 1⟩, face ⟨0, 0, 1⟩ ⟨0, 1, 1⟩ ⟨1, 0, 1⟩,
    face ⟨0, 0, 0⟩ ⟨0, 1, 0⟩ ⟨0, 0, 1⟩, face ⟨0, 0, 0⟩ ⟨0, 0, 1⟩ ⟨1, 0, 0⟩, face ⟨0, 0, 0⟩ ⟨1, 0, 0⟩ ⟨0, 1, 0⟩,
    face ⟨1, 1, 9 / 10⟩ ⟨1, 9 / 10, 1⟩ ⟨9 / 10, 1, 1⟩]

omit [Platform] [NaturalSort] in
theorem shrunk_found : List.Forall₂ (TurnedFace hundredth.move) (cutPlanes 1) (cutPlanes (1 / 100)) ∧
    ∃ p p', (cutPlanes 1).head? = some p ∧ (cutPlanes (1 / 100)).head? = some p' ∧
      ¬ Found (cutPlanes 1) p ⟨1, 1, 1⟩ ∧ Found (cutPlanes (1 / 100)) p' (hundredth.move ⟨1, 1, 1⟩) := by
  have q : ∀ {a b : ℝ}, 0 ≤ b → a = b ^ 2 → Real.sqrt a = b := fun hb h => by rw [h, Real.sqrt_sq hb]
  refine ⟨?_, _, _, rfl, rfl, ?_, ?_⟩
  · unfold cutPlanes
    repeat'
      first
      | exact List.Forall₂.nil
      | refine List.Forall₂.cons ⟨?_, ?_, ?_, rfl⟩ ?_
    all_goals
      simp only [hundredth_move, smulR]
      norm_num
  · intro h
    have h1 := (found_real.1 h).2 _ (List.mem_of_getElem? (i := 6) rfl)
    simp only [WithinR, lenR, rawNormal, dotR, crossR, subR, smulR] at h1
    norm_num at h1
    rw [q (a := 10000) (b := 100) (by norm_num) (by norm_num)] at h1
    have h3 : Real.sqrt 3 ≤ 2 := by
      rw [Real.sqrt_le_left (by norm_num)]; norm_num
    linarith
  · rw [found_real]
    refine ⟨⟨_, List.mem_of_getElem? (i := 1) rfl, _, List.mem_of_getElem? (i := 2) rfl, ?_, ?_, ?_, ?_⟩, ?_⟩
    · simp only [unitDet, detR, lenR, rawNormal, dotR, crossR, subR, smulR]; norm_num
      rw [q (a := 100000000) (b := 10000) (by norm_num) (by norm_num)]
      norm_num
    · simp only [OnPlane, hundredth_move, rawNormal, dotR, crossR, subR, smulR]; norm_num
    · simp only [OnPlane, hundredth_move, rawNormal, dotR, crossR, subR, smulR]; norm_num
    · simp only [OnPlane, hundredth_move, rawNormal, dotR, crossR, subR, smulR]; norm_num
    · unfold cutPlanes
      simp only [List.forall_mem_cons, WithinR, lenR, hundredth_move, rawNormal, dotR, crossR, subR, smulR]
      norm_num
      rw [q (a := 100000000) (b := 10000) (by norm_num) (by norm_num),
        q (a := 1000000000000) (b := 1000000) (by norm_num) (by norm_num)]
      have h3 : 1 ≤ Real.sqrt 3 := by
        rw [Real.one_le_sqrt]; norm_num
      constructor
      · norm_num
      · linarith

/-- C105: without clear corners it is wrong. The cube without its corner is scaled to one hundredth, and gets the corner
back: the first face of the small brush is built with it, and that of the large one without. -/
theorem C105_shrunk (textures : TextureInfo) (entity entity' : Entity ℝ) :
    List.Forall₂ (TurnedFace hundredth.move) (cutPlanes 1) (cutPlanes (1 / 100)) ∧
    ∃ p p' geo geo', (cutPlanes 1).head? = some p ∧ (cutPlanes (1 / 100)).head? = some p' ∧
      buildPlane textures entity (cutPlanes 1) p = .ok geo ∧
      buildPlane textures entity' (cutPlanes (1 / 100)) p' = .ok geo' ∧
      ⟨1, 1, 1⟩ ∉ geo.vertices.map (·.pos) ∧ hundredth.move ⟨1, 1, 1⟩ ∈ geo'.vertices.map (·.pos) := by
  obtain ⟨h, p, p', hp, hp', h1, h2⟩ := shrunk_found
  obtain ⟨geo, hg⟩ := buildPlane_real textures entity (cutPlanes 1) p
  obtain ⟨geo', hg'⟩ := buildPlane_real textures entity' (cutPlanes (1 / 100)) p'
  exact ⟨h, p, p', geo, geo', hp, hp', hg, hg', fun hm => h1 (((corners_real hg).2 _).1 hm),
    ((corners_real hg').2 _).2 h2⟩

end
end Quarch
