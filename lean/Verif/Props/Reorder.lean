import Verif.Spec.Reorder
import Verif.Props.Turning
import Verif.Props.Watertight
/-
C104: the order of faces, brushes and entities in a map does not matter, in exact arithmetic.
-/
set_option linter.unusedSectionVars false
namespace Quarch
open Spec Scene Geo

/-! ### lists in another order -/

section
variable {α β γ δ : Type} {R : α → β → Prop} {Q : γ → δ → Prop}

theorem Spec.Reordered.of {l : List α} {l' : List β} (h : List.Forall₂ R l l') : Reordered R l l' := ⟨l, .refl _, h⟩

theorem Spec.Reordered.perm {l : List α} {m l' : List β} (h : Reordered R l m) (hp : m.Perm l') : Reordered R l l' := by
  obtain ⟨a, h1, h2⟩ := h
  obtain ⟨b, h3, h4⟩ := List.perm_comp_forall₂ hp.symm h2.flip
  exact ⟨b, h1.trans h4.symm, h3.flip⟩

theorem Spec.Reordered.perm_left {l m : List α} {l' : List β} (hp : l.Perm m) (h : Reordered R m l') : Reordered R l l' := by
  obtain ⟨a, h1, h2⟩ := h
  exact ⟨a, hp.trans h1, h2⟩

theorem Spec.Reordered.imp {R' : α → β → Prop} {l : List α} {l' : List β} (h : Reordered R l l')
    (hi : ∀ a ∈ l, ∀ b ∈ l', R a b → R' a b) : Reordered R' l l' := by
  obtain ⟨m, h1, h2⟩ := h
  refine ⟨m, h1, ?_⟩
  have h3 : ∀ a ∈ m, a ∈ l := fun a ha => h1.mem_iff.2 ha
  clear h1
  induction h2 with
  | nil => exact .nil
  | cons hx _ ih =>
    exact .cons (hi _ (h3 _ (by simp)) _ (by simp) hx)
      (ih (fun a ha b hb => hi a ha b (by simp [hb])) fun a ha => h3 a (by simp [ha]))

theorem Spec.Reordered.map {f : α → γ} {f' : β → δ} {l : List α} {l' : List β} (h : Reordered R l l')
    (hf : ∀ a b, R a b → Q (f a) (f' b)) : Reordered Q (l.map f) (l'.map f') := by
  obtain ⟨m, h1, h2⟩ := h
  exact ⟨m.map f, h1.map f, map_rel (R := R) (Q := Q) hf h2⟩

theorem Spec.Reordered.map_perm {f : α → γ} {f' : β → γ} {l : List α} {l' : List β} (h : Reordered R l l')
    (hf : ∀ a b, R a b → f a = f' b) : (l.map f).Perm (l'.map f') := by
  obtain ⟨m, h1, h2⟩ := h
  refine (h1.map f).trans (.of_eq ?_)
  clear h1
  induction h2 with
  | nil => rfl
  | cons hx _ ih => rw [List.map_cons, List.map_cons, ih, hf _ _ hx]

theorem Spec.Reordered.flatMap_perm {f : α → List γ} {f' : β → List γ} {l : List α} {l' : List β} (h : Reordered R l l')
    (hf : ∀ a b, R a b → (f a).Perm (f' b)) : (l.flatMap f).Perm (l'.flatMap f') := by
  obtain ⟨m, h1, h2⟩ := h
  refine (h1.flatMap_right f).trans ?_
  clear h1
  induction h2 with
  | nil => exact .refl _
  | cons hx _ ih => rw [List.flatMap_cons, List.flatMap_cons]; exact (hf _ _ hx).append ih

theorem Spec.Reordered.filter {p : α → Bool} {p' : β → Bool} {l : List α} {l' : List β} (h : Reordered R l l')
    (hp : ∀ a b, R a b → p a = p' b) : Reordered R (l.filter p) (l'.filter p') := by
  obtain ⟨m, h1, h2⟩ := h
  exact ⟨m.filter p, h1.filter p, filter_rel hp h2⟩

theorem Spec.Reordered.any {p : α → Bool} {p' : β → Bool} {l : List α} {l' : List β} (h : Reordered R l l')
    (hp : ∀ a b, R a b → p a = p' b) : l.any p = l'.any p' := by
  obtain ⟨m, h1, h2⟩ := h
  rw [h1.any_eq, any_rel hp h2]

theorem Spec.Reordered.all {p : α → Bool} {p' : β → Bool} {l : List α} {l' : List β} (h : Reordered R l l')
    (hp : ∀ a b, R a b → p a = p' b) : l.all p = l'.all p' := by
  obtain ⟨m, h1, h2⟩ := h
  rw [h1.all_eq, all_rel hp h2]

theorem Spec.Reordered.left {l : List α} {l' : List β} (h : Reordered R l l') {a : α} (ha : a ∈ l) : ∃ b ∈ l', R a b := by
  obtain ⟨m, h1, h2⟩ := h
  exact forall₂_left h2 (h1.mem_iff.1 ha)

theorem Spec.Reordered.right {l : List α} {l' : List β} (h : Reordered R l l') {b : β} (hb : b ∈ l') : ∃ a ∈ l, R a b := by
  obtain ⟨m, h1, h2⟩ := h
  obtain ⟨a, ha, hab⟩ := forall₂_right h2 hb
  exact ⟨a, h1.mem_iff.2 ha, hab⟩

theorem Spec.Reordered.length {l : List α} {l' : List β} (h : Reordered R l l') : l.length = l'.length := by
  obtain ⟨m, h1, h2⟩ := h
  rw [h1.length_eq, h2.length_eq]

/-- What is built from the elements of a list in another order. -/
theorem Spec.Reordered.forall₂ {P : α → γ → Prop} {P' : β → δ → Prop} {l : List α} {l' : List β} {r : List γ}
    (h : Reordered R l l') (hr : List.Forall₂ P l r) (hf : ∀ a b, R a b → ∀ c, P a c → ∃ d, P' b d ∧ Q c d) :
    ∃ r', List.Forall₂ P' l' r' ∧ Reordered Q r r' := by
  obtain ⟨m, h1, h2⟩ := h
  obtain ⟨s, h3, h4⟩ := List.perm_comp_forall₂ h1.symm hr
  suffices hs : ∃ r', List.Forall₂ P' l' r' ∧ List.Forall₂ Q s r' by
    obtain ⟨r', h5, h6⟩ := hs
    exact ⟨r', h5, s, h4.symm, h6⟩
  clear h1 h4 hr
  induction h2 generalizing s with
  | nil => cases h3; exact ⟨[], .nil, .nil⟩
  | cons hx _ ih =>
    cases h3 with
    | cons k1 k2 =>
      obtain ⟨r', h5, h6⟩ := ih _ k2
      obtain ⟨d, h7, h8⟩ := hf _ _ hx _ k1
      exact ⟨d :: r', .cons h7 h5, .cons h8 h6⟩

theorem Spec.Reordered.mapOut {f : α → Outcome γ} {f' : β → Outcome δ} {l : List α} {l' : List β} {r : List γ} {r' : List δ}
    (h : Reordered R l l') (hr : Quarch.mapOut f l = .ok r) (hr' : Quarch.mapOut f' l' = .ok r')
    (hf : ∀ a b, R a b → ∀ c d, f a = .ok c → f' b = .ok d → Q c d) : Reordered Q r r' := by
  obtain ⟨m, h1, h2⟩ := h
  obtain ⟨s, h3, h4⟩ := List.perm_comp_forall₂ h1.symm (mapOut_eq_ok.1 hr)
  exact ⟨s, h4.symm, mapOut_rel (R := R) (Q := Q) (f := f) (f' := f') hf h2 (mapOut_eq_ok.2 h3) hr'⟩

theorem Spec.Reordered.options {l : List (Option γ)} {l' : List (Option δ)}
    (h : Reordered (fun o o' => (o = none ∧ o' = none) ∨ ∃ a b, o = some a ∧ o' = some b ∧ Q a b) l l') :
    Reordered Q (l.filterMap id) (l'.filterMap id) := by
  obtain ⟨m, h1, h2⟩ := h
  refine ⟨m.filterMap id, h1.filterMap id, ?_⟩
  clear h1
  induction h2 with
  | nil => exact .nil
  | cons hx _ ih =>
    rcases hx with ⟨rfl, rfl⟩ | ⟨a, b, rfl, rfl, hx⟩
    · exact ih
    · exact .cons hx ih

theorem Spec.Reordered.append {a b : List α} {a' b' : List β} (h : Reordered R a a') (h' : Reordered R b b') :
    Reordered R (a ++ b) (a' ++ b') := by
  obtain ⟨m, h1, h2⟩ := h
  obtain ⟨n, h3, h4⟩ := h'
  exact ⟨m ++ n, h1.append h3, append_rel h2 h4⟩

end

/-! ### faces -/

section
variable [RealText] [Platform]

/-- Angle of a point about the centre of a face. -/
noncomputable def angleAbout (plane : BrushPlane ℝ) (c x : V3 ℝ) : ℝ :=
  Complex.arg ⟨dotR (subR x c) (unitR (subR plane.v1 plane.v0)),
    dotR (subR x c) (crossR (unitR (rawNormal plane)) (unitR (subR plane.v1 plane.v0)))⟩

theorem angles_differ {textures : TextureInfo} {entity : Entity ℝ} {planes : List (BrushPlane ℝ)}
    {plane : BrushPlane ℝ} {geo : PlaneGeo ℝ} (h : buildPlane textures entity planes plane = .ok geo)
    (hconv : ConvexPosition (geo.vertices.map (·.pos))) :
    (geo.vertices.map (·.pos)).Pairwise fun a b => angleAbout plane geo.center b < angleAbout plane geo.center a := by
  have hsort := C24_exact_winding _ _ _ _ _ h
  have hmean := C26_face_center _ _ _ _ _ h
  obtain ⟨hnd, hon⟩ := corners_real h
  generalize geo.vertices.map (·.pos) = pts at hsort hmean hnd hon hconv
  have hplane : ∀ x ∈ pts, OnPlane plane x := fun x hx => (found_real.1 ((hon x).1 hx)).1.elim
    fun _ ⟨_, _, _, _, h0, _⟩ => h0
  refine (hsort.and (List.pairwise_iff_forall_sublist.2 fun {a b} hab => ?_)).imp (S := fun a b => _) fun {a b} hab => lt_of_le_of_ne hab.1 hab.2
  have hab' : a ≠ b := by
    have := hnd.sublist hab
    simpa using this
  have ha : a ∈ pts := hab.subset (by simp)
  have hb : b ∈ pts := hab.subset (by simp)
  have hndeg : NonDegenerate plane := by
    obtain ⟨⟨p1, _, p2, _, hd, _⟩, _⟩ := found_real.1 ((hon _).1 ha)
    exact (unitDet_ne_zero (p0 := plane) (p1 := p1) (p2 := p2)
      (fun e0 => by rw [e0] at hd; norm_num at hd)).1
  have hcen := mean_onPlane hmean (List.ne_nil_of_mem ha) hplane
  obtain ⟨n, hn⟩ : ∃ n, n = unitR (rawNormal plane) := ⟨_, rfl⟩
  obtain ⟨u, hu⟩ : ∃ u, u = unitR (subR plane.v1 plane.v0) := ⟨_, rfl⟩
  have hn1 : dotR n n = 1 := lenR_one_dot (hn ▸ lenR_unitR hndeg)
  have hu1 : dotR u u = 1 := lenR_one_dot (hu ▸ lenR_unitR (edge_ne_zero hndeg))
  have hnu : dotR n u = 0 := by
    rw [hn, hu, dotR_unitR, dotR_comm, dotR_unitR, dotR_comm, rawNormal_perp]; simp
  have hdn : ∀ x ∈ pts, dotR n (subR x geo.center) = 0 := by
    intro x hx
    have e1 := hplane x hx
    have e2 := hcen
    unfold OnPlane at e1 e2
    rw [dotR_sub] at e1 e2
    rw [hn, dotR_unitR, dotR_sub]
    rw [show dotR (rawNormal plane) x - dotR (rawNormal plane) geo.center = 0 by linarith, zero_div]
  unfold angleAbout
  rw [← hn, ← hu]
  let z : V3 ℝ → ℂ := fun x => ⟨dotR (subR x geo.center) u, dotR (subR x geo.center) (crossR n u)⟩
  have hext : ∀ a ∈ pts, ∀ b ∈ pts, b ≠ a → Wind.Ext (z a) (z b) (z b) := by
    intro a ha b hb hba
    obtain ⟨w, hw⟩ := hconv a ha
    have hf : ∀ x ∈ pts, Wind.lin (dotR w u) (dotR w (crossR n u)) (z x) = dotR w x - dotR w geo.center := by
      intro x hx
      have := frame_dot hn1 hu1 hnu w (subR x geo.center) (hdn x hx)
      rw [dotR_sub] at this
      rw [this]
      rfl
    refine ⟨dotR w u, dotR w (crossR n u), ?_, ?_, ?_⟩
    · rw [hf a ha]
      have := mean_lt hmean hb hba hw
      linarith
    all_goals
      rw [hf a ha, hf b hb]
      have := hw b hb hba
      linarith
  exact Wind.arg_ne (hext b hb a ha hab') (hext a ha b hb hab'.symm)

theorem crisp_convex {textures : TextureInfo} {entity : Entity ℝ} {planes : List (BrushPlane ℝ)} (hc : Crisp planes)
    {plane : BrushPlane ℝ} (hm : plane ∈ planes) {geo : PlaneGeo ℝ}
    (h : buildPlane textures entity planes plane = .ok geo) : ConvexPosition (geo.vertices.map (·.pos)) := by
  refine C25_exact_corners_convex _ _ _ _ _ h fun v hv p hp => ?_
  obtain ⟨⟨p1, k1, p2, k2, hd, h0, h1, h2⟩, hin⟩ := found_real.1 (((corners_real h).2 v.pos).1 (List.mem_map_of_mem hv))
  exact hc _ hm _ k1 _ k2 hd _ h0 h1 h2 hin p hp

/-- Faces with the same corners in the same order, the same triangles and the same texture. -/
structure EqFace (g g' : PlaneGeo ℝ) : Prop where
  center : g.center = g'.center
  vertices : g.vertices.map (·.pos) = g'.vertices.map (·.pos)
  indices : g.indices = g'.indices
  texture : g.texture = g'.texture

theorem buildPlane_reordered {textures : TextureInfo} {e e' : Entity ℝ} {planes planes' : List (BrushPlane ℝ)}
    (hp : planes.Perm planes') (hc : Crisp planes) {p : BrushPlane ℝ} (hm : p ∈ planes) {g g' : PlaneGeo ℝ}
    (h : buildPlane textures e planes p = .ok g) (h' : buildPlane textures e' planes' p = .ok g') : EqFace g g' := by
  have hc' : Crisp planes' := by
    unfold Crisp
    simp only [← hp.mem_iff]
    exact hc
  have hperm := C23_exact_order_independent _ _ _ _ _ _ hp _ _ _ h h'
  have hcen : g.center = g'.center :=
    isMean_unique (isMean_perm hperm (C26_face_center _ _ _ _ _ h)) (C26_face_center _ _ _ _ _ h')
  have s := angles_differ h (crisp_convex hc hm h)
  have s' := angles_differ h' (crisp_convex hc' (hp.mem_iff.1 hm) h')
  rw [← hcen] at s'
  have hv : g.vertices.map (·.pos) = g'.vertices.map (·.pos) :=
    hperm.eq_of_pairwise (fun a b _ _ h1 h2 => absurd h1 (lt_asymm h2)) s s'
  have hl : g.vertices.length = g'.vertices.length := by simpa using congrArg List.length hv
  unfold buildPlane at h h'
  obtain ⟨pvs, h1, h⟩ := Outcome.bind_eq_ok.1 h
  obtain ⟨pvs', h1', h'⟩ := Outcome.bind_eq_ok.1 h'
  cases h; cases h'
  exact ⟨hcen, hv, by simp only at hl; simp only [hl], rfl⟩

/-! ### brushes and entities -/

/-- Brushes with the same faces in some order. -/
structure EqBrush (g g' : BrushGeo ℝ) : Prop where
  center : g.center = g'.center
  planes : Reordered EqFace g.planes g'.planes

/-- Entities with the same brushes in some order. -/
structure EqEntity (g g' : EntityGeo ℝ) : Prop where
  center : g.center = g'.center
  brushes : Reordered EqBrush g.brushes g'.brushes

theorem mean_perm {l l' : List (V3 ℝ)} (h : l.Perm l') : mean l = mean l' :=
  isMean_unique (isMean_perm h (isMean_mean l)) (isMean_mean l')

theorem geo_reordered {textures : TextureInfo} {e e' : Entity ℝ} (hm : Shuffled e e')
    (hc : ∀ b ∈ e.brushes, Crisp b.planes) {g g' : EntityGeo ℝ} (h : Geo.buildEntity textures e = .ok g)
    (h' : Geo.buildEntity textures e' = .ok g') : EqEntity g g' := by
  unfold Geo.buildEntity at h h'
  obtain ⟨bgs, h1, h⟩ := Outcome.bind_eq_ok.1 h
  obtain ⟨bgs', h1', h'⟩ := Outcome.bind_eq_ok.1 h'
  cases h; cases h'
  have hb : Reordered EqBrush bgs bgs' := by
    refine Reordered.mapOut (R := fun b b' : Brush ℝ => b ∈ e.brushes ∧ b.planes.Perm b'.planes)
      (f := fun b => buildBrush textures e b) (f' := fun b => buildBrush textures e' b)
      (hm.brushes.imp fun a ha b _ hab => ⟨ha, hab⟩) h1 h1' ?_
    rintro b b' ⟨hb, hbb⟩ c c' hc1 hc2
    unfold buildBrush at hc1 hc2
    obtain ⟨pgs, h2, hc1⟩ := Outcome.bind_eq_ok.1 hc1
    obtain ⟨pgs', h2', hc2⟩ := Outcome.bind_eq_ok.1 hc2
    cases hc1; cases hc2
    have hpl : Reordered EqFace pgs pgs' := by
      refine Reordered.mapOut (R := fun p p' : BrushPlane ℝ => p ∈ b.planes ∧ p = p')
        (f := fun p => buildPlane textures e b.planes p) (f' := fun p => buildPlane textures e' b'.planes p)
        (Reordered.imp (R := Eq) ⟨b'.planes, hbb, List.forall₂_same.2 fun _ _ => rfl⟩ fun p hp _ _ hpp => ⟨hp, hpp⟩) h2 h2' ?_
      rintro p _ ⟨hp, rfl⟩ g g' hg hg'
      exact buildPlane_reordered hbb (hc b hb) hp hg hg'
    exact ⟨mean_perm (hpl.map_perm fun _ _ h => h.center), hpl⟩
  refine ⟨?_, hb⟩
  simp only [Map.get?]
  rw [hm.properties]
  cases e'.properties (str! "origin") with
  | some o => rfl
  | none => exact mean_perm (hb.map_perm fun _ _ h => h.center)

/-! ### triangles -/

/-- Three at a time. -/
def triples {α : Type} : List α → List (α × α × α)
  | a :: b :: c :: rest => (a, b, c) :: triples rest
  | _ => []

theorem flat_triples {α : Type} : ∀ (n : Nat) (l : List α), l.length = 3 * n → flatTriangles (triples l) = l
  | 0, [], _ => rfl
  | n + 1, a :: b :: c :: rest, h => by
    simp only [List.length_cons] at h
    have := flat_triples n rest (by omega)
    unfold flatTriangles at *
    rw [triples, List.flatMap_cons, this]
    rfl
  | 0, _ :: _, h => by simp at h
  | n + 1, [], h => by simp at h
  | n + 1, [_], h => by simp only [List.length_cons, List.length_nil] at h; omega
  | n + 1, [_, _], h => by simp only [List.length_cons, List.length_nil] at h; omega

/-- The triangles of a face. -/
def faceTriangles (p : PlaneGeo ℝ) : List (V3 ℝ × V3 ℝ × V3 ℝ) := triples ((faceCorners p).map (·.pos))

theorem flat_faceTriangles {p : PlaneGeo ℝ} (h : IsFan p.vertices.length p.indices) :
    flatTriangles (faceTriangles p) = (faceCorners p).map (·.pos) :=
  flat_triples (p.vertices.length - 2) _ (by rw [List.length_map, faceCorners_length h, h.1])

theorem faceTriangles_eq {p p' : PlaneGeo ℝ} (h : EqFace p p') : faceTriangles p = faceTriangles p' := by
  unfold faceTriangles faceCorners
  congr 1
  rw [h.indices, List.map_filterMap, List.map_filterMap]
  apply List.filterMap_congr
  intro i _
  rw [← List.getElem?_map, ← List.getElem?_map, h.vertices]

theorem flat_flatMap {α β : Type} (f : α → List (β × β × β)) (l : List α) :
    flatTriangles (l.flatMap f) = l.flatMap fun a => flatTriangles (f a) := List.flatMap_assoc

theorem flat_faces {ps : List (PlaneGeo ℝ)} (h : ∀ p ∈ ps, IsFan p.vertices.length p.indices) :
    (ps.flatMap faceCorners).map (·.pos) = flatTriangles (ps.flatMap faceTriangles) := by
  rw [flat_flatMap, List.map_flatMap]
  exact List.flatMap_congr fun p hp => (flat_faceTriangles (h p hp)).symm

theorem hidden_reordered {b b' : BrushGeo ℝ} (h : EqBrush b b') (bl : TextureBlacklist) : Hidden bl b ↔ Hidden bl b' := by
  unfold Hidden
  constructor
  · intro hb p' hp'
    obtain ⟨p, hp, hx⟩ := h.planes.right hp'
    rw [← hx.texture]
    exact hb p hp
  · intro hb p hp
    obtain ⟨p', hp', hx⟩ := h.planes.left hp
    rw [hx.texture]
    exact hb p' hp'

theorem no_vertices {p p' : PlaneGeo ℝ} (h : EqFace p p') : p.vertices = [] ↔ p'.vertices = [] := by
  have := h.vertices
  constructor
  · intro h0
    rw [h0] at this
    simpa using this.symm
  · intro h0
    rw [h0] at this
    simpa using this

theorem surface_exists_reordered {g g' : EntityGeo ℝ} (hg : Fanned g.brushes) (hg' : Fanned g'.brushes)
    (h : Reordered EqBrush g.brushes g'.brushes) (bl : TextureBlacklist) (texture : Option Str) :
    (∃ s, textureSurface g bl texture = .ok (some s)) ↔ ∃ s, textureSurface g' bl texture = .ok (some s) := by
  rw [surface_iff g bl hg, surface_iff g' bl hg']
  constructor
  · rintro ⟨b, hb, hh, p, hp, ht, hv⟩
    obtain ⟨b', hb', hbb⟩ := h.left hb
    obtain ⟨p', hp', hpp⟩ := hbb.planes.left hp
    exact ⟨b', hb', fun h0 => hh ((hidden_reordered hbb bl).2 h0), p', hp', hpp.texture ▸ ht,
      fun h0 => hv ((no_vertices hpp).2 h0)⟩
  · rintro ⟨b', hb', hh, p', hp', ht, hv⟩
    obtain ⟨b, hb, hbb⟩ := h.right hb'
    obtain ⟨p, hp, hpp⟩ := hbb.planes.right hp'
    exact ⟨b, hb, fun h0 => hh ((hidden_reordered hbb bl).1 h0), p, hp, hpp.texture.trans ht,
      fun h0 => hv ((no_vertices hpp).1 h0)⟩

theorem shown_triangles {bs : List (BrushGeo ℝ)} (hg : Fanned bs) (bl : TextureBlacklist) (texture : Option Str) :
    ((shownFaces bl texture bs).flatten.flatMap faceCorners).map (·.pos) =
      flatTriangles ((bs.filter fun b => ¬ Hidden bl b).flatMap fun b =>
        (b.planes.filter fun p => p.texture = texture).flatMap faceTriangles) := by
  rw [flat_faces]
  · unfold shownFaces
    rw [← List.flatMap_def, List.flatMap_assoc]
  · intro p hp
    unfold shownFaces at hp
    rw [← List.flatMap_def, List.mem_flatMap] at hp
    obtain ⟨b, hb, hp⟩ := hp
    exact hg b (List.mem_filter.1 hb).1 p (List.mem_filter.1 hp).1

/-- No surface for either, or surfaces with the same triangles. -/
def EqSurface (o o' : Option (MeshSurface ℝ)) : Prop :=
  (o = none ∧ o' = none) ∨ ∃ s s', o = some s ∧ o' = some s' ∧ s.texture = s'.texture ∧
    EqualTriangles s.vertices s.indices s'.vertices s'.indices

theorem textureSurface_reordered {g g' : EntityGeo ℝ} (hg : Fanned g.brushes) (hg' : Fanned g'.brushes)
    (h : Reordered EqBrush g.brushes g'.brushes) (bl : TextureBlacklist)
    (texture : Option Str) {o o' : Option (MeshSurface ℝ)} (ho : textureSurface g bl texture = .ok o)
    (ho' : textureSurface g' bl texture = .ok o') : EqSurface o o' := by
  have hs := surface_exists_reordered hg hg' h bl texture
  cases o with
  | none =>
    cases o' with
    | none => exact .inl ⟨rfl, rfl⟩
    | some s' =>
      obtain ⟨s, hx⟩ := hs.2 ⟨s', ho'⟩
      rw [ho] at hx
      cases hx
  | some s =>
    cases o' with
    | none =>
      obtain ⟨s', hx⟩ := hs.1 ⟨s, ho⟩
      rw [ho'] at hx
      cases hx
    | some s' =>
      obtain ⟨t1, c1⟩ := surface_corners hg ho
      obtain ⟨t2, c2⟩ := surface_corners hg' ho'
      rw [shown_triangles hg] at c1
      rw [shown_triangles hg'] at c2
      refine .inr ⟨s, s', rfl, rfl, t1.trans t2.symm, _, _, c1, c2, ?_⟩
      refine (h.filter fun b b' hb => ?_).flatMap_perm fun b b' hb => ?_
      · rw [decide_eq_decide, hidden_reordered hb]
      · refine (hb.planes.filter fun p p' hp => ?_).flatMap_perm fun p p' hp => .of_eq (faceTriangles_eq hp)
        rw [hp.texture]

/-! ### nodes -/

theorem tried_perm {e e' : Entity ℝ} (hm : Shuffled e e') (bl : TextureBlacklist) : (tried bl e).Perm (tried bl e') := by
  have ht : (e.brushes.flatMap fun b => b.planes.map (·.texture)).Perm
      (e'.brushes.flatMap fun b => b.planes.map (·.texture)) :=
    hm.brushes.flatMap_perm fun b b' hb => hb.map _
  unfold tried
  refine List.Perm.append_right _ (List.Perm.map _ ?_)
  refine (List.perm_ext_iff_of_nodup (uniqueTextures_nodup _ _) (uniqueTextures_nodup _ _)).2 fun t => ?_
  rw [uniqueTextures_mem, uniqueTextures_mem, ht.mem_iff]

theorem brushVisual_reordered {e e' : Entity ℝ} (hm : Shuffled e e') {g g' : EntityGeo ℝ} (hg : Fanned g.brushes)
    (hg' : Fanned g'.brushes) (h : Reordered EqBrush g.brushes g'.brushes)
    (bd : BrushData) (bl : TextureBlacklist) {v v' : VisualGeometry ℝ} (hv : brushVisual e g bd bl = .ok v)
    (hv' : brushVisual e' g' bd bl = .ok v') : SameVisual v v' := by
  have ht := tried_perm hm bl
  unfold tried at ht
  unfold brushVisual at hv hv'
  cases hbd : bd.visualType with
  | none => rw [hbd] at hv hv'; cases hv; cases hv'; trivial
  | mesh =>
    rw [hbd] at hv hv'
    simp only at hv hv'
    obtain ⟨ss, h1, hv⟩ := Outcome.bind_eq_ok.1 hv
    obtain ⟨ss', h1', hv'⟩ := Outcome.bind_eq_ok.1 hv'
    have hr : Reordered EqSurface ss ss' := by
      refine Reordered.mapOut (R := Eq) (f := textureSurface g bl) (f' := textureSurface g' bl)
        ⟨_, ht, List.forall₂_same.2 fun _ _ => rfl⟩ h1 h1' ?_
      rintro t _ rfl c d hc hd
      exact textureSurface_reordered hg hg' h bl t hc hd
    have hf := Reordered.options hr
    have he : (ss.filterMap id).isEmpty = (ss'.filterMap id).isEmpty := by
      have := hf.length
      rw [Bool.eq_iff_iff, List.isEmpty_iff_length_eq_zero, List.isEmpty_iff_length_eq_zero, this]
    simp only [he] at hv
    split at hv
    · rw [if_pos ‹_›] at hv'
      cases hv; cases hv'; trivial
    · rw [if_neg ‹_›] at hv'
      cases hv; cases hv'
      exact hf

theorem samePlace_real {a b : V3 ℝ} : SamePlace a b ↔ a = b := by
  constructor
  · rintro (h | h)
    · exact h
    · exact (v3_beq _ _).1 (eqV3_iff.1 h)
  · exact fun h => .inl h

theorem allDifferent_real {l : List (V3 ℝ)} (h : AllDifferent l) : l.Nodup := by
  refine h.imp fun {a b} hab e => hab.1 (eqV3_iff.2 ((v3_beq _ _).2 e))

theorem points_perm {b b' : BrushGeo ℝ} (hb : EqBrush b b') {l l' : List (V3 ℝ)}
    (h : (∀ x ∈ l, ∃ p ∈ b.planes, ∃ v ∈ p.vertices, v.pos = x) ∧
      (∀ p ∈ b.planes, ∀ v ∈ p.vertices, ∃ x ∈ l, SamePlace x v.pos) ∧ AllDifferent l)
    (h' : (∀ x ∈ l', ∃ p ∈ b'.planes, ∃ v ∈ p.vertices, v.pos = x) ∧
      (∀ p ∈ b'.planes, ∀ v ∈ p.vertices, ∃ x ∈ l', SamePlace x v.pos) ∧ AllDifferent l') : l.Perm l' := by
  have key : ∀ {b : BrushGeo ℝ} {l : List (V3 ℝ)}, (∀ x ∈ l, ∃ p ∈ b.planes, ∃ v ∈ p.vertices, v.pos = x) →
      (∀ p ∈ b.planes, ∀ v ∈ p.vertices, ∃ x ∈ l, SamePlace x v.pos) →
      ∀ x, x ∈ l ↔ ∃ p ∈ b.planes, x ∈ p.vertices.map (·.pos) := by
    intro b l h1 h2 x
    simp only [List.mem_map]
    constructor
    · exact h1 x
    · rintro ⟨p, hp, v, hv, rfl⟩
      obtain ⟨y, hy, hs⟩ := h2 p hp v hv
      rw [samePlace_real] at hs
      exact hs ▸ hy
  refine (List.perm_ext_iff_of_nodup (allDifferent_real h.2.2) (allDifferent_real h'.2.2)).2 fun x => ?_
  rw [key h.1 h.2.1, key h'.1 h'.2.1]
  constructor
  · rintro ⟨p, hp, hx⟩
    obtain ⟨p', hp', hpp⟩ := hb.planes.left hp
    exact ⟨p', hp', hpp.vertices ▸ hx⟩
  · rintro ⟨p', hp', hx⟩
    obtain ⟨p, hp, hpp⟩ := hb.planes.right hp'
    exact ⟨p, hp, hpp.vertices ▸ hx⟩

theorem collision_reordered {g g' : EntityGeo ℝ} (hg : Fanned g.brushes) (hg' : Fanned g'.brushes) (hC : g.center = g'.center)
    (h : Reordered EqBrush g.brushes g'.brushes) {ct : CollisionType} {c c' : CollisionGeometry ℝ}
    (hc : collisionOf ct g = .ok c) (hc' : collisionOf ct g' = .ok c') : SameCollision c c' := by
  cases ct with
  | none => cases hc; cases hc'; trivial
  | convex =>
    obtain ⟨ss, h1, h2⟩ := C40_convex g
    obtain ⟨ss', h1', h2'⟩ := C40_convex g'
    rw [hc] at h1
    rw [hc'] at h1'
    cases h1; cases h1'
    obtain ⟨m, k1, k2⟩ := h
    obtain ⟨s, k3, k4⟩ := List.perm_comp_forall₂ k1.symm h2
    refine ⟨s, k4.symm, ?_⟩
    clear hc hc' h2 k1 k4 hC hg hg'
    generalize g'.brushes = bs at k2 h2'
    induction k2 generalizing s ss' with
    | nil => cases k3; cases h2'; exact .nil
    | cons hx _ ih =>
      cases k3 with
      | cons a1 a =>
        cases h2' with
        | cons b1 b =>
          exact .cons ⟨a1.1.trans (hx.center.trans b1.1.symm), points_perm hx a1.2 b1.2⟩ (ih _ _ a b)
  | concave =>
    have hv : ∀ g g' : EntityGeo ℝ, Reordered EqBrush g.brushes g'.brushes → (∃ b ∈ g.brushes, ∃ p ∈ b.planes, p.vertices ≠ []) →
        (∃ b ∈ g'.brushes, ∃ p ∈ b.planes, p.vertices ≠ []) := by
      rintro g g' h ⟨b, hb, p, hp, hv⟩
      obtain ⟨b', hb', hbb⟩ := h.left hb
      obtain ⟨p', hp', hpp⟩ := hbb.planes.left hp
      exact ⟨b', hb', p', hp', fun h0 => hv ((no_vertices hpp).2 h0)⟩
    have hv' : ∀ g g' : EntityGeo ℝ, Reordered EqBrush g.brushes g'.brushes → (∃ b ∈ g'.brushes, ∃ p ∈ b.planes, p.vertices ≠ []) →
        (∃ b ∈ g.brushes, ∃ p ∈ b.planes, p.vertices ≠ []) := by
      rintro g g' h ⟨b, hb, p, hp, hv⟩
      obtain ⟨b', hb', hbb⟩ := h.right hb
      obtain ⟨p', hp', hpp⟩ := hbb.planes.right hp
      exact ⟨b', hb', p', hp', fun h0 => hv ((no_vertices hpp).1 h0)⟩
    rcases C41_concave g hg with ⟨hno, k⟩ | ⟨hyes, s, k, k1, _, ⟨cs, k2, k3⟩, parts, k4, k5⟩ <;>
      rcases C41_concave g' hg' with ⟨hno', k'⟩ | ⟨hyes', s', k', k1', _, ⟨cs', k2', k3'⟩, parts', k4', k5'⟩ <;>
      rw [hc] at k <;> rw [hc'] at k' <;> cases k <;> cases k'
    · trivial
    · obtain ⟨b, hb, p, hp, hne⟩ := hv' _ _ h hyes'
      exact absurd (hno b hb p hp) hne
    · obtain ⟨b, hb, p, hp, hne⟩ := hv _ _ h hyes
      exact absurd (hno' b hb p hp) hne
    · have hflat : ∀ {g : EntityGeo ℝ} {cs : List (V3 ℝ)}, Fanned g.brushes → List.Forall₂ SamePlace cs
            ((g.brushes.flatMap fun b => b.planes.flatMap faceCorners).map (·.pos)) →
          cs = flatTriangles ((g.brushes.flatMap (·.planes)).flatMap faceTriangles) := by
        intro g cs hg h
        have : cs = (g.brushes.flatMap fun b => b.planes.flatMap faceCorners).map (·.pos) := by
          generalize (g.brushes.flatMap fun b => b.planes.flatMap faceCorners).map (·.pos) = b at h
          induction h with
          | nil => rfl
          | cons hx _ ih => rw [ih, samePlace_real.1 hx]
        rw [this, ← flat_faces, List.flatMap_assoc]
        intro p hp
        obtain ⟨b, hb, hp⟩ := List.mem_flatMap.1 hp
        exact hg b hb p hp
      refine .cons ⟨k1.trans (hC.trans k1'.symm), ?_, _, _, hflat hg k3 ▸ k2, hflat hg' k3' ▸ k2', ?_⟩ .nil
      · rw [k4, k4']
        obtain ⟨m, j1, j2⟩ := h
        obtain ⟨t, j3, j4⟩ := List.perm_comp_forall₂ j1.symm k5
        refine j4.symm.flatten.trans ?_
        clear hc hc' k2' k2 k3 k3' k5 k4 k4' j1 j4 hg hg' hyes hyes' hv hv' hflat k1 k1' hC
        generalize g'.brushes = bs at k5' j2
        induction j2 generalizing t parts' with
        | nil => cases j3; cases k5'; exact .refl _
        | cons hx _ ih =>
          cases j3 with
          | cons a1 a =>
            cases k5' with
            | cons b1 b =>
              rw [List.flatten_cons, List.flatten_cons]
              exact (points_perm hx ⟨a1.2.1, a1.2.2, a1.1⟩ ⟨b1.2.1, b1.2.2, b1.1⟩).append (ih _ _ a b)
      · rw [List.flatMap_assoc, List.flatMap_assoc]
        exact h.flatMap_perm fun b b' hb => hb.planes.flatMap_perm fun p p' hp => .of_eq (faceTriangles_eq hp)

/-- The same entity and the same geometry, except for the order. -/
def EqData (d d' : Entity ℝ × EntityGeo ℝ) : Prop :=
  Shuffled d.1 d'.1 ∧ EqEntity d.2 d'.2 ∧ Fanned d.2.brushes ∧ Fanned d'.2.brushes

theorem children_reordered (o : V3 ℝ) {v v' : VisualGeometry ℝ} (hv : SameVisual v v') {c c' : CollisionGeometry ℝ}
    (hc : SameCollision c c') :
    List.Forall₂ SameNode (visualChildren o v ++ collisionChildren o c) (visualChildren o v' ++ collisionChildren o c') := by
  refine append_rel ?_ ?_
  · cases v <;> cases v' <;> first | exact hv.elim | exact .nil | exact .cons (.visual o hv) .nil
  · cases c <;> cases c' <;> first | exact hc.elim | exact .nil | exact .cons (.collision o hc) .nil

theorem buildEntity_reordered {gd : GameData ℝ} {fgd : Forge.GameData ℝ} {bl : TextureBlacklist}
    {data data' : List (Entity ℝ × EntityGeo ℝ)} (hd : Reordered EqData (data.drop 1) (data'.drop 1)) :
    ∀ {depth : Nat} {o : V3 ℝ} {d d' : Entity ℝ × EntityGeo ℝ} {n : Node ℝ}, EqData d d' →
    Scene.buildEntity gd fgd bl data depth o d = .ok n →
    ∃ n', Scene.buildEntity gd fgd bl data' depth o d' = .ok n' ∧ SameNode n n' := by
  intro depth
  induction depth with
  | zero => intro o d d' n _ h; unfold Scene.buildEntity at h; cases h
  | succ depth ih =>
    rintro o ⟨e, g⟩ ⟨e', g'⟩ n hdd h
    obtain ⟨_, v, c, ents, name, props, e0, h1, h2, h3, h4, h5, rfl⟩ := buildEntity_ok h
    cases e0
    obtain ⟨hm, hl, hf, hf'⟩ := hdd
    simp only at hm hl hf hf'
    have h4' := hm.properties ▸ h4
    obtain ⟨v', h1'⟩ := entityVisual_succeeds gd bl e' g' hf' h4'
    obtain ⟨c', h2'⟩ := entityCollision_succeeds gd e' g' hf' h4'
    have h5' : entityProperties fgd e' = .ok props := by
      rw [← h5]
      unfold entityProperties addInternalInteger addInternalString
      rw [hm.properties]
    have hvv : SameVisual v v' := by
      unfold entityVisual Map.get? at h1 h1'
      rw [h4] at h1
      rw [h4'] at h1'
      simp only at h1 h1'
      cases hx : findDef gd name with
      | none => rw [hx] at h1 h1'; cases h1; cases h1'; trivial
      | some x =>
        rw [hx] at h1 h1'
        simp only at h1 h1'
        cases hy : x.data with
        | point => rw [hy] at h1 h1'; cases h1; cases h1'; trivial
        | brush _ bd =>
          rw [hy] at h1 h1'
          exact brushVisual_reordered hm hf hf' hl.brushes bd bl h1 h1'
    have hcc : SameCollision c c' := by
      unfold entityCollision Map.get? at h2 h2'
      rw [h4] at h2
      rw [h4'] at h2'
      simp only at h2 h2'
      cases hx : findDef gd name with
      | none => rw [hx] at h2 h2'; cases h2; cases h2'; trivial
      | some x =>
        rw [hx] at h2 h2'
        simp only at h2 h2'
        cases hy : x.data with
        | point => rw [hy] at h2 h2'; cases h2; cases h2'; trivial
        | brush _ bd =>
          rw [hy] at h2 h2'
          exact collision_reordered hf hf' hl.center hl.brushes h2 h2'
    have hmem : Reordered EqData (members data e) (members data' e') := by
      refine hd.filter ?_
      intro a a' ha
      unfold inGroup
      rw [ha.1.properties, hm.properties]
    obtain ⟨ents', h3', hch⟩ := hmem.forall₂ (Q := SameNode)
      (P' := fun child n => Scene.buildEntity gd fgd bl data' depth (V3.neg g'.center) child = .ok n) h3
      (fun a b hab n hn => by rw [← hl.center]; exact ih hab hn)
    refine ⟨.actor (V3.add o g'.center) ⟨name, entityType gd e', entityComponentClass gd e',
      entityPropertyApplicationType gd e', props⟩ (visualChildren g'.center v' ++ collisionChildren g'.center c' ++ ents'), ?_, ?_⟩
    · have h3'' := mapOut_eq_ok.2 h3'
      unfold members at h3''
      have hn' : e'.properties.get? (str! "classname") = some name := h4'
      unfold Scene.buildEntity
      rw [h1', Outcome.ok_bind, h2', Outcome.ok_bind, h3'', Outcome.ok_bind, hn', h5']
      rfl
    · obtain ⟨mid, j1, j2⟩ := (Reordered.of (children_reordered g.center hvv hcc)).append hch
      unfold entityType entityComponentClass entityPropertyApplicationType
      rw [hm.properties, ← hl.center]
      exact .actor _ _ j1 j2

/-! ### layers -/

/-- Layers with the same brushes in some order. -/
def EqLayer (l l' : Str × List (BrushGeo ℝ)) : Prop :=
  l.1 = l'.1 ∧ Reordered EqBrush l.2 l'.2 ∧ Fanned l.2 ∧ Fanned l'.2

theorem buildLayer_reordered {gd : GameData ℝ} {l l' : Str × List (BrushGeo ℝ)} (h : EqLayer l l')
    {o : Option (Node ℝ)} (ho : buildLayer gd l = .ok o) : ∃ o', buildLayer gd l' = .ok o' ∧
      ((o = none ∧ o' = none) ∨ ∃ n n', o = some n ∧ o' = some n' ∧ SameNode n n') := by
  obtain ⟨ht, hb, hf, hf'⟩ := h
  unfold buildLayer at ho ⊢
  rw [← ht]
  cases hx : gd.worldspawnLayers.filter fun x => x.texture == l.1 with
  | nil => rw [hx] at ho; cases ho; exact ⟨_, rfl, .inl ⟨rfl, rfl⟩⟩
  | cons layer rest =>
    cases rest with
    | cons _ _ => rw [hx] at ho; cases ho; exact ⟨_, rfl, .inl ⟨rfl, rfl⟩⟩
    | nil =>
      rw [hx] at ho
      simp only at ho ⊢
      obtain ⟨v, h1, ho⟩ := Outcome.bind_eq_ok.1 ho
      obtain ⟨c, h2, ho⟩ := Outcome.bind_eq_ok.1 ho
      have hv : ∃ v', layerVisual layer l.1 l'.2 = .ok v' ∧ SameVisual v v' := by
        unfold layerVisual at h1 ⊢
        cases hl : layer.visualType with
        | none => rw [hl] at h1; cases h1; exact ⟨_, rfl, trivial⟩
        | mesh =>
          rw [hl] at h1
          simp only at h1 ⊢
          obtain ⟨s, h3, h1⟩ := Outcome.bind_eq_ok.1 h1
          obtain ⟨s', h3'⟩ : ∃ s', textureSurface (F := ℝ) ⟨V3.zero, l'.2⟩ TextureBlacklist.default (some l.1) = .ok s' := by
            obtain ⟨_, _, ⟨_, h⟩ | ⟨_, _, h, _⟩⟩ := textureSurface_ok (g := (⟨V3.zero, l'.2⟩ : EntityGeo ℝ))
              TextureBlacklist.default (some l.1) hf' <;> exact ⟨_, h⟩
          rw [h3', Outcome.ok_bind]
          rcases textureSurface_reordered (g := ⟨V3.zero, l.2⟩) (g' := ⟨V3.zero, l'.2⟩) hf hf' hb _ _ h3 h3' with
            ⟨rfl, rfl⟩ | ⟨s, s', rfl, rfl, hs⟩
          · cases h1; exact ⟨_, rfl, trivial⟩
          · cases h1; exact ⟨_, rfl, Reordered.of (.cons hs .nil)⟩
      obtain ⟨v', h1', hvv⟩ := hv
      obtain ⟨c', h2'⟩ := collisionOf_succeeds layer.collisionType (⟨V3.zero, l'.2⟩ : EntityGeo ℝ) hf'
      have hcc : SameCollision c c' :=
        collision_reordered (g := ⟨V3.zero, l.2⟩) (g' := ⟨V3.zero, l'.2⟩) hf hf' rfl hb h2 h2'
      have h2'' : layerCollision layer l'.2 = .ok c' := h2'
      rw [h1', Outcome.ok_bind, h2'', Outcome.ok_bind]
      have hch := children_reordered V3.zero hvv hcc
      generalize visualChildren V3.zero v ++ collisionChildren V3.zero c = a at ho hch
      generalize visualChildren V3.zero v' ++ collisionChildren V3.zero c' = a' at hch ⊢
      cases hch with
      | nil => cases ho; exact ⟨_, rfl, .inl ⟨rfl, rfl⟩⟩
      | cons hx hy =>
        cases ho
        exact ⟨_, rfl, .inr ⟨_, _, rfl, rfl, .actor _ _ (.refl _) (.cons hx hy)⟩⟩

theorem splitLayers_reordered {bs bs' : List (BrushGeo ℝ)} (h : Reordered EqBrush bs bs') (hf : Fanned bs) (hf' : Fanned bs') :
    Reordered EqBrush (LayerFilter.splitLayers LayerFilter.layerTextures bs).1
        (LayerFilter.splitLayers LayerFilter.layerTextures bs').1 ∧
      List.Forall₂ EqLayer (LayerFilter.splitLayers LayerFilter.layerTextures bs).2
        (LayerFilter.splitLayers LayerFilter.layerTextures bs').2 := by
  have hb : ∀ t b b', EqBrush b b' → LayerFilter.byLayer t b = LayerFilter.byLayer t b' := by
    intro t b b' h
    unfold LayerFilter.byLayer
    refine h.planes.all ?_
    intro p p' hp
    rw [hp.texture]
  have hn : ∀ t b b', EqBrush b b' → (not ∘ LayerFilter.byLayer t) b = (not ∘ LayerFilter.byLayer t) b' := by
    intro t b b' h
    simp only [Function.comp, hb t b b' h]
  have m1 := (splitLayers_mem bs).2
  have m2 := (splitLayers_mem bs').2
  rw [splitLayers_form] at m1 m2 ⊢
  rw [splitLayers_form]
  have k1 := h.filter (hn (str! "*water0"))
  refine ⟨k1.filter (hn _), .cons ⟨rfl, h.filter (hb _), ?_, ?_⟩ (.cons ⟨rfl, k1.filter (hb _), ?_, ?_⟩ .nil)⟩
  · exact fun b hb => hf b (m1 _ (by simp) b hb)
  · exact fun b hb => hf' b (m2 _ (by simp) b hb)
  · exact fun b hb => hf b (m1 _ (List.mem_cons_of_mem _ List.mem_cons_self) b hb)
  · exact fun b hb => hf' b (m2 _ (List.mem_cons_of_mem _ List.mem_cons_self) b hb)

/-- C104: a map with the same entities in another order, their brushes in another order and the faces of the brushes in
another order loads if the original map does, and gives the same scene except for order: the same actors at the same places
with the same properties and the same children, the same surfaces with the same triangles, and the same collision shapes. No
corner of a brush must depend on the tolerance of the program. -/
theorem C104_reordered (depth : Nat) (order order' : List (Str × List (BrushGeo ℝ)) → List (Str × List (BrushGeo ℝ)))
    (horder : ∀ l, (order l).Perm l) (horder' : ∀ l, (order' l).Perm l) (config : Config ℝ) (map map' : Str)
    (hfile : config.mapFile = some map) (entities entities' : List (Entity ℝ)) (hl : LoadsAs map entities)
    (hl' : LoadsAs map' entities') (hm : Reordered Shuffled entities entities')
    (hc : ∀ e ∈ entities, ∀ b ∈ e.brushes, Crisp b.planes) (nodes : List (Node ℝ))
    (h : Quarch.run depth order config = .ok nodes) :
    ∃ w ls es w' ls' es', nodes = w :: (ls ++ es) ∧
      Quarch.run depth order' { config with mapFile := some map' } = .ok (w' :: (ls' ++ es')) ∧
      es.length = entities.countP (fun e => TopLevel e) ∧
      SameNode w w' ∧ Reordered SameNode ls ls' ∧ Reordered SameNode es es' := by
  obtain ⟨hall, w, wn, ls, es, hw, e1, hwn, hls, hes⟩ := (run_list hfile hl).1 h
  have hall' : ∀ e ∈ entities', Geo.buildEntity config.textureInfo e = .ok (geoOf config.textureInfo e) := by
    intro e _
    obtain ⟨g, hg⟩ := buildEntity_real config.textureInfo e
    unfold geoOf
    rw [hg]
  have hdata : Reordered (fun e e' => EqData (e, geoOf config.textureInfo e) (e', geoOf config.textureInfo e'))
      entities entities' := by
    refine hm.imp fun e he e' he' hee => ?_
    have b1 := hall e he
    have b2 := hall' e' he'
    exact ⟨hee, geo_reordered hee (hc e he) b1 b2, built_fanned b1, built_fanned b2⟩
  have hworld : ∀ e e', EqData (e, geoOf config.textureInfo e) (e', geoOf config.textureInfo e') →
      decide (IsWorld e) = decide (IsWorld e') := by
    intro e e' h
    rw [decide_eq_decide]
    unfold IsWorld
    rw [show e.properties = e'.properties from h.1.properties]
  have htop : ∀ e e', EqData (e, geoOf config.textureInfo e) (e', geoOf config.textureInfo e') →
      decide (TopLevel e) = decide (TopLevel e') := by
    intro e e' h
    rw [decide_eq_decide]
    unfold TopLevel groupOf
    rw [show e.properties = e'.properties from h.1.properties]
  have hws := hdata.filter hworld
  rw [hw] at hws
  obtain ⟨w', hw', hww⟩ : ∃ w', entities'.filter (fun e => decide (IsWorld e)) = [w'] ∧
      EqData (w, geoOf config.textureInfo w) (w', geoOf config.textureInfo w') := by
    obtain ⟨mid, j1, j2⟩ := hws
    rw [List.singleton_perm] at j1
    subst j1
    generalize entities'.filter (fun e => decide (IsWorld e)) = r at j2
    cases j2 with
    | cons h1 h2 => cases h2; exact ⟨_, rfl, h1⟩
  obtain ⟨k1, hlay⟩ := splitLayers_reordered hww.2.1.brushes hww.2.2.1 hww.2.2.2
  have hwd : EqData (worldOf config.textureInfo w) (worldOf config.textureInfo w') :=
    ⟨hww.1, ⟨hww.2.1.center, k1⟩, fun b hb => hww.2.2.1 b ((splitLayers_mem _).1 b hb),
      fun b hb => hww.2.2.2 b ((splitLayers_mem _).1 b hb)⟩
  have hoth : Reordered EqData ((others entities).map fun e => (e, geoOf config.textureInfo e))
      ((others entities').map fun e => (e, geoOf config.textureInfo e)) := by
    refine Reordered.map (R := fun e e' => EqData (e, geoOf config.textureInfo e) (e', geoOf config.textureInfo e'))
      (hdata.filter ?_) fun _ _ h => h
    intro e e' h
    have := hworld e e' h
    simp only [decide_not, this]
  have hd : Reordered EqData
      ((worldOf config.textureInfo w :: (others entities).map fun e => (e, geoOf config.textureInfo e)).drop 1)
      ((worldOf config.textureInfo w' :: (others entities').map fun e => (e, geoOf config.textureInfo e)).drop 1) := hoth
  obtain ⟨wn', hwn', hs⟩ := buildEntity_reordered hd hwd hwn
  have hlay' := (Reordered.perm_left (horder _) (Reordered.of hlay)).perm (horder' _).symm
  obtain ⟨ls', hls', hlr⟩ := hlay'.forall₂ hls fun l l' hll o ho => buildLayer_reordered hll ho
  obtain ⟨es', hes', hes2⟩ := (hdata.filter htop).forall₂ hes fun e e' hee n hn => buildEntity_reordered hd hee hn
  refine ⟨wn, ls.filterMap id, es, wn', ls'.filterMap id, es', e1, ?_, ?_, hs, Reordered.options hlr, hes2⟩
  · exact (run_list (config := { config with mapFile := some map' }) rfl hl').2
      ⟨hall', w', wn', ls', es', hw', rfl, hwn', hls', hes'⟩
  · rw [← hes.length_eq, List.countP_eq_length_filter]

/-- C104: the brushes of C78 (proper convex bodies) meet the condition on corners. -/
theorem proper_crisp {planes : List (BrushPlane ℝ)} (h : ProperBrush planes) : Crisp planes := by
  intro p hp q hq r hr hd x h0 h1 h2 hin s hs
  exact h.clear p hp q hq r hr (fun e => by rw [e] at hd; norm_num at hd) x h0 h1 h2 hin s hs

end
end Quarch
