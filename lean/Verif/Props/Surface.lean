import Verif.Proofs.Surface
import Verif.Spec.Instances
/-
C33–C41: mesh surfaces and collision shapes.
-/
set_option linter.unusedSectionVars false
namespace Quarch
open Spec Scene

section
variable {F : Type} [Arith F]

theorem isFan_length {n : Nat} {idx : List Nat} (h : IsFan n idx) : 3 ∣ idx.length := ⟨_, h.1⟩

theorem shown_mem {bl : TextureBlacklist} {texture : Option Str} {bs : List (BrushGeo F)}
    {ps : List (PlaneGeo F)} (h : ps ∈ shownFaces bl texture bs) :
    ∃ b ∈ bs, ¬ Hidden bl b ∧ ps = b.planes.filter fun p => p.texture = texture := by
  obtain ⟨b, hb, rfl⟩ := List.mem_map.1 h
  obtain ⟨h1, h2⟩ := List.mem_filter.1 hb
  exact ⟨b, h1, of_decide_eq_true h2, rfl⟩

theorem faceCorners_length {p : PlaneGeo F} (h : IsFan p.vertices.length p.indices) :
    (faceCorners p).length = p.indices.length := by
  refine (corners_filterMap ?_).length.symm
  intro i hi
  obtain ⟨t, ht, hi⟩ := isFan_mem h hi
  omega

/-- Every surface built from fanned faces is well formed. -/
theorem textureSurface_wellFormed [LawfulEq F] {g : EntityGeo F} {bl : TextureBlacklist}
    {texture : Option Str} (hg : Fanned g.brushes) {s : MeshSurface F}
    (h : textureSurface g bl texture = .ok (some s)) : WellFormed s := by
  obtain ⟨parts, h1, ⟨_, h2⟩ | ⟨hne, s', h2, _, ha, hc⟩⟩ := textureSurface_ok bl texture hg
  · rw [h] at h2; cases h2
  · rw [h] at h2; cases h2
    have hlen : s.vertices.length = (parts.flatMap (·.1)).length := by rw [ha.pos, List.length_map]
    refine ⟨?_, ?_, ?_, ?_, ?_, ?_, ?_⟩
    · intro hn; rw [hn] at hlen; exact hne (List.length_eq_zero_iff.1 hlen.symm)
    · rw [ha.normal, hlen, List.length_map]
    · rw [ha.tangent, hlen, List.length_map]
    · intro l hl
      have := congrArg List.length ((ha.uv l).1 hl)
      simp only [List.length_map] at this
      omega
    · intro l hl
      have := congrArg List.length ((ha.color l).1 hl)
      simp only [List.length_map] at this
      omega
    · intro i hi; rw [hlen]; exact hc.lt i hi
    · rw [hc.length]
      have hf := (parts_corners h1 (R := fun _ _ => True) (fun _ _ _ _ _ _ => trivial)).length_eq
      rw [← hf]
      have key : ∀ ps : List (PlaneGeo F), (∀ p ∈ ps, IsFan p.vertices.length p.indices) →
          3 ∣ (ps.flatMap faceCorners).length := by
        intro ps
        induction ps with
        | nil => intro _; exact ⟨0, rfl⟩
        | cons p ps ih =>
          intro hp
          rw [List.flatMap_cons, List.length_append, faceCorners_length (hp p (by simp))]
          exact Nat.dvd_add (isFan_length (hp p (by simp))) (ih fun q hq => hp q (by simp [hq]))
      apply key
      intro p hp
      obtain ⟨ps, hps, hp⟩ := List.mem_flatten.1 hp
      obtain ⟨b, hb, _, rfl⟩ := shown_mem hps
      exact hg b hb p (List.mem_filter.1 hp).1

/-- C34: the triangles of a surface are, in order and corner by corner, those of the shown faces. -/
theorem C34_triangles_kept [LawfulEq F] (e : Entity F) (g : EntityGeo F) (bd : BrushData)
    (bl : TextureBlacklist) (v : VisualGeometry F) (hg : Fanned g.brushes)
    (h : brushVisual e g bd bl = .ok v) (s : MeshSurface F) (hs : s ∈ surfaces v) :
    ∃ cs, Corners s.vertices s.indices cs ∧
      List.Forall₂ SamePlace cs
        (((shownFaces bl s.texture g.brushes).flatten.flatMap faceCorners).map (·.pos)) := by
  obtain ⟨_, _, h1⟩ := brushVisual_surface hg h hs
  obtain ⟨parts, h2, ⟨_, h3⟩ | ⟨_, s', h3, _, ha, hc⟩⟩ := textureSurface_ok bl s.texture hg
  · rw [h1] at h3; cases h3
  · rw [h1] at h3; cases h3
    refine ⟨(parts.flatMap (·.2)).map (·.pos), ?_, ?_⟩
    · rw [ha.pos]; exact hc.map _
    · rw [List.forall₂_map_left_iff, List.forall₂_map_right_iff, forall₂_comm]
      exact (parts_corners h2 (R := fun v w => SamePlace w.pos v.pos)
        fun _ _ _ _ _ hm => mergedTo_place hm)

/-- C34: with the same geometry the build of the visuals always succeeds. -/
theorem C34_succeeds [LawfulEq F] (e : Entity F) (g : EntityGeo F) (bd : BrushData)
    (bl : TextureBlacklist) (hg : Fanned g.brushes) : ∃ v, brushVisual e g bd bl = .ok v := by
  cases hbd : bd.visualType with
  | none => exact ⟨.none, by unfold brushVisual; rw [hbd]⟩
  | mesh =>
    obtain ⟨v, _, h, _⟩ := brushVisual_ok e bd bl hbd hg
    exact ⟨v, h⟩

/-- C35 (partial): if vertices of one brush with the same texture at the same position have equal
attributes, every triangle corner keeps all its attributes. Missing: the general claim, which is false, see
`C35_attributes_can_change`. -/
theorem C35_attributes_partial [LawfulEq F] (e : Entity F) (g : EntityGeo F) (bd : BrushData)
    (bl : TextureBlacklist) (v : VisualGeometry F) (hg : Fanned g.brushes)
    (hsmooth : ∀ b ∈ g.brushes, ∀ p ∈ b.planes, ∀ q ∈ b.planes, p.texture = q.texture →
      ∀ x ∈ p.vertices, ∀ y ∈ q.vertices, EqV3 x.pos y.pos → SameAttrs x y)
    (h : brushVisual e g bd bl = .ok v) (s : MeshSurface F) (hs : s ∈ surfaces v) :
    ∃ vs cs, Arrays s vs ∧ Corners vs s.indices cs ∧
      List.Forall₂ SameAttrs cs ((shownFaces bl s.texture g.brushes).flatten.flatMap faceCorners) := by
  obtain ⟨_, _, h1⟩ := brushVisual_surface hg h hs
  obtain ⟨parts, h2, ⟨_, h3⟩ | ⟨_, s', h3, _, ha, hc⟩⟩ := textureSurface_ok bl s.texture hg
  · rw [h1] at h3; cases h3
  · rw [h1] at h3; cases h3
    refine ⟨_, _, ha, hc, ?_⟩
    rw [forall₂_comm]
    refine parts_corners h2 (R := fun v w => SameAttrs w v) ?_
    intro ps hps x y hx hm
    rcases hm with rfl | ⟨_, hf⟩
    · exact .inl rfl
    · obtain ⟨b, hb, _, rfl⟩ := shown_mem hps
      obtain ⟨p, hp, hxp⟩ := List.mem_flatMap.1 hx
      obtain ⟨q, hq, hyq⟩ := List.mem_flatMap.1 (List.mem_of_find?_eq_some hf)
      obtain ⟨hp1, hp2⟩ := List.mem_filter.1 hp
      obtain ⟨hq1, hq2⟩ := List.mem_filter.1 hq
      exact hsmooth b hb q hq1 p hp1 ((of_decide_eq_true hq2).trans (of_decide_eq_true hp2).symm) y hyq x hxp
        (eqV3_iff.2 (List.find?_some (p := fun comp => samePos comp x) hf))

/-- C35 (partial): in general each corner either keeps all its attributes, or an equal vertex comes before it among the
vertices of the same brush and the corner takes the attributes of the first vertex there at its position. -/
theorem C35_redirect_partial [LawfulEq F] (e : Entity F) (g : EntityGeo F) (bd : BrushData)
    (bl : TextureBlacklist) (v : VisualGeometry F) (hg : Fanned g.brushes)
    (h : brushVisual e g bd bl = .ok v) (s : MeshSurface F) (hs : s ∈ surfaces v) :
    ∃ vs cs, Arrays s vs ∧ Corners vs s.indices cs ∧
      List.Forall₂ (fun w x => w = x ∨ ∃ ps ∈ shownFaces bl s.texture g.brushes,
        (∃ pre post, ps.flatMap (·.vertices) = pre ++ x :: post ∧ ∃ u ∈ pre, EqAttrs u x) ∧
        ∃ before after, ps.flatMap (·.vertices) = before ++ w :: after ∧ EqV3 w.pos x.pos ∧
          ∀ u ∈ before, ¬ EqV3 u.pos x.pos)
      cs ((shownFaces bl s.texture g.brushes).flatten.flatMap faceCorners) := by
  obtain ⟨_, _, h1⟩ := brushVisual_surface hg h hs
  obtain ⟨parts, h2, ⟨_, h3⟩ | ⟨_, s', h3, _, ha, hc⟩⟩ := textureSurface_ok bl s.texture hg
  · rw [h1] at h3; cases h3
  · rw [h1] at h3; cases h3
    refine ⟨_, _, ha, hc, ?_⟩
    rw [forall₂_comm]
    refine parts_corners h2 ?_
    intro ps hps x y hx hm
    rcases hm with rfl | ⟨⟨pre, post, hv, u, hu, hux⟩, hf⟩
    · exact .inl rfl
    · obtain ⟨h4, before, after, h5, h6⟩ := List.find?_eq_some_iff_append.1 hf
      refine .inr ⟨ps, hps, ⟨pre, post, hv, u, hu, eqAttrs_iff.2 hux⟩, before, after, h5, eqV3_iff.2 h4, fun u hu e => ?_⟩
      have := h6 u hu
      rw [show samePos u x = true from eqV3_iff.1 e] at this
      cases this

/-- C35 (partial): if no two vertices of the faces of a brush with the texture of the surface are equal in all attributes,
every triangle corner keeps exactly its attributes. -/
theorem C35_distinct_partial [LawfulEq F] (e : Entity F) (g : EntityGeo F) (bd : BrushData)
    (bl : TextureBlacklist) (v : VisualGeometry F) (hg : Fanned g.brushes)
    (h : brushVisual e g bd bl = .ok v) (s : MeshSurface F) (hs : s ∈ surfaces v)
    (hd : ∀ ps ∈ shownFaces bl s.texture g.brushes, (ps.flatMap (·.vertices)).Pairwise fun a b => ¬ EqAttrs a b) :
    ∃ vs, Arrays s vs ∧
      Corners vs s.indices ((shownFaces bl s.texture g.brushes).flatten.flatMap faceCorners) := by
  obtain ⟨vs, cs, ha, hc, hr⟩ := C35_redirect_partial e g bd bl v hg h s hs
  refine ⟨vs, ha, ?_⟩
  have : List.Forall₂ Eq cs ((shownFaces bl s.texture g.brushes).flatten.flatMap faceCorners) := by
    refine hr.imp fun w x hwx => ?_
    rcases hwx with rfl | ⟨ps, hps, ⟨pre, post, hv, u, hu, hux⟩, _⟩
    · rfl
    · have := hd ps hps
      rw [hv, List.pairwise_append] at this
      exact absurd hux (this.2.2 u hu x (by simp))
  rw [List.forall₂_eq_eq_eq] at this
  rw [← this]
  exact hc

/-- C36: the vertices of a surface are made of one part per visible brush; in a part no two vertices are
equal in all attributes, each comes from a shown face of that brush and every vertex of these faces is
represented. -/
theorem C36_no_duplicates [LawfulEq F] (e : Entity F) (g : EntityGeo F) (bd : BrushData)
    (bl : TextureBlacklist) (v : VisualGeometry F) (hg : Fanned g.brushes)
    (h : brushVisual e g bd bl = .ok v) (s : MeshSurface F) (hs : s ∈ surfaces v) :
    ∃ parts : List (List (Vertex F)), Arrays s parts.flatten ∧
      List.Forall₂ (fun ps part =>
          (part.Pairwise fun a b => ¬ EqAttrs a b ∧ ¬ EqAttrs b a) ∧
          (∀ x ∈ part, ∃ p ∈ ps, x ∈ p.vertices) ∧
          ∀ p ∈ ps, ∀ x ∈ p.vertices, ∃ w ∈ part, SameAttrs w x)
        (shownFaces bl s.texture g.brushes) parts := by
  obtain ⟨_, _, h1⟩ := brushVisual_surface hg h hs
  obtain ⟨parts, h2, ⟨_, h3⟩ | ⟨_, s', h3, _, ha, hc⟩⟩ := textureSurface_ok bl s.texture hg
  · rw [h1] at h3; cases h3
  · rw [h1] at h3; cases h3
    refine ⟨parts.map (·.1), by rw [← List.flatMap_def]; exact ha, ?_⟩
    rw [List.forall₂_map_right_iff]
    refine h2.imp ?_
    intro ps part hp
    refine ⟨?_, ?_, ?_⟩
    · refine hp.distinct.imp ?_
      intro a b hab
      refine ⟨fun he => ?_, fun he => ?_⟩
      · rw [eqAttrs_iff.1 he] at hab; cases hab
      · rw [sameVertex_symm (eqAttrs_iff.1 he)] at hab; cases hab
    · intro x hx
      obtain ⟨p, hp, hxp⟩ := List.mem_flatMap.1 (hp.mem x hx)
      exact ⟨p, hp, hxp⟩
    · intro p hpp x hx
      obtain ⟨w, hw, he⟩ := hp.complete x (List.mem_flatMap.2 ⟨p, hpp, hx⟩)
      refine ⟨w, hw, ?_⟩
      rcases he with he | he
      · exact .inl he
      · exact .inr (eqAttrs_iff.2 he)

theorem surface_iff [LawfulEq F] (g : EntityGeo F) (bl : TextureBlacklist) (hg : Fanned g.brushes)
    (t : Option Str) :
    (∃ s, textureSurface g bl t = .ok (some s)) ↔
      ∃ b ∈ g.brushes, ¬ Hidden bl b ∧ ∃ p ∈ b.planes, p.texture = t ∧ p.vertices ≠ [] := by
  obtain ⟨parts, h2, h3⟩ := textureSurface_ok bl t hg
  have hn := parts_nil_iff h2
  have hp : (∃ s, textureSurface g bl t = .ok (some s)) ↔ parts.flatMap (·.1) ≠ [] := by
    rcases h3 with ⟨h3, h4⟩ | ⟨h3, s, h4, _⟩
    · rw [h4]
      refine ⟨?_, fun h => absurd h3 h⟩
      rintro ⟨s, hs⟩
      cases hs
    · exact ⟨fun _ => h3, fun _ => ⟨s, h4⟩⟩
  rw [hp, Ne, hn]
  constructor
  · intro h
    by_contra hc
    apply h
    intro ps hps p hp
    obtain ⟨b, hb, hh, rfl⟩ := shown_mem hps
    obtain ⟨h5, h6⟩ := List.mem_filter.1 hp
    by_contra hv
    exact hc ⟨b, hb, hh, p, h5, of_decide_eq_true h6, hv⟩
  · rintro ⟨b, hb, hh, p, hp, ht, hv⟩ hall
    refine hv (hall (b.planes.filter fun p => p.texture = t) ?_ p ?_)
    · exact List.mem_map.2 ⟨b, List.mem_filter.2 ⟨hb, decide_eq_true hh⟩, rfl⟩
    · exact List.mem_filter.2 ⟨hp, decide_eq_true ht⟩

theorem surfaces_textures [LawfulEq F] {g : EntityGeo F} {e : Entity F} {bd : BrushData}
    {bl : TextureBlacklist} {v : VisualGeometry F} (hg : Fanned g.brushes) (hbd : bd.visualType = .mesh)
    (h : brushVisual e g bd bl = .ok v) :
    (surfaces v).map (·.texture) =
      (tried bl e).filter fun t => decide (∃ b ∈ g.brushes, ¬ Hidden bl b ∧ ∃ p ∈ b.planes, p.texture = t ∧ p.vertices ≠ []) := by
  obtain ⟨v', os, h1, h2, h3, _⟩ := brushVisual_ok e bd bl hbd hg
  rw [h] at h1; cases h1
  rw [h3]
  clear h3
  have key : ∀ (ts : List (Option Str)) (os : List (Option (MeshSurface F))),
      List.Forall₂ (fun t o => textureSurface g bl t = .ok o) ts os →
      (os.filterMap id).map (·.texture) = ts.filter fun t =>
        decide (∃ b ∈ g.brushes, ¬ Hidden bl b ∧ ∃ p ∈ b.planes, p.texture = t ∧ p.vertices ≠ []) := by
    intro ts os h2
    induction h2 with
    | nil => rfl
    | @cons t o ts os hto _ ih =>
      have hiff := surface_iff g bl hg t
      rw [List.filter_cons]
      cases o with
      | none =>
        rw [if_neg (by
          rw [decide_eq_true_eq, ← hiff, hto]
          rintro ⟨s, hs⟩; cases hs)]
        exact ih
      | some s =>
        rw [if_pos (by
          rw [decide_eq_true_eq, ← hiff]
          exact ⟨s, hto⟩)]
        have hst : s.texture = t := by
          obtain ⟨parts, _, ⟨_, h'⟩ | ⟨_, s', h', e', _⟩⟩ := textureSurface_ok bl t hg
          · rw [hto] at h'; cases h'
          · rw [hto] at h'
            cases h'
            exact e'
        rw [List.filterMap_cons_some (f := id) rfl, List.map_cons, hst, ih]
  exact key _ _ h2

/-- C37: which textures have a surface. The textures are pairwise different, a texture has a surface exactly
when some visible face with a corner carries it, and the surface of untextured faces comes last. -/
theorem C37_one_surface_per_texture [LawfulEq F] (e : Entity F) (g : EntityGeo F) (bd : BrushData)
    (bl : TextureBlacklist) (v : VisualGeometry F) (hg : Fanned g.brushes) (he : FromEntity e g.brushes)
    (hbd : bd.visualType = .mesh) (h : brushVisual e g bd bl = .ok v) :
    ((surfaces v).map (·.texture)).Nodup ∧
    (∀ t, (∃ s ∈ surfaces v, s.texture = some t) ↔ t ∉ bl.plane ∧
      ∃ b ∈ g.brushes, ¬ Hidden bl b ∧ ∃ p ∈ b.planes, p.texture = some t ∧ p.vertices ≠ []) ∧
    ((∃ s ∈ surfaces v, s.texture = none) ↔
      ∃ b ∈ g.brushes, ¬ Hidden bl b ∧ ∃ p ∈ b.planes, p.texture = none ∧ p.vertices ≠ []) ∧
    ∀ pre s post, surfaces v = pre ++ s :: post → s.texture = none → post = [] := by
  have ht := surfaces_textures hg hbd h
  have hm : ∀ t, (∃ s ∈ surfaces v, s.texture = t) ↔ t ∈ tried bl e ∧
      ∃ b ∈ g.brushes, ¬ Hidden bl b ∧ ∃ p ∈ b.planes, p.texture = t ∧ p.vertices ≠ [] := by
    intro t
    have : (∃ s ∈ surfaces v, s.texture = t) ↔ t ∈ (surfaces v).map (·.texture) := by
      rw [List.mem_map]
    rw [this, ht, List.mem_filter, decide_eq_true_eq]
  refine ⟨?_, ?_, ?_, ?_⟩
  · rw [ht]; exact (tried_nodup bl e).sublist List.filter_sublist
  · intro t
    rw [hm]
    refine and_congr_left ?_
    rintro ⟨b, hb, _, p, hp, hpt, _⟩
    unfold tried
    simp only [List.mem_append, List.mem_map, Option.some.injEq, exists_eq_right, List.mem_singleton,
      reduceCtorEq, or_false, uniqueTextures_mem, List.mem_flatMap]
    refine ⟨fun h => h.2, fun h => ⟨?_, h⟩⟩
    obtain ⟨eb, heb, ep, hep, e'⟩ := he b hb p hp t hpt
    exact ⟨eb, heb, ep, hep, e'⟩
  · rw [hm]
    refine ⟨fun h => h.2, fun h => ⟨?_, h⟩⟩
    unfold tried; simp
  · intro pre s post hsplit hs
    have h1 : (pre ++ s :: post).map (·.texture) =
        (tried bl e).filter fun t => decide (∃ b ∈ g.brushes, ¬ Hidden bl b ∧ ∃ p ∈ b.planes, p.texture = t ∧ p.vertices ≠ []) := by
      rw [← hsplit]; exact ht
    unfold tried at h1
    rw [List.filter_append, List.map_append, List.map_cons, hs] at h1
    generalize hA : List.filter _ (List.map some _) = A at h1
    have hnA : none ∉ A := by
      rw [← hA]
      intro hmem
      obtain ⟨x, _, hx⟩ := List.mem_map.1 (List.mem_filter.1 hmem).1
      cases hx
    have h2 : (List.filter (fun t => decide (∃ b ∈ g.brushes, ¬ Hidden bl b ∧ ∃ p ∈ b.planes, p.texture = t ∧ p.vertices ≠ []))
        [(none : Option Str)]).length ≤ 1 := (List.filter_sublist).length_le
    generalize List.filter _ [(none : Option Str)] = B at h1 h2
    -- `none` is not in `A`, so `A` is a prefix of the part before it
    have hlen := congrArg List.length h1
    have hget : (A ++ B)[pre.length]? = some none := by
      rw [← h1, List.getElem?_append_right (by simp)]
      simp
    have hge : A.length ≤ pre.length := by
      by_contra hlt
      rw [List.getElem?_append_left (by omega)] at hget
      exact hnA (List.mem_of_getElem? hget)
    simp only [List.length_append, List.length_map, List.length_cons] at hlen
    exact List.length_eq_zero_iff.1 (by omega)

/-- C38 (partial): every vertex of visual geometry comes from a face whose known texture is not on the face
blacklist, in a brush that has a face whose known texture is not on the brush blacklist. Missing: faces with
blacklisted but unknown textures, for which the claim is false, see `C38_unknown_texture_is_rendered`. -/
theorem C38_blacklisted_not_rendered_partial [LawfulEq F] (e : Entity F) (g : EntityGeo F) (bd : BrushData)
    (bl : TextureBlacklist) (v : VisualGeometry F) (hg : Fanned g.brushes)
    (h : brushVisual e g bd bl = .ok v) (s : MeshSurface F) (hs : s ∈ surfaces v) :
    ∃ vs, Arrays s vs ∧ ∀ x ∈ vs, ∃ b ∈ g.brushes, ∃ p ∈ b.planes, x ∈ p.vertices ∧ p.texture = s.texture ∧
      (∀ t, p.texture = some t → t ∉ bl.plane) ∧ ∃ q ∈ b.planes, ∀ t, q.texture = some t → t ∉ bl.brush := by
  obtain ⟨_, ht, h1⟩ := brushVisual_surface hg h hs
  obtain ⟨parts, h2, ⟨_, h3⟩ | ⟨_, s', h3, _, ha, hc⟩⟩ := textureSurface_ok bl s.texture hg
  · rw [h1] at h3; cases h3
  · rw [h1] at h3; cases h3
    refine ⟨_, ha, ?_⟩
    intro x hx
    obtain ⟨part, hpart, hxp⟩ := List.mem_flatMap.1 hx
    obtain ⟨ps, hps, hbp⟩ := forall₂_right h2 hpart
    obtain ⟨b, hb, hh, rfl⟩ := shown_mem hps
    obtain ⟨p, hp, hxv⟩ := List.mem_flatMap.1 (hbp.mem x hxp)
    obtain ⟨hp1, hp2⟩ := List.mem_filter.1 hp
    refine ⟨b, hb, p, hp1, hxv, of_decide_eq_true hp2, ?_, ?_⟩
    · intro t hpt
      rw [← of_decide_eq_true hp2, hpt] at ht
      unfold tried at ht
      simp only [List.mem_append, List.mem_map, Option.some.injEq, exists_eq_right, List.mem_singleton,
        reduceCtorEq, or_false, uniqueTextures_mem] at ht
      exact ht.2
    · unfold Hidden at hh
      by_contra hc
      apply hh
      intro q hq
      by_contra hk
      apply hc
      refine ⟨q, hq, ?_⟩
      intro t hqt
      rw [hqt] at hk
      simpa [knownIn] using hk

/-- C39: every visible face is in exactly one surface, the one with its texture, where its triangles form a
block of the triangle list. -/
theorem C39_nothing_lost [LawfulEq F] (e : Entity F) (g : EntityGeo F) (bd : BrushData)
    (bl : TextureBlacklist) (v : VisualGeometry F) (hg : Fanned g.brushes) (he : FromEntity e g.brushes)
    (hbd : bd.visualType = .mesh) (h : brushVisual e g bd bl = .ok v)
    (b : BrushGeo F) (hb : b ∈ g.brushes) (hh : ¬ Hidden bl b) (p : PlaneGeo F) (hp : p ∈ b.planes)
    (hne : p.vertices ≠ []) (hbl : ∀ t, p.texture = some t → t ∉ bl.plane) :
    ∃ s ∈ surfaces v, s.texture = p.texture ∧ (∀ s' ∈ surfaces v, s'.texture = p.texture → s' = s) ∧
      ∃ pre mid post, Corners s.vertices s.indices (pre ++ mid ++ post) ∧
        List.Forall₂ SamePlace mid ((faceCorners p).map (·.pos)) ∧ 3 ∣ pre.length := by
  obtain ⟨hnd, h1, h2, _⟩ := C37_one_surface_per_texture e g bd bl v hg he hbd h
  have hs : ∃ s ∈ surfaces v, s.texture = p.texture := by
    cases ht : p.texture with
    | none => exact h2.2 ⟨b, hb, hh, p, hp, ht, hne⟩
    | some t => exact (h1 t).2 ⟨hbl t ht, b, hb, hh, p, hp, ht, hne⟩
  obtain ⟨s, hs, hst⟩ := hs
  refine ⟨s, hs, hst, ?_, ?_⟩
  · intro s' hs' ht'
    exact nodup_map_inj hnd hs' hs (ht'.trans hst.symm)
  · obtain ⟨cs, hc, hf⟩ := C34_triangles_kept e g bd bl v hg h s hs
    have hmem : p ∈ (shownFaces bl s.texture g.brushes).flatten := by
      refine List.mem_flatten.2 ⟨b.planes.filter fun p => p.texture = s.texture, ?_, ?_⟩
      · exact List.mem_map.2 ⟨b, List.mem_filter.2 ⟨hb, decide_eq_true hh⟩, rfl⟩
      · exact List.mem_filter.2 ⟨hp, decide_eq_true hst.symm⟩
    obtain ⟨l1, l2, hl⟩ := List.append_of_mem hmem
    have hfan : ∀ q ∈ l1, IsFan q.vertices.length q.indices := by
      intro q hq
      have hq' : q ∈ (shownFaces bl s.texture g.brushes).flatten := by rw [hl]; simp [hq]
      obtain ⟨ps, hps, hq'⟩ := List.mem_flatten.1 hq'
      obtain ⟨b', hb', _, rfl⟩ := shown_mem hps
      exact hg b' hb' q (List.mem_filter.1 hq').1
    rw [hl, List.flatMap_append, List.flatMap_cons, List.map_append, List.map_append] at hf
    obtain ⟨pre, rest, hpre, hrest, rfl⟩ := forall₂_append_right hf
    obtain ⟨mid, post, hmid, _, rfl⟩ := forall₂_append_right hrest
    refine ⟨pre, mid, post, by rw [List.append_assoc]; exact hc, hmid, ?_⟩
    rw [hpre.length_eq, List.length_map]
    clear hf hl hpre
    induction l1 with
    | nil => exact ⟨0, rfl⟩
    | cons q l1 ih =>
      rw [List.flatMap_cons, List.length_append, faceCorners_length (hfan q (by simp))]
      exact Nat.dvd_add (isFan_length (hfan q (by simp))) (ih fun x hx => hfan x (by simp [hx]))

/-- C40: convex collision has one shape per brush, in order, at the brush centre; its points are positions
of face corners, pairwise different, and represent every corner. -/
theorem C40_convex [LawfulEq F] (g : EntityGeo F) :
    ∃ shapes, collisionOf .convex g = .ok (.convex shapes) ∧
      List.Forall₂ (fun b shape => shape.center = b.center ∧
        (∀ x ∈ shape.points, ∃ p ∈ b.planes, ∃ v ∈ p.vertices, v.pos = x) ∧
        (∀ p ∈ b.planes, ∀ v ∈ p.vertices, ∃ x ∈ shape.points, SamePlace x v.pos) ∧
        AllDifferent shape.points) g.brushes shapes := by
  refine ⟨_, rfl, ?_⟩
  rw [List.forall₂_map_right_iff, List.forall₂_same]
  intro b _
  have hmem : ∀ (l : List (V3 F)) x, x ∈ uniquePoints l → x ∈ l := by
    intro l
    induction l with
    | nil => intro x hx; exact hx
    | cons a l ih =>
      intro x hx
      rw [uniquePoints, List.mem_append] at hx
      rcases hx with hx | hx
      · split at hx
        · rw [List.mem_singleton.1 hx]; simp
        · cases hx
      · simp [ih x hx]
  have hcov : ∀ (l : List (V3 F)) x, x ∈ l → ∃ y ∈ uniquePoints l, SamePlace y x := by
    intro l
    induction l with
    | nil => intro x hx; cases hx
    | cons a l ih =>
      intro x hx
      rw [uniquePoints]
      rcases List.mem_cons.1 hx with rfl | hx
      · split
        · exact ⟨x, by simp, .inl rfl⟩
        · rename_i hc
          rw [Option.isNone_iff_eq_none, List.find?_eq_none] at hc
          simp only [not_forall] at hc
          obtain ⟨y, hy, hxy⟩ := hc
          obtain ⟨z, hz, hzy⟩ := ih y hy
          refine ⟨z, by simpa using hz, .inr ?_⟩
          have hyx := V3.beq_symm (by simpa using hxy : V3.beq x y = true)
          rcases hzy with rfl | hzy
          · exact eqV3_iff.2 hyx
          · exact eqV3_iff.2 (V3.beq_trans (eqV3_iff.1 hzy) hyx)
      · obtain ⟨y, hy, hyx⟩ := ih x hx
        exact ⟨y, by simp [hy], hyx⟩
  have hpw : ∀ (l : List (V3 F)), (uniquePoints l).Pairwise fun x y => V3.beq x y = false ∧ V3.beq y x = false := by
    intro l
    induction l with
    | nil => exact .nil
    | cons a l ih =>
      rw [uniquePoints]
      split
      · rename_i hc
        rw [Option.isNone_iff_eq_none, List.find?_eq_none] at hc
        refine List.pairwise_cons.2 ⟨?_, ih⟩
        intro y hy
        have h1 := hc y (hmem l y hy)
        have h2 : V3.beq a y = false := by simpa using h1
        refine ⟨h2, ?_⟩
        cases h3 : V3.beq y a with
        | false => rfl
        | true => rw [V3.beq_symm h3] at h2; cases h2
      · exact ih
  refine ⟨rfl, ?_, ?_, allDifferent_iff.2 (hpw _)⟩
  · intro x hx
    obtain ⟨p, hp, hx⟩ := List.mem_flatMap.1 (hmem _ x hx)
    obtain ⟨v, hv, rfl⟩ := List.mem_map.1 hx
    exact ⟨p, hp, v, hv, rfl⟩
  · intro p hp v hv
    exact hcov _ _ (List.mem_flatMap.2 ⟨p, hp, List.mem_map_of_mem hv⟩)

/-- C41: concave collision. -/
theorem C41_concave [LawfulEq F] (g : EntityGeo F) (hg : Fanned g.brushes) :
    ((∀ b ∈ g.brushes, ∀ p ∈ b.planes, p.vertices = []) ∧ collisionOf .concave g = .ok .none) ∨
    ((∃ b ∈ g.brushes, ∃ p ∈ b.planes, p.vertices ≠ []) ∧
      ∃ shape : ConcaveCollision F, collisionOf .concave g = .ok (.concave [shape]) ∧
        shape.center = g.center ∧ 3 ∣ shape.indices.length ∧
        (∃ cs, Corners shape.vertices shape.indices cs ∧
          List.Forall₂ SamePlace cs
            ((g.brushes.flatMap fun b => b.planes.flatMap faceCorners).map (·.pos))) ∧
        ∃ parts : List (List (V3 F)), shape.vertices = parts.flatten ∧
          List.Forall₂ (fun b part =>
            AllDifferent part ∧
            (∀ x ∈ part, ∃ p ∈ b.planes, ∃ v ∈ p.vertices, v.pos = x) ∧
            ∀ p ∈ b.planes, ∀ v ∈ p.vertices, ∃ x ∈ part, SamePlace x v.pos) g.brushes parts) := by
  obtain ⟨parts, is, h1, h2, h3⟩ := gatherEntity_ok same_pos g none none hg.valid
  rw [keepFirst_uniquePosition] at h1
  simp only [Option.getD_none, List.filter_true] at h3
  have hnil : parts.flatMap (·.1) = [] ↔ ∀ b ∈ g.brushes, ∀ p ∈ b.planes, p.vertices = [] := by
    clear h1 h2 hg
    generalize g.brushes = bs at h3 ⊢
    induction h3 with
    | nil => simp
    | @cons b part bs parts k1 _ ih =>
      rw [List.flatMap_cons, List.append_eq_nil_iff, ih]
      simp only [List.mem_cons, forall_eq_or_imp, and_congr_left_iff]
      intro _
      constructor
      · intro hn p hp
        cases hv : p.vertices with
        | nil => rfl
        | cons v vs =>
          obtain ⟨w, hw, _⟩ := k1.complete v (List.mem_flatMap.2 ⟨p, hp, by simp [hv]⟩)
          rw [hn] at hw; cases hw
      · intro hn
        cases hv : part.1 with
        | nil => rfl
        | cons v vs =>
          obtain ⟨p, hp, hpv⟩ := List.mem_flatMap.1 (k1.mem v (by simp [hv]))
          rw [hn p hp] at hpv; cases hpv
  unfold collisionOf concaveCollision
  simp only
  rw [h1, Outcome.ok_bind]
  simp only
  have hcorners : List.Forall₂ (fun v w => SamePlace w.pos v.pos)
      (g.brushes.flatMap fun b => b.planes.flatMap faceCorners) (parts.flatMap (·.2)) := by
    have h4 : List.Forall₂ (fun ps (part : List (Vertex F) × List (Vertex F)) => BrushPart samePos ps part.1 part.2)
        (g.brushes.map (·.planes)) parts := by
      rw [List.forall₂_map_left_iff]; exact h3
    have := parts_corners h4 (R := fun v w => SamePlace w.pos v.pos) fun _ _ _ _ _ hm => mergedTo_place hm
    rw [← List.flatMap_def, List.flatMap_assoc] at this
    exact this
  by_cases hp : parts.flatMap (·.1) = []
  · left
    refine ⟨hnil.1 hp, ?_⟩
    rw [hp]; rfl
  · right
    refine ⟨?_, ?_⟩
    · by_contra hc
      apply hp
      rw [hnil]
      intro b hb p hpp
      by_contra hv
      exact hc ⟨b, hb, p, hpp, hv⟩
    · refine ⟨⟨g.center, (parts.flatMap (·.1)).map (·.pos), is⟩, ?_, rfl, ?_, ?_, ?_⟩
      · rw [if_neg]
        simpa using hp
      · show 3 ∣ is.length
        rw [h2.length, ← hcorners.length_eq]
        clear hnil h1 h2 h3 hcorners hp
        have hps : ∀ ps : List (PlaneGeo F), (∀ p ∈ ps, IsFan p.vertices.length p.indices) →
            3 ∣ (ps.flatMap faceCorners).length := by
          intro ps
          induction ps with
          | nil => intro _; exact ⟨0, rfl⟩
          | cons p ps ih =>
            intro hp
            rw [List.flatMap_cons, List.length_append, faceCorners_length (hp p (by simp))]
            exact Nat.dvd_add (isFan_length (hp p (by simp))) (ih fun q hq => hp q (by simp [hq]))
        generalize g.brushes = bs at hg
        induction bs with
        | nil => exact ⟨0, rfl⟩
        | cons b bs ih =>
          rw [List.flatMap_cons, List.length_append]
          exact Nat.dvd_add (hps _ (hg b (by simp))) (ih fun c hc => hg c (by simp [hc]))
      · refine ⟨(parts.flatMap (·.2)).map (·.pos), h2.map _, ?_⟩
        rw [List.forall₂_map_left_iff, List.forall₂_map_right_iff, forall₂_comm]
        exact hcorners
      · refine ⟨parts.map fun p => p.1.map (·.pos), ?_, ?_⟩
        · show (parts.flatMap (·.1)).map (·.pos) = _
          rw [List.map_flatMap, List.flatMap_def]
        · rw [List.forall₂_map_right_iff]
          refine h3.imp ?_
          intro b part hb
          refine ⟨?_, ?_, ?_⟩
          · rw [allDifferent_iff, List.pairwise_map]
            refine hb.distinct.imp ?_
            intro a c hac
            refine ⟨hac, ?_⟩
            cases h5 : V3.beq c.pos a.pos with
            | false => rfl
            | true =>
              have : samePos a c = true := V3.beq_symm h5
              rw [this] at hac; cases hac
          · intro x hx
            obtain ⟨v, hv, rfl⟩ := List.mem_map.1 hx
            obtain ⟨p, hp, hv⟩ := List.mem_flatMap.1 (hb.mem v hv)
            exact ⟨p, hp, v, hv, rfl⟩
          · intro p hp v hv
            obtain ⟨w, hw, e⟩ := hb.complete v (List.mem_flatMap.2 ⟨p, hp, hv⟩)
            refine ⟨w.pos, List.mem_map_of_mem hw, ?_⟩
            rcases e with rfl | e
            · exact .inl rfl
            · exact .inr (eqV3_iff.2 e)

end

section Examples
attribute [local instance] refPlatform intArith

/-- The entity of the geometry examples with one brush with the given faces. -/
def boxEntity (faces : List (BrushPlane Int)) : Entity Int := ⟨exampleEntity.properties, [⟨faces⟩]⟩

/-- A box whose last face is given twice. -/
def doubledBox : List (BrushPlane Int) := exampleBox ++ [boxFace ⟨0, 0, 0⟩ ⟨0, 0, 1⟩ ⟨1, 0, 0⟩ .none]

/-- Mesh visuals, convex collision. -/
def meshData : BrushData := ⟨.mesh, .convex⟩

/-- A test of the visual geometry of a one-brush entity. -/
def visualTest (textures : TextureInfo) (bl : TextureBlacklist) (faces : List (BrushPlane Int))
    (test : EntityGeo Int → MeshSurface Int → Bool) : Bool :=
  match Geo.buildEntity textures (boxEntity faces) with
  | .ok g => match brushVisual (boxEntity faces) g meshData bl with
    | .ok v => (surfaces v).any (test g)
    | _ => false
  | _ => false

theorem visualTest_spec {textures : TextureInfo} {bl : TextureBlacklist} {faces : List (BrushPlane Int)}
    {test : EntityGeo Int → MeshSurface Int → Bool} (h : visualTest textures bl faces test = true) :
    ∃ g v s, Geo.buildEntity textures (boxEntity faces) = .ok g ∧
      brushVisual (boxEntity faces) g meshData bl = .ok v ∧ s ∈ surfaces v ∧ test g s = true := by
  unfold visualTest at h
  split at h
  · rename_i g hg
    split at h
    · rename_i v hv
      obtain ⟨s, hs, ht⟩ := List.any_eq_true.1 h
      exact ⟨g, v, s, hg, hv, hs, ht⟩
    · cases h
  · cases h

set_option maxRecDepth 20000 in
/-- C35 fails in general: for a box with a repeated face, triangle corners get the normals of another
face. -/
theorem C35_attributes_can_change :
    ∃ (textures : TextureInfo) (e : Entity Int) (g : EntityGeo Int) (v : VisualGeometry Int)
      (s : MeshSurface Int), Geo.buildEntity textures e = .ok g ∧
      brushVisual e g meshData TextureBlacklist.default = .ok v ∧ s ∈ surfaces v ∧
      s.indices.map (fun i => s.normals[i]?) ≠
        ((shownFaces TextureBlacklist.default s.texture g.brushes).flatten.flatMap faceCorners).map
          (fun c => some c.normal) := by
  have h : visualTest exampleTextures TextureBlacklist.default doubledBox (fun g s =>
      decide (s.indices.map (fun i => s.normals[i]?) ≠
        ((shownFaces TextureBlacklist.default s.texture g.brushes).flatten.flatMap faceCorners).map
          (fun c => some c.normal))) = true := by decide
  obtain ⟨g, v, s, h1, h2, h3, h4⟩ := visualTest_spec h
  exact ⟨_, _, g, v, s, h1, h2, h3, of_decide_eq_true h4⟩

set_option maxRecDepth 20000 in
/-- C38 fails in general: the faces of a box whose texture is on both blacklists are rendered if the
texture is not in the texture table. -/
theorem C38_unknown_texture_is_rendered :
    ∃ (textures : TextureInfo) (bl : TextureBlacklist) (e : Entity Int) (g : EntityGeo Int)
      (v : VisualGeometry Int) (s : MeshSurface Int),
      (∀ b ∈ e.brushes, ∀ p ∈ b.planes, p.texture ∈ bl.brush ∧ p.texture ∈ bl.plane) ∧
      Geo.buildEntity textures e = .ok g ∧ brushVisual e g meshData bl = .ok v ∧ s ∈ surfaces v ∧
      s.indices.length = 36 := by
  have h : visualTest (fun _ => none) ⟨[str! "stone"], [str! "stone"]⟩ exampleBox (fun _ s =>
      decide (s.indices.length = 36)) = true := by decide
  obtain ⟨g, v, s, h1, h2, h3, h4⟩ := visualTest_spec h
  refine ⟨_, _, _, g, v, s, ?_, h1, h2, h3, of_decide_eq_true h4⟩
  decide

/-! The hypotheses of C34–C41 hold for the box. -/

set_option maxRecDepth 20000 in
theorem exampleBox_geo : ∃ g, Geo.buildEntity exampleTextures exampleEntity = .ok g ∧
    g.brushes.length = 1 ∧ (∀ b ∈ g.brushes, b.planes.length = 6) ∧ Fanned g.brushes ∧
    FromEntity exampleEntity g.brushes := by
  have h : (match Geo.buildEntity exampleTextures exampleEntity with
    | .ok g => decide (g.brushes.length = 1 ∧ (∀ b ∈ g.brushes, b.planes.length = 6) ∧
        (∀ b ∈ g.brushes, ∀ p ∈ b.planes, p.texture = some (str! "stone")))
    | _ => false) = true := by decide
  split at h
  · rename_i g hg
    obtain ⟨h1, h2, h3⟩ := of_decide_eq_true h
    refine ⟨g, hg, h1, h2, ?_, ?_⟩
    · have hr : Geo.run exampleTextures [exampleEntity] = .ok [g] := by
        unfold Geo.run; rw [mapOut_cons, hg]; rfl
      have := run_faces hr
      cases this with
      | cons hb _ =>
        intro b hb' p hp
        obtain ⟨_, _, hbb⟩ := forall₂_right hb hb'
        obtain ⟨_, _, hpp⟩ := forall₂_right hbb hp
        exact C19_fan _ _ _ _ _ hpp
    · intro b hb p hp t ht
      rw [h3 b hb p hp] at ht
      cases ht
      exact ⟨⟨exampleBox⟩, by decide, exampleBox[0], by decide, by decide⟩
  · cases h

set_option maxRecDepth 20000 in
example : visualTest exampleTextures ⟨[str! "clip"], [str! "skip"]⟩ exampleBox (fun g s =>
    decide (s.texture = some (str! "stone") ∧ s.vertices.length = 24 ∧ s.indices.length = 36 ∧
      s.uvs.isSome = true ∧ (shownFaces ⟨[str! "clip"], [str! "skip"]⟩ s.texture g.brushes).flatten.length = 6))
    = true := by decide

set_option maxRecDepth 20000 in
-- no two vertices of the faces of the box agree in all attributes, as `C35_distinct_partial` supposes
example : ∃ g v s, Geo.buildEntity exampleTextures (boxEntity exampleBox) = .ok g ∧
    brushVisual (boxEntity exampleBox) g meshData TextureBlacklist.default = .ok v ∧ s ∈ surfaces v ∧ s.indices.length = 36 ∧
    ∀ ps ∈ shownFaces TextureBlacklist.default s.texture g.brushes,
      (ps.flatMap (·.vertices)).Pairwise fun a b => ¬ EqAttrs a b := by
  have h : visualTest exampleTextures TextureBlacklist.default exampleBox (fun g s => decide (s.indices.length = 36 ∧
      ∀ ps ∈ shownFaces TextureBlacklist.default s.texture g.brushes,
        (ps.flatMap (·.vertices)).Pairwise fun a b => sameVertex a b = false)) = true := by decide
  obtain ⟨g, v, s, h1, h2, h3, h4⟩ := visualTest_spec h
  obtain ⟨h4, h5⟩ := of_decide_eq_true h4
  refine ⟨g, v, s, h1, h2, h3, h4, fun ps hps => (h5 ps hps).imp fun h he => ?_⟩
  rw [eqAttrs_iff, h] at he
  cases he

-- the smoothness hypothesis of `C35_attributes_partial` on a geometry with shared corners
example : let v (x y : Int) : Vertex Int := ⟨⟨x, y, 0⟩, ⟨0, 0, 1⟩, (⟨1, 0, 0⟩, 1), none, none⟩
    let p : PlaneGeo Int := ⟨⟨0, 0, 0⟩, [v 0 0, v 1 0, v 0 1], [0, 1, 2], none⟩
    let q : PlaneGeo Int := ⟨⟨0, 0, 0⟩, [v 1 0, v 1 1, v 0 1], [0, 1, 2], none⟩
    Fanned [(⟨⟨0, 0, 0⟩, [p, q]⟩ : BrushGeo Int)] ∧
    (∀ x ∈ p.vertices, ∀ y ∈ q.vertices, EqV3 x.pos y.pos → SameAttrs x y) ∧
    gatherEntity ⟨⟨0, 0, 0⟩, [⟨⟨0, 0, 0⟩, [p, q]⟩]⟩ none none (some vertexUnique) =
      .ok ([v 0 0, v 1 0, v 0 1, v 1 1], [0, 1, 2, 1, 3, 2]) := by
  refine ⟨?_, ?_, by decide⟩
  · intro b hb p hp
    simp only [List.mem_cons, List.not_mem_nil, or_false] at hb hp
    subst hb
    simp only [List.mem_cons, List.not_mem_nil, or_false] at hp
    rcases hp with rfl | rfl <;> exact ⟨rfl, fun t ht => by
      have : t = 0 := by simp at ht; omega
      subst this; exact ⟨rfl, rfl, rfl⟩⟩
  · intro x hx y hy h
    left
    rw [eqV3_iff] at h
    revert x y
    decide

set_option maxRecDepth 20000 in
example : (match Geo.buildEntity exampleTextures exampleEntity with
    | .ok g => decide ((collisionOf .convex g).isOk = true ∧ (match collisionOf .concave g with
      | .ok (.concave [s]) => decide (s.vertices.length = 8 ∧ s.indices.length = 36)
      | _ => false) = true ∧ (match convexCollision g with
      | .convex [s] => decide (s.points.length = 8 ∧ s.center = ⟨1, 1, 1⟩)
      | _ => false) = true)
    | _ => false) = true := by decide

end Examples
end Quarch
