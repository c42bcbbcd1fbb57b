import Verif.Spec.Painted
import Verif.Props.Drawn
import Verif.Props.RealNormal
import Verif.Props.Gloss
import Verif.Props.Texels
import Verif.Props.Spin
import Verif.Props.Rendered
/-
C126: what is stored for the corners of the triangles of a scene.
-/
set_option linter.unusedSectionVars false
namespace Quarch
open Spec Scene

section
variable {F : Type} [Arith F]

theorem arrays_at {s : MeshSurface F} {vs : List (Vertex F)} (h : Arrays s vs) {i : Nat} {v : Vertex F}
    (hi : vs[i]? = some v) : DataAt s i v := by
  refine ⟨?_, ?_, ?_, ?_, ?_⟩
  · rw [h.pos, List.getElem?_map, hi]; rfl
  · rw [h.normal, List.getElem?_map, hi]; rfl
  · rw [h.tangent, List.getElem?_map, hi]; rfl
  · intro l hl
    have := congrArg (fun l => l[i]?) ((h.uv l).1 hl)
    simp only [List.getElem?_map, hi, Option.map_some] at this
    cases hc : l[i]? with
    | none => rw [hc] at this; cases this
    | some c => rw [hc] at this; exact ⟨c, Option.some.inj this, rfl⟩
  · intro l hl
    have := congrArg (fun l => l[i]?) ((h.color l).1 hl)
    simp only [List.getElem?_map, hi, Option.map_some] at this
    cases hc : l[i]? with
    | none => rw [hc] at this; cases this
    | some c => rw [hc] at this; exact ⟨c, Option.some.inj this, rfl⟩

theorem corners_index {α : Type} {vs : List α} {is : List Nat} {cs : List α} (h : Corners vs is cs) {n i : Nat}
    (hi : is[n]? = some i) : ∃ a, cs[n]? = some a ∧ vs[i]? = some a := by
  have := congrArg (fun l => l[n]?) h
  simp only [List.getElem?_map, hi, Option.map_some] at this
  cases hc : cs[n]? with
  | none => rw [hc] at this; cases this
  | some a => rw [hc] at this; exact ⟨a, rfl, Option.some.inj this⟩

theorem corners_index' {α : Type} {vs : List α} {is : List Nat} {cs : List α} (h : Corners vs is cs) {n : Nat} {a : α}
    (ha : cs[n]? = some a) : ∃ i, is[n]? = some i ∧ vs[i]? = some a := by
  have := congrArg (fun l => l[n]?) h
  simp only [List.getElem?_map, ha, Option.map_some] at this
  cases hc : is[n]? with
  | none => rw [hc] at this; cases this
  | some i => rw [hc] at this; exact ⟨i, rfl, Option.some.inj this⟩

/-- The vertices of the faces of a brush with the texture. -/
def texturedVertices (b : BrushGeo F) (t : Option Str) : List (Vertex F) :=
  (b.planes.filter fun p => p.texture = t).flatMap (·.vertices)

/-- What a surface stores for the corner `u` of a face. -/
def StoredAt (s : MeshSurface F) (b : BrushGeo F) (i : Nat) (u : Vertex F) : Prop :=
  ∃ w, DataAt s i w ∧ MergedTo sameVertex (texturedVertices b s.texture) u w

theorem surface_data [LawfulEq F] {g : EntityGeo F} {bl : TextureBlacklist} {t : Option Str}
    {s : MeshSurface F} (hg : Fanned g.brushes) (h : textureSurface g bl t = .ok (some s)) :
    (∀ i j k, IndexTriple s.indices i j k → ∃ bg ∈ g.brushes, ¬ Hidden bl bg ∧ ∃ p ∈ bg.planes,
      p.texture = t ∧ ∃ u v w, TriangleOf p.vertices p.indices u v w ∧
        StoredAt s bg i u ∧ StoredAt s bg j v ∧ StoredAt s bg k w) ∧
    (∀ bg ∈ g.brushes, ¬ Hidden bl bg → ∀ p ∈ bg.planes, p.texture = t → ∀ u v w,
      TriangleOf p.vertices p.indices u v w → ∃ i j k, IndexTriple s.indices i j k ∧
        StoredAt s bg i u ∧ StoredAt s bg j v ∧ StoredAt s bg k w) := by
  obtain ⟨parts, h2, ⟨_, h3⟩ | ⟨_, s', h3, hst, ha, hc⟩⟩ := textureSurface_ok bl t hg
  · rw [h] at h3; cases h3
  · rw [h] at h3; cases h3
    unfold shownFaces at h2
    rw [List.forall₂_map_left_iff] at h2
    have hfan : ∀ b ∈ g.brushes.filter fun b => ¬ Hidden bl b, ∀ p ∈ b.planes.filter fun p => p.texture = t,
        IsFan p.vertices.length p.indices := fun b hb p hp =>
      hg b (List.mem_filter.1 hb).1 p (List.mem_filter.1 hp).1
    have hthree : ∀ b ∈ g.brushes.filter fun b => ¬ Hidden bl b, ∀ p ∈ b.planes.filter fun p => p.texture = t,
        3 ∣ (faceCorners p).length := by
      intro b hb p hp
      rw [faceCorners_length (hfan b hb p hp)]
      exact isFan_length (hfan b hb p hp)
    have hpart : ∀ part ∈ parts, 3 ∣ part.2.length := by
      intro part hpart
      obtain ⟨b, hb, hbp⟩ := forall₂_right h2 hpart
      rw [← hbp.corners.length_eq, List.length_flatMap]
      refine List.dvd_sum ?_
      intro n hn
      obtain ⟨p, hp, rfl⟩ := List.mem_map.1 hn
      exact hthree b hb p hp
    constructor
    · rintro i j k ⟨m, hi, hj, hk⟩
      obtain ⟨a, ca, va⟩ := corners_index hc hi
      obtain ⟨b, cb, vb⟩ := corners_index hc hj
      obtain ⟨c, cc, vc⟩ := corners_index hc hk
      obtain ⟨part, hpm, hT⟩ := (triple_flatMap hpart).1 ⟨m, ca, cb, cc⟩
      obtain ⟨bg, hbg, hbp⟩ := forall₂_right h2 hpm
      obtain ⟨u, v, w, hT', mu, mv, mw⟩ := (triple_rel hbp.corners).2 a b c hT
      obtain ⟨p, hp, hpT⟩ := (triple_flatMap (hthree bg hbg)).1 hT'
      obtain ⟨hbg1, hbg2⟩ := List.mem_filter.1 hbg
      obtain ⟨hp1, hp2⟩ := List.mem_filter.1 hp
      refine ⟨bg, hbg1, of_decide_eq_true hbg2, p, hp1, of_decide_eq_true hp2, u, v, w,
        (triple_corners (faceCorners_corners (hfan bg hbg p hp))).2 hpT, ?_⟩
      unfold StoredAt texturedVertices
      rw [hst]
      exact ⟨⟨a, arrays_at ha va, mu⟩, ⟨b, arrays_at ha vb, mv⟩, ⟨c, arrays_at ha vc, mw⟩⟩
    · intro bg hbg hh p hp htex u v w hT
      have hbg' : bg ∈ g.brushes.filter fun b => ¬ Hidden bl b := List.mem_filter.2 ⟨hbg, decide_eq_true hh⟩
      have hp' : p ∈ bg.planes.filter fun p => p.texture = t := List.mem_filter.2 ⟨hp, decide_eq_true htex⟩
      obtain ⟨part, hpm, hbp⟩ := forall₂_left h2 hbg'
      obtain ⟨a, b, c, hT', mu, mv, mw⟩ := (triple_rel hbp.corners).1 u v w ((triple_flatMap (hthree bg hbg')).2
        ⟨p, hp', (triple_corners (faceCorners_corners (hfan bg hbg' p hp'))).1 hT⟩)
      obtain ⟨m, ca, cb, cc⟩ := (triple_flatMap hpart).2 ⟨part, hpm, hT'⟩
      obtain ⟨i, hi, va⟩ := corners_index' hc ca
      obtain ⟨j, hj, vb⟩ := corners_index' hc cb
      obtain ⟨k, hk, vc⟩ := corners_index' hc cc
      refine ⟨i, j, k, ⟨m, hi, hj, hk⟩, ?_⟩
      unfold StoredAt texturedVertices
      rw [hst]
      exact ⟨⟨a, arrays_at ha va, mu⟩, ⟨b, arrays_at ha vb, mv⟩, ⟨c, arrays_at ha vc, mw⟩⟩

theorem surface_uvs [LawfulEq F] {g : EntityGeo F} {bl : TextureBlacklist} {t : Option Str}
    {s : MeshSurface F} (hg : Fanned g.brushes) (h : textureSurface g bl t = .ok (some s))
    (hu : ∀ bg ∈ g.brushes, ¬ Hidden bl bg → ∀ p ∈ bg.planes, p.texture = t → ∀ v ∈ p.vertices, v.uv.isSome = true) :
    ∃ l, s.uvs = some l := by
  obtain ⟨parts, h2, ⟨_, h3⟩ | ⟨_, s', h3, hst, ha, hc⟩⟩ := textureSurface_ok bl t hg
  · rw [h] at h3; cases h3
  · rw [h] at h3; cases h3
    refine ⟨(parts.flatMap (·.1)).filterMap (·.uv), (ha.uv _).2 ?_⟩
    have : ∀ v ∈ parts.flatMap (·.1), v.uv.isSome = true := by
      intro v hv
      obtain ⟨part, hpm, hvp⟩ := List.mem_flatMap.1 hv
      obtain ⟨ps, hps, hbp⟩ := forall₂_right h2 hpm
      obtain ⟨p, hp, hvp'⟩ := List.mem_flatMap.1 (hbp.mem v hvp)
      obtain ⟨b, hb, hh, rfl⟩ := shown_mem hps
      obtain ⟨hp1, hp2⟩ := List.mem_filter.1 hp
      exact hu b hb hh p hp1 (of_decide_eq_true hp2) v hvp'
    generalize parts.flatMap (·.1) = vs at this
    induction vs with
    | nil => rfl
    | cons v vs ih =>
      obtain ⟨c, hc⟩ := Option.isSome_iff_exists.1 (this v (by simp))
      rw [List.map_cons, List.filterMap_cons_some hc, List.map_cons, ih fun w hw => this w (by simp [hw]), hc]

variable [Platform]

/-- Where the surfaces of a scene come from. -/
theorem scene_surfaces [LawfulEq F] (depth : Nat)
    (order : List (Str × List (BrushGeo F)) → List (Str × List (BrushGeo F))) (horder : ∀ l, (order l).Perm l)
    (config : Config F) (nodes : List (Node F)) (h : Quarch.run depth order config = .ok nodes)
    (text : Str) (ht : config.mapFile = some text) (entities : List (Entity F)) (hl : LoadsAs text entities) :
    (∀ o v s, Occurs (.visual o v) nodes → s ∈ surfaces v → ∃ e ∈ entities, Anchored entities e ∧
      ∃ gg bl, Fanned gg.brushes ∧ textureSurface gg bl s.texture = .ok (some s) ∧
      ∀ bg ∈ gg.brushes, ¬ Hidden bl bg → ∃ br ∈ e.brushes,
        List.Forall₂ (fun p pg => Geo.buildPlane config.textureInfo e br.planes p = .ok pg) br.planes bg.planes ∧
        ∀ p ∈ br.planes, knownTexture config.textureInfo p = s.texture → ShownFace config e br p) ∧
    (∀ e ∈ entities, Anchored entities e → ∀ br ∈ e.brushes, ∀ p ∈ br.planes, ShownFace config e br p →
      ∃ face, Geo.buildPlane config.textureInfo e br.planes p = .ok face ∧ (face.vertices ≠ [] →
      ∃ o v s gg bl bg, Occurs (.visual o v) nodes ∧ s ∈ surfaces v ∧ Fanned gg.brushes ∧
        textureSurface gg bl s.texture = .ok (some s) ∧ bg ∈ gg.brushes ∧ ¬ Hidden bl bg ∧
        List.Forall₂ (fun p pg => Geo.buildPlane config.textureInfo e br.planes p = .ok pg) br.planes bg.planes ∧
        face ∈ bg.planes ∧ face.texture = s.texture)) := by
  obtain ⟨w, hwm, hw, huniq, hbuilt, hleaf⟩ := scene_leaves horder h ht hl
  have hown : ∀ {e : Entity F} {g : EntityGeo F}, Geo.buildEntity config.textureInfo e = .ok g →
      Fanned (ownBrushes e g.brushes) := fun hg b hb p hp => built_fanned hg b (List.mem_filter.1 hb).1 p hp
  have hlayf : ∀ {e : Entity F} {g : EntityGeo F} (t : Str), Geo.buildEntity config.textureInfo e = .ok g →
      Fanned (g.brushes.filter fun b => InLayer t b) :=
    fun t hg b hb p hp => built_fanned hg b (List.mem_filter.1 hb).1 p hp
  constructor
  · intro o v s hocc hs
    rcases (hleaf (.visual o v) (by intro o a cs; simp)).1 hocc with
      ⟨e, he, hanch, g, hg, hlf⟩ | ⟨t, layer, g, htt, hlay, hg, hk⟩
    · rcases hlf with ⟨v', hv', hm⟩ | ⟨c', _, hm⟩
      · obtain ⟨hm1, hne⟩ := visualChildren_mem hm
        cases hm1
        obtain ⟨d, pd, bd, hd, hdata, hmesh, hbv, _⟩ := entityVisual_mesh hv' hne
        obtain ⟨_, htried, hsurf⟩ := brushVisual_surface (hown hg) hbv hs
        refine ⟨e, he, hanch, _, _, hown hg, hsurf, fun bg hbg hh => ?_⟩
        obtain ⟨hbg1, hbg2⟩ := List.mem_filter.1 hbg
        have hbg2 := of_decide_eq_true hbg2
        obtain ⟨br, hbr, hfaces⟩ := forall₂_right (built_faces hg) hbg1
        refine ⟨br, hbr, hfaces, fun p hp htex => .inr ⟨?_, ⟨d, pd, bd, hd, hdata, hmesh⟩, ?_, ?_⟩⟩
        · rintro t ⟨hwe, htt, hall⟩
          have hA := (all_textures hfaces fun o => o = some t).2 hall
          apply hbg2
          refine ⟨hwe, ?_⟩
          rcases htt with rfl | rfl
          · exact .inl hA
          · exact .inr hA
        · by_contra hc
          apply hh
          refine (all_textures hfaces fun o => knownIn config.textureBlacklist.brush o = true).2 fun q hq => ?_
          by_contra hk
          exact hc ⟨q, hq, knownIn_iff.1 hk⟩
        · intro t ht
          rw [htex] at ht
          unfold tried at htried
          rw [ht] at htried
          simp only [List.mem_append, List.mem_map, Option.some.injEq, exists_eq_right, List.mem_singleton,
            reduceCtorEq, or_false, uniqueTextures_mem] at htried
          exact htried.2
      · cases (collisionChildren_mem hm).1
    · rcases hk with ⟨v', hv', hm⟩ | ⟨c', _, hm⟩
      · obtain ⟨hm1, hne⟩ := visualChildren_mem hm
        cases hm1
        rcases layerVisual_ok layer t _ (hlayf t hg) with ⟨_, h'⟩ | ⟨hvis, s', h', hsurf⟩
        · rw [hv'] at h'; cases h'; exact absurd rfl hne
        · rw [hv'] at h'; cases h'
          cases List.mem_singleton.1 hs
          have hst : s.texture = some t := by
            obtain ⟨parts, h2, ⟨_, h3⟩ | ⟨_, s', h3, hst, ha, hc⟩⟩ :=
              textureSurface_ok (g := ⟨V3.zero, _⟩) TextureBlacklist.default (some t) (hlayf t hg)
            · rw [hsurf] at h3; cases h3
            · rw [hsurf] at h3; cases h3; exact hst
          refine ⟨w, hwm, .world hw, ⟨V3.zero, _⟩, _, hlayf t hg, hst ▸ hsurf, fun bg hbg _ => ?_⟩
          obtain ⟨hbg1, hbg2⟩ := List.mem_filter.1 hbg
          have hbg2 := of_decide_eq_true hbg2
          obtain ⟨br, hbr, hfaces⟩ := forall₂_right (built_faces hg) hbg1
          exact ⟨br, hbr, hfaces, fun p hp _ =>
            .inl ⟨t, layer, ⟨hw, htt, (all_textures hfaces fun o => o = some t).1 hbg2.1⟩, hlay, hvis.1⟩⟩
      · cases (collisionChildren_mem hm).1
  · intro e he hanch br hbr p hp hshown
    obtain ⟨g, hg⟩ := hbuilt e he
    obtain ⟨bg, hbg, hfaces⟩ := forall₂_left (built_faces hg) hbr
    obtain ⟨pg, hpg, hb⟩ := forall₂_left hfaces hp
    refine ⟨pg, hb, fun hne => ?_⟩
    rcases hshown with ⟨t, layer, hlb, hlay, hmesh⟩ | ⟨hnl, ⟨d, pd, bd, hd, hdata, hmesh⟩, ⟨q, hq, hqt⟩, hpt⟩
    · have hwe := huniq e he hlb.1
      subst hwe
      have hall := (all_textures hfaces fun o => o = some t).2 hlb.2.2
      have hin : bg ∈ g.brushes.filter fun b => InLayer t b := by
        refine List.mem_filter.2 ⟨hbg, decide_eq_true ⟨hall, ?_⟩⟩
        rcases hlb.2.1 with rfl | rfl
        · exact .inl rfl
        · refine .inr ⟨rfl, fun hc => ?_⟩
          have := layer_unique hp hlb ((all_textures hfaces fun o => o = some (str! "*water0")).1 hc)
          exact absurd this (by decide)
      rcases layerVisual_ok layer t _ (hlayf t hg) with ⟨hnv, _⟩ | ⟨_, s, h', hsurf⟩
      · exact absurd ⟨hmesh, bg, hin, pg, hpg, hall pg hpg, hne⟩ hnv
      · have hst : s.texture = some t := by
          obtain ⟨parts, h2, ⟨_, h3⟩ | ⟨_, s', h3, hst, ha, hc⟩⟩ :=
            textureSurface_ok (g := ⟨V3.zero, _⟩) TextureBlacklist.default (some t) (hlayf t hg)
          · rw [hsurf] at h3; cases h3
          · rw [hsurf] at h3; cases h3; exact hst
        exact ⟨V3.zero, .mesh [s], s, ⟨V3.zero, _⟩, _, bg, (hleaf _ (by intro o a cs; simp)).2 (.inr ⟨t, layer, g, hlb.2.1,
          hlay, hg, .inl ⟨_, h', by simp [visualChildren]⟩⟩), by simp [surfaces], hlayf t hg, hst ▸ hsurf, hin,
          hidden_default hpg, hfaces, hpg, (hall pg hpg).trans hst.symm⟩
    · have hin : bg ∈ ownBrushes e g.brushes := by
        refine List.mem_filter.2 ⟨hbg, decide_eq_true ?_⟩
        rintro ⟨hwe, hc | hc⟩
        · exact hnl _ ⟨hwe, .inl rfl, (all_textures hfaces fun o => o = some _).1 hc⟩
        · exact hnl _ ⟨hwe, .inr rfl, (all_textures hfaces fun o => o = some _).1 hc⟩
      have hh : ¬ Hidden config.textureBlacklist bg := by
        intro hc
        exact knownIn_iff.2 hqt ((all_textures hfaces fun o => knownIn config.textureBlacklist.brush o = true).1 hc q hq)
      have hfrom : FromEntity e (ownBrushes e g.brushes) := by
        intro b hb p hp t ht
        obtain ⟨eb, heb, hb'⟩ := forall₂_right (built_faces hg) (List.mem_filter.1 hb).1
        obtain ⟨ep, hep, hp'⟩ := forall₂_right hb' hp
        refine ⟨eb, heb, ep, hep, ?_⟩
        rw [built_texture hp'] at ht
        unfold knownTexture at ht
        split at ht
        · exact Option.some.inj ht
        · cases ht
      obtain ⟨v, _, hbv, _, _, hvv⟩ := brushVisual_ok (g := ⟨g.center, ownBrushes e g.brushes⟩) e bd
        config.textureBlacklist hmesh (hown hg)
      obtain ⟨s, hs, hst, _⟩ := C39_nothing_lost e ⟨g.center, ownBrushes e g.brushes⟩ bd config.textureBlacklist v
        (hown hg) hfrom hmesh hbv bg hin hh pg hpg hne (by
          intro t ht; rw [built_texture hb] at ht; exact hpt t ht)
      obtain ⟨_, _, hsurf⟩ := brushVisual_surface (hown hg) hbv hs
      refine ⟨g.center, v, s, ⟨g.center, _⟩, _, bg, (hleaf _ (by intro o a cs; simp)).2 (.inl ⟨e, he, hanch, g, hg,
        .inl ⟨v, ?_, ?_⟩⟩), hs, hown hg, hsurf, hin, hh, hfaces, hpg, hst.symm⟩
      · obtain ⟨cl, hcl, hf⟩ := hd
        unfold entityVisual Map.get?
        simp only [hcl, findDef_iff.2 hf, hdata]
        exact hbv
      · rcases hvv with rfl | ⟨ss, rfl, _⟩
        · cases hs
        · simp [visualChildren]


/-- C126: every triangle of the scene is one of a shown face with the texture of the surface, and for each of its corners all
data stored are those of one vertex of a face of the same brush with this texture, at the same place; surfaces with a
texture have texture coordinates. -/
theorem C126_sources [LawfulEq F] (depth : Nat)
    (order : List (Str × List (BrushGeo F)) → List (Str × List (BrushGeo F))) (horder : ∀ l, (order l).Perm l)
    (config : Config F) (nodes : List (Node F)) (h : Quarch.run depth order config = .ok nodes)
    (text : Str) (ht : config.mapFile = some text) (entities : List (Entity F)) (hl : LoadsAs text entities)
    (o : V3 F) (vis : VisualGeometry F) (s : MeshSurface F) (hocc : Occurs (.visual o vis) nodes) (hs : s ∈ surfaces vis) :
    (s.texture ≠ none → s.uvs ≠ none) ∧ ∀ i j k, IndexTriple s.indices i j k →
      ∃ e ∈ entities, Anchored entities e ∧ ∃ br ∈ e.brushes, ∃ p ∈ br.planes, ShownFace config e br p ∧
      knownTexture config.textureInfo p = s.texture ∧
      ∃ face, Geo.buildPlane config.textureInfo e br.planes p = .ok face ∧
      ∃ x y z, TriangleOf face.vertices face.indices x y z ∧ ∀ n u, (n, u) ∈ [(i, x), (j, y), (k, z)] →
        ∃ w, DataAt s n w ∧ SamePlace w.pos u.pos ∧ ∃ q ∈ br.planes, knownTexture config.textureInfo q = s.texture ∧
          ∃ face', Geo.buildPlane config.textureInfo e br.planes q = .ok face' ∧ w ∈ face'.vertices := by
  obtain ⟨e, he, ha, gg, bl, hfan, hsurf, hbr⟩ :=
    (scene_surfaces depth order horder config nodes h text ht entities hl).1 o vis s hocc hs
  constructor
  · intro hne hun
    obtain ⟨l, hl⟩ := surface_uvs hfan hsurf (by
      intro bg hbg hh p hp htex v hv
      obtain ⟨br, _, hfaces, _⟩ := hbr bg hbg hh
      obtain ⟨q, _, hb⟩ := forall₂_right hfaces hp
      obtain ⟨c1, c2, _⟩ := C31_uv_and_color _ _ _ _ _ hb
      rw [c2 v hv]
      by_contra hc
      rw [if_neg hc, htex] at c1
      exact hne c1)
    rw [hun] at hl; cases hl
  · intro i j k hT
    obtain ⟨bg, hbg, hh, face, hface, htex, x, y, z, hxyz, s1, s2, s3⟩ := (surface_data hfan hsurf).1 i j k hT
    obtain ⟨br, hbrm, hfaces, hshown⟩ := hbr bg hbg hh
    obtain ⟨p, hp, hb⟩ := forall₂_right hfaces hface
    have hk : knownTexture config.textureInfo p = s.texture := (built_texture hb).symm.trans htex
    refine ⟨e, he, ha, br, hbrm, p, hp, hshown p hp hk, hk, face, hb, x, y, z, hxyz, ?_⟩
    have key : ∀ n u, u ∈ face.vertices → StoredAt s bg n u → ∃ w, DataAt s n w ∧ SamePlace w.pos u.pos ∧
        ∃ q ∈ br.planes, knownTexture config.textureInfo q = s.texture ∧
          ∃ face', Geo.buildPlane config.textureInfo e br.planes q = .ok face' ∧ w ∈ face'.vertices := by
      rintro n u hu ⟨w, hw, hm⟩
      refine ⟨w, hw, mergedTo_place hm, ?_⟩
      rcases hm with rfl | ⟨_, hf⟩
      · exact ⟨p, hp, hk, face, hb, hu⟩
      · obtain ⟨f', hf', hwf⟩ := List.mem_flatMap.1 (List.mem_of_find?_eq_some hf)
        obtain ⟨h1, h2⟩ := List.mem_filter.1 hf'
        obtain ⟨q, hq, hbq⟩ := forall₂_right hfaces h1
        exact ⟨q, hq, (built_texture hbq).symm.trans (of_decide_eq_true h2), f', hbq, hwf⟩
    have hmem : ∀ {x y z : Vertex F}, TriangleOf face.vertices face.indices x y z →
        x ∈ face.vertices ∧ y ∈ face.vertices ∧ z ∈ face.vertices := by
      rintro x y z ⟨_, _, _, _, _, _, _, a1, a2, a3⟩
      exact ⟨List.mem_of_getElem? a1, List.mem_of_getElem? a2, List.mem_of_getElem? a3⟩
    obtain ⟨m1, m2, m3⟩ := hmem hxyz
    intro n u hnu
    simp only [List.mem_cons, Prod.mk.injEq, List.not_mem_nil, or_false] at hnu
    rcases hnu with ⟨rfl, rfl⟩ | ⟨rfl, rfl⟩ | ⟨rfl, rfl⟩
    · exact key _ _ m1 s1
    · exact key _ _ m2 s2
    · exact key _ _ m3 s3

/-- C126: if no two vertices of faces of one brush with the same texture are equal in all attributes, the triangles of the
scene are those of the shown faces with all data of their corners. -/
theorem C126_kept [LawfulEq F] (depth : Nat)
    (order : List (Str × List (BrushGeo F)) → List (Str × List (BrushGeo F))) (horder : ∀ l, (order l).Perm l)
    (config : Config F) (nodes : List (Node F)) (h : Quarch.run depth order config = .ok nodes)
    (text : Str) (ht : config.mapFile = some text) (entities : List (Entity F)) (hl : LoadsAs text entities)
    (hd : ∀ e ∈ entities, Anchored entities e → ∀ br ∈ e.brushes, ∀ faces,
      List.Forall₂ (fun p f => Geo.buildPlane config.textureInfo e br.planes p = .ok f) br.planes faces →
      ∀ t, ((faces.filter fun f => f.texture = t).flatMap (·.vertices)).Pairwise fun a b => ¬ EqAttrs a b) :
    (∀ o vis s i j k, Occurs (.visual o vis) nodes → s ∈ surfaces vis → IndexTriple s.indices i j k →
      ∃ e ∈ entities, Anchored entities e ∧ ∃ br ∈ e.brushes, ∃ p ∈ br.planes, ShownFace config e br p ∧
      knownTexture config.textureInfo p = s.texture ∧
      ∃ face, Geo.buildPlane config.textureInfo e br.planes p = .ok face ∧
      ∃ x y z, TriangleOf face.vertices face.indices x y z ∧ DataAt s i x ∧ DataAt s j y ∧ DataAt s k z) ∧
    (∀ e ∈ entities, Anchored entities e → ∀ br ∈ e.brushes, ∀ p ∈ br.planes, ShownFace config e br p →
      ∃ face, Geo.buildPlane config.textureInfo e br.planes p = .ok face ∧
      ∀ x y z, TriangleOf face.vertices face.indices x y z →
      ∃ o vis s i j k, Occurs (.visual o vis) nodes ∧ s ∈ surfaces vis ∧ knownTexture config.textureInfo p = s.texture ∧
        IndexTriple s.indices i j k ∧ DataAt s i x ∧ DataAt s j y ∧ DataAt s k z) := by
  obtain ⟨h1, h2⟩ := scene_surfaces depth order horder config nodes h text ht entities hl
  have keep : ∀ {e : Entity F} {br : Brush F} {bg : BrushGeo F} {s : MeshSurface F} {n : Nat} {u : Vertex F},
      e ∈ entities → Anchored entities e → br ∈ e.brushes →
      List.Forall₂ (fun p f => Geo.buildPlane config.textureInfo e br.planes p = .ok f) br.planes bg.planes →
      StoredAt s bg n u → DataAt s n u := by
    rintro e br bg s n u he ha hbr hfaces ⟨w, hw, rfl | ⟨⟨pre, post, hv, u', hu', hs⟩, _⟩⟩
    · exact hw
    · have := hd e he ha br hbr _ hfaces s.texture
      unfold texturedVertices at hv
      rw [hv, List.pairwise_append] at this
      exact absurd (eqAttrs_iff.2 hs) (this.2.2 u' hu' u (by simp))
  constructor
  · intro o vis s i j k hocc hs hT
    obtain ⟨e, he, ha, gg, bl, hfan, hsurf, hbr⟩ := h1 o vis s hocc hs
    obtain ⟨bg, hbg, hh, face, hface, htex, x, y, z, hxyz, s1, s2, s3⟩ := (surface_data hfan hsurf).1 i j k hT
    obtain ⟨br, hbrm, hfaces, hshown⟩ := hbr bg hbg hh
    obtain ⟨p, hp, hb⟩ := forall₂_right hfaces hface
    have hk : knownTexture config.textureInfo p = s.texture := (built_texture hb).symm.trans htex
    exact ⟨e, he, ha, br, hbrm, p, hp, hshown p hp hk, hk, face, hb, x, y, z, hxyz, keep he ha hbrm hfaces s1,
      keep he ha hbrm hfaces s2, keep he ha hbrm hfaces s3⟩
  · intro e he ha br hbr p hp hshown
    obtain ⟨face, hb, hne⟩ := h2 e he ha br hbr p hp hshown
    refine ⟨face, hb, fun x y z hT => ?_⟩
    obtain ⟨o, vis, s, gg, bl, bg, hocc, hs, hfan, hsurf, hbg, hh, hfaces, hface, htex⟩ := hne (triangle_vertices hT)
    obtain ⟨i, j, k, hT', s1, s2, s3⟩ := (surface_data hfan hsurf).2 bg hbg hh face hface htex x y z hT
    exact ⟨o, vis, s, i, j, k, hocc, hs, (built_texture hb).symm.trans htex, hT', keep he ha hbr hfaces s1,
      keep he ha hbr hfaces s2, keep he ha hbr hfaces s3⟩

end

/-! ### exact arithmetic -/

section
variable [RealText] [Platform]

theorem eqV3_real {a b : V3 ℝ} (h : EqV3 a b) : a = b := by
  obtain ⟨h1, h2, h3⟩ := h
  cases a; cases b
  exact (V3.mk.injEq ..).mpr ⟨of_decide_eq_true h1, of_decide_eq_true h2, of_decide_eq_true h3⟩

/-- C126: with exact arithmetic it is enough that no two planes of a brush with the same outward direction have a point in
common and that there is no smoothing. -/
theorem C126_exact (depth : Nat)
    (order : List (Str × List (BrushGeo ℝ)) → List (Str × List (BrushGeo ℝ))) (horder : ∀ l, (order l).Perm l)
    (config : Config ℝ) (nodes : List (Node ℝ)) (h : Quarch.run depth order config = .ok nodes)
    (text : Str) (ht : config.mapFile = some text) (entities : List (Entity ℝ)) (hl : LoadsAs text entities)
    (hb : ∀ e ∈ entities, Anchored entities e → ∀ br ∈ e.brushes, br.planes.Pairwise fun p q =>
      ∀ x, OnPlane p x → OnPlane q x → unitR (rawNormal p) ≠ unitR (rawNormal q))
    (hflat : ∀ e ∈ entities, Anchored entities e → e.properties (str! "_phong") ≠ some (str! "1")) :
    (∀ o vis s i j k, Occurs (.visual o vis) nodes → s ∈ surfaces vis → IndexTriple s.indices i j k →
      ∃ e ∈ entities, Anchored entities e ∧ ∃ br ∈ e.brushes, ∃ p ∈ br.planes, ShownFace config e br p ∧
      knownTexture config.textureInfo p = s.texture ∧
      ∃ face, Geo.buildPlane config.textureInfo e br.planes p = .ok face ∧
      ∃ x y z, TriangleOf face.vertices face.indices x y z ∧ DataAt s i x ∧ DataAt s j y ∧ DataAt s k z) ∧
    (∀ e ∈ entities, Anchored entities e → ∀ br ∈ e.brushes, ∀ p ∈ br.planes, ShownFace config e br p →
      ∃ face, Geo.buildPlane config.textureInfo e br.planes p = .ok face ∧
      ∀ x y z, TriangleOf face.vertices face.indices x y z →
      ∃ o vis s i j k, Occurs (.visual o vis) nodes ∧ s ∈ surfaces vis ∧ knownTexture config.textureInfo p = s.texture ∧
        IndexTriple s.indices i j k ∧ DataAt s i x ∧ DataAt s j y ∧ DataAt s k z) := by
  refine C126_kept depth order horder config nodes h text ht entities hl fun e he ha br hbr faces hfaces t => ?_
  rw [List.pairwise_flatMap]
  constructor
  · intro face hface
    obtain ⟨p, hp, hb⟩ := forall₂_right hfaces (List.mem_filter.1 hface).1
    have := (C20_exact_corners _ _ _ _ _ hb).1
    unfold List.Nodup at this
    rw [List.pairwise_map] at this
    exact this.imp fun hne he => hne (eqV3_real he.pos)
  · refine List.Pairwise.filter _ ?_
    rw [List.pairwise_iff_getElem]
    intro i j hi hj hij u hu v hv heq
    have hlen := hfaces.length_eq
    have bi := (List.forall₂_iff_get.1 hfaces).2 i (by omega) hi
    have bj := (List.forall₂_iff_get.1 hfaces).2 j (by omega) hj
    simp only [List.get_eq_getElem] at bi bj
    have hne := List.pairwise_iff_getElem.1 (hb e he ha br hbr) i j (by omega) (by omega) hij
    have c : ∀ {p : BrushPlane ℝ} {f : PlaneGeo ℝ} {v : Vertex ℝ}, Geo.buildPlane config.textureInfo e br.planes p = .ok f →
        v ∈ f.vertices → OnPlane p v.pos := by
      intro p f v hb hv
      obtain ⟨⟨_, _, _, _, _, ho, _⟩, _⟩ := ((C20_exact_corners _ _ _ _ _ hb).2 v.pos).1 (List.mem_map_of_mem hv)
      exact ho
    refine hne u.pos (c bi hu) (eqV3_real heq.pos ▸ c bj hv) ?_
    rw [← (C29_flat _ _ _ _ _ bi (hflat e he ha) u hu).1, ← (C29_flat _ _ _ _ _ bj (hflat e he ha) v hv).1]
    exact eqV3_real heq.normal

end

/-! ### single precision -/

section
open Quarch.Spec.F32 Quarch.Geo
variable [F32Lib] [Platform] [AccurateAtan2] {g : Nat} {R : ℝ} {planes : List (BrushPlane F32)}

theorem near_spread {a b c n : V3 ℝ} (hab : Close (1 / 400000) a b) (hn : lenR c ≤ 1) (hm : lenR n ≤ 1) :
    dotR (crossR c n) a - 1 / 50000 ≤ dotR (crossR c n) b := by
  have k : ∀ {v : V3 ℝ}, lenR v ≤ 1 → |v.x| ≤ 1 ∧ |v.y| ≤ 1 ∧ |v.z| ≤ 1 := by
    intro v hv
    have h1 : v.x ^ 2 + v.y ^ 2 + v.z ^ 2 ≤ 1 := by
      have h0 : 0 ≤ v.x ^ 2 + v.y ^ 2 + v.z ^ 2 := by positivity
      unfold lenR at hv
      have := Real.sqrt_le_one.1 hv
      simp only [dotR] at this
      nlinarith
    refine ⟨?_, ?_, ?_⟩ <;> rw [← sq_le_one_iff_abs_le_one] <;> nlinarith [sq_nonneg v.x, sq_nonneg v.y, sq_nonneg v.z]
  obtain ⟨c1, c2, c3⟩ := k hn
  obtain ⟨n1, n2, n3⟩ := k hm
  have pr : ∀ {s t d : ℝ}, |s| ≤ 1 → |t| ≤ 1 → |d| ≤ 1 / 400000 → s * t * d ≤ 1 / 400000 := by
    intro s t d h1 h2 h3
    have : |s * t * d| ≤ 1 * 1 * (1 / 400000) := by
      rw [abs_mul, abs_mul]
      exact mul_le_mul (mul_le_mul h1 h2 (abs_nonneg _) zero_le_one) h3 (abs_nonneg _) (by norm_num)
    have := le_abs_self (s * t * d)
    linarith
  have m1 : ∀ {d : ℝ}, |d| ≤ 1 / 400000 → |-d| ≤ 1 / 400000 := fun h => by rwa [abs_neg]
  obtain ⟨d1, d2, d3⟩ := hab
  have a1 := pr c2 n3 d1
  have a2 := pr c3 n2 (m1 d1)
  have a3 := pr c3 n1 d2
  have a4 := pr c1 n3 (m1 d2)
  have a5 := pr c1 n2 d3
  have a6 := pr c2 n1 (m1 d3)
  simp only [dotR, crossR]
  linarith

theorem unit_normal (hf : ClearBody g R planes) {p : BrushPlane F32} (hp : p ∈ planes) : lenR (triOf p).normal ≤ 1 := by
  have := (normal_near hf.grid hf.least hf.most (hf.near p hp)).2.2
  unfold lenR
  rw [this]
  simp

/-- The vertices of one brush without smoothing are all different, also in their attributes, if no face is given twice. -/
theorem firm_kept (hf : FirmBrush g R planes) (hnd : planes.Nodup) {textures : TextureInfo} {entity : Entity F32}
    (hphong : entity.properties (str! "_phong") ≠ some (str! "1")) {faces : List (PlaneGeo F32)}
    (hfaces : List.Forall₂ (fun p f => buildPlane textures entity planes p = .ok f) planes faces) (t : Option Str) :
    ((faces.filter fun f => f.texture = t).flatMap (·.vertices)).Pairwise fun a b => ¬ EqAttrs a b := by
  have corner : ∀ {p : BrushPlane F32} {face : PlaneGeo F32} {v : Vertex F32}, p ∈ planes →
      buildPlane textures entity planes p = .ok face → v ∈ face.vertices →
      ∃ x, TrueCorner R (planes.map triOf) (triOf p) x ∧ Close (1 / 2000) (vec v.pos) x := by
    intro p face v hp hb hv
    obtain ⟨xs, -, hcl, -, hco⟩ := firm_outline hf hp hb
    obtain ⟨x, hx, c⟩ := forall₂_left hcl (List.mem_map_of_mem (f := (·.pos)) hv)
    exact ⟨x, (firm_corner hf.toClearBody hp x).1 ((hco x).1 hx), c⟩
  rw [List.pairwise_flatMap]
  constructor
  · intro face hface
    obtain ⟨p, hp, hb⟩ := forall₂_right hfaces (List.mem_filter.1 hface).1
    obtain ⟨xs, hxs, hcl, -, hco⟩ := firm_outline hf hp hb
    have hfin := firm_finite hf.toClearBody hp hb
    rw [List.pairwise_iff_getElem]
    intro i j hi hj hij he
    have gi : (face.vertices.map (·.pos))[i]? = some face.vertices[i].pos := by
      rw [List.getElem?_map, List.getElem?_eq_getElem hi]; rfl
    have gj : (face.vertices.map (·.pos))[j]? = some face.vertices[j].pos := by
      rw [List.getElem?_map, List.getElem?_eq_getElem hj]; rfl
    obtain ⟨x, hx, cx⟩ := forall2_get hcl gi
    obtain ⟨y, hy, cy⟩ := forall2_get hcl gj
    rw [same_vec (hfin _ (List.getElem_mem hj)) (.inr he.pos)] at cx
    have := close_join (close_symm cx) (close_symm cy)
    have e : x = y := hf.far p hp p hp x y ((firm_corner hf.toClearBody hp x).1 ((hco x).1 (List.mem_of_getElem? hx)))
      ((firm_corner hf.toClearBody hp y).1 ((hco y).1 (List.mem_of_getElem? hy)))
      ⟨this.1.trans (by norm_num), this.2.1.trans (by norm_num), this.2.2.trans (by norm_num)⟩
    subst e
    have := (List.getElem?_inj (by rw [← hcl.length_eq, List.length_map]; exact hi) hxs).1 (hx.trans hy.symm)
    omega
  · refine List.Pairwise.filter _ ?_
    rw [List.pairwise_iff_getElem]
    intro i j hi hj hij u hu v hv he
    have hlen := hfaces.length_eq
    have bi := (List.forall₂_iff_get.1 hfaces).2 i (by omega) hi
    have bj := (List.forall₂_iff_get.1 hfaces).2 j (by omega) hj
    simp only [List.get_eq_getElem] at bi bj
    have mi : planes[i] ∈ planes := List.getElem_mem _
    have mj : planes[j] ∈ planes := List.getElem_mem _
    generalize hpi : planes[i] = p at *
    generalize hpj : planes[j] = q at *
    obtain ⟨x, hx, cx⟩ := corner mi bi hu
    obtain ⟨y, hy, cy⟩ := corner mj bj hv
    rw [same_vec (firm_finite hf.toClearBody mj bj v hv) (.inr he.pos)] at cx
    have := close_join (close_symm cx) (close_symm cy)
    have e : x = y := hf.far p mi q mj x y hx hy
      ⟨this.1.trans (by norm_num), this.2.1.trans (by norm_num), this.2.2.trans (by norm_num)⟩
    subst e
    obtain ⟨fu, cu⟩ := C121_flat textures entity bi hf.grid hf.least hf.most (hf.near p mi) hphong u hu
    obtain ⟨fv, cv⟩ := C121_flat textures entity bj hf.grid hf.least hf.most (hf.near q mj) hphong v hv
    rw [same_vec fv (.inr he.normal)] at cu
    have hn := close_join (close_symm cu) (close_symm cv)
    have hn : Close (1 / 400000) (triOf p).normal (triOf q).normal :=
      ⟨hn.1.trans (by norm_num), hn.2.1.trans (by norm_num), hn.2.2.trans (by norm_num)⟩
    obtain ⟨t1, ht1, t2, ht2, z0, z1, z2, hs⟩ := hx.meet
    obtain ⟨p1, hp1, rfl⟩ := List.mem_map.1 ht1
    obtain ⟨p2, hp2, rfl⟩ := List.mem_map.1 ht2
    obtain ⟨_, _, _, _, z3, _⟩ := hy.meet
    have hcyc : Tri.spread (triOf p1) (triOf p2) (triOf p) = Tri.spread (triOf p) (triOf p1) (triOf p2) := by
      simp only [Tri.spread, dotR, crossR]; ring
    have hsp : 1 / 64 ≤ Tri.spread (triOf p1) (triOf p2) (triOf p) := by
      rw [hcyc]; have := hf.least; linarith
    have hsq := near_spread hn (unit_normal hf.toClearBody hp1) (unit_normal hf.toClearBody hp2)
    have hx1 : TrueCorner R (planes.map triOf) (triOf p1) x :=
      ⟨hx.dist, ⟨triOf p2, ht2, triOf p, List.mem_map_of_mem mi, z1, z2, z0, by rw [hcyc]; exact hs⟩, hx.inside⟩
    have hpq := (hf.simple p1 hp1 x hx1 p2 hp2 p mi p2 hp2 q mj z2 z0 z2 z3 (by linarith) (by
      unfold Tri.spread at hsp ⊢; linarith)).2
    rw [← hpi, ← hpj] at hpq
    have := (List.Nodup.getElem_inj_iff hnd).1 hpq
    omega

/-- C126: in a map of firm brushes without repeated faces and without smoothing, the triangles of the scene are those of the
shown faces with all data of their corners. -/
theorem C126_firm (depth : Nat)
    (order : List (Str × List (BrushGeo F32)) → List (Str × List (BrushGeo F32))) (horder : ∀ l, (order l).Perm l)
    (config : Config F32) (nodes : List (Node F32)) (h : Quarch.run depth order config = .ok nodes)
    (text : Str) (ht : config.mapFile = some text) (entities : List (Entity F32)) (hl : LoadsAs text entities)
    (hb : ∀ e ∈ entities, Anchored entities e → ∀ br ∈ e.brushes, IsFirm br.planes ∧ br.planes.Nodup)
    (hflat : ∀ e ∈ entities, Anchored entities e → e.properties (str! "_phong") ≠ some (str! "1")) :
    (∀ o vis s i j k, Occurs (.visual o vis) nodes → s ∈ surfaces vis → IndexTriple s.indices i j k →
      ∃ e ∈ entities, Anchored entities e ∧ ∃ br ∈ e.brushes, ∃ p ∈ br.planes, ShownFace config e br p ∧
      knownTexture config.textureInfo p = s.texture ∧
      ∃ face, buildPlane config.textureInfo e br.planes p = .ok face ∧
      ∃ x y z, TriangleOf face.vertices face.indices x y z ∧ DataAt s i x ∧ DataAt s j y ∧ DataAt s k z) ∧
    (∀ e ∈ entities, Anchored entities e → ∀ br ∈ e.brushes, ∀ p ∈ br.planes, ShownFace config e br p →
      ∃ face, buildPlane config.textureInfo e br.planes p = .ok face ∧
      ∀ x y z, TriangleOf face.vertices face.indices x y z →
      ∃ o vis s i j k, Occurs (.visual o vis) nodes ∧ s ∈ surfaces vis ∧ knownTexture config.textureInfo p = s.texture ∧
        IndexTriple s.indices i j k ∧ DataAt s i x ∧ DataAt s j y ∧ DataAt s k z) :=
  C126_kept depth order horder config nodes h text ht entities hl fun e he ha br hbr faces hfaces t => by
    obtain ⟨⟨g, R, hf⟩, hnd⟩ := hb e he ha br hbr
    exact firm_kept hf hnd (hflat e he ha) hfaces t

theorem corner32 {p : BrushPlane F32} (hR : 1 ≤ R) {x : V3 ℝ} (h : TrueCorner R (planes.map triOf) (triOf p) x) :
    Corner32 planes p x := by
  obtain ⟨t1, ht1, t2, ht2, z0, z1, z2, hs⟩ := h.meet
  obtain ⟨p1, hp1, rfl⟩ := List.mem_map.1 ht1
  obtain ⟨p2, hp2, rfl⟩ := List.mem_map.1 ht2
  exact ⟨⟨z0, fun q hq => h.inside _ (List.mem_map_of_mem hq)⟩, p1, hp1, p2, hp2, z1, z2, by linarith⟩

/-- C126: so every triangle of the scene is on a shown face, its corners are at corners of this face up to 1/2000, and normals,
texture coordinates and tangents stored for them are right up to the errors of C120-C122. -/
theorem C126_painted [AccurateTurn] [AccurateSpin] (depth : Nat)
    (order : List (Str × List (BrushGeo F32)) → List (Str × List (BrushGeo F32))) (horder : ∀ l, (order l).Perm l)
    (config : Config F32) (nodes : List (Node F32)) (h : Quarch.run depth order config = .ok nodes)
    (text : Str) (ht : config.mapFile = some text) (entities : List (Entity F32)) (hl : LoadsAs text entities)
    (hb : ∀ e ∈ entities, Anchored entities e → ∀ br ∈ e.brushes, IsFirm br.planes ∧ br.planes.Nodup)
    (hflat : ∀ e ∈ entities, Anchored entities e → e.properties (str! "_phong") ≠ some (str! "1"))
    (o : V3 F32) (vis : VisualGeometry F32) (s : MeshSurface F32) (hocc : Occurs (.visual o vis) nodes) (hs : s ∈ surfaces vis)
    (i j k : Nat) (hT : IndexTriple s.indices i j k) :
    ∃ e ∈ entities, Anchored entities e ∧ ∃ br ∈ e.brushes, ∃ p ∈ br.planes, ShownFace config e br p ∧
      knownTexture config.textureInfo p = s.texture ∧ ∃ x y z,
        PaintedAt s i br.planes p (config.textureInfo p.texture) x ∧
        PaintedAt s j br.planes p (config.textureInfo p.texture) y ∧
        PaintedAt s k br.planes p (config.textureInfo p.texture) z ∧ x ≠ y ∧ y ≠ z ∧ x ≠ z := by
  obtain ⟨huv, -⟩ := C126_sources depth order horder config nodes h text ht entities hl o vis s hocc hs
  obtain ⟨e, he, ha, br, hbr, p, hp, hsh, hk, face, hface, u, v, w, htri, d1, d2, d3⟩ :=
    (C126_firm depth order horder config nodes h text ht entities hl hb hflat).1 o vis s i j k hocc hs hT
  obtain ⟨⟨g, R, hf⟩, hnd⟩ := hb e he ha br hbr
  obtain ⟨xs, hxs, hcl, -, hco⟩ := firm_outline hf hp hface
  have key : ∀ {n a : Nat} {u : Vertex F32} {x : V3 ℝ}, face.vertices[a]? = some u → xs[a]? = some x → DataAt s n u →
      PaintedAt s n br.planes p (config.textureInfo p.texture) x := by
    intro n a u x hu hx hd
    have hum := List.mem_of_getElem? hu
    have hpos : (face.vertices.map (·.pos))[a]? = some u.pos := by rw [List.getElem?_map, hu]; rfl
    obtain ⟨x', hx', cx⟩ := forall2_get hcl hpos
    rw [hx] at hx'; cases hx'
    have htc := (firm_corner hf.toClearBody hp x).1 ((hco x).1 (List.mem_of_getElem? hx))
    have hfin := firm_finite hf.toClearBody hp hface u hum
    have uniq : ∀ x', TrueCorner R (br.planes.map triOf) (triOf p) x' → Close (1 / 2000) (vec u.pos) x' → x' = x := by
      intro x' h1 h2
      have := close_join (close_symm h2) (close_symm cx)
      exact hf.far p hp p hp x' x h1 htc
        ⟨this.1.trans (by norm_num), this.2.1.trans (by norm_num), this.2.2.trans (by norm_num)⟩
    refine ⟨corner32 hf.least htc, ⟨u.pos, hd.pos, hfin, cx⟩, ?_, ?_, ?_⟩
    · obtain ⟨f1, f2⟩ := C121_flat _ _ hface hf.grid hf.least hf.most (hf.near p hp) (hflat e he ha) u hum
      exact ⟨u.normal, hd.normal, f1, f2⟩
    · intro t htx hcl
      have hne : s.texture ≠ none := by
        rw [← hk]; unfold knownTexture; rw [htx]; simp
      obtain ⟨l, hl⟩ := Option.ne_none_iff_exists'.1 (huv hne)
      obtain ⟨c, hc, hlc⟩ := hd.uv l hl
      refine ⟨l, c, hl, hlc, ?_⟩
      unfold CleanLayout at hcl
      unfold RightTexel
      cases huvp : p.uv with
      | valve ua uo va vo =>
        rw [huvp] at hcl
        obtain ⟨x', h1, -, h2, uv, h3, h4⟩ := C120_valve _ _ hface hf.grid hf.least hf.most hf.near hp hf.count (hf.clear p hp)
          htx huvp hcl.1 hcl.2.1 hcl.2.2 u hum
        rw [hc] at h3; cases h3
        rw [uniq x' h1 h2] at h4
        exact h4
      | quake uo vo =>
        rw [huvp] at hcl
        obtain ⟨x', h1, -, h2, uv, h3, h4⟩ := C120_standard _ _ hface hf.grid hf.least hf.most hf.near hp hf.count
          (hf.clear p hp) htx huvp hcl.1 hcl.2.1 hcl.2.2.1 hcl.2.2.2 u hum
        rw [hc] at h3; cases h3
        rw [uniq x' h1 h2] at h4
        exact h4
    · intro hax
      refine ⟨u.tangent, hd.tangent, ?_⟩
      unfold CleanAxes at hax
      unfold RightTangent
      cases huvp : p.uv with
      | valve ua uo va vo =>
        rw [huvp] at hax
        exact C122_valve _ _ hface hf.grid hf.least hf.most (hf.near p hp) huvp hax.1 hax.2.1 hax.2.2 u hum
      | quake uo vo =>
        rw [huvp] at hax
        exact C122_standard _ _ hface hf.grid hf.least hf.most (hf.near p hp) huvp hax.1 hax.2.1 hax.2.2.1 hax.2.2.2.1
          hax.2.2.2.2 u hum
  obtain ⟨m, hu, hv, hw⟩ := (fan_triangle hface u v w).1 htri
  have at' : ∀ {a : Nat} {u : Vertex F32}, face.vertices[a]? = some u → ∃ x, xs[a]? = some x := by
    intro a u hu
    have hpos : (face.vertices.map (·.pos))[a]? = some u.pos := by rw [List.getElem?_map, hu]; rfl
    obtain ⟨x, hx, -⟩ := forall2_get hcl hpos
    exact ⟨x, hx⟩
  obtain ⟨x, hx⟩ := at' hu
  obtain ⟨y, hy⟩ := at' hv
  obtain ⟨z, hz⟩ := at' hw
  have ne : ∀ {a b : Nat} {x y : V3 ℝ}, a ≠ b → xs[a]? = some x → xs[b]? = some y → x ≠ y := by
    rintro a b x y hab hx hy rfl
    exact hab ((List.getElem?_inj (List.getElem?_eq_some_iff.1 hx).1 hxs).1 (hx.trans hy.symm))
  exact ⟨e, he, ha, br, hbr, p, hp, hsh, hk, x, y, z, key hu hx d1, key hv hy d2, key hw hz d3, ne (by omega) hx hy,
    ne (by omega) hy hz, ne (by omega) hx hz⟩

/-- C126: a map file whose brushes are firm, without repeated faces and smoothing, loads, under the conditions on its entities
of C91, and is drawn like this. -/
theorem C126_loads [AccurateTurn] [AccurateSpin] (depth : Nat)
    (order : List (Str × List (BrushGeo F32)) → List (Str × List (BrushGeo F32))) (horder : ∀ l, (order l).Perm l)
    (config : Config F32) (text : Str) (ht : config.mapFile = some text) (entities : List (Entity F32))
    (hm : MapIs text entities) (hb : ∀ e ∈ entities, ∀ br ∈ e.brushes, IsFirm br.planes ∧ br.planes.Nodup)
    (hflat : ∀ e ∈ entities, e.properties (str! "_phong") ≠ some (str! "1"))
    (hworld : ∃ pre w post, entities = pre ++ w :: post ∧ w.properties (str! "classname") = some (str! "worldspawn") ∧
      ∀ e ∈ pre ++ post, e.properties (str! "classname") ≠ some (str! "worldspawn"))
    (hnamed : ∀ e ∈ entities, ∃ name, e.properties (str! "classname") = some name)
    (hids : ∀ e ∈ entities, ∀ k ∈ [str! "_tb_id", str! "_tb_group"], ∀ s, e.properties k = some s → ∃ i, ReadsI32 s i)
    (htree : ¬ Loop entities) (hd : entities.length ≤ depth) :
    ∃ nodes, Quarch.run depth order config = .ok nodes ∧
      ∀ o vis s i j k, Occurs (.visual o vis) nodes → s ∈ surfaces vis → IndexTriple s.indices i j k →
        ∃ e ∈ entities, Anchored entities e ∧ ∃ br ∈ e.brushes, ∃ p ∈ br.planes, ShownFace config e br p ∧
          knownTexture config.textureInfo p = s.texture ∧ ∃ x y z,
            PaintedAt s i br.planes p (config.textureInfo p.texture) x ∧
            PaintedAt s j br.planes p (config.textureInfo p.texture) y ∧
            PaintedAt s k br.planes p (config.textureInfo p.texture) z ∧ x ≠ y ∧ y ≠ z ∧ x ≠ z := by
  obtain ⟨nodes, hn⟩ := C92_enough depth order horder config entities
    ⟨⟨text, ht, hm⟩, hworld, (geo_succeeds config.textureInfo entities).1 (firm_map _ entities fun e he br hbr =>
      (hb e he br hbr).1), fun e he _ => hnamed e he, fun e he _ _ => hids e he, htree⟩ hd
  exact ⟨nodes, hn, fun o vis s i j k hocc hs hT => C126_painted depth order horder config nodes hn text ht entities
    ((C92_text text entities).2 hm) (fun e he _ => hb e he) (fun e he _ => hflat e he) o vis s hocc hs i j k hT⟩

end
end Quarch
