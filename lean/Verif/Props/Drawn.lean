import Verif.Proofs.Leaves
import Verif.Props.Tiling
/-
C87: what a loaded map looks like.
-/
set_option linter.unusedSectionVars false
namespace Quarch
namespace Spec

/-- The index list has a triangle with these corners, in this order. -/
def TriangleOf {α : Type} (vs : List α) (is : List Nat) (a b c : α) : Prop :=
  ∃ t i j k, is[3 * t]? = some i ∧ is[3 * t + 1]? = some j ∧ is[3 * t + 2]? = some k ∧
    vs[i]? = some a ∧ vs[j]? = some b ∧ vs[k]? = some c

section
variable {F : Type}

/-- The texture of a face, if it is one of the known textures. -/
def knownTexture (textures : TextureInfo) (p : BrushPlane F) : Option Str :=
  if (textures p.texture).isSome then some p.texture else none

/-- The brush belongs to the layer of the worldspawn with texture `t`. -/
def LayerBrush (textures : TextureInfo) (e : Entity F) (b : Brush F) (t : Str) : Prop :=
  IsWorld e ∧ (t = str! "*water0" ∨ t = str! "*slime0") ∧ ∀ q ∈ b.planes, knownTexture textures q = some t

/-- The face is to be shown: if its brush is in a layer, the only definition of this layer has mesh visuals;
otherwise the first definition of the entity is a brush definition with mesh visuals, the brush has a face whose
texture is unknown or not on the brush blacklist and the texture of this face is unknown or not on the plane
blacklist. -/
def ShownFace (config : Config F) (e : Entity F) (b : Brush F) (p : BrushPlane F) : Prop :=
  (∃ t layer, LayerBrush config.textureInfo e b t ∧
    TheLayer config.quarchitectGameData.worldspawnLayers t layer ∧ layer.visualType = .mesh) ∨
  ((∀ t, ¬ LayerBrush config.textureInfo e b t) ∧
    (∃ d pd bd, DefOf config.quarchitectGameData e d ∧ d.data = .brush pd bd ∧ bd.visualType = .mesh) ∧
    (∃ q ∈ b.planes, ∀ t, knownTexture config.textureInfo q = some t → t ∉ config.textureBlacklist.brush) ∧
    ∀ t, knownTexture config.textureInfo p = some t → t ∉ config.textureBlacklist.plane)
end
end Spec
open Spec Scene

section
variable {F : Type} [Arith F]

/-- Three consecutive elements that start at a multiple of three. -/
def Triple {α : Type} (l : List α) (a b c : α) : Prop :=
  ∃ t, l[3 * t]? = some a ∧ l[3 * t + 1]? = some b ∧ l[3 * t + 2]? = some c

theorem triple_corners {α : Type} {vs : List α} {is : List Nat} {cs : List α} (h : Corners vs is cs) {a b c : α} :
    TriangleOf vs is a b c ↔ Triple cs a b c := by
  have hget : ∀ (n : Nat) (x : α), cs[n]? = some x ↔ ∃ i, is[n]? = some i ∧ vs[i]? = some x := by
    intro n x
    have := congrArg (fun l => l[n]?) h
    simp only [List.getElem?_map] at this
    constructor
    · intro hx
      rw [hx] at this
      cases hi : is[n]? with
      | none => rw [hi] at this; cases this
      | some i => rw [hi] at this; exact ⟨i, rfl, Option.some.inj this⟩
    · rintro ⟨i, hi, hx⟩
      rw [hi] at this
      simp only [Option.map_some, hx] at this
      cases hc : cs[n]? with
      | none => rw [hc] at this; cases this
      | some y => rw [hc] at this; exact congrArg some (Option.some.inj (Option.some.inj this)).symm
  unfold TriangleOf Triple
  simp only [hget]
  constructor
  · rintro ⟨t, i, j, k, hi, hj, hk, ha, hb, hc⟩
    exact ⟨t, ⟨i, hi, ha⟩, ⟨j, hj, hb⟩, k, hk, hc⟩
  · rintro ⟨t, ⟨i, hi, ha⟩, ⟨j, hj, hb⟩, k, hk, hc⟩
    exact ⟨t, i, j, k, hi, hj, hk, ha, hb, hc⟩

theorem triple_append {α : Type} {l l' : List α} (h : 3 ∣ l.length) {a b c : α} :
    Triple (l ++ l') a b c ↔ Triple l a b c ∨ Triple l' a b c := by
  obtain ⟨n, hn⟩ := h
  unfold Triple
  constructor
  · rintro ⟨t, ha, hb, hc⟩
    by_cases ht : t < n
    · rw [List.getElem?_append_left (by omega)] at ha hb hc
      exact .inl ⟨t, ha, hb, hc⟩
    · rw [List.getElem?_append_right (by omega)] at ha hb hc
      refine .inr ⟨t - n, ?_, ?_, ?_⟩
      · rw [← ha]; congr 1; omega
      · rw [← hb]; congr 1; omega
      · rw [← hc]; congr 1; omega
  · rintro (⟨t, ha, hb, hc⟩ | ⟨t, ha, hb, hc⟩)
    · refine ⟨t, ?_, ?_, ?_⟩
      · rw [List.getElem?_append_left (List.getElem?_eq_some_iff.1 ha).1]; exact ha
      · rw [List.getElem?_append_left (List.getElem?_eq_some_iff.1 hb).1]; exact hb
      · rw [List.getElem?_append_left (List.getElem?_eq_some_iff.1 hc).1]; exact hc
    · refine ⟨n + t, ?_, ?_, ?_⟩
      · rw [List.getElem?_append_right (by omega), ← ha]; congr 1; omega
      · rw [List.getElem?_append_right (by omega), ← hb]; congr 1; omega
      · rw [List.getElem?_append_right (by omega), ← hc]; congr 1; omega

theorem triple_flatMap {α β : Type} {f : β → List α} {l : List β} (h : ∀ x ∈ l, 3 ∣ (f x).length) {a b c : α} :
    Triple (l.flatMap f) a b c ↔ ∃ x ∈ l, Triple (f x) a b c := by
  induction l with
  | nil => simp [Triple]
  | cons x l ih =>
    rw [List.flatMap_cons, triple_append (h x (by simp)), ih fun y hy => h y (by simp [hy])]
    simp

theorem triple_rel {α β : Type} {R : α → β → Prop} {l : List α} {m : List β} (h : List.Forall₂ R l m) :
    (∀ a b c, Triple l a b c → ∃ a' b' c', Triple m a' b' c' ∧ R a a' ∧ R b b' ∧ R c c') ∧
    (∀ a' b' c', Triple m a' b' c' → ∃ a b c, Triple l a b c ∧ R a a' ∧ R b b' ∧ R c c') := by
  have hlen := h.length_eq
  have hget : ∀ n (hn : n < l.length) (hn' : n < m.length), R l[n] m[n] := fun n hn hn' =>
    (List.forall₂_iff_get.1 h).2 n hn hn'
  constructor
  · rintro a b c ⟨t, ha, hb, hc⟩
    obtain ⟨la, rfl⟩ := List.getElem?_eq_some_iff.1 ha
    obtain ⟨lb, rfl⟩ := List.getElem?_eq_some_iff.1 hb
    obtain ⟨lc, rfl⟩ := List.getElem?_eq_some_iff.1 hc
    exact ⟨_, _, _, ⟨t, List.getElem?_eq_getElem (by omega), List.getElem?_eq_getElem (by omega),
      List.getElem?_eq_getElem (by omega)⟩, hget _ _ _, hget _ _ _, hget _ _ _⟩
  · rintro a b c ⟨t, ha, hb, hc⟩
    obtain ⟨la, rfl⟩ := List.getElem?_eq_some_iff.1 ha
    obtain ⟨lb, rfl⟩ := List.getElem?_eq_some_iff.1 hb
    obtain ⟨lc, rfl⟩ := List.getElem?_eq_some_iff.1 hc
    exact ⟨_, _, _, ⟨t, List.getElem?_eq_getElem (by omega), List.getElem?_eq_getElem (by omega),
      List.getElem?_eq_getElem (by omega)⟩, hget _ _ _, hget _ _ _, hget _ _ _⟩

theorem faceCorners_corners {p : PlaneGeo F} (h : IsFan p.vertices.length p.indices) :
    Corners p.vertices p.indices (faceCorners p) := by
  refine corners_filterMap ?_
  intro i hi
  obtain ⟨t, ht, hi⟩ := isFan_mem h hi
  omega

/-- Corner by corner the same places. -/
def SameTri (a b c : V3 F) (u v w : Vertex F) : Prop := SamePlace a u.pos ∧ SamePlace b v.pos ∧ SamePlace c w.pos

/-- The triangles of a surface are those of its faces. -/
theorem surface_triangles [LawfulEq F] {g : EntityGeo F} {bl : TextureBlacklist} {t : Option Str}
    {s : MeshSurface F} (hg : Fanned g.brushes) (h : textureSurface g bl t = .ok (some s)) :
    (∀ a b c, TriangleOf s.vertices s.indices a b c → ∃ bg ∈ g.brushes, ¬ Hidden bl bg ∧ ∃ p ∈ bg.planes,
      p.texture = t ∧ ∃ u v w, TriangleOf p.vertices p.indices u v w ∧ SameTri a b c u v w) ∧
    (∀ bg ∈ g.brushes, ¬ Hidden bl bg → ∀ p ∈ bg.planes, p.texture = t → ∀ u v w,
      TriangleOf p.vertices p.indices u v w → ∃ a b c, TriangleOf s.vertices s.indices a b c ∧ SameTri a b c u v w) := by
  obtain ⟨parts, h2, ⟨_, h3⟩ | ⟨_, s', h3, _, ha, hc⟩⟩ := textureSurface_ok bl t hg
  · rw [h] at h3; cases h3
  · rw [h] at h3; cases h3
    have hcor : Corners s.vertices s.indices ((parts.flatMap (·.2)).map (·.pos)) := by
      rw [ha.pos]; exact hc.map _
    have hrel : List.Forall₂ (fun (a : V3 F) (u : Vertex F) => SamePlace a u.pos)
        ((parts.flatMap (·.2)).map (·.pos)) ((shownFaces bl t g.brushes).flatten.flatMap faceCorners) := by
      rw [List.forall₂_map_left_iff, forall₂_comm]
      exact (parts_corners h2 (R := fun v w => SamePlace w.pos v.pos) fun _ _ _ _ _ hm => mergedTo_place hm)
    have hmem : ∀ p, p ∈ (shownFaces bl t g.brushes).flatten ↔ ∃ bg ∈ g.brushes, ¬ Hidden bl bg ∧
        p ∈ bg.planes ∧ p.texture = t := by
      intro p
      rw [List.mem_flatten]
      constructor
      · rintro ⟨ps, hps, hp⟩
        obtain ⟨b, hb, hh, rfl⟩ := shown_mem hps
        obtain ⟨h5, h6⟩ := List.mem_filter.1 hp
        exact ⟨b, hb, hh, h5, of_decide_eq_true h6⟩
      · rintro ⟨b, hb, hh, hp, ht⟩
        exact ⟨_, List.mem_map.2 ⟨b, List.mem_filter.2 ⟨hb, decide_eq_true hh⟩, rfl⟩,
          List.mem_filter.2 ⟨hp, decide_eq_true ht⟩⟩
    have hfan : ∀ p ∈ (shownFaces bl t g.brushes).flatten, IsFan p.vertices.length p.indices := by
      intro p hp
      obtain ⟨b, hb, _, hpb, _⟩ := (hmem p).1 hp
      exact hg b hb p hpb
    have h3 : ∀ p ∈ (shownFaces bl t g.brushes).flatten, 3 ∣ (faceCorners p).length := by
      intro p hp
      rw [faceCorners_length (hfan p hp)]
      exact isFan_length (hfan p hp)
    obtain ⟨r1, r2⟩ := triple_rel hrel
    constructor
    · intro a b c hT
      obtain ⟨u, v, w, hT', hs⟩ := r1 a b c ((triple_corners hcor).1 hT)
      obtain ⟨p, hp, hpT⟩ := (triple_flatMap h3).1 hT'
      obtain ⟨bg, hbg, hh, hpb, ht⟩ := (hmem p).1 hp
      exact ⟨bg, hbg, hh, p, hpb, ht, u, v, w, (triple_corners (faceCorners_corners (hfan p hp))).2 hpT, hs⟩
    · intro bg hbg hh p hp ht u v w hT
      have hpm := (hmem p).2 ⟨bg, hbg, hh, hp, ht⟩
      obtain ⟨a, b, c, hT', hs⟩ := r2 u v w ((triple_flatMap h3).2 ⟨p, hpm,
        (triple_corners (faceCorners_corners (hfan p hpm))).1 hT⟩)
      exact ⟨a, b, c, (triple_corners hcor).2 hT', hs⟩

theorem triangle_vertices {p : PlaneGeo F} {u v w : Vertex F} (h : TriangleOf p.vertices p.indices u v w) :
    p.vertices ≠ [] := by
  obtain ⟨_, i, _, _, _, _, _, h, _⟩ := h
  intro e
  rw [e] at h
  cases h

variable [Platform]

theorem built_texture {textures : TextureInfo} {e : Entity F} {planes : List (BrushPlane F)} {p : BrushPlane F}
    {face : PlaneGeo F} (h : Geo.buildPlane textures e planes p = .ok face) :
    face.texture = knownTexture textures p := by
  obtain ⟨_, _, _, _, _, _, _, e⟩ := buildPlane_ok h
  rw [e]
  unfold knownTexture
  cases textures p.texture <;> rfl

/-- A statement about the textures of all faces. -/
theorem all_textures {textures : TextureInfo} {e : Entity F} {b : Brush F} {bg : BrushGeo F}
    (h : List.Forall₂ (fun p pg => Geo.buildPlane textures e b.planes p = .ok pg) b.planes bg.planes)
    (P : Option Str → Prop) : (∀ p ∈ bg.planes, P p.texture) ↔ ∀ p ∈ b.planes, P (knownTexture textures p) := by
  constructor
  · intro ha p hp
    obtain ⟨pg, hpg, hb⟩ := forall₂_left h hp
    rw [← built_texture hb]; exact ha pg hpg
  · intro ha pg hpg
    obtain ⟨p, hp, hb⟩ := forall₂_right h hpg
    rw [built_texture hb]; exact ha p hp

theorem layer_unique {textures : TextureInfo} {e : Entity F} {b : Brush F} {p : BrushPlane F} (hp : p ∈ b.planes)
    {t t' : Str} (h : LayerBrush textures e b t) (h' : ∀ q ∈ b.planes, knownTexture textures q = some t') : t = t' := by
  have := h' p hp
  rw [h.2.2 p hp] at this
  exact Option.some.inj this

omit [Platform] in
theorem knownIn_iff {l : List Str} {o : Option Str} : ¬ knownIn l o = true ↔ ∀ t, o = some t → t ∉ l := by
  cases o <;> simp [knownIn]

/-- C87: the triangles of all surfaces in the scene are, corner by corner, the triangles of the shown faces. -/
theorem C87_triangles [LawfulEq F] (depth : Nat)
    (order : List (Str × List (BrushGeo F)) → List (Str × List (BrushGeo F))) (horder : ∀ l, (order l).Perm l)
    (config : Config F) (nodes : List (Node F)) (h : Quarch.run depth order config = .ok nodes)
    (text : Str) (ht : config.mapFile = some text) (entities : List (Entity F)) (hl : LoadsAs text entities) :
    (∀ o v s a b c, Occurs (.visual o v) nodes → s ∈ surfaces v → TriangleOf s.vertices s.indices a b c →
      ∃ e ∈ entities, Anchored entities e ∧ ∃ br ∈ e.brushes, ∃ p ∈ br.planes, ShownFace config e br p ∧
      ∃ face, Geo.buildPlane config.textureInfo e br.planes p = .ok face ∧
      ∃ x y z, TriangleOf face.vertices face.indices x y z ∧
        SamePlace a x.pos ∧ SamePlace b y.pos ∧ SamePlace c z.pos) ∧
    (∀ e ∈ entities, Anchored entities e → ∀ br ∈ e.brushes, ∀ p ∈ br.planes, ShownFace config e br p →
      ∃ face, Geo.buildPlane config.textureInfo e br.planes p = .ok face ∧
      ∀ x y z, TriangleOf face.vertices face.indices x y z →
      ∃ o v s a b c, Occurs (.visual o v) nodes ∧ s ∈ surfaces v ∧ TriangleOf s.vertices s.indices a b c ∧
        SamePlace a x.pos ∧ SamePlace b y.pos ∧ SamePlace c z.pos) := by
  obtain ⟨w, hwm, hw, huniq, hbuilt, hleaf⟩ := scene_leaves horder h ht hl
  have hown : ∀ {e : Entity F} {g : EntityGeo F}, Geo.buildEntity config.textureInfo e = .ok g →
      Fanned (ownBrushes e g.brushes) := fun hg b hb p hp => built_fanned hg b (List.mem_filter.1 hb).1 p hp
  have hlayf : ∀ {e : Entity F} {g : EntityGeo F} (t : Str), Geo.buildEntity config.textureInfo e = .ok g →
      Fanned (g.brushes.filter fun b => InLayer t b) :=
    fun t hg b hb p hp => built_fanned hg b (List.mem_filter.1 hb).1 p hp
  constructor
  · intro o v s a b c hocc hs hT
    rcases (hleaf (.visual o v) (by intro o a cs; simp)).1 hocc with
      ⟨e, he, hanch, g, hg, hlf⟩ | ⟨t, layer, g, htt, hlay, hg, hk⟩
    · rcases hlf with ⟨v', hv', hm⟩ | ⟨c', _, hm⟩
      · obtain ⟨hm1, hne⟩ := visualChildren_mem hm
        cases hm1
        obtain ⟨d, pd, bd, hd, hdata, hmesh, hbv, _⟩ := entityVisual_mesh hv' hne
        obtain ⟨_, htried, hsurf⟩ := brushVisual_surface (hown hg) hbv hs
        obtain ⟨bg, hbg, hh, pg, hpg, htex, x, y, z, hxyz, hsame⟩ := (surface_triangles (hown hg) hsurf).1 a b c hT
        obtain ⟨hbg1, hbg2⟩ := List.mem_filter.1 hbg
        have hbg2 := of_decide_eq_true hbg2
        obtain ⟨br, hbr, hfaces⟩ := forall₂_right (built_faces hg) hbg1
        obtain ⟨p, hp, hb⟩ := forall₂_right hfaces hpg
        refine ⟨e, he, hanch, br, hbr, p, hp, .inr ⟨?_, ⟨d, pd, bd, hd, hdata, hmesh⟩, ?_, ?_⟩, pg, hb, x, y, z, hxyz, hsame⟩
        · rintro t ⟨hwe, htt, hall⟩
          have hA := (all_textures hfaces fun o => o = some t).2 hall
          apply hbg2
          refine ⟨hwe, ?_⟩
          rcases htt with rfl | rfl
          · exact .inl hA
          · exact .inr hA
        · by_contra hc
          apply hh
          refine (all_textures hfaces fun o => knownIn config.textureBlacklist.brush o = true).2 fun q hq => ?_
          by_contra hk
          exact hc ⟨q, hq, knownIn_iff.1 hk⟩
        · intro t ht
          rw [← built_texture hb, htex] at ht
          unfold tried at htried
          rw [ht] at htried
          simp only [List.mem_append, List.mem_map, Option.some.injEq, exists_eq_right, List.mem_singleton,
            reduceCtorEq, or_false, uniqueTextures_mem] at htried
          exact htried.2
      · cases (collisionChildren_mem hm).1
    · rcases hk with ⟨v', hv', hm⟩ | ⟨c', _, hm⟩
      · obtain ⟨hm1, hne⟩ := visualChildren_mem hm
        cases hm1
        rcases layerVisual_ok layer t _ (hlayf t hg) with ⟨_, h'⟩ | ⟨hvis, s', h', hsurf⟩
        · rw [hv'] at h'; cases h'; exact absurd rfl hne
        · rw [hv'] at h'; cases h'
          cases List.mem_singleton.1 hs
          obtain ⟨bg, hbg, hh, pg, hpg, htex, x, y, z, hxyz, hsame⟩ :=
            (surface_triangles (g := ⟨V3.zero, _⟩) (hlayf t hg) hsurf).1 a b c hT
          obtain ⟨hbg1, hbg2⟩ := List.mem_filter.1 hbg
          have hbg2 := of_decide_eq_true hbg2
          obtain ⟨br, hbr, hfaces⟩ := forall₂_right (built_faces hg) hbg1
          obtain ⟨p, hp, hb⟩ := forall₂_right hfaces hpg
          exact ⟨w, hwm, .world hw, br, hbr, p, hp,
            .inl ⟨t, layer, ⟨hw, htt, (all_textures hfaces fun o => o = some t).1 hbg2.1⟩, hlay, hvis.1⟩,
            pg, hb, x, y, z, hxyz, hsame⟩
      · cases (collisionChildren_mem hm).1
  · intro e he hanch br hbr p hp hshown
    obtain ⟨g, hg⟩ := hbuilt e he
    obtain ⟨bg, hbg, hfaces⟩ := forall₂_left (built_faces hg) hbr
    obtain ⟨pg, hpg, hb⟩ := forall₂_left hfaces hp
    refine ⟨pg, hb, fun x y z hT => ?_⟩
    rcases hshown with ⟨t, layer, hlb, hlay, hmesh⟩ | ⟨hnl, ⟨d, pd, bd, hd, hdata, hmesh⟩, ⟨q, hq, hqt⟩, hpt⟩
    · have hwe := huniq e he hlb.1
      subst hwe
      have hall := (all_textures hfaces fun o => o = some t).2 hlb.2.2
      have hin : bg ∈ g.brushes.filter fun b => InLayer t b := by
        refine List.mem_filter.2 ⟨hbg, decide_eq_true ⟨hall, ?_⟩⟩
        rcases hlb.2.1 with rfl | rfl
        · exact .inl rfl
        · refine .inr ⟨rfl, fun hc => ?_⟩
          have := layer_unique hp hlb ((all_textures hfaces fun o => o = some (str! "*water0")).1 hc)
          exact absurd this (by decide)
      rcases layerVisual_ok layer t _ (hlayf t hg) with ⟨hnv, _⟩ | ⟨_, s, h', hsurf⟩
      · exact absurd ⟨hmesh, bg, hin, pg, hpg, hall pg hpg, triangle_vertices hT⟩ hnv
      · obtain ⟨a, b, c, hT', hs⟩ := (surface_triangles (g := ⟨V3.zero, _⟩) (hlayf t hg) hsurf).2 bg hin
          (hidden_default hpg) pg hpg (hall pg hpg) x y z hT
        refine ⟨V3.zero, .mesh [s], s, a, b, c, (hleaf _ (by intro o a cs; simp)).2 (.inr ⟨t, layer, g, hlb.2.1, hlay, hg,
          .inl ⟨_, h', by simp [visualChildren]⟩⟩), by simp [surfaces], hT', hs⟩
    · have hin : bg ∈ ownBrushes e g.brushes := by
        refine List.mem_filter.2 ⟨hbg, decide_eq_true ?_⟩
        rintro ⟨hwe, hc | hc⟩
        · exact hnl _ ⟨hwe, .inl rfl, (all_textures hfaces fun o => o = some _).1 hc⟩
        · exact hnl _ ⟨hwe, .inr rfl, (all_textures hfaces fun o => o = some _).1 hc⟩
      have hh : ¬ Hidden config.textureBlacklist bg := by
        intro hc
        exact knownIn_iff.2 hqt ((all_textures hfaces fun o => knownIn config.textureBlacklist.brush o = true).1 hc q hq)
      have hfrom : FromEntity e (ownBrushes e g.brushes) := by
        intro b hb p hp t ht
        obtain ⟨eb, heb, hb'⟩ := forall₂_right (built_faces hg) (List.mem_filter.1 hb).1
        obtain ⟨ep, hep, hp'⟩ := forall₂_right hb' hp
        refine ⟨eb, heb, ep, hep, ?_⟩
        rw [built_texture hp'] at ht
        unfold knownTexture at ht
        split at ht
        · exact Option.some.inj ht
        · cases ht
      obtain ⟨v, _, hbv, _, _, hvv⟩ := brushVisual_ok (g := ⟨g.center, ownBrushes e g.brushes⟩) e bd
        config.textureBlacklist hmesh (hown hg)
      obtain ⟨s, hs, hst, _⟩ := C39_nothing_lost e ⟨g.center, ownBrushes e g.brushes⟩ bd config.textureBlacklist v
        (hown hg) hfrom hmesh hbv bg hin hh pg hpg (triangle_vertices hT) (by
          intro t ht; rw [built_texture hb] at ht; exact hpt t ht)
      obtain ⟨_, _, hsurf⟩ := brushVisual_surface (hown hg) hbv hs
      obtain ⟨a, b, c, hT', hsame⟩ := (surface_triangles (g := ⟨g.center, _⟩) (hown hg) hsurf).2 bg hin hh pg hpg
        hst.symm x y z hT
      refine ⟨g.center, v, s, a, b, c, (hleaf _ (by intro o a cs; simp)).2 (.inl ⟨e, he, hanch, g, hg, .inl ⟨v, ?_, ?_⟩⟩),
        hs, hT', hsame⟩
      · obtain ⟨cl, hcl, hf⟩ := hd
        unfold entityVisual Map.get?
        simp only [hcl, findDef_iff.2 hf, hdata]
        exact hbv
      · rcases hvv with rfl | ⟨ss, rfl, _⟩
        · cases hs
        · simp [visualChildren]

end

/-! ### exact arithmetic -/

namespace Spec
/-- The point is on the face that the plane contributes to the brush. -/
def OnFace (planes : List (BrushPlane ℝ)) (p : BrushPlane ℝ) (x : V3 ℝ) : Prop :=
  OnPlane p x ∧ ∀ q ∈ planes, WithinR 0 q x

/-- The face has three points that are not on one line. -/
def HasArea (planes : List (BrushPlane ℝ)) (p : BrushPlane ℝ) : Prop :=
  ∃ a b c, OnFace planes p a ∧ OnFace planes p b ∧ OnFace planes p c ∧ crossR (subR b a) (subR c a) ≠ ⟨0, 0, 0⟩

/-- The point is in a triangle of a surface of a visual node of the scene. -/
def Drawn (nodes : List (Node ℝ)) [Arith ℝ] (x : V3 ℝ) : Prop :=
  ∃ o v s a b c, Occurs (.visual o v) nodes ∧ s ∈ surfaces v ∧ TriangleOf s.vertices s.indices a b c ∧
    InTriangle a b c x
end Spec

section
variable [RealText] [Platform]
open Geo Poly

/-- A normal vector that is perpendicular to a cross product of vectors in its plane. -/
theorem cross_zero {n u v : V3 ℝ} (hn : n ≠ zeroR) (hu : dotR n u = 0) (hv : dotR n v = 0)
    (h : dotR (crossR u v) n = 0) : crossR u v = ⟨0, 0, 0⟩ := by
  have hnn : 0 < n.x * n.x + n.y * n.y + n.z * n.z := by
    by_contra hc
    apply hn
    have h1 : n.x = 0 := by nlinarith [mul_self_nonneg n.x, mul_self_nonneg n.y, mul_self_nonneg n.z]
    have h2 : n.y = 0 := by nlinarith [mul_self_nonneg n.x, mul_self_nonneg n.y, mul_self_nonneg n.z]
    have h3 : n.z = 0 := by nlinarith [mul_self_nonneg n.x, mul_self_nonneg n.y, mul_self_nonneg n.z]
    cases n
    simp only at h1 h2 h3
    rw [h1, h2, h3]; rfl
  simp only [dotR, crossR] at hu hv h ⊢
  have k : ∀ w : ℝ, (n.x * n.x + n.y * n.y + n.z * n.z) * w = 0 → w = 0 := fun w hw =>
    (mul_eq_zero.1 hw).resolve_left hnn.ne'
  rw [V3.mk.injEq]
  refine ⟨k _ ?_, k _ ?_, k _ ?_⟩
  · linear_combination n.x * h + (u.y * n.z - u.z * n.y) * hv + (n.y * v.z - n.z * v.y) * hu
  · linear_combination n.y * h + (u.z * n.x - u.x * n.z) * hv + (n.z * v.x - n.x * v.z) * hu
  · linear_combination n.z * h + (u.x * n.y - u.y * n.x) * hv + (n.x * v.y - n.y * v.x) * hu

theorem hasArea_iff {planes : List (BrushPlane ℝ)} {p : BrushPlane ℝ} (hn : NonDegenerate p) :
    HasArea planes p ↔ Wide planes p := by
  have hin : ∀ x, OnFace planes p x ↔ (In planes x ∧ ht p x = 0) := fun x => by
    unfold OnFace In
    constructor
    · rintro ⟨h0, h⟩; exact ⟨fun q hq => (within_zero q x).1 (h q hq), h0⟩
    · rintro ⟨h, h0⟩; exact ⟨h0, fun q hq => (within_zero q x).2 (h q hq)⟩
  unfold HasArea Wide
  simp only [hin]
  refine exists_congr fun a => exists_congr fun b => exists_congr fun c => ?_
  refine and_congr_right fun ha => and_congr_right fun hb => and_congr_right fun hc => not_congr ?_
  constructor
  · intro h
    simp only [tri, h, dotR]; ring
  · intro h
    refine cross_zero hn ?_ ?_ h
    · rw [ht_sub, hb.2, ha.2]; ring
    · rw [ht_sub, hc.2, ha.2]; ring

/-- The triangles of a face cover it if it has an area; otherwise there are none. -/
theorem face_covered {textures : TextureInfo} {e : Entity ℝ} {planes : List (BrushPlane ℝ)}
    (hp : ProperBrush planes) {plane : BrushPlane ℝ} (hm : plane ∈ planes) {face : PlaneGeo ℝ}
    (h : buildPlane textures e planes plane = .ok face) (x : V3 ℝ) :
    (∃ u v w, TriangleOf face.vertices face.indices u v w ∧ InTriangle u.pos v.pos w.pos x) ↔
      HasArea planes plane ∧ OnFace planes plane x := by
  have hconv : (∃ u v w, TriangleOf face.vertices face.indices u v w ∧ InTriangle u.pos v.pos w.pos x) ↔
      ∃ t a b c, FaceTriangle face t a b c ∧ InTriangle a b c x := by
    constructor
    · rintro ⟨u, v, w, ⟨t, i, j, k, h1, h2, h3, h4, h5, h6⟩, hx⟩
      exact ⟨t, _, _, _, ⟨i, j, k, u, v, w, h1, h2, h3, h4, h5, h6, rfl, rfl, rfl⟩, hx⟩
    · rintro ⟨t, a, b, c, ⟨i, j, k, u, v, w, h1, h2, h3, h4, h5, h6, rfl, rfl, rfl⟩, hx⟩
      exact ⟨u, v, w, ⟨t, i, j, k, h1, h2, h3, h4, h5, h6⟩, hx⟩
  rw [hconv, hasArea_iff (hp.points _ hm)]
  constructor
  · rintro ⟨t, a, b, c, hT, hx⟩
    have hT' := (faceTriangle_iff h t a b c).1 hT
    have h3 : 3 ≤ face.vertices.length := by
      have := (List.getElem?_eq_some_iff.1 hT'.2.2).1
      rw [List.length_map] at this
      omega
    refine ⟨⟨a, b, c, ?_, ?_, ?_, ?_⟩, (C85_covers _ _ _ hp _ hm _ h h3 x).2 ⟨t, a, b, c, hT, hx⟩⟩
    · have := (proper_corner hp hm h a).1 (List.mem_of_getElem? hT'.1)
      exact ⟨this.1, this.2.1⟩
    · have := (proper_corner hp hm h b).1 (List.mem_of_getElem? hT'.2.1)
      exact ⟨this.1, this.2.1⟩
    · have := (proper_corner hp hm h c).1 (List.mem_of_getElem? hT'.2.2)
      exact ⟨this.1, this.2.1⟩
    · exact (proper_turns hp hm h 0 (t + 1) (t + 2) a b c (by omega) (by omega) hT'.1 hT'.2.1 hT'.2.2).ne
  · rintro ⟨hw, hx⟩
    have h3 := wide_corners (proper_bounded hp) (hp.points _ hm) hw (fun c => (proper_corner hp hm h c).symm)
      (C20_exact_corners _ _ _ _ _ h).1
    exact (C85_covers _ _ _ hp _ hm _ h (by simpa using h3) x).1 hx

/-- C87: with exact arithmetic the points drawn are those of the shown faces that have an area. -/
theorem C87_picture (depth : Nat)
    (order : List (Str × List (BrushGeo ℝ)) → List (Str × List (BrushGeo ℝ))) (horder : ∀ l, (order l).Perm l)
    (config : Config ℝ) (nodes : List (Node ℝ)) (h : Quarch.run depth order config = .ok nodes)
    (text : Str) (ht : config.mapFile = some text) (entities : List (Entity ℝ)) (hl : LoadsAs text entities)
    (hp : ∀ e ∈ entities, Anchored entities e → ∀ br ∈ e.brushes, ProperBrush br.planes) (x : V3 ℝ) :
    Drawn nodes x ↔ ∃ e ∈ entities, Anchored entities e ∧ ∃ br ∈ e.brushes, ∃ p ∈ br.planes,
      ShownFace config e br p ∧ HasArea br.planes p ∧ OnFace br.planes p x := by
  obtain ⟨h1, h2⟩ := C87_triangles depth order horder config nodes h text ht entities hl
  constructor
  · rintro ⟨o, v, s, a, b, c, hocc, hs, hT, hx⟩
    obtain ⟨e, he, ha, br, hbr, p, hpm, hsh, face, hb, u, v, w, hT', e1, e2, e3⟩ := h1 o v s a b c hocc hs hT
    rw [samePlace_real] at e1 e2 e3
    subst e1; subst e2; subst e3
    exact ⟨e, he, ha, br, hbr, p, hpm, hsh, (face_covered (hp e he ha br hbr) hpm hb x).1 ⟨u, v, w, hT', hx⟩⟩
  · rintro ⟨e, he, ha, br, hbr, p, hpm, hsh, hx⟩
    obtain ⟨face, hb, hf⟩ := h2 e he ha br hbr p hpm hsh
    obtain ⟨u, v, w, hT, hx⟩ := (face_covered (hp e he ha br hbr) hpm hb x).2 hx
    obtain ⟨o, v', s, a, b, c, hocc, hs, hT', e1, e2, e3⟩ := hf u v w hT
    rw [samePlace_real] at e1 e2 e3
    subst e1; subst e2; subst e3
    exact ⟨o, v', s, _, _, _, hocc, hs, hT', hx⟩

/-- C87: if every face is to be shown, what is drawn is the union of the boundaries of all brushes. -/
theorem C87_everything (depth : Nat)
    (order : List (Str × List (BrushGeo ℝ)) → List (Str × List (BrushGeo ℝ))) (horder : ∀ l, (order l).Perm l)
    (config : Config ℝ) (nodes : List (Node ℝ)) (h : Quarch.run depth order config = .ok nodes)
    (text : Str) (ht : config.mapFile = some text) (entities : List (Entity ℝ)) (hl : LoadsAs text entities)
    (hp : ∀ e ∈ entities, ∀ br ∈ e.brushes, ProperBrush br.planes)
    (ha : ∀ e ∈ entities, Anchored entities e)
    (hs : ∀ e ∈ entities, ∀ br ∈ e.brushes, ∀ p ∈ br.planes, ShownFace config e br p) (x : V3 ℝ) :
    Drawn nodes x ↔ ∃ e ∈ entities, ∃ br ∈ e.brushes, (∀ q ∈ br.planes, WithinR 0 q x) ∧ ∃ p ∈ br.planes, OnPlane p x := by
  rw [C87_picture depth order horder config nodes h text ht entities hl (fun e he _ => hp e he) x]
  constructor
  · rintro ⟨e, he, _, br, hbr, p, hpm, _, _, h0, hin⟩
    exact ⟨e, he, br, hbr, hin, p, hpm, h0⟩
  · rintro ⟨e, he, br, hbr, hin, p, hpm, h0⟩
    have hpb := hp e he br hbr
    obtain ⟨g, hg, hw, hg0⟩ := on_wide hpb.solid hpb.points hpm (fun p hpm => (within_zero p x).1 (hin p hpm)) h0
    exact ⟨e, he, ha e he, br, hbr, g, hg, hs e he br hbr g hg, (hasArea_iff (hpb.points _ hg)).2 hw, hg0, hin⟩

end
end Quarch
