import Verif.Spec.Zero
import Verif.Props.Painted
import Verif.Props.RealUV
import Verif.Props.Flat
import Verif.Props.Texels
/-
C136: texture layouts that divide by zero.
-/
set_option linter.unusedSectionVars false
namespace Quarch
open Spec Scene Geo

section
variable [F32Lib] [Platform]

theorem div_zero_wild (a : F32) {b : F32} (h : IsZero b) : ¬ F32.isFin (F32.div a b) := by
  obtain ⟨s, rfl⟩ := zero_num h.1 h.2
  cases a with
  | nan => exact fun h => h
  | inf s => exact fun h => h
  | num s a hr =>
    show ¬ F32.isFin (if (0 : ℝ) = 0 then (if a = 0 then F32.nan else F32.inf _) else _)
    rw [if_pos rfl]
    split <;> exact fun h => h

theorem add_wild_left {a : F32} (h : ¬ F32.isFin a) (b : F32) : ¬ F32.isFin (F32.add a b) := by
  cases a with
  | nan => exact fun h => h
  | inf s =>
    cases b with
    | nan => exact fun h => h
    | inf t =>
      show ¬ F32.isFin (if _ then _ else _)
      split <;> exact fun h => h
    | num _ _ _ => exact fun h => h
  | num _ _ _ => exact absurd trivial h

theorem add_wild_right {b : F32} (a : F32) (h : ¬ F32.isFin b) : ¬ F32.isFin (F32.add a b) := by
  cases b with
  | nan => cases a <;> exact fun h => h
  | inf s =>
    cases a with
    | nan => exact fun h => h
    | inf t =>
      show ¬ F32.isFin (if _ then _ else _)
      split <;> exact fun h => h
    | num _ _ _ => exact fun h => h
  | num _ _ _ => exact absurd trivial h

theorem ofNat_zero_isZero : IsZero (Arith.ofNat 0 : F32) := by
  have := ofNat_size (w := 0) (by norm_num)
  exact ⟨this.1, by rw [this.2]; norm_num⟩

theorem layout_wild {a o size scale : F32} (h : IsZero size ∨ IsZero scale) :
    ¬ F32.isFin (F32.add (F32.div (F32.div a size) scale) (F32.div o size)) := by
  rcases h with h | h
  · exact add_wild_right _ (div_zero_wild _ h)
  · exact add_wild_left (div_zero_wild _ h) _

theorem vertexUV_wild {v : V3 F32} {p : BrushPlane F32} {tx : Texture} {uv : V2 F32} (h : vertexUV v p tx = .ok uv) :
    (tx.width = 0 ∨ IsZero p.scale.x → ¬ F32.isFin uv.x) ∧ (tx.height = 0 ∨ IsZero p.scale.y → ¬ F32.isFin uv.y) := by
  have key : ∃ a b o q : F32, uv = ⟨F32.add (F32.div (F32.div a (Arith.ofNat tx.width)) p.scale.x) (F32.div o (Arith.ofNat tx.width)),
      F32.add (F32.div (F32.div b (Arith.ofNat tx.height)) p.scale.y) (F32.div q (Arith.ofNat tx.height))⟩ := by
    unfold vertexUV at h
    split at h
    · unfold standardUV at h
      simp only at h
      split at h
      · cases h
        exact ⟨_, _, _, _, rfl⟩
      · cases h
    · cases h
      exact ⟨_, _, _, _, rfl⟩
  obtain ⟨a, b, o, q, rfl⟩ := key
  constructor
  · intro h
    refine layout_wild (h.imp_left fun h => ?_)
    rw [h]
    exact ofNat_zero_isZero
  · intro h
    refine layout_wild (h.imp_left fun h => ?_)
    rw [h]
    exact ofNat_zero_isZero

/-- C136: a face whose texture has no width, or whose scale is zero, is built, but its texture coordinates are infinite or
NaN. -/
theorem C136_face (textures : TextureInfo) (entity : Entity F32) (planes : List (BrushPlane F32)) (plane : BrushPlane F32)
    (geo : PlaneGeo F32) (h : buildPlane textures entity planes plane = .ok geo) (v : Vertex F32) (hv : v ∈ geo.vertices) :
    (ZeroAcross textures plane → ∃ uv, v.uv = some uv ∧ ¬ F32.isFin uv.x) ∧
    (ZeroDown textures plane → ∃ uv, v.uv = some uv ∧ ¬ F32.isFin uv.y) := by
  obtain ⟨w, hw, rfl⟩ := buildPlane_vertex h hv
  constructor
  · rintro ⟨tx, htx, hz⟩
    obtain ⟨uv, h1, h2⟩ := hw.uv.2 tx htx
    exact ⟨uv, by simpa using h2, (vertexUV_wild h1).1 hz⟩
  · rintro ⟨tx, htx, hz⟩
    obtain ⟨uv, h1, h2⟩ := hw.uv.2 tx htx
    exact ⟨uv, by simpa using h2, (vertexUV_wild h1).2 hz⟩

/-- C136, for the scene: if every face with this texture divides the first (second) texture coordinate by zero, so does
every triangle drawn with it: the surface has texture coordinates, and those of its corners are infinite or NaN. -/
theorem C136_scene (depth : Nat)
    (order : List (Str × List (BrushGeo F32)) → List (Str × List (BrushGeo F32))) (horder : ∀ l, (order l).Perm l)
    (config : Config F32) (nodes : List (Node F32)) (h : Quarch.run depth order config = .ok nodes)
    (text : Str) (ht : config.mapFile = some text) (entities : List (Entity F32)) (hl : LoadsAs text entities)
    (o : V3 F32) (vis : VisualGeometry F32) (s : MeshSurface F32) (hocc : Occurs (.visual o vis) nodes)
    (hs : s ∈ surfaces vis) (t : Str) (hst : s.texture = some t) :
    ((∀ e ∈ entities, ∀ br ∈ e.brushes, ∀ p ∈ br.planes, p.texture = t → ZeroAcross config.textureInfo p) →
      ∃ l, s.uvs = some l ∧ ∀ i j k, IndexTriple s.indices i j k → ∀ n ∈ [i, j, k],
        ∃ uv, l[n]? = some uv ∧ ¬ F32.isFin uv.x) ∧
    ((∀ e ∈ entities, ∀ br ∈ e.brushes, ∀ p ∈ br.planes, p.texture = t → ZeroDown config.textureInfo p) →
      ∃ l, s.uvs = some l ∧ ∀ i j k, IndexTriple s.indices i j k → ∀ n ∈ [i, j, k],
        ∃ uv, l[n]? = some uv ∧ ¬ F32.isFin uv.y) := by
  obtain ⟨h1, h2⟩ := C126_sources depth order horder config nodes h text ht entities hl o vis s hocc hs
  obtain ⟨l, hl'⟩ := Option.ne_none_iff_exists'.1 (h1 (by rw [hst]; exact Option.some_ne_none _))
  have main : ∀ i j k, IndexTriple s.indices i j k → ∀ n ∈ [i, j, k], ∃ e ∈ entities, ∃ br ∈ e.brushes,
      ∃ q ∈ br.planes, q.texture = t ∧ ∃ face', Geo.buildPlane config.textureInfo e br.planes q = .ok face' ∧
      ∃ w ∈ face'.vertices, ∃ c, w.uv = some c ∧ l[n]? = some c := by
    intro i j k hijk n hn
    obtain ⟨e, he, _, br, hbr, p, hp, _, _, face, hf, x, y, z, _, hd⟩ := h2 i j k hijk
    have : ∃ u, (n, u) ∈ [(i, x), (j, y), (k, z)] := by
      simp only [List.mem_cons, List.not_mem_nil, or_false] at hn
      rcases hn with rfl | rfl | rfl
      · exact ⟨x, by simp⟩
      · exact ⟨y, by simp⟩
      · exact ⟨z, by simp⟩
    obtain ⟨u, hu⟩ := this
    obtain ⟨w, hw, _, q, hq, hqt, face', hf', hwf⟩ := hd n u hu
    obtain ⟨c, c1, c2⟩ := hw.uv l hl'
    refine ⟨e, he, br, hbr, q, hq, ?_, face', hf', w, hwf, c, c1, c2⟩
    rw [hst] at hqt
    unfold knownTexture at hqt
    split at hqt <;> simp_all
  constructor
  · intro hz
    refine ⟨l, hl', fun i j k hijk n hn => ?_⟩
    obtain ⟨e, he, br, hbr, q, hq, hqt, face', hf', w, hwf, c, c1, c2⟩ := main i j k hijk n hn
    obtain ⟨uv, u1, u2⟩ := (C136_face _ _ _ _ _ hf' w hwf).1 (hz e he br hbr q hq hqt)
    rw [c1] at u1
    cases u1
    exact ⟨c, c2, u2⟩
  · intro hz
    refine ⟨l, hl', fun i j k hijk n hn => ?_⟩
    obtain ⟨e, he, br, hbr, q, hq, hqt, face', hf', w, hwf, c, c1, c2⟩ := main i j k hijk n hn
    obtain ⟨uv, u1, u2⟩ := (C136_face _ _ _ _ _ hf' w hwf).2 (hz e he br hbr q hq hqt)
    rw [c1] at u1
    cases u1
    exact ⟨c, c2, u2⟩

end
end Quarch
