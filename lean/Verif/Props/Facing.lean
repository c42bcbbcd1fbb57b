import Verif.Spec.Facing
import Verif.Props.Rendered
import Verif.Props.Painted
/-
C128: the triangles of a scene face outwards.
-/
set_option linter.unusedSectionVars false
namespace Quarch
open Quarch.Spec Quarch.Geo Scene

/-- The corners of a triangle of a fan come one after another. -/
theorem fan_order {α : Type} {vs : List α} {is : List Nat} {x y z : α} (hfan : IsFan vs.length is)
    (hT : TriangleOf vs is x y z) : ∃ t, vs[0]? = some x ∧ vs[t + 1]? = some y ∧ vs[t + 2]? = some z := by
  obtain ⟨t, i, j, k, h1, h2, h3, h4, h5, h6⟩ := hT
  have ht : t < vs.length - 2 := by
    have := (List.getElem?_eq_some_iff.1 h3).1
    rw [hfan.1] at this
    omega
  obtain ⟨e1, e2, e3⟩ := hfan.2 t ht
  rw [e1] at h1; rw [e2] at h2; rw [e3] at h3
  cases h1; cases h2; cases h3
  exact ⟨t, h4, h5, h6⟩

section
variable [RealText] [Platform]

theorem face_clockwise {textures : TextureInfo} {e : Entity ℝ} {planes : List (BrushPlane ℝ)} {p : BrushPlane ℝ}
    {face : PlaneGeo ℝ} (hp : ProperBrush planes) (hm : p ∈ planes)
    (h : buildPlane textures e planes p = .ok face) {x y z : Vertex ℝ}
    (hT : TriangleOf face.vertices face.indices x y z) :
    FacesTo (rawNormal p) x.pos y.pos z.pos ∧ ∀ v ∈ [x, y, z], OnPlane p v.pos ∧ ∀ q ∈ planes, WithinR 0 q v.pos := by
  obtain ⟨t, h0, h1, h2⟩ := fan_order (C19_fan _ _ _ _ _ h) hT
  refine ⟨proper_turns hp hm h 0 (t + 1) (t + 2) _ _ _ (by omega) (by omega) (by simp [h0]) (by simp [h1]) (by simp [h2]),
    fun v hv => ?_⟩
  have hv' : v ∈ face.vertices := by
    simp only [List.mem_cons, List.not_mem_nil, or_false] at hv
    rcases hv with rfl | rfl | rfl
    · exact List.mem_of_getElem? h0
    · exact List.mem_of_getElem? h1
    · exact List.mem_of_getElem? h2
  obtain ⟨⟨_, _, _, _, _, ho, _⟩, _⟩ := ((C20_exact_corners _ _ _ _ _ h).2 v.pos).1 (List.mem_map_of_mem hv')
  exact ⟨ho, fun q hq => (within_zero q v.pos).2 (((proper_corner hp hm h v.pos).1 (List.mem_map_of_mem hv')).1 q hq)⟩

/-- C128: with exact arithmetic every triangle of a mesh of proper brushes lies on a face that is to be shown and goes
clockwise seen from outside. -/
theorem C128_drawn (depth : Nat)
    (order : List (Str × List (BrushGeo ℝ)) → List (Str × List (BrushGeo ℝ))) (horder : ∀ l, (order l).Perm l)
    (config : Config ℝ) (nodes : List (Node ℝ)) (h : Quarch.run depth order config = .ok nodes)
    (text : Str) (ht : config.mapFile = some text) (entities : List (Entity ℝ)) (hl : LoadsAs text entities)
    (hb : ∀ e ∈ entities, Anchored entities e → ∀ br ∈ e.brushes, ∀ p ∈ br.planes, ShownFace config e br p →
      ProperBrush br.planes)
    (o : V3 ℝ) (v : VisualGeometry ℝ) (s : MeshSurface ℝ) (a b c : V3 ℝ) (hocc : Occurs (.visual o v) nodes)
    (hs : s ∈ surfaces v) (hT : TriangleOf s.vertices s.indices a b c) :
    ∃ e ∈ entities, Anchored entities e ∧ ∃ br ∈ e.brushes, ∃ p ∈ br.planes, ShownFace config e br p ∧
      FacesTo (rawNormal p) a b c ∧ ∀ x ∈ [a, b, c], OnPlane p x ∧ ∀ q ∈ br.planes, WithinR 0 q x := by
  obtain ⟨e, he, ha, br, hbr, p, hp, hsh, face, hface, x, y, z, hT', e1, e2, e3⟩ :=
    (C87_triangles depth order horder config nodes h text ht entities hl).1 o v s a b c hocc hs hT
  rw [samePlace_real] at e1 e2 e3
  subst e1 e2 e3
  obtain ⟨h1, h2⟩ := face_clockwise (hb e he ha br hbr p hp hsh) hp hface hT'
  exact ⟨e, he, ha, br, hbr, p, hp, hsh, h1, by simpa using h2⟩

/-- C128: if moreover no two planes of a brush with the same outward direction have a point in common and nothing is smoothed,
the normals stored at its corners point to the side from which the triangle goes clockwise. -/
theorem C128_normals (depth : Nat)
    (order : List (Str × List (BrushGeo ℝ)) → List (Str × List (BrushGeo ℝ))) (horder : ∀ l, (order l).Perm l)
    (config : Config ℝ) (nodes : List (Node ℝ)) (h : Quarch.run depth order config = .ok nodes)
    (text : Str) (ht : config.mapFile = some text) (entities : List (Entity ℝ)) (hl : LoadsAs text entities)
    (hb : ∀ e ∈ entities, Anchored entities e → ∀ br ∈ e.brushes, ProperBrush br.planes ∧ br.planes.Pairwise fun p q =>
      ∀ x, OnPlane p x → OnPlane q x → unitR (rawNormal p) ≠ unitR (rawNormal q))
    (hflat : ∀ e ∈ entities, Anchored entities e → e.properties (str! "_phong") ≠ some (str! "1"))
    (o : V3 ℝ) (v : VisualGeometry ℝ) (s : MeshSurface ℝ) (i j k : Nat) (hocc : Occurs (.visual o v) nodes)
    (hs : s ∈ surfaces v) (hT : IndexTriple s.indices i j k) :
    ∃ a b c, s.vertices[i]? = some a ∧ s.vertices[j]? = some b ∧ s.vertices[k]? = some c ∧
      ∀ m ∈ [i, j, k], ∃ n, s.normals[m]? = some n ∧ lenR n = 1 ∧ FacesTo n a b c := by
  obtain ⟨e, he, ha, br, hbr, p, hp, hsh, -, face, hface, x, y, z, hT', d1, d2, d3⟩ :=
    (C126_exact depth order horder config nodes h text ht entities hl (fun e he ha br hbr => (hb e he ha br hbr).2) hflat).1
      o v s i j k hocc hs hT
  have hprop := (hb e he ha br hbr).1
  obtain ⟨h1, -⟩ := face_clockwise hprop hp hface hT'
  have hnd := hprop.points p hp
  obtain ⟨_, _, _, _, _, _, _, h4, h5, h6⟩ := hT'
  refine ⟨_, _, _, d1.pos, d2.pos, d3.pos, fun m hm => ?_⟩
  have key : ∀ {n : Nat} {v : Vertex ℝ}, v ∈ face.vertices → DataAt s n v →
      ∃ w, s.normals[n]? = some w ∧ lenR w = 1 ∧ FacesTo w x.pos y.pos z.pos := by
    intro n v hv hd
    obtain ⟨hn, hu⟩ := C29_flat _ _ _ _ _ hface (hflat e he ha) v hv
    refine ⟨_, hd.normal, hu, ?_⟩
    have hl : 0 ≤ lenR (rawNormal p) := Err.len_nonneg _
    rcases hl.eq_or_lt with h0 | hpos
    · rw [hn] at hu
      unfold unitR at hu
      rw [← h0] at hu
      norm_num [lenR, dotR, smulR] at hu
    · have e : dotR (crossR (subR y.pos x.pos) (subR z.pos x.pos)) (unitR (rawNormal p)) =
          1 / lenR (rawNormal p) * dotR (crossR (subR y.pos x.pos) (subR z.pos x.pos)) (rawNormal p) := by
        simp only [unitR, dotR, smulR]; ring
      unfold FacesTo at *
      rw [hn, e]
      exact mul_neg_of_pos_of_neg (by positivity) h1
  simp only [List.mem_cons, List.not_mem_nil, or_false] at hm
  rcases hm with rfl | rfl | rfl
  · exact key (List.mem_of_getElem? h4) d1
  · exact key (List.mem_of_getElem? h5) d2
  · exact key (List.mem_of_getElem? h6) d3

/-- C128: the triangles of concave collision shapes face outwards as well. -/
theorem C128_solid (depth : Nat)
    (order : List (Str × List (BrushGeo ℝ)) → List (Str × List (BrushGeo ℝ))) (horder : ∀ l, (order l).Perm l)
    (config : Config ℝ) (nodes : List (Node ℝ)) (h : Quarch.run depth order config = .ok nodes)
    (text : Str) (ht : config.mapFile = some text) (entities : List (Entity ℝ)) (hl : LoadsAs text entities)
    (hb : ∀ e ∈ entities, Anchored entities e → ∀ br ∈ e.brushes, SolidAs config e br .concave → ProperBrush br.planes)
    (o : V3 ℝ) (shapes : List (ConcaveCollision ℝ)) (s : ConcaveCollision ℝ) (a b c : V3 ℝ)
    (hocc : Occurs (.collision o (.concave shapes)) nodes) (hs : s ∈ shapes) (hT : TriangleOf s.vertices s.indices a b c) :
    ∃ e ∈ entities, Anchored entities e ∧ ∃ br ∈ e.brushes, SolidAs config e br .concave ∧ ∃ p ∈ br.planes,
      FacesTo (rawNormal p) a b c ∧ ∀ x ∈ [a, b, c], OnPlane p x ∧ ∀ q ∈ br.planes, WithinR 0 q x := by
  obtain ⟨e, he, ha, br, hbr, hsol, p, hp, face, hface, x, y, z, hT', e1, e2, e3⟩ :=
    (C88_concave depth order horder config nodes h text ht entities hl).1 o shapes s a b c hocc hs hT
  rw [samePlace_real] at e1 e2 e3
  subst e1 e2 e3
  obtain ⟨h1, h2⟩ := face_clockwise (hb e he ha br hbr hsol) hp hface hT'
  exact ⟨e, he, ha, br, hbr, hsol, p, hp, h1, by simpa using h2⟩

end

section
open Spec.F32
variable [F32Lib] [Platform] [AccurateAtan2]

theorem firm_clockwise {g : Nat} {R : ℝ} {planes : List (BrushPlane F32)} (hf : FirmBrush g R planes)
    {textures : TextureInfo} {e : Entity F32} {p : BrushPlane F32} {face : PlaneGeo F32} (hm : p ∈ planes)
    (h : buildPlane textures e planes p = .ok face) {x y z : Vertex F32}
    (hT : TriangleOf face.vertices face.indices x y z) :
    FacesTo (triOf p).normal (vec x.pos) (vec y.pos) (vec z.pos) ∧
      ∃ x' y' z', FacesTo (triOf p).normal x' y' z' ∧ (∀ v ∈ [x', y', z'], OnFace32 planes p v) ∧
        Close (1 / 2000) (vec x.pos) x' ∧ Close (1 / 2000) (vec y.pos) y' ∧ Close (1 / 2000) (vec z.pos) z' := by
  obtain ⟨xs, hnd, hx, hl, hsh⟩ := hf.corners p hm
  have ha : xs.Pairwise Apart := by
    refine hnd.imp_of_mem fun {a b} ha hb hne => ?_
    by_contra hcon
    unfold Apart at hcon
    push Not at hcon
    obtain ⟨c1, c2, c3⟩ := hcon
    exact hne (hf.far p hm p hm a b ((hx a).1 ha) ((hx b).1 hb) ⟨by linarith, by linarith, by linarith⟩)
  obtain ⟨xs', hpm, h1, h2, h3⟩ := C118_outline textures e h hf.grid hf.least hf.most hf.near hm hf.count (hf.clear p hm)
    (hf.simple p hm) xs hx ha hl hsh
  obtain ⟨t, g0, g1, g2⟩ := fan_order (C19_fan _ _ _ _ _ h) hT
  obtain ⟨x', k0, c0⟩ := forall2_get h1 g0
  obtain ⟨y', k1, c1⟩ := forall2_get h1 g1
  obtain ⟨z', k2, c2⟩ := forall2_get h1 g2
  refine ⟨h3 0 (t + 1) (t + 2) _ _ _ (by omega) (by omega) (by simp [g0]) (by simp [g1]) (by simp [g2]), x', y', z',
    h2 0 (t + 1) (t + 2) _ _ _ (by omega) (by omega) k0 k1 k2, fun v hv => ?_, c0, c1, c2⟩
  have hv' : v ∈ xs := by
    rw [← hpm.mem_iff]
    simp only [List.mem_cons, List.not_mem_nil, or_false] at hv
    rcases hv with rfl | rfl | rfl
    · exact List.mem_of_getElem? k0
    · exact List.mem_of_getElem? k1
    · exact List.mem_of_getElem? k2
  have hc := (hx v).1 hv'
  obtain ⟨_, _, _, _, h0, _⟩ := hc.meet
  exact ⟨h0, fun q hq => hc.inside _ (List.mem_map_of_mem hq)⟩

/-- C128: in single precision every triangle of a mesh of firm brushes goes clockwise seen from outside the face it belongs
to, and its corners are within 1/2000 of a unit of those of an exact triangle on this face. -/
theorem C128_drawn_firm (depth : Nat)
    (order : List (Str × List (BrushGeo F32)) → List (Str × List (BrushGeo F32))) (horder : ∀ l, (order l).Perm l)
    (config : Config F32) (nodes : List (Node F32)) (h : Quarch.run depth order config = .ok nodes)
    (text : Str) (ht : config.mapFile = some text) (entities : List (Entity F32)) (hl : LoadsAs text entities)
    (hb : ∀ e ∈ entities, Anchored entities e → ∀ br ∈ e.brushes, ∀ p ∈ br.planes, ShownFace config e br p →
      IsFirm br.planes)
    (o : V3 F32) (v : VisualGeometry F32) (s : MeshSurface F32) (a b c : V3 F32) (hocc : Occurs (.visual o v) nodes)
    (hs : s ∈ surfaces v) (hT : TriangleOf s.vertices s.indices a b c) :
    ∃ e ∈ entities, Anchored entities e ∧ ∃ br ∈ e.brushes, ∃ p ∈ br.planes, ShownFace config e br p ∧
      FacesTo (triOf p).normal (vec a) (vec b) (vec c) ∧
      ∃ x y z, FacesTo (triOf p).normal x y z ∧ (∀ v ∈ [x, y, z], OnFace32 br.planes p v) ∧
        Close (1 / 2000) (vec a) x ∧ Close (1 / 2000) (vec b) y ∧ Close (1 / 2000) (vec c) z := by
  obtain ⟨e, he, ha, br, hbr, p, hp, hsh, face, hface, x, y, z, hT', e1, e2, e3⟩ :=
    (C87_triangles depth order horder config nodes h text ht entities hl).1 o v s a b c hocc hs hT
  obtain ⟨g, R, hf⟩ := hb e he ha br hbr p hp hsh
  have hfin := firm_finite hf.toClearBody hp hface
  obtain ⟨m1, m2, m3⟩ := triangle_mem hT'
  rw [same_vec (hfin _ m1) e1, same_vec (hfin _ m2) e2, same_vec (hfin _ m3) e3]
  exact ⟨e, he, ha, br, hbr, p, hp, hsh, firm_clockwise hf hp hface hT'⟩

/-- C128: the same for concave collision shapes. -/
theorem C128_solid_firm (depth : Nat)
    (order : List (Str × List (BrushGeo F32)) → List (Str × List (BrushGeo F32))) (horder : ∀ l, (order l).Perm l)
    (config : Config F32) (nodes : List (Node F32)) (h : Quarch.run depth order config = .ok nodes)
    (text : Str) (ht : config.mapFile = some text) (entities : List (Entity F32)) (hl : LoadsAs text entities)
    (hb : ∀ e ∈ entities, Anchored entities e → ∀ br ∈ e.brushes, SolidAs config e br .concave → IsFirm br.planes)
    (o : V3 F32) (shapes : List (ConcaveCollision F32)) (s : ConcaveCollision F32) (a b c : V3 F32)
    (hocc : Occurs (.collision o (.concave shapes)) nodes) (hs : s ∈ shapes) (hT : TriangleOf s.vertices s.indices a b c) :
    ∃ e ∈ entities, Anchored entities e ∧ ∃ br ∈ e.brushes, SolidAs config e br .concave ∧ ∃ p ∈ br.planes,
      FacesTo (triOf p).normal (vec a) (vec b) (vec c) ∧
      ∃ x y z, FacesTo (triOf p).normal x y z ∧ (∀ v ∈ [x, y, z], OnFace32 br.planes p v) ∧
        Close (1 / 2000) (vec a) x ∧ Close (1 / 2000) (vec b) y ∧ Close (1 / 2000) (vec c) z := by
  obtain ⟨e, he, ha, br, hbr, hsol, p, hp, face, hface, x, y, z, hT', e1, e2, e3⟩ :=
    (C88_concave depth order horder config nodes h text ht entities hl).1 o shapes s a b c hocc hs hT
  obtain ⟨g, R, hf⟩ := hb e he ha br hbr hsol
  have hfin := firm_finite hf.toClearBody hp hface
  obtain ⟨m1, m2, m3⟩ := triangle_mem hT'
  rw [same_vec (hfin _ m1) e1, same_vec (hfin _ m2) e2, same_vec (hfin _ m3) e3]
  exact ⟨e, he, ha, br, hbr, hsol, p, hp, firm_clockwise hf hp hface hT'⟩

end
end Quarch
