import Verif.Props.Pointed
import Verif.Props.Holes
import Verif.Props.Facing
/-
C127 and C128 for brushes with corners where many faces meet.
-/
set_option linter.unusedSectionVars false
namespace Quarch
open Quarch.Spec Quarch.Spec.F32 Quarch.Geo Scene
open Poly (tri)

/-- Going around from `y` one leaves it, if there is another point. -/
theorem leave {pts : List (V3 ℝ)} {m k : Nat} {y c : V3 ℝ} (hy : pts[m]? = some y) (hc : pts[k]? = some c) (hne : c ≠ y) :
    ∃ m' z, pts[m']? = some y ∧ pts[next pts.length m']? = some z ∧ z ≠ y := by
  by_contra hcon
  push Not at hcon
  have hm := (List.getElem?_eq_some_iff.1 hy).1
  have hstep : ∀ i, pts[i]? = some y → pts[next pts.length i]? = some y := by
    intro i hi
    have hil := (List.getElem?_eq_some_iff.1 hi).1
    have hl : next pts.length i < pts.length := by unfold next; split <;> omega
    have hz : pts[next pts.length i]? = some (pts[next pts.length i]'hl) := List.getElem?_eq_getElem _
    have := hcon i _ hi hz
    rw [this] at hz
    exact hz
  have up : ∀ j i, pts[i]? = some y → i + j < pts.length → pts[i + j]? = some y := by
    intro j
    induction j with
    | zero => intro i hi _; exact hi
    | succ j ih =>
      intro i hi hlt
      have h1 := hstep _ (ih i hi (by omega))
      unfold next at h1
      rw [if_pos (by omega)] at h1
      exact h1
  have h0 : pts[0]? = some y := by
    have h1 := up (pts.length - 1 - m) m hy (by omega)
    have h2 := hstep _ h1
    unfold next at h2
    rw [if_neg (by omega)] at h2
    exact h2
  have hk := up k 0 h0 (by have := (List.getElem?_eq_some_iff.1 hc).1; omega)
  rw [Nat.zero_add, hc] at hk
  cases hk
  exact hne rfl

/-- A list in which every three different points turn: all others are to the right of the line from a point to the next, if
that is a different one. -/
theorem repeats_side {n : V3 ℝ} {pts : List (V3 ℝ)}
    (hT : ∀ (i j k : Nat) (b c d : V3 ℝ), i < j → j < k → pts[i]? = some b → pts[j]? = some c →
      pts[k]? = some d → b ≠ c → b ≠ d → c ≠ d → tri n b c d < 0) {m : Nat} {a b c : V3 ℝ}
    (ha : pts[m]? = some a) (hb : pts[next pts.length m]? = some b) (hc : c ∈ pts) (hab : a ≠ b) (h1 : c ≠ a) (h2 : c ≠ b) :
    tri n a b c < 0 := by
  obtain ⟨k, hk⟩ := List.mem_iff_getElem?.1 hc
  have hkl := (List.getElem?_eq_some_iff.1 hk).1
  have k1 : k ≠ m := by rintro rfl; rw [hk] at ha; cases ha; exact h1 rfl
  have k2 : k ≠ next pts.length m := by intro e; rw [← e, hk] at hb; cases hb; exact h2 rfl
  unfold next at hb k2
  by_cases hlt : m + 1 < pts.length
  · rw [if_pos hlt] at hb k2
    rcases lt_or_gt_of_ne k1 with h | h
    · rw [tri_rot n c a b]
      exact hT k m (m + 1) c a b h (by omega) hk ha hb h1 h2 hab
    · exact hT m (m + 1) k a b c (by omega) (by omega) ha hb hk hab h1.symm h2.symm
  · rw [if_neg hlt] at hb k2
    rw [← tri_rot n a b c]
    exact hT 0 k m b c a (by omega) (by omega) hb hk ha h2.symm hab.symm h1

section
variable [F32Lib] [Platform] [AccurateAtan2]
variable {g : Nat} {R : ℝ} {planes : List (BrushPlane F32)}

theorem pointed_list (hf : PointedBrush g R planes) {textures : TextureInfo} {entity : Entity F32} {p : BrushPlane F32}
    (hm : p ∈ planes) {face : PlaneGeo F32} (h : buildPlane textures entity planes p = .ok face) :
    ∃ L : List (V3 ℝ), List.Forall₂ (fun v x => Close (1 / 2000) (vec v) x) (face.vertices.map (·.pos)) L ∧
      (∀ x, x ∈ L ↔ Poly.Corner (planes.map exactPlane) (exactPlane p) x) ∧
      ∀ (i j k : Nat) (a b d : V3 ℝ), i < j → j < k → L[i]? = some a → L[j]? = some b → L[k]? = some d →
        a ≠ b → a ≠ d → b ≠ d → tri (rawNormal (exactPlane p)) a b d < 0 := by
  have hc := hf.toClearBody
  obtain ⟨n, xs, hn1, hx, hl, hsh, hfew⟩ := hf.corners p hm
  obtain ⟨L, hfa, hmem, htn⟩ := pointed_outline textures entity h hf.grid hf.least hf.most hf.near hm hf.count
    (hf.clear p hm) hn1 xs hx hl hsh hfew
  refine ⟨L, by rw [List.forall₂_map_left_iff]; exact hfa, fun x => by rw [hmem, hx, firm_corner hc hm], ?_⟩
  intro i j k a b d hij hjk hi hj hk n1 n2 n3
  have self : ∀ x : V3 ℝ, Close (1 / 2000) x x := fun x => by unfold Close; simp
  have h3 := htn i j k a b d a b d hij hjk hi hj hk n1 n2 n3 (self a) (self b) (self d)
  have e : dotR (crossR (subR b a) (subR d a)) (triOf p).normal =
      1 / lenR (triOf p).raw * Poly.tri (rawNormal (exactPlane p)) a b d := by
    rw [exactPlane_raw]
    simp only [Poly.tri, Tri.normal, dotR, smulR]; ring
  rw [e] at h3
  have hl := firm_len hc hm
  by_contra hcon
  have := mul_nonneg (by positivity : (0 : ℝ) ≤ 1 / lenR (triOf p).raw) (not_lt.1 hcon)
  linarith

/-- C119 for pointed brushes: every side of every triangle is, up to a thousandth of a unit, in the opposite direction a side
of a triangle of the brush. -/
theorem C119_pointed (textures : TextureInfo) (entity : Entity F32) (brush : Brush F32) (geo : BrushGeo F32)
    (h : buildBrush textures entity brush = .ok geo) (hf : PointedBrush g R brush.planes) (i t s : Nat) (a b : V3 F32)
    (hs : Side geo i t s a b) : ∃ i' t' s' a' b', Side geo i' t' s' b' a' ∧ Close (1 / 1000) (vec a') (vec a) ∧
      Close (1 / 1000) (vec b') (vec b) := by
  have hcb := hf.toClearBody
  obtain ⟨f, face, m, n, hpl, hface, hb, hfs, ha, hb'⟩ := (side_iff h i t s a b).1 hs
  rcases fan_reverse hfs with ⟨t', s', hr⟩ | hnext
  · exact ⟨i, t', s', a, b, (side_iff h i t' s' b a).2 ⟨f, face, n, m, hpl, hface, hb, hr, hb', ha⟩,
      by unfold Close; norm_num, by unfold Close; norm_num⟩
  have hfm := List.mem_of_getElem? hpl
  obtain ⟨xs, hcl, hco, htn⟩ := pointed_list hf hfm hb
  have hlen : xs.length = face.vertices.length := by rw [← hcl.length_eq, List.length_map]
  obtain ⟨x, hx, ax⟩ := forall2_get hcl ha
  obtain ⟨y, hy, by'⟩ := forall2_get hcl hb'
  obtain ⟨b3, bm, bn, bne⟩ := fan_bounds hfs
  by_cases hxy : x = y
  · subst hxy
    have k := close_join ax by'
    norm_num at k
    exact ⟨i, t, s, b, a, hs, close_symm k, k⟩
  have hyn : xs[next xs.length m]? = some y := by rw [hlen, ← hnext]; exact hy
  -- a side the other way in a face with corners near `y` and then `x`
  have back : ∀ (j : Nat) (q : BrushPlane F32) (face' : PlaneGeo F32) (ys : List (V3 ℝ)) (iy ix : Nat), brush.planes[j]? = some q →
      geo.planes[j]? = some face' → buildPlane textures entity brush.planes q = .ok face' → 3 ≤ ys.length →
      List.Forall₂ (fun v x => Close (1 / 2000) (vec v) x) (face'.vertices.map (·.pos)) ys → ys[iy]? = some y →
      ys[ix]? = some x → ix = next ys.length iy → ∃ i' t' s' a' b', Side geo i' t' s' b' a' ∧
        Close (1 / 1000) (vec a') (vec a) ∧ Close (1 / 1000) (vec b') (vec b) := by
    intro j q face' ys iy ix hj hgf hb2 h3 hcl2 hiy hix hnx
    have hlen2 : ys.length = face'.vertices.length := by rw [← hcl2.length_eq, List.length_map]
    obtain ⟨t', s', hfs'⟩ := fan_next (n := ys.length) (m := iy) h3 (List.getElem?_eq_some_iff.1 hiy).1
    rw [← hnx, hlen2] at hfs'
    obtain ⟨a', hia, ca⟩ := forall2_get' hcl2 hix
    obtain ⟨b'', hib, cb⟩ := forall2_get' hcl2 hiy
    refine ⟨j, t', s', a', b'', (side_iff h j t' s' b'' a').2 ⟨q, face', iy, ix, hj, hgf, hb2, hfs', hib, hia⟩, ?_, ?_⟩
    · have := close_join ca ax; norm_num at this; exact this
    · have := close_join cb by'; norm_num at this; exact this
  by_cases hthird : ∃ c ∈ xs, c ≠ x ∧ c ≠ y
  · have hedge : Poly.Edge (brush.planes.map exactPlane) (exactPlane f) x y := by
      refine ⟨(hco x).1 (List.mem_of_getElem? hx), (hco y).1 (List.mem_of_getElem? hy), hxy, ?_, ?_⟩
      · intro c hc
        by_cases h1 : c = x
        · subst h1; rw [tri_left]
        · by_cases h2 : c = y
          · subst h2; rw [tri_right]
          · exact (repeats_side htn hx hyn ((hco c).2 hc) hxy h1 h2).le
      · obtain ⟨c, hc, h1, h2⟩ := hthird
        exact ⟨c, (hco c).1 hc, repeats_side htn hx hyn hc hxy h1 h2⟩
    obtain ⟨g', hg', _, he⟩ := Poly.edge_shared (firm_bounded hcb) (firm_solid hcb) (firm_points hcb)
      (List.mem_map_of_mem hfm) hedge
    obtain ⟨q, hq, rfl⟩ := List.mem_map.1 hg'
    obtain ⟨j, hj⟩ := List.mem_iff_getElem?.1 hq
    obtain ⟨hlen', hfaces⟩ := brush_face h
    have hjl := (List.getElem?_eq_some_iff.1 hj).1
    have hgf : geo.planes[j]? = some (geo.planes[j]'(by omega)) := List.getElem?_eq_getElem _
    generalize geo.planes[j]'(by omega) = face' at hgf
    have hb2 := hfaces j q face' hj hgf
    obtain ⟨ys, hcl2, hco2, htn2⟩ := pointed_list hf hq hb2
    obtain ⟨iy, hiy⟩ := List.mem_iff_getElem?.1 ((hco2 y).2 he.left)
    obtain ⟨ix, hix⟩ := List.mem_iff_getElem?.1 ((hco2 x).2 he.right)
    obtain ⟨m', z, hm', hz, hzy⟩ := leave hiy hix hxy
    have hzx : z = x := by
      by_contra hzx
      have h1 := repeats_side htn2 hm' hz (List.mem_of_getElem? hix) hzy.symm hxy fun e => hzx e.symm
      have h2 := he.side z ((hco2 z).1 (List.mem_of_getElem? hz))
      have h3 := tri_rot (rawNormal (exactPlane q)) y x z
      have h4 := tri_swap (rawNormal (exactPlane q)) y z x
      have h5 := tri_rot (rawNormal (exactPlane q)) z y x
      have h6 := tri_rot (rawNormal (exactPlane q)) y z x
      linarith
    subst hzx
    obtain ⟨c, hc, hlt⟩ := he.third
    obtain ⟨ic, hic⟩ := List.mem_iff_getElem?.1 ((hco2 c).2 hc)
    have l1 := (List.getElem?_eq_some_iff.1 hiy).1
    have l2 := (List.getElem?_eq_some_iff.1 hix).1
    have l3 := (List.getElem?_eq_some_iff.1 hic).1
    have n0 : iy ≠ ix := by
      rintro rfl; rw [hiy] at hix; cases hix; exact hxy rfl
    have n1 : ic ≠ ix := by
      rintro rfl; rw [hic] at hix; cases hix; rw [tri_right] at hlt; exact lt_irrefl _ hlt
    have n2 : ic ≠ iy := by
      rintro rfl; rw [hic] at hiy; cases hiy; rw [tri_left] at hlt; exact lt_irrefl _ hlt
    exact back j q face' ys m' _ hj hgf hb2 (by omega) hcl2 hm' hz rfl
  · push Not at hthird
    obtain ⟨m', z, hm', hz, hzy⟩ := leave hy hx hxy
    have hzx : z = x := by
      by_contra hzx
      exact hzy (hthird z (List.mem_of_getElem? hz) hzx)
    subst hzx
    exact back i f face xs m' _ hpl hface hb (by omega) hcl hm' hz rfl

theorem triSide_pointed {textures : TextureInfo} {entity : Entity F32} {brush : Brush F32} {geo : BrushGeo F32}
    (hg : buildBrush textures entity brush = .ok geo) (hf : PointedBrush g R brush.planes) (a b : V3 ℝ)
    (hab : TriSide vec geo a b) : ∃ a' b', TriSide vec geo b' a' ∧ Close (1 / 1000) a' a ∧ Close (1 / 1000) b' b := by
  obtain ⟨face, hm, t, s, m, n, v, w, hs3, k1, k2, k3, k4, rfl, rfl⟩ := hab
  obtain ⟨i, hi⟩ := List.getElem?_of_mem hm
  obtain ⟨i', t', s', a', b', ⟨hs', face', m', n', v', w', l1, l2, l3, l4, l5, l6, l7⟩, c1, c2⟩ :=
    C119_pointed textures entity brush geo hg hf i t s v.pos w.pos
      ⟨hs3, face, m, n, v, w, hi, k1, k2, k3, k4, rfl, rfl⟩
  exact ⟨vec a', vec b', ⟨face', List.mem_of_getElem? l1, t', s', m', n', v', w', hs', l2, l3, l4, l5, by rw [l6], by rw [l7]⟩,
    c1, c2⟩

/-- C127: the meshes of pointed brushes that are shown wholly or not at all have no holes wider than 1/1000 of a unit. -/
theorem C127_drawn_pointed (depth : Nat)
    (order : List (Str × List (BrushGeo F32)) → List (Str × List (BrushGeo F32))) (horder : ∀ l, (order l).Perm l)
    (config : Config F32) (nodes : List (Node F32)) (h : Quarch.run depth order config = .ok nodes)
    (text : Str) (ht : config.mapFile = some text) (entities : List (Entity F32)) (hl : LoadsAs text entities)
    (hb : ∀ e ∈ entities, Anchored entities e → ∀ br ∈ e.brushes, ∀ p ∈ br.planes, ShownFace config e br p →
      IsPointed br.planes ∧ ∀ q ∈ br.planes, ShownFace config e br q)
    (a b : V3 ℝ) (hab : DrawnSide vec nodes a b) :
    ∃ a' b', DrawnSide vec nodes b' a' ∧ Close (1 / 1000) a' a ∧ Close (1 / 1000) b' b := by
  refine drawn_holes depth order horder config nodes h text ht entities hl vec (Close (1 / 1000))
    (fun e he ha br hbr p hp hs => (hb e he ha br hbr p hp hs).2) (fun e he ha br hbr p hp hs => ?_) a b hab
  obtain ⟨⟨g, R, hf⟩, -⟩ := hb e he ha br hbr p hp hs
  exact ⟨fun face hface v hv x hx => same_vec (firm_finite hf.toClearBody hp hface v hv) hx,
    fun geo hg => triSide_pointed hg hf⟩

/-- C127: the same for the concave collision shapes. -/
theorem C127_solid_pointed (depth : Nat)
    (order : List (Str × List (BrushGeo F32)) → List (Str × List (BrushGeo F32))) (horder : ∀ l, (order l).Perm l)
    (config : Config F32) (nodes : List (Node F32)) (h : Quarch.run depth order config = .ok nodes)
    (text : Str) (ht : config.mapFile = some text) (entities : List (Entity F32)) (hl : LoadsAs text entities)
    (hb : ∀ e ∈ entities, Anchored entities e → ∀ br ∈ e.brushes, SolidAs config e br .concave → IsPointed br.planes)
    (a b : V3 ℝ) (hab : SolidSide vec nodes a b) :
    ∃ a' b', SolidSide vec nodes b' a' ∧ Close (1 / 1000) a' a ∧ Close (1 / 1000) b' b := by
  refine solid_holes depth order horder config nodes h text ht entities hl vec (Close (1 / 1000))
    (fun e he ha br hbr hs => ?_) a b hab
  obtain ⟨g, R, hf⟩ := hb e he ha br hbr hs
  exact ⟨fun p hp face hface v hv x hx => same_vec (firm_finite hf.toClearBody hp hface v hv) hx,
    fun geo hg => triSide_pointed hg hf⟩

/-- C127: a map file whose brushes are pointed loads, under the conditions on its entities of C91; if all is to be shown, the
meshes have no holes wider than 1/1000 of a unit, and its concave collision shapes have none in any case. -/
theorem C127_pointed_loads (depth : Nat)
    (order : List (Str × List (BrushGeo F32)) → List (Str × List (BrushGeo F32))) (horder : ∀ l, (order l).Perm l)
    (config : Config F32) (text : Str) (ht : config.mapFile = some text) (entities : List (Entity F32))
    (hm : MapIs text entities) (hb : ∀ e ∈ entities, ∀ br ∈ e.brushes, IsPointed br.planes)
    (hworld : ∃ pre w post, entities = pre ++ w :: post ∧ w.properties (str! "classname") = some (str! "worldspawn") ∧
      ∀ e ∈ pre ++ post, e.properties (str! "classname") ≠ some (str! "worldspawn"))
    (hnamed : ∀ e ∈ entities, ∃ name, e.properties (str! "classname") = some name)
    (hids : ∀ e ∈ entities, ∀ k ∈ [str! "_tb_id", str! "_tb_group"], ∀ s, e.properties k = some s → ∃ i, ReadsI32 s i)
    (htree : ¬ Loop entities) (hd : entities.length ≤ depth) :
    ∃ nodes, Quarch.run depth order config = .ok nodes ∧
      ((∀ e ∈ entities, ∀ br ∈ e.brushes, ∀ p ∈ br.planes, ShownFace config e br p) → ∀ a b, DrawnSide vec nodes a b →
        ∃ a' b', DrawnSide vec nodes b' a' ∧ Close (1 / 1000) a' a ∧ Close (1 / 1000) b' b) ∧
      ∀ a b, SolidSide vec nodes a b →
        ∃ a' b', SolidSide vec nodes b' a' ∧ Close (1 / 1000) a' a ∧ Close (1 / 1000) b' b := by
  obtain ⟨nodes, hn, -⟩ := C125_loads depth order horder config text ht entities hm hb hworld hnamed hids htree hd
  have hl := (C92_text text entities).2 hm
  exact ⟨nodes, hn, fun hs => C127_drawn_pointed depth order horder config nodes hn text ht entities hl
    fun e he _ br hbr p _ _ => ⟨hb e he br hbr, hs e he br hbr⟩,
    C127_solid_pointed depth order horder config nodes hn text ht entities hl fun e he _ br hbr _ => hb e he br hbr⟩

theorem pointed_clockwise (hf : PointedBrush g R planes)
    {textures : TextureInfo} {e : Entity F32} {p : BrushPlane F32} {face : PlaneGeo F32} (hm : p ∈ planes)
    (h : buildPlane textures e planes p = .ok face) {x y z : Vertex F32}
    (hT : TriangleOf face.vertices face.indices x y z) :
    ∃ x' y' z', (∀ v ∈ [x', y', z'], OnFace32 planes p v) ∧
        Close (1 / 2000) (vec x.pos) x' ∧ Close (1 / 2000) (vec y.pos) y' ∧ Close (1 / 2000) (vec z.pos) z' ∧
        (Close (1 / 1000) (vec x.pos) (vec y.pos) ∨ Close (1 / 1000) (vec x.pos) (vec z.pos) ∨
          Close (1 / 1000) (vec y.pos) (vec z.pos) ∨
          (FacesTo (triOf p).normal (vec x.pos) (vec y.pos) (vec z.pos) ∧ FacesTo (triOf p).normal x' y' z')) := by
  obtain ⟨n, xs, hn1, hx, hl, hsh, hfew⟩ := hf.corners p hm
  obtain ⟨L, hfa, hmem, htn⟩ := pointed_outline textures e h hf.grid hf.least hf.most hf.near hm hf.count
    (hf.clear p hm) hn1 xs hx hl hsh hfew
  obtain ⟨t, g0, g1, g2⟩ := fan_order (C19_fan _ _ _ _ _ h) hT
  obtain ⟨x', k0, c0⟩ := forall2_get hfa g0
  obtain ⟨y', k1, c1⟩ := forall2_get hfa g1
  obtain ⟨z', k2, c2⟩ := forall2_get hfa g2
  refine ⟨x', y', z', fun v hv => ?_, c0, c1, c2, ?_⟩
  · have hv' : v ∈ L := by
      simp only [List.mem_cons, List.not_mem_nil, or_false] at hv
      rcases hv with rfl | rfl | rfl
      · exact List.mem_of_getElem? k0
      · exact List.mem_of_getElem? k1
      · exact List.mem_of_getElem? k2
    have hc := (hx v).1 ((hmem v).1 hv')
    obtain ⟨_, _, _, _, h0, _⟩ := hc.meet
    exact ⟨h0, fun q hq => hc.inside _ (List.mem_map_of_mem hq)⟩
  · by_cases h1 : x' = y'
    · subst h1; have := close_join c0 c1; norm_num at this; exact .inl this
    by_cases h2 : x' = z'
    · subst h2; have := close_join c0 c2; norm_num at this; exact .inr (.inl this)
    by_cases h3 : y' = z'
    · subst h3; have := close_join c1 c2; norm_num at this; exact .inr (.inr (.inl this))
    have self : ∀ x : V3 ℝ, Close (1 / 2000) x x := fun x => by unfold Close; simp
    exact .inr (.inr (.inr ⟨htn 0 (t + 1) (t + 2) _ _ _ _ _ _ (by omega) (by omega) k0 k1 k2 h1 h2 h3 c0 c1 c2,
      htn 0 (t + 1) (t + 2) _ _ _ _ _ _ (by omega) (by omega) k0 k1 k2 h1 h2 h3 (self _) (self _) (self _)⟩))

/-- C128: every triangle of a mesh of pointed brushes is within 1/2000 of a unit of an exact triangle on a face that is to be
shown, and both go clockwise seen from outside, unless two corners are within 1/1000 of a unit. -/
theorem C128_drawn_pointed (depth : Nat)
    (order : List (Str × List (BrushGeo F32)) → List (Str × List (BrushGeo F32))) (horder : ∀ l, (order l).Perm l)
    (config : Config F32) (nodes : List (Node F32)) (h : Quarch.run depth order config = .ok nodes)
    (text : Str) (ht : config.mapFile = some text) (entities : List (Entity F32)) (hl : LoadsAs text entities)
    (hb : ∀ e ∈ entities, Anchored entities e → ∀ br ∈ e.brushes, ∀ p ∈ br.planes, ShownFace config e br p →
      IsPointed br.planes)
    (o : V3 F32) (v : VisualGeometry F32) (s : MeshSurface F32) (a b c : V3 F32) (hocc : Occurs (.visual o v) nodes)
    (hs : s ∈ surfaces v) (hT : TriangleOf s.vertices s.indices a b c) :
    ∃ e ∈ entities, Anchored entities e ∧ ∃ br ∈ e.brushes, ∃ p ∈ br.planes, ShownFace config e br p ∧
      ∃ x y z, (∀ v ∈ [x, y, z], OnFace32 br.planes p v) ∧
        Close (1 / 2000) (vec a) x ∧ Close (1 / 2000) (vec b) y ∧ Close (1 / 2000) (vec c) z ∧
        (Close (1 / 1000) (vec a) (vec b) ∨ Close (1 / 1000) (vec a) (vec c) ∨ Close (1 / 1000) (vec b) (vec c) ∨
          (FacesTo (triOf p).normal (vec a) (vec b) (vec c) ∧ FacesTo (triOf p).normal x y z)) := by
  obtain ⟨e, he, ha, br, hbr, p, hp, hsh, face, hface, x, y, z, hT', e1, e2, e3⟩ :=
    (C87_triangles depth order horder config nodes h text ht entities hl).1 o v s a b c hocc hs hT
  obtain ⟨g, R, hf⟩ := hb e he ha br hbr p hp hsh
  have hfin := firm_finite hf.toClearBody hp hface
  obtain ⟨m1, m2, m3⟩ := triangle_mem hT'
  rw [same_vec (hfin _ m1) e1, same_vec (hfin _ m2) e2, same_vec (hfin _ m3) e3]
  exact ⟨e, he, ha, br, hbr, p, hp, hsh, pointed_clockwise hf hp hface hT'⟩

/-- C128: the same for concave collision shapes. -/
theorem C128_solid_pointed (depth : Nat)
    (order : List (Str × List (BrushGeo F32)) → List (Str × List (BrushGeo F32))) (horder : ∀ l, (order l).Perm l)
    (config : Config F32) (nodes : List (Node F32)) (h : Quarch.run depth order config = .ok nodes)
    (text : Str) (ht : config.mapFile = some text) (entities : List (Entity F32)) (hl : LoadsAs text entities)
    (hb : ∀ e ∈ entities, Anchored entities e → ∀ br ∈ e.brushes, SolidAs config e br .concave → IsPointed br.planes)
    (o : V3 F32) (shapes : List (ConcaveCollision F32)) (s : ConcaveCollision F32) (a b c : V3 F32)
    (hocc : Occurs (.collision o (.concave shapes)) nodes) (hs : s ∈ shapes) (hT : TriangleOf s.vertices s.indices a b c) :
    ∃ e ∈ entities, Anchored entities e ∧ ∃ br ∈ e.brushes, SolidAs config e br .concave ∧ ∃ p ∈ br.planes,
      ∃ x y z, (∀ v ∈ [x, y, z], OnFace32 br.planes p v) ∧
        Close (1 / 2000) (vec a) x ∧ Close (1 / 2000) (vec b) y ∧ Close (1 / 2000) (vec c) z ∧
        (Close (1 / 1000) (vec a) (vec b) ∨ Close (1 / 1000) (vec a) (vec c) ∨ Close (1 / 1000) (vec b) (vec c) ∨
          (FacesTo (triOf p).normal (vec a) (vec b) (vec c) ∧ FacesTo (triOf p).normal x y z)) := by
  obtain ⟨e, he, ha, br, hbr, hsol, p, hp, face, hface, x, y, z, hT', e1, e2, e3⟩ :=
    (C88_concave depth order horder config nodes h text ht entities hl).1 o shapes s a b c hocc hs hT
  obtain ⟨g, R, hf⟩ := hb e he ha br hbr hsol
  have hfin := firm_finite hf.toClearBody hp hface
  obtain ⟨m1, m2, m3⟩ := triangle_mem hT'
  rw [same_vec (hfin _ m1) e1, same_vec (hfin _ m2) e2, same_vec (hfin _ m3) e3]
  exact ⟨e, he, ha, br, hbr, hsol, p, hp, pointed_clockwise hf hp hface hT'⟩

end
end Quarch
