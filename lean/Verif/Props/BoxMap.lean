import Verif.Proofs.Decimal
import Verif.Props.BoxWound
import Verif.Props.Drawn
import Verif.Props.Loads
/-
C91: map files made of boxes, from the text to the picture, in single precision.
-/
set_option linter.unusedSectionVars false
namespace Quarch
namespace Spec

/-- The point is in a triangle of a surface of a visual node of the scene. -/
def Drawn32 [Arith F32] (nodes : List (Node F32)) (x : V3 ℝ) : Prop :=
  ∃ o v s a b c, Occurs (.visual o v) nodes ∧ s ∈ surfaces v ∧ TriangleOf s.vertices s.indices a b c ∧
    InTriangle (vec a) (vec b) (vec c) x

end Spec
open Quarch.Spec Quarch.Spec.F32 Quarch.Geo Quarch.Spec.Box Scene

section
variable [F32Lib]

/-! ### from text to faces -/

theorem pointText_grid [DecimalText] {g : Nat} {ws : List Str} {i : Nat} {n : V3 Int} {v : V3 F32} (hg : g ≤ 30)
    (h : PointText g ws i n) (hv : PointAt ws i v) : GridPoint g v n := by
  have key : ∀ {j : Nat} {k : Int} {a : F32}, (∃ w, ws[j]? = some w ∧ NumText g w k) → k.natAbs ≤ 2 ^ 20 →
      numAt ws j = some a → GridNum g a k := by
    rintro j k a ⟨w, hw, hk⟩ hs ha
    obtain ⟨a', ha', hgn⟩ := numText_grid hg hs hk
    unfold numAt at ha
    rw [hw, Option.bind_some, ha'] at ha
    cases ha
    exact hgn
  exact ⟨key h.x (h.small .x) hv.1, key h.y (h.small .y) hv.2.1, key h.z (h.small .z) hv.2.2, h.small⟩

variable [Platform]

theorem sideText_side [DecimalText] {g : Nat} {a d : Axis} {up : Bool} {c : Int} {line : Str} {p : BrushPlane F32}
    (hg : g ≤ 30) (h : SideText g a up c d line) (hp : BrushPlane.new line = .ok p) :
    IsSide g a up c p ∧ d ≠ a ∧ FirstEdge g d p := by
  obtain ⟨lead, ws, rfl, h1, h2, n0, n1, n2, t0, t1, t2, hs, hd, he⟩ := h
  obtain ⟨p0, p1, p2, -⟩ := (C11_succeeds_iff lead ws h1 h2 p).1 hp
  have g0 := pointText_grid hg t0 p0
  have g1 := pointText_grid hg t1 p1
  have g2 := pointText_grid hg t2 p2
  exact ⟨⟨n0, n1, n2, g0, g1, g2, hs⟩, hd, ⟨n0, n1, g0, g1, he⟩⟩

theorem boxText_brush [DecimalText] {b : GridBox} {faces : List Str} {br : Brush F32} (h : BoxText b faces)
    (hb : BrushOf faces br) : b.IsAligned br.planes := by
  refine ⟨⟨fun p hp => ?_, fun a up => ?_⟩, fun p hp => ?_⟩
  · obtain ⟨line, hl, hpl⟩ := forall₂_right hb hp
    obtain ⟨a, up, d, hs⟩ := h.1 line hl
    exact ⟨a, up, (sideText_side b.fine hs ((faceText_iff _ _).2 hpl)).1⟩
  · obtain ⟨line, hl, d, hs⟩ := h.2 a up
    obtain ⟨p, hp, hpl⟩ := forall₂_left hb hl
    exact ⟨p, hp, (sideText_side b.fine hs ((faceText_iff _ _).2 hpl)).1⟩
  · obtain ⟨line, hl, hpl⟩ := forall₂_right hb hp
    obtain ⟨a, up, d, hs⟩ := h.1 line hl
    exact ⟨a, up, d, sideText_side b.fine hs ((faceText_iff _ _).2 hpl)⟩

theorem textIs_denotes {text : Str} {f : MapFile} {entities : List (Entity F32)} (ht : TextIs text f)
    (hl : LoadsAs text entities) : List.Forall₂ Denotes f.blocks entities := by
  obtain ⟨ls, final, ts, rfl, h1, h2, h3, h4⟩ := ht
  obtain ⟨tokens, paths, h5, h6⟩ := hl
  have h7 := (C01_line_by_line Platform.bareCR ls final h1 h2 ts).2 h3
  rw [h5] at h7
  cases h7
  obtain ⟨f', hf', hd'⟩ := (run_iff_grammar ts entities).1 ⟨paths, h6⟩
  have hok : FacesOk F32 f.toks := by
    rw [h4, ← hf']
    exact facesOk_of_denotes hd'
  obtain ⟨s, h8, h9⟩ := fold_file (F := F32) f hok
  unfold Parser.run at h6
  rw [fold_filter, ← h4, h8] at h6
  cases h6
  exact h9.2

/-- C91: the brushes whose face lines give the sides of a box in decimal numbers are read as exactly this box. -/
theorem C91_text [DecimalText] (text : Str) (f : MapFile) (ht : TextIs text f) (entities : List (Entity F32))
    (hl : LoadsAs text entities) :
    List.Forall₂ (fun block e => List.Forall₂ (fun faces br => ∀ b : GridBox, BoxText b faces → b.IsAligned br.planes)
      (block.filterMap Spec.Item.faces?) e.brushes) f.blocks entities :=
  (textIs_denotes ht hl).imp fun _ _ h => h.2.imp fun _ _ hb _ hx => boxText_brush hx hb

/-! ### a side is covered by its two triangles -/

theorem of_comb (e : Axis) (r s t : ℝ) (p q w : V3 ℝ) :
    e.of (addR (smulR r p) (addR (smulR s q) (smulR t w))) = r * e.of p + (s * e.of q + t * e.of w) := by
  cases e <;> rfl

theorem of_point (b : GridBox) (e : Axis) (n : V3 Int) : e.of (b.point n) = ((e.of n : Int) : ℝ) / 2 ^ b.g := by
  cases e <;> rfl

theorem axis_ext {x y : V3 ℝ} (h : ∀ e : Axis, e.of x = e.of y) : x = y := by
  have hx := h .x; have hy := h .y; have hz := h .z
  obtain ⟨x, y, z⟩ := x
  simp only [Axis.of] at hx hy hz
  subst hx hy hz
  rfl

/-- The coordinate `p` of one side and the one of the other. -/
theorem side_param (b : GridBox) (c : Axis) (u : Bool) (x : V3 ℝ) :
    (((c.of b.lo : Int) : ℝ) / 2 ^ b.g ≤ c.of x ∧ c.of x ≤ ((c.of b.hi : Int) : ℝ) / 2 ^ b.g) ↔
      ∃ α : ℝ, 0 ≤ α ∧ α ≤ 1 ∧ c.of x = (1 - α) * (((b.side c (!u) : Int) : ℝ) / 2 ^ b.g) +
        α * (((b.side c u : Int) : ℝ) / 2 ^ b.g) := by
  have hp : (0 : ℝ) < 2 ^ b.g := by positivity
  have hlt : ((c.of b.lo : Int) : ℝ) / 2 ^ b.g < ((c.of b.hi : Int) : ℝ) / 2 ^ b.g :=
    (div_lt_div_iff_of_pos_right hp).2 (by exact_mod_cast b.lt c)
  have aux : ∀ lo hi y : ℝ, lo < hi → ((lo ≤ y ∧ y ≤ hi) ↔
      ∃ α : ℝ, 0 ≤ α ∧ α ≤ 1 ∧ y = (1 - α) * lo + α * hi) := by
    intro lo hi y hl
    constructor
    · rintro ⟨h1, h2⟩
      have hd : 0 < hi - lo := by linarith
      refine ⟨(y - lo) / (hi - lo), div_nonneg (by linarith) hd.le, (div_le_one hd).2 (by linarith), ?_⟩
      field_simp
      ring
    · rintro ⟨α, h1, h2, rfl⟩
      constructor <;> nlinarith
  cases u
  · simp only [GridBox.side, Bool.not_false, if_true, Bool.false_eq_true, if_false]
    rw [aux _ _ _ hlt]
    constructor
    · rintro ⟨α, h1, h2, e⟩
      exact ⟨1 - α, by linarith, by linarith, by rw [e]; ring⟩
    · rintro ⟨α, h1, h2, e⟩
      exact ⟨1 - α, by linarith, by linarith, by rw [e]; ring⟩
  · simp only [GridBox.side, Bool.not_true, if_true, Bool.false_eq_true, if_false]
    exact aux _ _ _ hlt

theorem side_covered {b : GridBox} {a d c : Axis} {up s t : Bool} (hdet : idet a up d s c t = 1) {n0 n1 n2 n3 : V3 Int}
    (ha : ∀ n ∈ [n0, n1, n2, n3], a.of n = b.side a up)
    (k0 : d.of n0 = b.side d (!s) ∧ c.of n0 = b.side c t) (k1 : d.of n1 = b.side d s ∧ c.of n1 = b.side c t)
    (k2 : d.of n2 = b.side d s ∧ c.of n2 = b.side c (!t)) (k3 : d.of n3 = b.side d (!s) ∧ c.of n3 = b.side c (!t))
    (x : V3 ℝ) :
    (InTriangle (b.point n0) (b.point n1) (b.point n2) x ∨ InTriangle (b.point n0) (b.point n2) (b.point n3) x) ↔
      b.OnSide a up x := by
  have a0 := ha n0 (by simp); have a1 := ha n1 (by simp); have a2 := ha n2 (by simp); have a3 := ha n3 (by simp)
  have hside : ((a.of b.lo : Int) : ℝ) / 2 ^ b.g ≤ (b.side a up : ℝ) / 2 ^ b.g ∧
      (b.side a up : ℝ) / 2 ^ b.g ≤ ((a.of b.hi : Int) : ℝ) / 2 ^ b.g := by
    have hp : (0 : ℝ) < 2 ^ b.g := by positivity
    rw [div_le_div_iff_of_pos_right hp, div_le_div_iff_of_pos_right hp]
    have := b.lt a
    cases up <;> simp only [GridBox.side] <;> constructor <;> simp <;> omega
  have on : b.OnSide a up x ↔ a.of x = b.side a up / 2 ^ b.g ∧
      (∃ α : ℝ, 0 ≤ α ∧ α ≤ 1 ∧ d.of x = (1 - α) * (((b.side d (!s) : Int) : ℝ) / 2 ^ b.g) +
        α * (((b.side d s : Int) : ℝ) / 2 ^ b.g)) ∧
      (∃ β : ℝ, 0 ≤ β ∧ β ≤ 1 ∧ c.of x = (1 - β) * (((b.side c t : Int) : ℝ) / 2 ^ b.g) +
        β * (((b.side c (!t) : Int) : ℝ) / 2 ^ b.g)) := by
    have hc := side_param b c (!t) x
    rw [Bool.not_not] at hc
    rw [← side_param, ← hc]
    constructor
    · rintro ⟨h0, h⟩
      exact ⟨h0, h d, h c⟩
    · rintro ⟨h0, h1, h2⟩
      refine ⟨h0, fun e => ?_⟩
      rcases idet_all hdet e with rfl | rfl | rfl
      · rw [h0]; exact hside
      · exact h1
      · exact h2
  rw [on]
  constructor
  · rintro (⟨r, q, w, hr, hq, hw, hs, rfl⟩ | ⟨r, q, w, hr, hq, hw, hs, rfl⟩)
    · simp only [of_comb, of_point, a0, a1, a2, k0.1, k1.1, k2.1, k0.2, k1.2, k2.2]
      obtain rfl : r = 1 - q - w := by linarith
      exact ⟨by ring, ⟨q + w, by linarith, by linarith, by ring⟩, ⟨w, by linarith, by linarith, by ring⟩⟩
    · simp only [of_comb, of_point, a0, a2, a3, k0.1, k2.1, k3.1, k0.2, k2.2, k3.2]
      obtain rfl : r = 1 - q - w := by linarith
      exact ⟨by ring, ⟨q, by linarith, by linarith, by ring⟩, ⟨q + w, by linarith, by linarith, by ring⟩⟩
  · rintro ⟨h0, ⟨α, α0, α1, hα⟩, ⟨β, β0, β1, hβ⟩⟩
    rcases le_total β α with hle | hle
    · refine .inl ⟨1 - α, α - β, β, by linarith, by linarith, β0, by ring, axis_ext fun e => ?_⟩
      rw [of_comb, of_point, of_point, of_point]
      rcases idet_all hdet e with rfl | rfl | rfl
      · rw [h0, a0, a1, a2]; ring
      · rw [hα, k0.1, k1.1, k2.1]; ring
      · rw [hβ, k0.2, k1.2, k2.2]; ring
    · refine .inr ⟨1 - β, α, β - α, by linarith, α0, by linarith, by ring, axis_ext fun e => ?_⟩
      rw [of_comb, of_point, of_point, of_point]
      rcases idet_all hdet e with rfl | rfl | rfl
      · rw [h0, a0, a2, a3]; ring
      · rw [hα, k0.1, k2.1, k3.1]; ring
      · rw [hβ, k0.2, k2.2, k3.2]; ring

theorem fan4_triangle {α : Type} {v0 v1 v2 v3 x y z : α} :
    TriangleOf [v0, v1, v2, v3] [0, 1, 2, 0, 2, 3] x y z ↔ (x = v0 ∧ y = v1 ∧ z = v2) ∨ (x = v0 ∧ y = v2 ∧ z = v3) := by
  constructor
  · rintro ⟨t, i, j, k, h1, h2, h3, h4, h5, h6⟩
    match t with
    | 0 =>
      simp at h1 h2 h3
      subst h1 h2 h3
      simp at h4 h5 h6
      exact .inl ⟨h4.symm, h5.symm, h6.symm⟩
    | 1 =>
      simp at h1 h2 h3
      subst h1 h2 h3
      simp at h4 h5 h6
      exact .inr ⟨h4.symm, h5.symm, h6.symm⟩
    | t + 2 =>
      have : 6 ≤ 3 * (t + 2) := by omega
      rw [List.getElem?_eq_none (by simpa using this)] at h1
      cases h1
  · rintro (⟨rfl, rfl, rfl⟩ | ⟨rfl, rfl, rfl⟩)
    · exact ⟨0, 0, 1, 2, rfl, rfl, rfl, rfl, rfl, rfl⟩
    · exact ⟨1, 0, 2, 3, rfl, rfl, rfl, rfl, rfl, rfl⟩

theorem aligned_edge {b : GridBox} {planes : List (BrushPlane F32)} (hb : b.IsAligned planes) {p : BrushPlane F32}
    (hp : p ∈ planes) {a : Axis} {up : Bool} (hs : IsSide b.g a up (b.side a up) p) : ∃ d, d ≠ a ∧ FirstEdge b.g d p := by
  obtain ⟨a', up', d, hs', hd, he⟩ := hb.2 p hp
  have := side_label b.fine hs hs'
  cases this
  exact ⟨d, hd, he⟩

theorem four {α : Type} {l : List α} (h : l.length = 4) : ∃ a b c d, l = [a, b, c, d] := by
  match l, h with
  | [a, b, c, d], _ => exact ⟨a, b, c, d, rfl⟩

/-- The triangles of a side cover exactly the side. -/
theorem side_picture [QuadrantAtan2] (textures : TextureInfo) (entity : Entity F32) {b : GridBox}
    {planes : List (BrushPlane F32)} (hb : b.IsAligned planes) {p : BrushPlane F32} (hp : p ∈ planes) {a : Axis}
    {up : Bool} (hs : IsSide b.g a up (b.side a up) p) {face : PlaneGeo F32}
    (hf : buildPlane textures entity planes p = .ok face) :
    (∀ v ∈ face.vertices, Finite3 v.pos) ∧
    ∀ x : V3 ℝ, (∃ u v w, TriangleOf face.vertices face.indices u v w ∧ InTriangle (vec u.pos) (vec v.pos) (vec w.pos) x) ↔
      b.OnSide a up x := by
  obtain ⟨d, hd, he⟩ := aligned_edge hb hp hs
  obtain ⟨geo, h, hex⟩ := C90_face textures entity planes p b hb.1 a up hs
  rw [hf] at h
  cases h
  obtain ⟨geo, h, n0, n1, n2, n3, c, s, t, hdet, hperm, hv, k0, k1, k2, k3⟩ :=
    face_wound textures entity planes p b hb.1 a up hs d hd he
  rw [hf] at h
  cases h
  refine ⟨hex.finite.2, fun x => ?_⟩
  rw [hex.triangles]
  rw [← side_covered hdet (fun n hn => (rect_mem.1 (hperm.mem_iff.1 hn)).1) k0 k1 k2 k3 x]
  generalize face.vertices = l at hv
  obtain ⟨v0, v1, v2, v3, rfl⟩ := four (l := l) (by simpa using congrArg List.length hv)
  simp only [List.map_cons, List.map_nil, List.cons.injEq, and_true] at hv
  obtain ⟨e0, e1, e2, e3⟩ := hv
  rw [← e0, ← e1, ← e2, ← e3]
  constructor
  · rintro ⟨u, v, w, hT, hx⟩
    rcases fan4_triangle.1 hT with ⟨rfl, rfl, rfl⟩ | ⟨rfl, rfl, rfl⟩
    · exact .inl hx
    · exact .inr hx
  · rintro (hx | hx)
    · exact ⟨_, _, _, fan4_triangle.2 (.inl ⟨rfl, rfl, rfl⟩), hx⟩
    · exact ⟨_, _, _, fan4_triangle.2 (.inr ⟨rfl, rfl, rfl⟩), hx⟩

theorem eq_val {x y : F32} (hy : isFin y) (h : Arith.eq x y = true) : F32.val x = F32.val y := by
  change rel (· = ·) x y = true at h
  obtain ⟨e, h1, h2⟩ := (rel_eq x y).1 h
  rcases y with _ | _ | ⟨s, y, ry⟩ <;> simp only [isFin] at hy
  rcases x with _ | t | ⟨t, x, rx⟩
  · simp [ext] at h1
  · simp only [ext, Option.some.injEq] at h1 h2
    rw [← h1] at h2
    cases t <;> simp at h2
  · simp only [ext, Option.some.injEq] at h1 h2
    rw [← h1, EReal.coe_eq_coe_iff] at h2
    exact h2.symm

theorem same_vec {v w : V3 F32} (hw : Finite3 w) (h : SamePlace v w) : vec v = vec w := by
  rcases h with rfl | h
  · rfl
  · unfold vec
    rw [eq_val hw.1 h.1, eq_val hw.2.1 h.2.1, eq_val hw.2.2 h.2.2]

theorem triangle_mem {α : Type} {vs : List α} {is : List Nat} {a b c : α} (h : TriangleOf vs is a b c) :
    a ∈ vs ∧ b ∈ vs ∧ c ∈ vs := by
  obtain ⟨t, i, j, k, -, -, -, h4, h5, h6⟩ := h
  exact ⟨List.mem_of_getElem? h4, List.mem_of_getElem? h5, List.mem_of_getElem? h6⟩

/-- C91: in single precision the points drawn for a map of boxes on grids are exactly those of the shown sides. -/
theorem C91_picture [QuadrantAtan2] (depth : Nat)
    (order : List (Str × List (BrushGeo F32)) → List (Str × List (BrushGeo F32))) (horder : ∀ l, (order l).Perm l)
    (config : Config F32) (nodes : List (Node F32)) (h : Quarch.run depth order config = .ok nodes)
    (text : Str) (ht : config.mapFile = some text) (entities : List (Entity F32)) (hl : LoadsAs text entities)
    (hb : ∀ e ∈ entities, Anchored entities e → ∀ br ∈ e.brushes, ∃ b : GridBox, b.IsAligned br.planes) (x : V3 ℝ) :
    Drawn32 nodes x ↔ ∃ e ∈ entities, Anchored entities e ∧ ∃ br ∈ e.brushes, ∃ p ∈ br.planes,
      ShownFace config e br p ∧ ∃ (b : GridBox) (a : Axis) (up : Bool), b.IsAligned br.planes ∧
        IsSide b.g a up (b.side a up) p ∧ b.OnSide a up x := by
  obtain ⟨h1, h2⟩ := C87_triangles depth order horder config nodes h text ht entities hl
  constructor
  · rintro ⟨o, v, s, a, b, c, hocc, hs, hT, hx⟩
    obtain ⟨e, he, ha, br, hbr, p, hpm, hsh, face, hf, u, v, w, hT', e1, e2, e3⟩ := h1 o v s a b c hocc hs hT
    obtain ⟨bx, hbx⟩ := hb e he ha br hbr
    obtain ⟨ax, up, hsd⟩ := hbx.1.1 p hpm
    obtain ⟨hfin, hcov⟩ := side_picture config.textureInfo e hbx hpm hsd hf
    obtain ⟨m1, m2, m3⟩ := triangle_mem hT'
    rw [same_vec (hfin _ m1) e1, same_vec (hfin _ m2) e2, same_vec (hfin _ m3) e3] at hx
    exact ⟨e, he, ha, br, hbr, p, hpm, hsh, bx, ax, up, hbx, hsd, (hcov x).1 ⟨u, v, w, hT', hx⟩⟩
  · rintro ⟨e, he, ha, br, hbr, p, hpm, hsh, bx, ax, up, hbx, hsd, hx⟩
    obtain ⟨face, hf, hd⟩ := h2 e he ha br hbr p hpm hsh
    obtain ⟨hfin, hcov⟩ := side_picture config.textureInfo e hbx hpm hsd hf
    obtain ⟨u, v, w, hT, hx⟩ := (hcov x).2 hx
    obtain ⟨o, vis, s, a, b, c, hocc, hs, hT', e1, e2, e3⟩ := hd u v w hT
    obtain ⟨m1, m2, m3⟩ := triangle_mem hT
    rw [← same_vec (hfin _ m1) e1, ← same_vec (hfin _ m2) e2, ← same_vec (hfin _ m3) e3] at hx
    exact ⟨o, vis, s, a, b, c, hocc, hs, hT', hx⟩

theorem forall₂_filterMap_mem {block : List Spec.Item} {faces : List Str} :
    faces ∈ block.filterMap Spec.Item.faces? ↔ Spec.Item.brush faces ∈ block := by
  rw [List.mem_filterMap]
  constructor
  · rintro ⟨i, hi, he⟩
    cases i with
    | prop => simp [Spec.Item.faces?] at he
    | brush fs => simp only [Spec.Item.faces?, Option.some.injEq] at he; rwa [he] at hi
  · intro h
    exact ⟨_, h, rfl⟩

/-- C91: a map file whose brushes are boxes written in decimal numbers, all of them to be shown, is drawn as exactly
the surfaces of these boxes. -/
theorem C91_map [QuadrantAtan2] [DecimalText] (depth : Nat)
    (order : List (Str × List (BrushGeo F32)) → List (Str × List (BrushGeo F32))) (horder : ∀ l, (order l).Perm l)
    (config : Config F32) (nodes : List (Node F32)) (h : Quarch.run depth order config = .ok nodes)
    (text : Str) (ht : config.mapFile = some text) (f : MapFile) (hf : TextIs text f)
    (hb : ∀ block ∈ f.blocks, ∀ faces, Spec.Item.brush faces ∈ block → ∃ b, BoxText b faces)
    (entities : List (Entity F32)) (hl : LoadsAs text entities) (ha : ∀ e ∈ entities, Anchored entities e)
    (hs : ∀ e ∈ entities, ∀ br ∈ e.brushes, ∀ p ∈ br.planes, ShownFace config e br p) (x : V3 ℝ) :
    Drawn32 nodes x ↔ ∃ block ∈ f.blocks, ∃ faces, Spec.Item.brush faces ∈ block ∧
      ∃ b, BoxText b faces ∧ ∃ a up, b.OnSide a up x := by
  have key := C91_text text f hf entities hl
  have hbox : ∀ e ∈ entities, Anchored entities e → ∀ br ∈ e.brushes, ∃ b : GridBox, b.IsAligned br.planes := by
    intro e he _ br hbr
    obtain ⟨block, hbl, hbe⟩ := forall₂_right key he
    obtain ⟨faces, hfm, hfb⟩ := forall₂_right hbe hbr
    obtain ⟨b, hbt⟩ := hb block hbl faces (forall₂_filterMap_mem.1 hfm)
    exact ⟨b, hfb b hbt⟩
  rw [C91_picture depth order horder config nodes h text ht entities hl hbox x]
  constructor
  · rintro ⟨e, he, -, br, hbr, p, hpm, -, b, a, up, hbx, hsd, hx⟩
    obtain ⟨block, hbl, hbe⟩ := forall₂_right key he
    obtain ⟨faces, hfm, hfb⟩ := forall₂_right hbe hbr
    obtain ⟨b', hbt⟩ := hb block hbl faces (forall₂_filterMap_mem.1 hfm)
    refine ⟨block, hbl, faces, forall₂_filterMap_mem.1 hfm, b', hbt, ?_⟩
    have hbx' := hfb b' hbt
    obtain ⟨a', up', hsd'⟩ := hbx'.1.1 p hpm
    obtain ⟨face, hface, -⟩ := C90_face config.textureInfo e br.planes p b' hbx'.1 a' up' hsd'
    have h1 := (side_picture config.textureInfo e hbx hpm hsd hface).2 x
    have h2 := (side_picture config.textureInfo e hbx' hpm hsd' hface).2 x
    exact ⟨a', up', h2.1 (h1.2 hx)⟩
  · rintro ⟨block, hbl, faces, hfm, b, hbt, a, up, hx⟩
    obtain ⟨e, he, hbe⟩ := forall₂_left key hbl
    obtain ⟨br, hbr, hfb⟩ := forall₂_left hbe (forall₂_filterMap_mem.2 hfm)
    have hbx := hfb b hbt
    obtain ⟨p, hpm, hsd⟩ := hbx.1.2 a up
    exact ⟨e, he, ha e he, br, hbr, p, hpm, hs e he br hbr p hpm, b, a, up, hbx, hsd, hx⟩

/-- C91: a map file whose brushes are boxes written in decimal numbers loads if it has one worldspawn, its entities have
classnames, readable group numbers and groups without loops; and if all is to be shown, what is drawn is exactly the
surfaces of the boxes. -/
theorem C91_loads [QuadrantAtan2] [DecimalText] (depth : Nat)
    (order : List (Str × List (BrushGeo F32)) → List (Str × List (BrushGeo F32))) (horder : ∀ l, (order l).Perm l)
    (config : Config F32) (text : Str) (ht : config.mapFile = some text) (f : MapFile) (hf : TextIs text f)
    (hb : ∀ block ∈ f.blocks, ∀ faces, Spec.Item.brush faces ∈ block → ∃ b, BoxText b faces)
    (entities : List (Entity F32)) (hm : MapIs text entities)
    (hworld : ∃ pre w post, entities = pre ++ w :: post ∧ w.properties (str! "classname") = some (str! "worldspawn") ∧
      ∀ e ∈ pre ++ post, e.properties (str! "classname") ≠ some (str! "worldspawn"))
    (hnamed : ∀ e ∈ entities, ∃ name, e.properties (str! "classname") = some name)
    (hids : ∀ e ∈ entities, ∀ k ∈ [str! "_tb_id", str! "_tb_group"], ∀ s, e.properties k = some s → ∃ i, ReadsI32 s i)
    (htree : ¬ Loop entities) (hd : entities.length ≤ depth) :
    ∃ nodes, Quarch.run depth order config = .ok nodes ∧
      ((∀ e ∈ entities, Anchored entities e) →
       (∀ e ∈ entities, ∀ br ∈ e.brushes, ∀ p ∈ br.planes, ShownFace config e br p) →
       ∀ x, Drawn32 nodes x ↔ ∃ block ∈ f.blocks, ∃ faces, Spec.Item.brush faces ∈ block ∧
         ∃ b, BoxText b faces ∧ ∃ a up, b.OnSide a up x) := by
  have hl := (C92_text text entities).2 hm
  have key := C91_text text f hf entities hl
  obtain ⟨gs, hgs, -⟩ := C90_map config.textureInfo entities (by
    intro e he br hbr
    obtain ⟨block, hbl, hbe⟩ := forall₂_right key he
    obtain ⟨faces, hfm, hfb⟩ := forall₂_right hbe hbr
    obtain ⟨b, hbt⟩ := hb block hbl faces (forall₂_filterMap_mem.1 hfm)
    exact ⟨b, (hfb b hbt).1⟩)
  obtain ⟨nodes, hn⟩ := C92_enough depth order horder config entities
    ⟨⟨text, ht, hm⟩, hworld, (geo_succeeds config.textureInfo entities).1 ⟨gs, hgs⟩, fun e he _ => hnamed e he,
      fun e he _ _ => hids e he, htree⟩ hd
  exact ⟨nodes, hn, fun ha hs x =>
    C91_map depth order horder config nodes hn text ht f hf hb entities hl ha hs x⟩

end
end Quarch
