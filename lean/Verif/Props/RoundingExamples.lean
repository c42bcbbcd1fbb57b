import Verif.Props.Rounding
import Verif.Props.Degenerate
import Verif.Proofs.F32Exact
/-
C32 with rounding, and C81 in IEEE 754 single precision.
-/
set_option linter.unusedSectionVars false
namespace Quarch
open Spec Geo

section
variable {F : Type} [Arith F] [Rounding F]
open Err Rounding

/-- Three finite numbers have a largest one. -/
theorem hasLargest_fin3 {n : V3 F} (hu : Fin (Arith.dot n ⟨Arith.zero, Arith.zero, Arith.one⟩))
    (hr : Fin (Arith.dot n ⟨Arith.zero, Arith.one, Arith.zero⟩))
    (hf : Fin (Arith.dot n ⟨Arith.one, Arith.zero, Arith.zero⟩)) : HasLargest n := by
  unfold HasLargest Largest
  simp only []
  rw [← abs_fin] at hu hr hf
  rw [le_val _ _ hr hu, le_val _ _ hf hu, le_val _ _ hu hr, le_val _ _ hf hr, le_val _ _ hu hf, le_val _ _ hr hf]
  generalize val (Arith.abs (Arith.dot n ⟨Arith.zero, Arith.zero, Arith.one⟩)) = a
  generalize val (Arith.abs (Arith.dot n ⟨Arith.zero, Arith.one, Arith.zero⟩)) = b
  generalize val (Arith.abs (Arith.dot n ⟨Arith.one, Arith.zero, Arith.zero⟩)) = c
  rcases le_total a b with h1 | h1 <;> rcases le_total b c with h2 | h2 <;> rcases le_total a c with h3 | h3
  · exact .inr (.inr ⟨h3, h2⟩)
  · exact .inr (.inr ⟨h1.trans h2, h2⟩)
  · exact .inr (.inl ⟨h1, h2⟩)
  · exact .inr (.inl ⟨h1, h2⟩)
  · exact .inr (.inr ⟨h3, h2⟩)
  · exact .inl ⟨h1, h3⟩
  · exact .inl ⟨h1, h2.trans h1⟩
  · exact .inl ⟨h1, h3⟩

theorem hasLargest_fin {n : V3 F} (h : ∀ w : V3 F, Within 1 (valV w) → FinV w → Fin (Arith.dot n w)) :
    HasLargest n := by
  have z1 : |(0 : ℝ)| ≤ 1 := by norm_num
  have o1 : |(1 : ℝ)| ≤ 1 := by norm_num
  have hu := h ⟨Arith.zero, Arith.zero, Arith.one⟩
    (by simp only [valV, Within, zero_val, one_val]; exact ⟨z1, z1, o1⟩) ⟨zero_fin, zero_fin, one_fin⟩
  have hr := h ⟨Arith.zero, Arith.one, Arith.zero⟩
    (by simp only [valV, Within, zero_val, one_val]; exact ⟨z1, o1, z1⟩) ⟨zero_fin, one_fin, zero_fin⟩
  have hf := h ⟨Arith.one, Arith.zero, Arith.zero⟩
    (by simp only [valV, Within, zero_val, one_val]; exact ⟨o1, z1, z1⟩) ⟨one_fin, zero_fin, zero_fin⟩
  exact hasLargest_fin3 hu hr hf

variable [Platform]

theorem good_hasLargest {M k : ℝ} {p : BrushPlane F} (hM : 1 ≤ M) (hM' : M ≤ 2 ^ 25) (hk : 1 ≤ k) (hk' : k ≤ 512)
    (h : GoodFace M k p) : HasLargest (faceNormal p) := by
  have hc := computed hM hM' hk hk' h
  exact hasLargest_fin fun w hw hf => dot_ok hc.fin hf (by norm_num) hc.le hw (by rw [large_val]; norm_num)

/-- C32, the part that holds with rounding: maps whose faces with standard layout are of moderate size and not
nearly degenerate never abort. -/
theorem C32_good_faces_partial (textures : TextureInfo) (entities : List (Entity F))
    (h : ∀ e ∈ entities, ∀ b ∈ e.brushes, ∀ p ∈ b.planes, (∃ u v, p.uv = .quake u v) →
      ∃ M k : ℝ, 1 ≤ M ∧ M ≤ 2 ^ 25 ∧ 1 ≤ k ∧ k ≤ 512 ∧ GoodFace M k p) :
    ∃ gs, Geo.run textures entities = .ok gs := by
  refine (C32_aborts_iff textures entities).2 ?_
  rw [(C32_aborts_iff textures entities).1]
  rintro ⟨e, he, b, hb, p, hp, hq, -, hn⟩
  obtain ⟨M, k, hM, hM', hk, hk', hg⟩ := h e he b hb p hp hq
  exact hn (good_hasLargest hM hM' hk hk' hg)

end

section
variable {F : Type} [Arith F] [Platform]

/-- The corners of a face before and after sorting. -/
theorem corners_wound [LawfulEq F] (textures : TextureInfo) (entity : Entity F)
    (planes : List (BrushPlane F)) (plane : BrushPlane F) (geo : PlaneGeo F)
    (h : buildPlane textures entity planes plane = .ok geo) :
    ∃ pts rel : List (V3 F), geo.center = mean pts ∧
      rel.Perm (pts.map fun x => V3.sub x geo.center) ∧
      geo.vertices.map (·.pos) = rel.map (fun p => V3.add p geo.center) ∧
      ((∀ a ∈ rel, ∀ b ∈ rel, Arith.lt (faceAngle plane a) (faceAngle plane b) = true →
          Arith.lt (faceAngle plane b) (faceAngle plane a) = false) →
       (∀ a ∈ rel, ∀ b ∈ rel, ∀ c ∈ rel, Arith.lt (faceAngle plane a) (faceAngle plane b) = false →
          Arith.lt (faceAngle plane b) (faceAngle plane c) = false →
          Arith.lt (faceAngle plane a) (faceAngle plane c) = false) →
       rel.Pairwise (fun a b => Arith.lt (faceAngle plane a) (faceAngle plane b) = false)) ∧
      (∀ x ∈ pts, Found planes plane x) ∧
      pts.Pairwise (fun a b => V3.beq a b = false ∧ V3.beq b a = false) ∧
      (∀ x, Found planes plane x → ∃ y ∈ pts, y = x ∨ V3.beq y x = true) := by
  obtain ⟨pvs, rel, h1, h2, h3, h4, h5⟩ := winding_rel textures entity planes plane geo h
  obtain ⟨ha, hb⟩ := planeVertices_ok h1
  refine ⟨(uniqueVertices (isPhong entity) pvs).map (·.pos), rel, h2, by rwa [List.map_map], h4, h5, ?_, ?_, ?_⟩
  · intro x hx
    obtain ⟨w, hw, rfl⟩ := List.mem_map.1 hx
    obtain ⟨v, hv, rfl⟩ := uniqueVertices_mem hw
    obtain ⟨⟨p1, hp1, p2, hp2, hm, _⟩, hh, _⟩ := ha v hv
    rw [finishNormal_pos]
    exact ⟨⟨p1, hp1, p2, hp2, hm⟩, hh⟩
  · rw [List.pairwise_map]
    refine (uniqueVertices_pairwise (isPhong entity) pvs).imp ?_
    intro a b hab
    refine ⟨?_, hab⟩
    cases hc : V3.beq a.pos b.pos with
    | false => rfl
    | true => rw [V3.beq_symm hc] at hab; exact hab
  · rintro x ⟨⟨p1, hp1, p2, hp2, hm⟩, hh⟩
    obtain ⟨v, hv, rfl, _⟩ := hb p1 hp1 p2 hp2 x hm hh
    obtain ⟨w, hw, e⟩ := uniqueVertices_covers (isPhong entity) pvs v hv
    exact ⟨w.pos, List.mem_map_of_mem hw, e⟩

/-- The points of C20, of which the centre is the mean. -/
theorem corners_center [LawfulEq F] (textures : TextureInfo) (entity : Entity F)
    (planes : List (BrushPlane F)) (plane : BrushPlane F) (geo : PlaneGeo F)
    (h : buildPlane textures entity planes plane = .ok geo) :
    ∃ pts : List (V3 F),
      (geo.vertices.map (·.pos)).Perm (pts.map (recentre geo.center)) ∧ geo.center = mean pts ∧
      (∀ x ∈ pts, Found planes plane x) ∧
      pts.Pairwise (fun a b => V3.beq a b = false ∧ V3.beq b a = false) ∧
      (∀ x, Found planes plane x → ∃ y ∈ pts, y = x ∨ V3.beq y x = true) := by
  obtain ⟨pts, rel, h1, h2, h3, -, h⟩ := corners_wound textures entity planes plane geo h
  refine ⟨pts, ?_, h1, h⟩
  have := h2.map (fun p => V3.add p geo.center)
  rwa [← h3, List.map_map] at this

end

/-! ### in single precision -/

section
variable [F32Lib] [Platform]
open F32

theorem sub_self_zero {a : F32} (h : isFin a) : F32.sub a a = Arith.zero := by
  rcases a with _ | _ | ⟨s, a, ra⟩ <;> simp only [isFin] at h
  cases s <;> simp [F32.sub, F32.neg, F32.add, sv, Arith.zero]

theorem zero_mul_zero : F32.mul (Arith.zero : F32) Arith.zero = Arith.zero := by
  simp [Arith.zero, F32.mul, ofAbs, rnd_zero, rep_zero]

/-- C32 is false in single precision: a face with standard layout and three equal points aborts every map it
occurs in. -/
theorem C32_equal_points_abort (textures : TextureInfo) (entities : List (Entity F32)) (e : Entity F32)
    (he : e ∈ entities) (b : Brush F32) (hb : b ∈ e.brushes) (p : BrushPlane F32) (hp : p ∈ b.planes) (u v : F32)
    (hq : p.uv = .quake u v) (hf : FinV p.v0) (h1 : p.v1 = p.v0) (h2 : p.v2 = p.v0) :
    ∃ m, Geo.run textures entities = .panic m := by
  refine C32_no_direction_aborts textures entities e he b hb p hp u v hq (noDirection_of_cross_zero p ?_)
  have hs : V3.sub p.v0 p.v0 = (⟨Arith.zero, Arith.zero, Arith.zero⟩ : V3 F32) := by
    show (⟨F32.sub _ _, F32.sub _ _, F32.sub _ _⟩ : V3 F32) = _
    rw [sub_self_zero hf.1, sub_self_zero hf.2.1, sub_self_zero hf.2.2]
  rw [h1, h2, hs]
  show (⟨F32.sub (F32.mul _ _) (F32.mul _ _), F32.sub (F32.mul _ _) (F32.mul _ _),
    F32.sub (F32.mul _ _) (F32.mul _ _)⟩ : V3 F32) = _
  rw [zero_mul_zero, sub_self_zero is_zero.fin]

/-- A plane with whole coordinates. -/
structure PlaneIs (p : BrushPlane F32) (a b c d : Int) : Prop where
  normal : IsV (faceNormal p) a b c
  dist : Is (faceDist p) d

theorem lt_eps {a : F32} {z : Int} (h : Is a z) : Arith.lt a Arith.cmpEpsilon = false ↔ 1 ≤ z := by
  rw [← Bool.not_eq_true, Rounding.lt_val _ _ h.fin Rounding.eps_fin]
  have e := abs_le.1 (Rounding.eps_val (F := F32))
  have hv : Rounding.val a = z := h.val
  rw [hv]
  unfold Spec.u at e
  constructor
  · intro h1
    by_contra hc
    have : (z : ℝ) ≤ 0 := by exact_mod_cast (show z ≤ 0 by omega)
    linarith
  · intro h1
    have : (1 : ℝ) ≤ z := by exact_mod_cast h1
    linarith

/-- One point in the corner region: the three faces `x = 1`, `y = 1`, `z = 1`. -/
noncomputable def octFace (v0 v1 v2 : V3 F32) : BrushPlane F32 :=
  ⟨v0, v1, v2, str! "brick", .quake Arith.zero Arith.zero, Arith.zero, ⟨Arith.one, Arith.one⟩, .none⟩

noncomputable def octX : BrushPlane F32 := octFace ⟨Arith.one, Arith.zero, Arith.zero⟩ ⟨Arith.one, Arith.zero, Arith.one⟩
  ⟨Arith.one, Arith.one, Arith.zero⟩
noncomputable def octY : BrushPlane F32 := octFace ⟨Arith.zero, Arith.one, Arith.zero⟩ ⟨Arith.one, Arith.one, Arith.zero⟩
  ⟨Arith.zero, Arith.one, Arith.one⟩
noncomputable def octZ : BrushPlane F32 := octFace ⟨Arith.zero, Arith.zero, Arith.one⟩ ⟨Arith.zero, Arith.one, Arith.one⟩
  ⟨Arith.one, Arith.zero, Arith.one⟩

noncomputable def octant : List (BrushPlane F32) := [octX, octY, octZ]

theorem octX_is : PlaneIs octX 1 0 0 1 := by
  have h0 : IsV octX.v0 1 0 0 := ⟨is_one, is_zero, is_zero⟩
  have h1 : IsV octX.v1 1 0 1 := ⟨is_one, is_zero, is_one⟩
  have h2 : IsV octX.v2 1 1 0 := ⟨is_one, is_one, is_zero⟩
  have hn : IsV (faceNormal octX) 1 0 0 :=
    isV_normalize (isV_cross (isV_sub h2 h0 (by simp [F32.Small])) (isV_sub h1 h0 (by simp [F32.Small])) (by simp [F32.Small]))
      (by simp [F32.Small]) (by norm_num)
  exact ⟨hn, is_dot hn h0 (by simp [F32.Small])⟩

theorem octY_is : PlaneIs octY 0 1 0 1 := by
  have h0 : IsV octY.v0 0 1 0 := ⟨is_zero, is_one, is_zero⟩
  have h1 : IsV octY.v1 1 1 0 := ⟨is_one, is_one, is_zero⟩
  have h2 : IsV octY.v2 0 1 1 := ⟨is_zero, is_one, is_one⟩
  have hn : IsV (faceNormal octY) 0 1 0 :=
    isV_normalize (isV_cross (isV_sub h2 h0 (by simp [F32.Small])) (isV_sub h1 h0 (by simp [F32.Small])) (by simp [F32.Small]))
      (by simp [F32.Small]) (by norm_num)
  exact ⟨hn, is_dot hn h0 (by simp [F32.Small])⟩

theorem octZ_is : PlaneIs octZ 0 0 1 1 := by
  have h0 : IsV octZ.v0 0 0 1 := ⟨is_zero, is_zero, is_one⟩
  have h1 : IsV octZ.v1 0 1 1 := ⟨is_zero, is_one, is_one⟩
  have h2 : IsV octZ.v2 1 0 1 := ⟨is_one, is_zero, is_one⟩
  have hn : IsV (faceNormal octZ) 0 0 1 :=
    isV_normalize (isV_cross (isV_sub h2 h0 (by simp [F32.Small])) (isV_sub h1 h0 (by simp [F32.Small])) (by simp [F32.Small]))
      (by simp [F32.Small]) (by norm_num)
  exact ⟨hn, is_dot hn h0 (by simp [F32.Small])⟩

/-- The faces are good. -/
theorem oct_good : ∀ p ∈ octant, GoodFace 1 1 p := by
  have z : Rounding.val (Arith.zero : F32) = 0 := Rounding.zero_val
  have o : Rounding.val (Arith.one : F32) = 1 := Rounding.one_val
  intro p hp
  simp only [octant, List.mem_cons, List.not_mem_nil, or_false] at hp
  rcases hp with rfl | rfl | rfl <;>
  · refine ⟨⟨trivial, trivial, trivial⟩, ⟨trivial, trivial, trivial⟩, ⟨trivial, trivial, trivial⟩, ?_, ?_, ?_, ?_⟩
    · simp [octX, octY, octZ, octFace, valV, Within, z, o]
    · simp [octX, octY, octZ, octFace, valV, Within, z, o]
    · simp [octX, octY, octZ, octFace, valV, Within, z, o]
    · simp [octX, octY, octZ, octFace, edgeNormal, valV, crossR, subR, lenR, dotR, z, o]

/-- With standard layout the octant is built without aborting. -/
example (textures : TextureInfo) (properties : Map Str Str) :
    ∃ gs, Geo.run textures [(⟨properties, [⟨octant⟩]⟩ : Entity F32)] = .ok gs := by
  refine C32_good_faces_partial textures _ ?_
  intro e he b hb p hp _
  rw [List.mem_singleton.1 he] at hb
  rw [List.mem_singleton.1 hb] at hp
  exact ⟨1, 1, le_rfl, by norm_num, le_rfl, by norm_num, oct_good p hp⟩

/-- … but not with a face of three equal points. -/
example (textures : TextureInfo) (properties : Map Str Str) :
    ∃ m, Geo.run textures [(⟨properties, [⟨octFace ⟨Arith.one, Arith.zero, Arith.zero⟩
      ⟨Arith.one, Arith.zero, Arith.zero⟩ ⟨Arith.one, Arith.zero, Arith.zero⟩ :: octant⟩]⟩ : Entity F32)] = .panic m :=
  C32_equal_points_abort textures _ _ (List.mem_singleton.2 rfl) _ (List.mem_singleton.2 rfl) _
    (List.mem_cons_self ..) _ _ rfl ⟨trivial, trivial, trivial⟩ rfl rfl

theorem oct_meet : ∃ x, Meet octX octY octZ x := by
  have hd := is_dot (isV_cross octX_is.normal octY_is.normal (by simp [F32.Small])) octZ_is.normal (by simp [F32.Small])
  exact ⟨_, _, rfl, (lt_eps hd).2 (by norm_num), rfl⟩

theorem isV_eq {v : V3 F32} {x y z x' y' z' : Int} (h : IsV v x y z) (hx : x = x') (hy : y = y') (hz : z = z') :
    IsV v x' y' z' := by subst hx hy hz; exact h

theorem oct_found {x : V3 F32} (h : ∃ p1 ∈ octant, ∃ p2 ∈ octant, Meet octX p1 p2 x) : IsV x 1 1 1 := by
  obtain ⟨p1, h1, p2, h2, det, rfl, hl, rfl⟩ := h
  simp only [octant, List.mem_cons, List.not_mem_nil, or_false] at h1 h2
  rcases h1 with rfl | rfl | rfl <;> rcases h2 with rfl | rfl | rfl
  all_goals try
    have hd := is_dot (isV_cross octX_is.normal octX_is.normal (by simp [F32.Small])) octX_is.normal (by simp [F32.Small])
    have := (lt_eps hd).1 hl
    norm_num at this
  all_goals try
    have hd := is_dot (isV_cross octX_is.normal octX_is.normal (by simp [F32.Small])) octY_is.normal (by simp [F32.Small])
    have := (lt_eps hd).1 hl
    norm_num at this
  all_goals try
    have hd := is_dot (isV_cross octX_is.normal octX_is.normal (by simp [F32.Small])) octZ_is.normal (by simp [F32.Small])
    have := (lt_eps hd).1 hl
    norm_num at this
  all_goals try
    have hd := is_dot (isV_cross octX_is.normal octY_is.normal (by simp [F32.Small])) octX_is.normal (by simp [F32.Small])
    have := (lt_eps hd).1 hl
    norm_num at this
  all_goals try
    have hd := is_dot (isV_cross octX_is.normal octY_is.normal (by simp [F32.Small])) octY_is.normal (by simp [F32.Small])
    have := (lt_eps hd).1 hl
    norm_num at this
  all_goals try
    have hd := is_dot (isV_cross octX_is.normal octZ_is.normal (by simp [F32.Small])) octX_is.normal (by simp [F32.Small])
    have := (lt_eps hd).1 hl
    norm_num at this
  all_goals try
    have hd := is_dot (isV_cross octX_is.normal octZ_is.normal (by simp [F32.Small])) octY_is.normal (by simp [F32.Small])
    have := (lt_eps hd).1 hl
    norm_num at this
  all_goals try
    have hd := is_dot (isV_cross octX_is.normal octZ_is.normal (by simp [F32.Small])) octZ_is.normal (by simp [F32.Small])
    have := (lt_eps hd).1 hl
    norm_num at this
  have hd := is_dot (isV_cross octX_is.normal octY_is.normal (by simp [F32.Small])) octZ_is.normal (by simp [F32.Small])
  refine isV_sdiv (isV_add (isV_add (isV_smul (isV_cross octY_is.normal octZ_is.normal (by simp [F32.Small])) octX_is.dist
    (by simp [F32.Small])) (isV_smul (isV_cross octZ_is.normal octX_is.normal (by simp [F32.Small])) octY_is.dist
    (by simp [F32.Small])) (by simp [F32.Small])) (isV_smul (isV_cross octX_is.normal octY_is.normal (by simp [F32.Small]))
    octZ_is.dist (by simp [F32.Small])) (by simp [F32.Small])) hd ?_ ?_ ?_ ?_ <;> norm_num

theorem beq_of_isV {a b : V3 F32} {x y z : Int} (ha : IsV a x y z) (hb : IsV b x y z) : V3.beq a b = true := by
  have e : ∀ {p q : F32} {i : Int}, Is p i → Is q i → Arith.eq p q = true := by
    intro p q i hp hq
    refine (rel_fin (· = ·) p q hp.fin hq.fin).2 ?_
    rw [hp.val, hq.val]
  unfold V3.beq
  simp [e ha.x hb.x, e ha.y hb.y, e ha.z hb.z]

theorem oct_behind {p : BrushPlane F32} (hp : p ∈ octant) {x : V3 F32} (h : IsV x 1 1 1) : Behind p x := by
  have key : ∀ {a b c : Int}, PlaneIs p a b c 1 → (∀ i ∈ [a, b, c, 1, 1, 1], F32.Small i) → a * 1 + b * 1 + c * 1 = 1 →
      Behind p x := by
    rintro a b c hp hs hsum ⟨h1, -⟩
    have hd := is_dot hp.normal h hs
    rw [Rounding.lt_val _ _ hp.dist.fin hd.fin] at h1
    have e1 : Rounding.val (faceDist p) = ((1 : Int) : ℝ) := hp.dist.val
    have e2 : Rounding.val (Arith.dot (faceNormal p) x) = ((a * 1 + b * 1 + c * 1 : Int) : ℝ) := hd.val
    rw [e1, e2, hsum] at h1
    exact lt_irrefl _ h1
  simp only [octant, List.mem_cons, List.not_mem_nil, or_false] at hp
  rcases hp with rfl | rfl | rfl
  · exact key octX_is (by simp [F32.Small]) (by norm_num)
  · exact key octY_is (by simp [F32.Small]) (by norm_num)
  · exact key octZ_is (by simp [F32.Small]) (by norm_num)

theorem isV_fin {v : V3 F32} {x y z : Int} (h : IsV v x y z) : FinV v := ⟨h.x.fin, h.y.fin, h.z.fin⟩

theorem isV_val {v : V3 F32} {x y z : Int} (h : IsV v x y z) : valV v = ⟨x, y, z⟩ := by
  have e1 : Rounding.val v.x = (x : ℝ) := h.x.val
  have e2 : Rounding.val v.y = (y : ℝ) := h.y.val
  have e3 : Rounding.val v.z = (z : ℝ) := h.z.val
  unfold valV
  rw [e1, e2, e3]

/-- The face `x = 1` of the octant has exactly one corner, and the hypotheses of C81 hold for it with `M = 1` and
`k = 1`. -/
theorem oct_geo (textures : TextureInfo) (entity : Entity F32) :
    ∃ geo v, buildPlane textures entity octant octX = .ok geo ∧ geo.vertices = [v] ∧ IsV v.pos 1 1 1 ∧
      IsV geo.center 1 1 1 := by
  obtain ⟨geo, h⟩ := (buildPlane_isOk textures entity octant octX).2 fun _ _ =>
    good_hasLargest le_rfl (by norm_num) le_rfl (by norm_num) (oct_good octX (by simp [octant]))
  obtain ⟨pts, hperm, hcen, hfound, hdist, hall⟩ := corners_center textures entity octant octX geo h
  have his : ∀ x ∈ pts, IsV x 1 1 1 := fun x hx => oct_found (hfound x hx).1
  obtain ⟨x, hm⟩ := oct_meet
  have hx : Found octant octX x :=
    ⟨⟨octY, by simp [octant], octZ, by simp [octant], hm⟩, fun p hp => oct_behind hp
      (oct_found ⟨octY, by simp [octant], octZ, by simp [octant], hm⟩)⟩
  obtain ⟨y, hy, -⟩ := hall x hx
  have hone : pts = [y] := by
    match pts, hdist, hy, his with
    | [a], _, hy, _ => rw [List.mem_singleton.1 hy]
    | a :: b :: l, hdist, _, his =>
      have := ((List.pairwise_cons.1 hdist).1 b (by simp)).1
      rw [beq_of_isV (his a (by simp)) (his b (by simp))] at this
      cases this
  subst hone
  have iy := his y (by simp)
  have ic : IsV geo.center 1 1 1 := by
    rw [hcen]
    have hz : IsV (V3.zero : V3 F32) 0 0 0 := ⟨is_zero, is_zero, is_zero⟩
    have hn : Is (Arith.ofNat (max [y].length 1) : F32) 1 := by
      obtain ⟨h1, h2⟩ := is_ofAbs (s := false) (n := 1) (by norm_num) (x := ((1 : Nat) : ℝ)) rfl
      refine ⟨h1, ?_, by norm_num⟩
      have : F32.val (Arith.ofNat (max [y].length 1) : F32) = F32.sv false ((1 : Nat) : ℝ) := h2
      rw [this]; simp [F32.sv]
    exact isV_sdiv (isV_add hz iy (by simp [F32.Small])) hn (by norm_num) (by norm_num) (by norm_num) (by norm_num)
  obtain ⟨v, hv⟩ : ∃ v, geo.vertices = [v] := by
    have := hperm.length_eq
    rw [List.length_map, List.length_map] at this
    exact List.length_eq_one_iff.1 this
  refine ⟨geo, v, h, hv, ?_, ic⟩
  rw [hv] at hperm
  have e : v.pos = recentre geo.center y := by simpa using hperm
  rw [e]
  exact isV_add (isV_sub iy ic (by simp [F32.Small])) ic (by simp [F32.Small])

/-- C81 applies to the octant in single precision. -/
example (textures : TextureInfo) (entity : Entity F32) :
    ∃ geo v, buildPlane textures entity octant octX = .ok geo ∧ v ∈ geo.vertices ∧
      ∀ p ∈ octant, height p (valV v.pos) ≤ 1 / 1000 + 1200 * 1 * u * 1 := by
  obtain ⟨geo, v, h, hv, h1, h2⟩ := oct_geo textures entity
  refine ⟨geo, v, h, by simp [hv], fun p hp => ?_⟩
  exact C81_corner_inside textures entity octant octX geo h 1 1 le_rfl (by norm_num) le_rfl (by norm_num) oct_good v
    (by simp [hv]) (isV_fin h1) (by rw [isV_val h1]; simp [Within]) (by rw [isV_val h2]; simp [Within]) p hp

example (textures : TextureInfo) (entity : Entity F32) :
    ∃ geo v, buildPlane textures entity octant octX = .ok geo ∧ v ∈ geo.vertices ∧
      ∃ det : ℝ, 999 / 1000000 ≤ det ∧ |height octX (valV v.pos)| ≤ 2000 * 1 * u * 1 / det := by
  obtain ⟨geo, v, h, hv, h1, h2⟩ := oct_geo textures entity
  obtain ⟨_, _, _, _, det, hd, _, hh, _⟩ := C81_corner_on_planes textures entity octant octX geo h 1 1 le_rfl
    (by norm_num) le_rfl (by norm_num) oct_good (by simp [octant]) v
    (by simp [hv]) (isV_fin h1) (by rw [isV_val h1]; simp [Within]) (by rw [isV_val h2]; simp [Within])
  exact ⟨geo, v, h, by simp [hv], det, hd, hh⟩

end
end Quarch
