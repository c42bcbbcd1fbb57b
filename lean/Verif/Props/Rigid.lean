import Verif.Spec.Scaling
import Verif.Props.RealMove
import Verif.Props.Alike
/-
Rotations and what they keep.
-/
set_option linter.unusedSectionVars false
namespace Quarch
open Spec Scene Geo

namespace Rigid
variable [RealText] (M : Rigid)

theorem unit_c : dotR M.c M.c = 1 := by
  have h : dotR M.c M.c = dotR M.a M.a * dotR M.b M.b - dotR M.a M.b * dotR M.a M.b := by
    rw [M.right]; simp only [dotR, crossR]; ring
  rw [h, M.unit_a, M.unit_b, M.ortho]; norm_num

theorem ortho_ac : dotR M.a M.c = 0 := by rw [M.right]; simp only [dotR, crossR]; ring
theorem ortho_bc : dotR M.b M.c = 0 := by rw [M.right]; simp only [dotR, crossR]; ring

theorem cross_bc : crossR M.b M.c = M.a := by
  have h : crossR M.b M.c = subR (smulR (dotR M.b M.b) M.a) (smulR (dotR M.a M.b) M.b) := by
    rw [M.right]; simp only [dotR, crossR, subR, smulR]
    apply V3.ext' <;> simp only [] <;> ring
  rw [h, M.unit_b, M.ortho]
  simp [subR, smulR]

theorem cross_ca : crossR M.c M.a = M.b := by
  have h : crossR M.c M.a = subR (smulR (dotR M.a M.a) M.b) (smulR (dotR M.a M.b) M.a) := by
    rw [M.right]; simp only [dotR, crossR, subR, smulR]
    apply V3.ext' <;> simp only [] <;> ring
  rw [h, M.unit_a, M.ortho]
  simp [subR, smulR]

theorem turn_dot (u v : V3 ℝ) : dotR (M.turn u) (M.turn v) = dotR u v := by
  have h : dotR (M.turn u) (M.turn v) = u.x * v.x * dotR M.a M.a + u.y * v.y * dotR M.b M.b + u.z * v.z * dotR M.c M.c +
      (u.x * v.y + u.y * v.x) * dotR M.a M.b + (u.x * v.z + u.z * v.x) * dotR M.a M.c +
      (u.y * v.z + u.z * v.y) * dotR M.b M.c := by
    simp only [Rigid.turn, dotR, addR, smulR]; ring
  rw [h, M.unit_a, M.unit_b, unit_c, M.ortho, ortho_ac, ortho_bc]
  simp only [dotR]; ring

theorem turn_cross (u v : V3 ℝ) : crossR (M.turn u) (M.turn v) = M.turn (crossR u v) := by
  have h : crossR (M.turn u) (M.turn v) = addR (addR (smulR (u.y * v.z - u.z * v.y) (crossR M.b M.c))
      (smulR (u.z * v.x - u.x * v.z) (crossR M.c M.a))) (smulR (u.x * v.y - u.y * v.x) (crossR M.a M.b)) := by
    simp only [Rigid.turn, crossR, addR, smulR]
    apply V3.ext' <;> simp only [] <;> ring
  rw [h, cross_bc, cross_ca, ← M.right]
  rfl

theorem turn_sub (u v : V3 ℝ) : subR (M.turn u) (M.turn v) = M.turn (subR u v) := by
  simp only [Rigid.turn, subR, addR, smulR]
  apply V3.ext' <;> simp only [] <;> ring

theorem turn_add (u v : V3 ℝ) : addR (M.turn u) (M.turn v) = M.turn (addR u v) := by
  simp only [Rigid.turn, addR, smulR]
  apply V3.ext' <;> simp only [] <;> ring

theorem turn_smul (k : ℝ) (v : V3 ℝ) : smulR k (M.turn v) = M.turn (smulR k v) := by
  simp only [Rigid.turn, addR, smulR]
  apply V3.ext' <;> simp only [] <;> ring

theorem move_sub (u v : V3 ℝ) : subR (M.move u) (M.move v) = M.turn (subR u v) := by
  rw [← turn_sub]
  simp only [Rigid.move, subR, addR]
  apply V3.ext' <;> simp only [] <;> ring

theorem turn_zero : M.turn zeroR = zeroR := by simp [Rigid.turn, zeroR, addR, smulR]

theorem turn_len (v : V3 ℝ) : lenR (M.turn v) = lenR v := by unfold lenR; rw [turn_dot]

theorem turn_inj {u v : V3 ℝ} (h : M.turn u = M.turn v) : u = v := by
  have h1 : dotR (subR u v) (subR u v) = 0 := by
    rw [← turn_dot M, ← turn_sub, h]
    simp [subR, dotR]
  simp only [dotR, subR] at h1
  have e1 : u.x - v.x = 0 := by nlinarith [mul_self_nonneg (u.x - v.x), mul_self_nonneg (u.y - v.y), mul_self_nonneg (u.z - v.z)]
  have e2 : u.y - v.y = 0 := by nlinarith [mul_self_nonneg (u.x - v.x), mul_self_nonneg (u.y - v.y), mul_self_nonneg (u.z - v.z)]
  have e3 : u.z - v.z = 0 := by nlinarith [mul_self_nonneg (u.x - v.x), mul_self_nonneg (u.y - v.y), mul_self_nonneg (u.z - v.z)]
  exact V3.ext' (by linarith) (by linarith) (by linarith)

theorem move_inj {u v : V3 ℝ} : M.move u = M.move v ↔ u = v :=
  ⟨fun h => turn_inj M (addR_inj.1 h), fun h => by rw [h]⟩

/-- The rotation back. -/
def back (v : V3 ℝ) : V3 ℝ := ⟨dotR M.a v, dotR M.b v, dotR M.c v⟩

theorem turn_back (v : V3 ℝ) : M.turn (back M v) = v := by
  have hd : dotR M.a (crossR M.b M.c) = 1 := by rw [cross_bc, M.unit_a]
  have h : smulR (dotR M.a (crossR M.b M.c)) v = addR (addR (smulR (dotR (crossR M.b M.c) v) M.a)
      (smulR (dotR (crossR M.c M.a) v) M.b)) (smulR (dotR (crossR M.a M.b) v) M.c) := by
    simp only [dotR, crossR, addR, smulR]
    apply V3.ext' <;> simp only [] <;> ring
  rw [hd, cross_bc, cross_ca, ← M.right] at h
  have h1 : smulR 1 v = v := by simp [smulR]
  rw [h1] at h
  exact h.symm

theorem move_surj (v : V3 ℝ) : ∃ u, M.move u = v := by
  refine ⟨back M (subR v M.t), ?_⟩
  unfold Rigid.move
  rw [turn_back, addR_subR]

/-- A rotation and a translation, with the scale 1. -/
noncomputable def similar : Similar := { M with scale := 1, scale_pos := one_pos }

theorem similar_turn : (similar M).turn = M.turn := by
  funext v
  simp [Similar.turn, similar, smulR]

theorem similar_move : (similar M).move = M.move := by
  funext v
  unfold Similar.move Rigid.move
  rw [similar_turn]
  rfl

end Rigid

namespace Similar
variable [RealText] (S : Similar)

theorem turn_dot (u v : V3 ℝ) : dotR (S.turn u) (S.turn v) = S.scale * S.scale * dotR u v := by
  rw [← Rigid.turn_dot S.toRigid u v]
  simp only [Similar.turn, dotR, smulR]; ring

theorem turn_cross (u v : V3 ℝ) : crossR (S.turn u) (S.turn v) = smulR S.scale (S.turn (crossR u v)) := by
  unfold Similar.turn
  rw [← Rigid.turn_cross S.toRigid u v]
  simp only [crossR, smulR]
  apply V3.ext' <;> simp only [] <;> ring

theorem turn_sub (u v : V3 ℝ) : subR (S.turn u) (S.turn v) = S.turn (subR u v) := by
  unfold Similar.turn
  rw [← Rigid.turn_sub S.toRigid u v]
  simp only [subR, smulR]
  apply V3.ext' <;> simp only [] <;> ring

theorem turn_add (u v : V3 ℝ) : addR (S.turn u) (S.turn v) = S.turn (addR u v) := by
  unfold Similar.turn
  rw [← Rigid.turn_add S.toRigid u v]
  simp only [addR, smulR]
  apply V3.ext' <;> simp only [] <;> ring

theorem turn_smul (k : ℝ) (v : V3 ℝ) : smulR k (S.turn v) = S.turn (smulR k v) := by
  unfold Similar.turn
  rw [← Rigid.turn_smul S.toRigid k v]
  simp only [smulR]
  apply V3.ext' <;> simp only [] <;> ring

theorem move_sub (u v : V3 ℝ) : subR (S.move u) (S.move v) = S.turn (subR u v) := by
  rw [← turn_sub]
  simp only [Similar.move, subR, addR]
  apply V3.ext' <;> simp only [] <;> ring

theorem turn_zero : S.turn zeroR = zeroR := by
  unfold Similar.turn
  rw [Rigid.turn_zero]
  simp [zeroR, smulR]

theorem len_smul {k : ℝ} (hk : 0 < k) (v : V3 ℝ) : lenR (smulR k v) = k * lenR v := by
  unfold lenR
  have : dotR (smulR k v) (smulR k v) = k ^ 2 * dotR v v := by simp only [dotR, smulR]; ring
  rw [this, Real.sqrt_mul (by positivity), Real.sqrt_sq hk.le]

theorem turn_len (v : V3 ℝ) : lenR (S.turn v) = S.scale * lenR v := by
  unfold Similar.turn
  rw [len_smul S.scale_pos, Rigid.turn_len]

theorem smul_inj {k : ℝ} (hk : 0 < k) {u v : V3 ℝ} (h : smulR k u = smulR k v) : u = v := by
  simp only [smulR, V3.mk.injEq] at h
  obtain ⟨h1, h2, h3⟩ := h
  exact V3.ext' (mul_left_cancel₀ hk.ne' h1) (mul_left_cancel₀ hk.ne' h2) (mul_left_cancel₀ hk.ne' h3)

theorem turn_inj {u v : V3 ℝ} (h : S.turn u = S.turn v) : u = v :=
  Rigid.turn_inj S.toRigid (smul_inj S.scale_pos h)

theorem move_inj {u v : V3 ℝ} : S.move u = S.move v ↔ u = v :=
  ⟨fun h => turn_inj S (addR_inj.1 h), fun h => by rw [h]⟩

theorem move_surj (v : V3 ℝ) : ∃ u, S.move u = v := by
  refine ⟨Rigid.back S.toRigid (smulR S.scale⁻¹ (subR v S.t)), ?_⟩
  unfold Similar.move Similar.turn
  rw [Rigid.turn_back]
  have : smulR S.scale (smulR S.scale⁻¹ (subR v S.t)) = subR v S.t := by
    have := S.scale_pos.ne'
    simp only [smulR]
    apply V3.ext' <;> simp only [] <;> field_simp
  rw [this, addR_subR]

end Similar

section
variable [RealText] {S : Similar}

theorem rawNormal_turn {p p' : BrushPlane ℝ} (h : TurnedFace S.move p p') :
    rawNormal p' = smulR S.scale (S.turn (rawNormal p)) := by
  unfold rawNormal
  rw [h.v0, h.v1, h.v2, Similar.move_sub, Similar.move_sub, Similar.turn_cross]

theorem normalize_smul {k : ℝ} (hk : 0 < k) (v : V3 ℝ) : Arith.normalize (smulR k v) = Arith.normalize v := by
  have h : ∀ v : V3 ℝ, Arith.normalize v = smulR (lenR v)⁻¹ v := by
    intro v
    show V3.mk (v.x / lenR v) (v.y / lenR v) (v.z / lenR v) = _
    simp only [smulR, div_eq_inv_mul]
  rw [h, h, Similar.len_smul hk]
  simp only [smulR, mul_inv]
  have := hk.ne'
  apply V3.ext' <;> simp only [] <;> field_simp

theorem normalize_turn (v : V3 ℝ) : Arith.normalize (S.turn v) = S.toRigid.turn (Arith.normalize v) := by
  have h : ∀ v : V3 ℝ, Arith.normalize v = smulR (lenR v)⁻¹ v := by
    intro v
    show V3.mk (v.x / lenR v) (v.y / lenR v) (v.z / lenR v) = _
    simp only [smulR, div_eq_inv_mul]
  unfold Similar.turn
  rw [normalize_smul S.scale_pos, h, h, Rigid.turn_len, Rigid.turn_smul]

theorem dot_smul (k : ℝ) (u v : V3 ℝ) : dotR (smulR k u) v = k * dotR u v := by simp only [dotR, smulR]; ring

theorem onPlane_turn {p p' : BrushPlane ℝ} (h : TurnedFace S.move p p') (x : V3 ℝ) : OnPlane p' (S.move x) ↔ OnPlane p x := by
  unfold OnPlane
  rw [rawNormal_turn h, h.v0, Similar.move_sub, dot_smul, Similar.turn_dot]
  have := S.scale_pos.ne'
  simp [this]

theorem withinR_turn (r : ℝ) {p p' : BrushPlane ℝ} (h : TurnedFace S.move p p') (x : V3 ℝ) :
    WithinR (S.scale * r) p' (S.move x) ↔ WithinR r p x := by
  unfold WithinR
  rw [rawNormal_turn h, h.v0, Similar.move_sub, dot_smul, Similar.turn_dot, Similar.len_smul S.scale_pos, Similar.turn_len]
  have hk := S.scale_pos
  constructor
  · intro k
    refine le_of_mul_le_mul_left ?_ (mul_pos (mul_pos hk hk) hk)
    linarith
  · intro k
    have := mul_le_mul_of_nonneg_left k (mul_pos (mul_pos hk hk) hk).le
    linarith

theorem unitDet_turn {p q r p' q' r' : BrushPlane ℝ} (hp : TurnedFace S.move p p') (hq : TurnedFace S.move q q')
    (hr : TurnedFace S.move r r') : unitDet p' q' r' = unitDet p q r := by
  have hk := S.scale_pos
  have e : ∀ {p p' : BrushPlane ℝ}, TurnedFace S.move p p' →
      rawNormal p' = smulR (S.scale * S.scale) (S.toRigid.turn (rawNormal p)) := by
    intro p p' h
    rw [rawNormal_turn h]
    unfold Similar.turn
    simp only [smulR]
    apply V3.ext' <;> simp only [] <;> ring
  have d : ∀ (k : ℝ) (u v w : V3 ℝ), dotR (crossR (smulR k u) (smulR k v)) (smulR k w) = k * k * k * dotR (crossR u v) w := by
    intro k u v w
    simp only [dotR, crossR, smulR]; ring
  unfold unitDet detR
  rw [e hp, e hq, e hr, d, Similar.len_smul (mul_pos hk hk), Similar.len_smul (mul_pos hk hk),
    Similar.len_smul (mul_pos hk hk), Rigid.turn_cross, Rigid.turn_dot, Rigid.turn_len, Rigid.turn_len, Rigid.turn_len]
  rw [← mul_div_mul_left _ (lenR (rawNormal p) * lenR (rawNormal q) * lenR (rawNormal r))
    (mul_pos (mul_pos (mul_pos hk hk) (mul_pos hk hk)) (mul_pos hk hk)).ne']
  congr 1
  ring

theorem intersect_turn {p q r p' q' r' : BrushPlane ℝ} (hp : TurnedFace S.move p p') (hq : TurnedFace S.move q q')
    (hr : TurnedFace S.move r r') : intersect p' q' r' = (intersect p q r).map S.move := by
  apply Option.ext
  intro x
  rw [intersect_eq_some, Option.map_eq_some_iff]
  simp only [intersect_eq_some, meet_real, unitDet_turn hp hq hr]
  constructor
  · rintro ⟨h, h0, h1, h2⟩
    obtain ⟨y, rfl⟩ := Similar.move_surj S x
    rw [onPlane_turn hp] at h0
    rw [onPlane_turn hq] at h1
    rw [onPlane_turn hr] at h2
    exact ⟨y, ⟨h, h0, h1, h2⟩, rfl⟩
  · rintro ⟨a, ⟨h, h0, h1, h2⟩, rfl⟩
    exact ⟨h, (onPlane_turn hp _).2 h0, (onPlane_turn hq _).2 h1, (onPlane_turn hr _).2 h2⟩

/-- Where three planes of the brush meet is taken to be in it if and only if that is so for the second brush. -/
def HullKept (S : Similar) (planes planes' : List (BrushPlane ℝ)) : Prop :=
  ∀ p ∈ planes, ∀ q ∈ planes, ∀ r ∈ planes, ∀ x, intersect p q r = some x → inHull (S.move x) planes' = inHull x planes

theorem inHull_turn (hk : S.scale = 1) {planes planes' : List (BrushPlane ℝ)}
    (h : List.Forall₂ (TurnedFace S.move) planes planes') (x : V3 ℝ) :
    inHull (S.move x) planes' = inHull x planes := by
  rw [Bool.eq_iff_iff, inHull_iff, inHull_iff]
  simp only [behind_real]
  have e : ∀ r, S.scale * r = r := fun r => by rw [hk, one_mul]
  constructor
  · intro k p hp
    obtain ⟨p', hp', hpp⟩ := forall₂_left h hp
    have := withinR_turn (1 / 1000) hpp x
    rw [e] at this
    exact this.1 (k p' hp')
  · intro k p' hp'
    obtain ⟨p, hp, hpp⟩ := forall₂_right h hp'
    have := withinR_turn (1 / 1000) hpp x
    rw [e] at this
    exact this.2 (k p hp)

theorem inHull_crisp {planes planes' : List (BrushPlane ℝ)} (h : List.Forall₂ (TurnedFace S.move) planes planes')
    (hc : Crisp planes) (hc' : Crisp planes') : HullKept S planes planes' := by
  intro p hp q hq r hr x hx
  rw [intersect_eq_some, meet_real] at hx
  rw [Bool.eq_iff_iff, inHull_iff, inHull_iff]
  simp only [behind_real]
  obtain ⟨hd, h0, h1, h2⟩ := hx
  have mono : ∀ (s : BrushPlane ℝ) (x : V3 ℝ), WithinR 0 s x → WithinR (1 / 1000) s x := by
    intro s x h
    unfold WithinR at h ⊢
    have : (0 : ℝ) ≤ lenR (rawNormal s) := Real.sqrt_nonneg _
    linarith
  constructor
  · intro k s hs
    obtain ⟨p', hp', hpp⟩ := forall₂_left h hp
    obtain ⟨q', hq', hqq⟩ := forall₂_left h hq
    obtain ⟨r', hr', hrr⟩ := forall₂_left h hr
    obtain ⟨s', hs', hss⟩ := forall₂_left h hs
    have := hc' p' hp' q' hq' r' hr' (by rw [unitDet_turn hpp hqq hrr]; exact hd) (S.move x)
      ((onPlane_turn hpp _).2 h0) ((onPlane_turn hqq _).2 h1) ((onPlane_turn hrr _).2 h2) k s' hs'
    refine mono s x ((withinR_turn 0 hss x).1 ?_)
    rw [mul_zero]
    exact this
  · intro k s' hs'
    obtain ⟨s, hs, hss⟩ := forall₂_right h hs'
    have := (withinR_turn 0 hss x).2 (hc p hp q hq r hr hd x h0 h1 h2 k s hs)
    rw [mul_zero] at this
    exact mono s' _ this

theorem normal_turn {p p' : BrushPlane ℝ} (h : TurnedFace S.move p p') : p'.normal = S.toRigid.turn p.normal := by
  show Arith.normalize (rawNormal p') = S.toRigid.turn (Arith.normalize (rawNormal p))
  rw [rawNormal_turn h, normalize_smul S.scale_pos, normalize_turn]

theorem angle_turn {p p' : BrushPlane ℝ} (h : TurnedFace S.move p p') (x : V3 ℝ) : angle p x = angle p' (S.turn x) := by
  have hu : uAxis p' = S.toRigid.turn (uAxis p) := by
    unfold uAxis
    show Arith.normalize (subR p'.v1 p'.v0) = S.toRigid.turn (Arith.normalize (subR p.v1 p.v0))
    rw [h.v0, h.v1, Similar.move_sub, normalize_turn]
  unfold angle vAxis
  rw [hu, normal_turn h]
  show Arith.atan2 (dotR x (crossR p.normal (uAxis p))) (dotR x (uAxis p)) =
    Arith.atan2 (dotR (S.turn x) (crossR (S.toRigid.turn p.normal) (S.toRigid.turn (uAxis p))))
      (dotR (S.turn x) (S.toRigid.turn (uAxis p)))
  unfold Similar.turn
  rw [Rigid.turn_cross, dot_smul, dot_smul, Rigid.turn_dot, Rigid.turn_dot]
  show Complex.arg ⟨_, _⟩ = Complex.arg ⟨_, _⟩
  rw [← Complex.arg_real_mul _ S.scale_pos]
  congr 1
  apply Complex.ext <;> simp

theorem mean_turn [Platform] {l : List (V3 ℝ)} (h : l ≠ []) : mean (l.map S.move) = S.move (mean l) := by
  have hs : ∀ l : List (V3 ℝ), sumR (l.map S.move) = addR (S.turn (sumR l)) (smulR l.length S.t) := by
    intro l
    induction l with
    | nil => simp [sumR, addR, smulR, Similar.turn, Rigid.turn]
    | cons v l ih =>
      have e : ∀ (v : V3 ℝ) (l : List (V3 ℝ)), sumR (v :: l) = addR v (sumR l) := by
        intro v l; simp [sumR, addR]
      rw [List.map_cons, e, e, ih, ← Similar.turn_add, List.length_cons]
      simp only [Similar.move, addR, smulR]
      push_cast
      apply V3.ext' <;> simp only [] <;> ring
  have hl : (0 : ℝ) < l.length := by exact_mod_cast List.length_pos_iff.2 h
  have hm : max l.length 1 = l.length := max_eq_left (List.length_pos_iff.2 h)
  rw [mean_real, mean_real, hs, List.length_map, hm]
  unfold Similar.move
  rw [← Similar.turn_smul]
  simp only [smulR, addR]
  apply V3.ext' <;> simp only [] <;> field_simp

end
end Quarch
