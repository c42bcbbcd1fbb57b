import Verif.Proofs.Tame
import Verif.Props.Geo
import Verif.Props.BoxWound
/-
C114: sorting the corners of a face. In single precision the comparison passed to `sort_by` is consistent for all
faces with coordinates of moderate size, however degenerate.
-/
set_option linter.unusedSectionVars false
namespace Quarch
open Quarch.Spec Geo
namespace Spec

/-- What the documentation of `sort_by` asks of a comparison, on the members of a list: comparing the other way
round gives the opposite, and "not greater" is transitive. (From Rust 1.81 on, sorting may abort otherwise.) -/
def Consistent {α : Type} (cmp : α → α → Ordering) (l : List α) : Prop :=
  (∀ a ∈ l, ∀ b ∈ l, cmp b a = (cmp a b).swap) ∧
  ∀ a ∈ l, ∀ b ∈ l, ∀ c ∈ l, cmp a b ≠ .gt → cmp b c ≠ .gt → cmp a c ≠ .gt

/-- `atan2` gives NaN exactly if an argument is NaN. -/
class Atan2NaN [F32Lib] : Prop where
  nan_iff : ∀ y x : F32, F32.isNaN (F32Lib.atan2 y x) ↔ F32.isNaN y ∨ F32.isNaN x

/-- The first point of the face has finite coordinates of at most `2 ^ 40` (about 10¹²). -/
def Moderate (p : BrushPlane F32) : Prop := ∀ a ∈ [p.v0.x, p.v0.y, p.v0.z], F32.isFin a ∧ |F32.val a| ≤ 2 ^ 40

end Spec

open F32
section
variable [F32Lib]

theorem normal_cases (p : BrushPlane F32) :
    SomeNaN (faceNormal p) ∨ AllInf (faceNormal p) ∨ BdV 4 (faceNormal p) := normalize_cases _

theorem moderate_dist {p : BrushPlane F32} (h : Moderate p) (hn : BdV 4 (faceNormal p)) : Bd (2 ^ 48) (faceDist p) :=
  bd_dot hn ⟨h _ (by simp), h _ (by simp), h _ (by simp)⟩ (by norm_num) (by norm_num) (by unfold large; norm_num)

theorem corner_cases {p0 p1 p2 : BrushPlane F32} (h0 : Moderate p0) (h1 : Moderate p1) (h2 : Moderate p2) {v : V3 F32}
    (h : Meet p0 p1 p2 v) : SomeNaN v ∨ BdV (2 ^ 74) v := by
  obtain ⟨det, hdet, hlt, rfl⟩ := h
  have of_det : det = nan → SomeNaN (V3.sdiv (V3.add (V3.add
        (V3.smul (Arith.cross (faceNormal p1) (faceNormal p2)) (faceDist p0))
        (V3.smul (Arith.cross (faceNormal p2) (faceNormal p0)) (faceDist p1)))
        (V3.smul (Arith.cross (faceNormal p0) (faceNormal p1)) (faceDist p2))) det) := by
    intro e
    left
    rw [e]
    exact div_nan _
  rcases normal_cases p0 with n0 | n0 | n0
  · exact .inl (of_det (hdet.trans (dot_nan_left (cross_nan_left n0))))
  · exact .inl (of_det (hdet.trans (dot_nan_left (cross_inf_left n0))))
  rcases normal_cases p1 with n1 | n1 | n1
  · exact .inl (of_det (hdet.trans (dot_nan_left (cross_nan_right n1))))
  · exact .inl (of_det (hdet.trans (dot_nan_left (cross_inf_right n1))))
  rcases normal_cases p2 with n2 | n2 | n2
  · exact .inl (of_det (hdet.trans (dot_nan_right n2)))
  · left
    have hc : SomeNaN (F32.cross (faceNormal p1) (faceNormal p2)) := cross_inf_right n2
    have key : ∀ {c d x y : F32}, c = nan → F32.div (F32.add (F32.add (F32.mul c d) x) y) det = nan := by
      rintro c d x y rfl
      rw [nan_mul, nan_add, nan_add, nan_div]
    rcases hc with h | h | h
    · exact .inl (key h)
    · exact .inr (.inl (key h))
    · exact .inr (.inr (key h))
  · right
    have b01 : BdV (2 ^ 8) (F32.cross (faceNormal p0) (faceNormal p1)) :=
      bd_cross n0 n1 (by norm_num) (by norm_num) (by unfold large; norm_num)
    have b12 : BdV (2 ^ 8) (F32.cross (faceNormal p1) (faceNormal p2)) :=
      bd_cross n1 n2 (by norm_num) (by norm_num) (by unfold large; norm_num)
    have b20 : BdV (2 ^ 8) (F32.cross (faceNormal p2) (faceNormal p0)) :=
      bd_cross n2 n0 (by norm_num) (by norm_num) (by unfold large; norm_num)
    have d0 := moderate_dist h0 n0
    have d1 := moderate_dist h1 n1
    have d2 := moderate_dist h2 n2
    have bdet : Bd (2 ^ 15) det := by
      rw [hdet]
      exact bd_dot b01 n2 (by norm_num) (by norm_num) (by unfold large; norm_num)
    have hge : 1 / 2000 ≤ |val det| := by
      have he := (abs_le.1 (Rounding.eps_val (F := F32))).1
      have hu : u * (1 / 1000) ≤ 1 / 2000 := by unfold u; norm_num
      have h3 : ¬ val det < Rounding.val (Arith.cmpEpsilon : F32) := by
        intro h4
        have := (Rounding.lt_val det (Arith.cmpEpsilon : F32) bdet.1 Rounding.eps_fin).2 h4
        rw [this] at hlt
        cases hlt
      have h5 := le_abs_self (val det)
      linarith
    have lane : ∀ {c0 c1 c2 : F32}, Bd (2 ^ 8) c0 → Bd (2 ^ 8) c1 → Bd (2 ^ 8) c2 →
        Bd (2 ^ 74) (F32.div (F32.add (F32.add (F32.mul c0 (faceDist p0)) (F32.mul c1 (faceDist p1)))
          (F32.mul c2 (faceDist p2))) det) := by
      intro c0 c1 c2 k0 k1 k2
      have m0 := bd_mul k0 d0 (C := 2 ^ 58) (by norm_num) (by unfold large; norm_num)
      have m1 := bd_mul k1 d1 (C := 2 ^ 58) (by norm_num) (by unfold large; norm_num)
      have m2 := bd_mul k2 d2 (C := 2 ^ 58) (by norm_num) (by unfold large; norm_num)
      have s1 := bd_add m0 m1 (C := 2 ^ 60) (by norm_num) (by unfold large; norm_num)
      have s2 := bd_add s1 m2 (C := 2 ^ 62) (by norm_num) (by unfold large; norm_num)
      exact bd_div s2 bdet.1 (m := 1 / 2000) (by norm_num) hge (by norm_num) (by unfold large; norm_num)
    exact ⟨lane b12.1 b20.1 b01.1, lane b12.2.1 b20.2.1 b01.2.1, lane b12.2.2 b20.2.2 b01.2.2⟩

/-- A coordinate. -/
structure Lane (f : V3 F32 → F32) : Prop where
  add : ∀ a b, f (V3.add a b) = F32.add (f a) (f b)
  sub : ∀ a b, f (V3.sub a b) = F32.sub (f a) (f b)
  sdiv : ∀ a d, f (V3.sdiv a d) = F32.div (f a) d
  zero : f V3.zero = F32.num false 0 rep_zero

theorem lane_x : Lane (V3.x : V3 F32 → F32) := ⟨fun _ _ => rfl, fun _ _ => rfl, fun _ _ => rfl, rfl⟩
theorem lane_y : Lane (V3.y : V3 F32 → F32) := ⟨fun _ _ => rfl, fun _ _ => rfl, fun _ _ => rfl, rfl⟩
theorem lane_z : Lane (V3.z : V3 F32 → F32) := ⟨fun _ _ => rfl, fun _ _ => rfl, fun _ _ => rfl, rfl⟩

theorem sum_nan {f : V3 F32 → F32} (hf : Lane f) (l : List (V3 F32)) (a : V3 F32)
    (h : f a = nan ∨ ∃ x ∈ l, f x = nan) : f (l.foldl V3.add a) = nan := by
  induction l generalizing a with
  | nil => simpa using h
  | cons y ys ih =>
    rw [List.foldl_cons]
    apply ih
    rcases h with h | ⟨x, hx, h⟩
    · left; rw [hf.add, h, nan_add]
    · rcases List.mem_cons.1 hx with rfl | hx
      · left; rw [hf.add, h, add_nan]
      · exact .inr ⟨x, hx, h⟩

theorem sum_bd {f : V3 F32 → F32} (hf : Lane f) (l : List (V3 F32)) (hl : ∀ x ∈ l, Bd (2 ^ 74) (f x)) (k : Nat)
    (a : V3 F32) (ha : Bd (2 ^ 75 * k) (f a)) (hk : k + l.length ≤ 2 ^ 22) :
    Bd (2 ^ 75 * ((k + l.length : Nat) : ℝ)) (f (l.foldl V3.add a)) := by
  induction l generalizing a k with
  | nil => simpa using ha
  | cons y ys ih =>
    rw [List.foldl_cons]
    have hy := hl y (by simp)
    have hk' : k + 1 + ys.length ≤ 2 ^ 22 := by simpa [Nat.add_assoc, Nat.add_comm 1] using hk
    have hk2 : (k : ℝ) ≤ 2 ^ 22 := by exact_mod_cast (show k ≤ 2 ^ 22 by omega)
    have hk0 : (0 : ℝ) ≤ k := Nat.cast_nonneg k
    have key : Bd (2 ^ 75 * ((k + 1 : Nat) : ℝ)) (f (V3.add a y)) := by
      rw [hf.add]
      have h1 : |val (f a) + val (f y)| ≤ 2 ^ 75 * k + 2 ^ 74 := (abs_add_le _ _).trans (add_le_add ha.2 hy.2)
      have h2 : (2 : ℝ) ^ 75 * k + 2 ^ 74 ≤ 2 ^ 98 := by
        have : (2 : ℝ) ^ 75 * k ≤ 2 ^ 75 * 2 ^ 22 := mul_le_mul_of_nonneg_left hk2 (by positivity)
        norm_num at this ⊢
        linarith
      have hfin := add_ok _ _ ha.1 hy.1 (h1.trans (h2.trans (by unfold large; norm_num)))
      refine ⟨hfin, ?_⟩
      have h3 := Err.abs_le_of (add_val _ _ hfin)
      have h4 : u * |val (f a) + val (f y)| ≤ u * 2 ^ 98 :=
        mul_le_mul_of_nonneg_left (h1.trans h2) u_pos'.le
      have h5 : u * 2 ^ 98 = 2 ^ 74 := by unfold u; norm_num
      push_cast
      have e : (2 : ℝ) ^ 75 * (k + 1) = 2 ^ 75 * k + (2 ^ 74 + 2 ^ 74) := by ring
      rw [e]
      linarith
    have := ih (fun x hx => hl x (by simp [hx])) (k + 1) (V3.add a y) key hk'
    have e : k + (y :: ys).length = k + 1 + ys.length := by simp; omega
    rw [e]
    exact this

theorem mean_bd {f : V3 F32 → F32} (hf : Lane f) (l : List (V3 F32)) (hl : ∀ x ∈ l, Bd (2 ^ 74) (f x))
    (hk : l.length ≤ 2 ^ 22) : Bd (2 ^ 100) (f (mean l)) := by
  have h0 : Bd (2 ^ 75 * (0 : Nat)) (f V3.zero) := by
    rw [hf.zero]
    exact ⟨trivial, by simp [val, sv]⟩
  have hs := sum_bd hf l hl 0 V3.zero h0 (by simpa using hk)
  rw [Nat.zero_add] at hs
  have hlen : (l.length : ℝ) ≤ 2 ^ 22 := by exact_mod_cast hk
  have hs' : Bd (2 ^ 97) (f (l.foldl V3.add V3.zero)) := hs.mono (by
    have : (2 : ℝ) ^ 75 * l.length ≤ 2 ^ 75 * 2 ^ 22 := mul_le_mul_of_nonneg_left hlen (by positivity)
    refine this.trans ?_
    norm_num)
  unfold mean
  rw [hf.sdiv]
  have hm : ((max l.length 1 : Nat) : ℝ) ≤ large := by
    have : max l.length 1 ≤ 2 ^ 22 := by omega
    have : ((max l.length 1 : Nat) : ℝ) ≤ ((2 ^ 22 : Nat) : ℝ) := by exact_mod_cast this
    refine this.trans ?_
    unfold large; norm_num
  have hfin := Rounding.ofNat_fin (F := F32) (max l.length 1) hm
  have hval := (abs_le.1 (Rounding.ofNat_val (F := F32) (max l.length 1) hfin)).1
  have h1 : (1 : ℝ) ≤ ((max l.length 1 : Nat) : ℝ) := by exact_mod_cast (show 1 ≤ max l.length 1 by omega)
  have hu : u ≤ 1 / 2 := by unfold u; norm_num
  refine bd_div hs' hfin (m := 1 / 2) (by norm_num) ?_ (by norm_num) (by unfold large; norm_num)
  have h2 := le_abs_self (Rounding.val (Arith.ofNat (max l.length 1) : F32))
  refine le_trans ?_ h2
  have h3 : u * ((max l.length 1 : Nat) : ℝ) ≤ 1 / 2 * ((max l.length 1 : Nat) : ℝ) :=
    mul_le_mul_of_nonneg_right hu (by linarith)
  linarith

theorem fin_not_nan {B : ℝ} {a : F32} (h : Bd B a) : ¬ isNaN a := by
  cases a <;> simp_all [Bd, isFin, isNaN]

/-- C114: relative to the mean of the corners of a face, the angles of all corners are NaN, or none is. -/
theorem spec_C114_angles [Atan2NaN] (planes : List (BrushPlane F32)) (plane : BrushPlane F32) (hp : plane ∈ planes)
    (hm : ∀ p ∈ planes, Moderate p) (corners : List (V3 F32)) (hc : ∀ x ∈ corners, Found planes plane x)
    (hlen : corners.length ≤ 2 ^ 22) :
    (∀ x ∈ corners, isNaN (faceAngle plane (V3.sub x (mean corners)))) ∨
    ∀ x ∈ corners, ¬ isNaN (faceAngle plane (V3.sub x (mean corners))) := by
  have angle_iff : ∀ x : V3 F32, isNaN (faceAngle plane x) ↔
      isNaN (F32.dot x (F32.cross (faceNormal plane) (F32.normalize (V3.sub plane.v1 plane.v0)))) ∨
      isNaN (F32.dot x (F32.normalize (V3.sub plane.v1 plane.v0))) := fun x => Atan2NaN.nan_iff _ _
  by_cases hn : ∃ x ∈ corners, SomeNaN x
  · left
    intro y hy
    rw [angle_iff]
    right
    have key : ∀ {f : V3 F32 → F32}, Lane f → (∃ x ∈ corners, f x = nan) → f (V3.sub y (mean corners)) = nan := by
      intro f hf h
      rw [hf.sub, mean, hf.sdiv, sum_nan hf _ _ (.inr h), nan_div, sub_nan_right]
    obtain ⟨x, hx, h⟩ := hn
    rw [isNaN_iff]
    apply dot_nan_left
    rcases h with h | h | h
    · exact .inl (key lane_x ⟨x, hx, h⟩)
    · exact .inr (.inl (key lane_y ⟨x, hx, h⟩))
    · exact .inr (.inr (key lane_z ⟨x, hx, h⟩))
  · push Not at hn
    have hb : ∀ x ∈ corners, BdV (2 ^ 74) x := by
      intro x hx
      obtain ⟨⟨p1, hp1, p2, hp2, hmeet⟩, -⟩ := hc x hx
      exact (corner_cases (hm _ hp) (hm _ hp1) (hm _ hp2) hmeet).resolve_left (hn x hx)
    have hloc : ∀ x ∈ corners, BdV (2 ^ 102) (V3.sub x (mean corners)) := by
      intro x hx
      have mx := mean_bd lane_x corners (fun x hx => (hb x hx).1) hlen
      have my := mean_bd lane_y corners (fun x hx => (hb x hx).2.1) hlen
      have mz := mean_bd lane_z corners (fun x hx => (hb x hx).2.2) hlen
      exact ⟨bd_sub (hb x hx).1 mx (by norm_num) (by unfold large; norm_num),
        bd_sub (hb x hx).2.1 my (by norm_num) (by unfold large; norm_num),
        bd_sub (hb x hx).2.2 mz (by norm_num) (by unfold large; norm_num)⟩
    rcases normalize_cases (V3.sub plane.v1 plane.v0) with hu | hu | hu
    · left; intro x _
      rw [angle_iff, isNaN_iff, isNaN_iff]
      exact .inr (dot_nan_right hu)
    · left; intro x _
      rw [angle_iff, isNaN_iff, isNaN_iff]
      exact .inl (dot_nan_right (cross_inf_right hu))
    rcases normal_cases plane with n | n | n
    · left; intro x _
      rw [angle_iff, isNaN_iff, isNaN_iff]
      exact .inl (dot_nan_right (cross_nan_left n))
    · left; intro x _
      rw [angle_iff, isNaN_iff, isNaN_iff]
      exact .inl (dot_nan_right (cross_inf_left n))
    right
    intro x hx h
    rw [angle_iff] at h
    have hv : BdV (2 ^ 8) (F32.cross (faceNormal plane) (F32.normalize (V3.sub plane.v1 plane.v0))) :=
      bd_cross n hu (by norm_num) (by norm_num) (by unfold large; norm_num)
    rcases h with h | h
    · exact fin_not_nan (bd_dot (hloc x hx) hv (by norm_num) le_rfl (by unfold large; norm_num)) h
    · exact fin_not_nan (bd_dot (hloc x hx) hu (by norm_num) le_rfl (by unfold large; norm_num)) h

/-- Comparison of numbers is consistent if all are NaN or none is. -/
theorem lt_consistent {α : Type} (g : α → F32) (l : List α) (h : (∀ a ∈ l, isNaN (g a)) ∨ ∀ a ∈ l, ¬ isNaN (g a)) :
    (∀ a ∈ l, ∀ b ∈ l, Arith.lt (g a) (g b) = true → Arith.lt (g b) (g a) = false) ∧
    ∀ a ∈ l, ∀ b ∈ l, ∀ c ∈ l, Arith.lt (g a) (g b) = false → Arith.lt (g b) (g c) = false →
      Arith.lt (g a) (g c) = false := by
  rcases h with h | h
  · have h1 : ∀ a ∈ l, ∀ b, Arith.lt (g a) b = false := by
      intro a ha b
      rw [isNaN_iff.1 (h a ha)]
      exact rel_nan_left _ _
    exact ⟨fun a ha b hb _ => h1 b hb _, fun a ha b hb c hc _ _ => h1 a ha _⟩
  · have h1 : ∀ a ∈ l, ∃ x : EReal, ext (g a) = some x := by
      intro a ha
      have := h a ha
      rcases hg : g a with _ | s | ⟨s, b, rb⟩
      · rw [hg] at this; exact absurd trivial this
      · exact ⟨_, rfl⟩
      · exact ⟨_, rfl⟩
    have h2 : ∀ {a b : α} {x y : EReal}, ext (g a) = some x → ext (g b) = some y →
        (Arith.lt (g a) (g b) = true ↔ x < y) := by
      intro a b x y hx hy
      show rel (· < ·) (g a) (g b) = true ↔ _
      unfold rel
      rw [hx, hy]
      simp
    constructor
    · intro a ha b hb hlt
      obtain ⟨x, hx⟩ := h1 a ha
      obtain ⟨y, hy⟩ := h1 b hb
      rw [h2 hx hy] at hlt
      rw [← Bool.not_eq_true, h2 hy hx]
      exact not_lt_of_gt hlt
    · intro a ha b hb c hc hab hbc
      obtain ⟨x, hx⟩ := h1 a ha
      obtain ⟨y, hy⟩ := h1 b hb
      obtain ⟨z, hz⟩ := h1 c hc
      rw [← Bool.not_eq_true, h2 hx hy] at hab
      rw [← Bool.not_eq_true, h2 hy hz] at hbc
      rw [← Bool.not_eq_true, h2 hx hz]
      exact not_lt.2 ((not_lt.1 hbc).trans (not_lt.1 hab))

theorem uniqueVertices_length (phong : Bool) (l : List (Vertex F32)) : (uniqueVertices phong l).length ≤ l.length := by
  induction l with
  | nil => simp [uniqueVertices]
  | cons v l ih =>
    rw [uniqueVertices, List.length_append, List.length_cons]
    have : (uniqueVertex phong v l).toList.length ≤ 1 := by cases uniqueVertex phong v l <;> simp
    omega

theorem planeVertices_length {texture : Option Texture} {entity : Entity F32} {planes : List (BrushPlane F32)}
    {plane : BrushPlane F32} {pvs : List (Vertex F32)}
    (h : planeVertices texture entity planes plane = .ok pvs) : pvs.length ≤ planes.length * planes.length := by
  unfold planeVertices at h
  obtain ⟨vss, h1, h2⟩ := Outcome.bind_eq_ok.1 h
  cases h2
  rw [mapOut_eq_ok] at h1
  have aux : ∀ (l : List (BrushPlane F32)) (vss : List (List (Vertex F32))),
      List.Forall₂ (fun _ y => y.length ≤ planes.length) l vss → vss.flatten.length ≤ l.length * planes.length := by
    intro l vss hf
    induction hf with
    | nil => simp
    | cons h1 _ ih =>
      rw [List.flatten_cons, List.length_append, List.length_cons, Nat.add_mul]
      omega
  refine aux planes vss (h1.imp ?_)
  intro p1 vs hvs
  obtain ⟨ws, h3, h4⟩ := Outcome.bind_eq_ok.1 hvs
  cases h4
  rw [mapOut_eq_ok] at h3
  rw [h3.length_eq]
  exact List.length_filterMap_le _ _

section
variable [Platform]

/-- The corners of a face before sorting: what C114 speaks about. -/
theorem sorted_corners {textures : TextureInfo} {entity : Entity F32} {planes : List (BrushPlane F32)}
    {plane : BrushPlane F32} {pvs : List (Vertex F32)} (hlen : planes.length ≤ 2048)
    (h : planeVertices (textures plane.texture) entity planes plane = .ok pvs) :
    (∀ x ∈ (uniqueVertices (isPhong entity) pvs).map (·.pos), Found planes plane x) ∧
    ((uniqueVertices (isPhong entity) pvs).map (·.pos)).length ≤ 2 ^ 22 := by
  constructor
  · intro x hx
    obtain ⟨w, hw, rfl⟩ := List.mem_map.1 hx
    obtain ⟨v, hv, rfl⟩ := uniqueVertices_mem hw
    obtain ⟨⟨p1, hp1, p2, hp2, hm, _⟩, hh, _⟩ := (planeVertices_ok h).1 v hv
    rw [finishNormal_pos]
    exact ⟨⟨p1, hp1, p2, hp2, hm⟩, hh⟩
  · rw [List.length_map]
    refine (uniqueVertices_length _ _).trans ((planeVertices_length h).trans ?_)
    calc planes.length * planes.length ≤ 2048 * 2048 := Nat.mul_le_mul hlen hlen
      _ ≤ _ := by norm_num

/-- The comparison is consistent if comparing the angles is. -/
theorem cmp_consistent (plane : BrushPlane F32) (l : List (Vertex F32))
    (h1 : ∀ a ∈ l, ∀ b ∈ l, Arith.lt (faceAngle plane a.pos) (faceAngle plane b.pos) = true →
      Arith.lt (faceAngle plane b.pos) (faceAngle plane a.pos) = false)
    (h2 : ∀ a ∈ l, ∀ b ∈ l, ∀ c ∈ l, Arith.lt (faceAngle plane a.pos) (faceAngle plane b.pos) = false →
      Arith.lt (faceAngle plane b.pos) (faceAngle plane c.pos) = false →
      Arith.lt (faceAngle plane a.pos) (faceAngle plane c.pos) = false) : Consistent (windCmp plane) l := by
  have hcmp : ∀ a b : Vertex F32, windCmp plane a b =
      if Arith.lt (faceAngle plane b.pos) (faceAngle plane a.pos) then .lt
      else if Arith.lt (faceAngle plane a.pos) (faceAngle plane b.pos) then .gt else .eq := by
    intro a b
    unfold windCmp partialCmp
    change (if Arith.lt (faceAngle plane b.pos) (faceAngle plane a.pos) then some Ordering.lt
      else if Arith.lt (faceAngle plane a.pos) (faceAngle plane b.pos) then some Ordering.gt
      else if Arith.eq (faceAngle plane b.pos) (faceAngle plane a.pos) then some Ordering.eq
      else none).getD .eq = _
    split_ifs <;> rfl
  have hng : ∀ a ∈ l, ∀ b ∈ l, (windCmp plane a b ≠ .gt ↔
      Arith.lt (faceAngle plane a.pos) (faceAngle plane b.pos) = false) := by
    intro a ha b hb
    rw [hcmp]
    split
    · rename_i hlt
      simp [h1 _ hb _ ha hlt]
    · split
      · rename_i hlt; simp [hlt]
      · rename_i hlt; simpa using hlt
  constructor
  · intro a ha b hb
    rw [hcmp, hcmp]
    split
    · rename_i hlt
      rw [if_neg (by simp [h1 _ ha _ hb hlt])]; rfl
    · split <;> rfl
  · intro a ha b hb c hc hab hbc
    rw [hng _ ha _ hb] at hab
    rw [hng _ hb _ hc] at hbc
    rw [hng _ ha _ hc]
    exact h2 _ ha _ hb _ hc hab hbc

/-- C114: for a brush of at most 2048 faces with moderate coordinates the comparison passed to `sort_by` is
consistent on the corners to be sorted, for every face, even if faces of the brush have no direction. -/
theorem C114_consistent [Atan2NaN] (textures : TextureInfo) (entity : Entity F32) (planes : List (BrushPlane F32))
    (hm : ∀ p ∈ planes, Moderate p) (hlen : planes.length ≤ 2048) (plane : BrushPlane F32) (hp : plane ∈ planes)
    (pvs : List (Vertex F32)) (h : planeVertices (textures plane.texture) entity planes plane = .ok pvs) :
    Consistent (windCmp plane) ((uniqueVertices (isPhong entity) pvs).map fun v =>
      { v with pos := V3.sub v.pos (mean ((uniqueVertices (isPhong entity) pvs).map (·.pos))) }) := by
  obtain ⟨hfound, hl⟩ := sorted_corners hlen h
  have hang := spec_C114_angles planes plane hp hm _ hfound hl
  obtain ⟨h1, h2⟩ := lt_consistent (fun v : Vertex F32 => faceAngle plane v.pos)
    ((uniqueVertices (isPhong entity) pvs).map fun v =>
      { v with pos := V3.sub v.pos (mean ((uniqueVertices (isPhong entity) pvs).map (·.pos))) })
    (by
      rcases hang with hang | hang
      · left; intro v hv
        obtain ⟨w, hw, rfl⟩ := List.mem_map.1 hv
        exact hang w.pos (List.mem_map_of_mem hw)
      · right; intro v hv
        obtain ⟨w, hw, rfl⟩ := List.mem_map.1 hv
        exact hang w.pos (List.mem_map_of_mem hw))
  exact cmp_consistent plane _ h1 h2

/-- C114: so the corners of such faces are in the order of decreasing angle, without any further assumption. -/
theorem C114_winding [Atan2NaN] (textures : TextureInfo) (entity : Entity F32) (planes : List (BrushPlane F32))
    (hm : ∀ p ∈ planes, Moderate p) (hlen : planes.length ≤ 2048) (plane : BrushPlane F32) (hp : plane ∈ planes)
    (geo : PlaneGeo F32) (h : buildPlane textures entity planes plane = .ok geo) :
    ∃ corners rel : List (V3 F32), (∀ x ∈ corners, Found planes plane x) ∧
      rel.Perm (corners.map fun x => V3.sub x geo.center) ∧
      geo.vertices.map (·.pos) = rel.map (fun p => V3.add p geo.center) ∧
      rel.Pairwise (fun a b => Arith.lt (faceAngle plane a) (faceAngle plane b) = false) ∧
      ((∀ a ∈ rel, isNaN (faceAngle plane a)) ∨ ∀ a ∈ rel, ¬ isNaN (faceAngle plane a)) := by
  obtain ⟨pvs, rel, h1, hc, h3, h4, h5⟩ := winding_rel textures entity planes plane geo h
  obtain ⟨hfound, hl⟩ := sorted_corners hlen h1
  have hang := spec_C114_angles planes plane hp hm _ hfound hl
  rw [← hc] at hang
  have h3' : rel.Perm (((uniqueVertices (isPhong entity) pvs).map (·.pos)).map fun x => V3.sub x geo.center) := by
    rwa [List.map_map]
  have hrel : (∀ a ∈ rel, isNaN (faceAngle plane a)) ∨ ∀ a ∈ rel, ¬ isNaN (faceAngle plane a) := by
    rcases hang with hang | hang
    · left; intro a ha
      obtain ⟨x, hx, rfl⟩ := List.mem_map.1 (h3'.mem_iff.1 ha)
      exact hang x hx
    · right; intro a ha
      obtain ⟨x, hx, rfl⟩ := List.mem_map.1 (h3'.mem_iff.1 ha)
      exact hang x hx
  obtain ⟨k1, k2⟩ := lt_consistent (faceAngle plane) rel hrel
  exact ⟨_, rel, hfound, h3', h4, h5 k1 k2, hrel⟩

end

/-- C114: an angle that is NaN among different angles that are not makes the comparison inconsistent. -/
theorem C114_mixed (plane : BrushPlane F32) (l : List (Vertex F32)) (a b c : Vertex F32) (ha : a ∈ l) (hb : b ∈ l)
    (hc : c ∈ l) (hab : Arith.lt (faceAngle plane a.pos) (faceAngle plane b.pos) = true)
    (hn : isNaN (faceAngle plane c.pos)) : ¬ Consistent (windCmp plane) l := by
  rw [isNaN_iff] at hn
  have e1 : windCmp plane a c = .eq := by
    unfold windCmp partialCmp
    change (if rel (· < ·) (faceAngle plane c.pos) (faceAngle plane a.pos) then some Ordering.lt
      else if rel (· < ·) (faceAngle plane a.pos) (faceAngle plane c.pos) then some Ordering.gt
      else if rel (· = ·) (faceAngle plane c.pos) (faceAngle plane a.pos) then some Ordering.eq
      else none).getD .eq = _
    rw [hn, rel_nan_left, rel_nan_right, rel_nan_left]
    rfl
  have e2 : windCmp plane c b = .eq := by
    unfold windCmp partialCmp
    change (if rel (· < ·) (faceAngle plane b.pos) (faceAngle plane c.pos) then some Ordering.lt
      else if rel (· < ·) (faceAngle plane c.pos) (faceAngle plane b.pos) then some Ordering.gt
      else if rel (· = ·) (faceAngle plane b.pos) (faceAngle plane c.pos) then some Ordering.eq
      else none).getD .eq = _
    rw [hn, rel_nan_left, rel_nan_right, rel_nan_right]
    rfl
  have h3 := (lt_consistent (fun x : F32 => x) [faceAngle plane a.pos, faceAngle plane b.pos] (by
    right
    intro x hx hx'
    rw [isNaN_iff] at hx'
    simp only [List.mem_cons, List.not_mem_nil, or_false] at hx
    rcases hx with rfl | rfl
    · rw [hx'] at hab; cases hab
    · rw [hx'] at hab
      change rel _ _ nan = true at hab
      rw [rel_nan_right] at hab; cases hab)).1 _ (by simp) _ (by simp) hab
  have e3 : windCmp plane a b = .gt := by
    unfold windCmp partialCmp
    change (if Arith.lt (faceAngle plane b.pos) (faceAngle plane a.pos) then some Ordering.lt
      else if Arith.lt (faceAngle plane a.pos) (faceAngle plane b.pos) then some Ordering.gt
      else if Arith.eq (faceAngle plane b.pos) (faceAngle plane a.pos) then some Ordering.eq
      else none).getD .eq = _
    rw [h3, hab]
    rfl
  intro h
  exact h.2 a ha c hc b hb (by rw [e1]; decide) (by rw [e2]; decide) e3

end

/-! ### Example: the box of a new map -/

/-- The angles of `stepLib`, and NaN for NaN. -/
@[reducible] noncomputable def nanLib : F32Lib :=
  open Classical in
  { stepLib with
    atan2 := fun y x => if isNaN y ∨ isNaN x then .nan else F32.ofReal (quadrant (F32.val y) (F32.val x)) }

open Classical in
theorem nanLib_atan2 : @Atan2NaN nanLib := by
  let _ := nanLib
  refine ⟨fun y x => ?_⟩
  show isNaN (if isNaN y ∨ isNaN x then F32.nan else F32.ofReal (quadrant (F32.val y) (F32.val x))) ↔ _
  split_ifs with h
  · exact ⟨fun _ => h, fun _ => trivial⟩
  · have h1 := is_ofReal (z := quadrant (F32.val y) (F32.val x)) (by unfold quadrant; split_ifs <;> norm_num)
    simp only [h, iff_false]
    exact fin_not_nan ⟨h1.fin, le_rfl⟩

section
open Classical
attribute [local instance] nanLib refPlatform nanLib_atan2

theorem int3_moderate {x y z : Int} (a b : V3 F32) (h : ∀ i ∈ [x, y, z], i.natAbs ≤ 100) :
    Moderate (octFace (int3 x y z) a b) := by
  have key : ∀ i : Int, i.natAbs ≤ 100 → isFin (F32.ofReal (i : ℝ)) ∧ |F32.val (F32.ofReal (i : ℝ))| ≤ 2 ^ 40 := by
    intro i hi
    have h1 := is_ofReal (z := i) (lt_of_le_of_lt hi (by norm_num))
    refine ⟨h1.fin, ?_⟩
    rw [h1.val]
    have h2 : |i| ≤ 100 := by rw [Int.abs_eq_natAbs]; exact_mod_cast hi
    have h3 : |(i : ℝ)| ≤ 100 := by exact_mod_cast h2
    refine h3.trans ?_
    norm_num
  intro c hc
  simp only [List.mem_cons, List.not_mem_nil, or_false, forall_eq_or_imp, forall_eq] at hc h
  rcases hc with rfl | rfl | rfl
  · exact key x h.1
  · exact key y h.2.1
  · exact key z h.2.2

/-- The box of a new map, and the same with a face whose three points are equal. -/
noncomputable def newBoxFlat : List (BrushPlane F32) :=
  newBox.planes ++ [octFace (int3 1 2 3) (int3 1 2 3) (int3 1 2 3)]

theorem newBoxFlat_moderate : ∀ p ∈ newBoxFlat, Moderate p := by
  intro p hp
  simp only [newBoxFlat, newBox, List.cons_append, List.nil_append, List.mem_cons, List.not_mem_nil, or_false] at hp
  rcases hp with rfl | rfl | rfl | rfl | rfl | rfl | rfl <;> exact int3_moderate _ _ (by decide)

example (textures : TextureInfo) (entity : Entity F32) (p : BrushPlane F32) (hp : p ∈ newBox.planes)
    (pvs : List (Vertex F32)) (h : planeVertices (textures p.texture) entity newBox.planes p = .ok pvs) :
    Consistent (windCmp p) ((uniqueVertices (isPhong entity) pvs).map fun v =>
      { v with pos := V3.sub v.pos (mean ((uniqueVertices (isPhong entity) pvs).map (·.pos))) }) :=
  C114_consistent textures entity _ (fun q hq => newBoxFlat_moderate q (by simp [newBoxFlat, hq]))
    (by simp [newBox]) p hp pvs h

example (textures : TextureInfo) (entity : Entity F32) (p : BrushPlane F32) (hp : p ∈ newBoxFlat)
    (pvs : List (Vertex F32)) (h : planeVertices (textures p.texture) entity newBoxFlat p = .ok pvs) :
    Consistent (windCmp p) ((uniqueVertices (isPhong entity) pvs).map fun v =>
      { v with pos := V3.sub v.pos (mean ((uniqueVertices (isPhong entity) pvs).map (·.pos))) }) :=
  C114_consistent textures entity _ newBoxFlat_moderate (by simp [newBoxFlat, newBox]) p hp pvs h

example (textures : TextureInfo) (entity : Entity F32) : ∃ p ∈ newBox.planes, ∃ geo,
    buildPlane textures entity newBox.planes p = .ok geo ∧
    ∃ rel : List (V3 F32), geo.vertices.map (·.pos) = rel.map (fun p => V3.add p geo.center) ∧
      rel.Pairwise (fun a b => Arith.lt (faceAngle p a) (faceAngle p b) = false) := by
  obtain ⟨p, hp, hs⟩ := newBox_isBrush.2 .z true
  obtain ⟨geo, h, -⟩ := C90_face textures entity newBox.planes p newGrid newBox_isBrush .z true hs
  obtain ⟨-, rel, -, -, h3, h4, -⟩ := C114_winding textures entity _
    (fun q hq => newBoxFlat_moderate q (by simp [newBoxFlat, hq])) (by simp [newBox]) p hp geo h
  exact ⟨p, hp, geo, h, rel, h3, h4⟩

/-- Three corners, one of them not a number, that cannot be sorted consistently. -/
example : ∃ (p : BrushPlane F32) (l : List (Vertex F32)), ¬ Consistent (windCmp p) l := by
  have i3 : ∀ {x y z : Int}, (∀ i ∈ [x, y, z], i.natAbs ≤ 100) → IsV (int3 x y z) x y z := by
    intro x y z h
    simp only [List.mem_cons, List.not_mem_nil, or_false, forall_eq_or_imp, forall_eq] at h
    exact ⟨is_ofReal (by omega), is_ofReal (by omega), is_ofReal (by omega)⟩
  let p : BrushPlane F32 := octFace (int3 0 0 0) (int3 1 0 0) (int3 0 1 0)
  have hu : IsV (Arith.normalize (V3.sub p.v1 p.v0)) 1 0 0 := by
    have := isV_sub (i3 (x := 1) (y := 0) (z := 0) (by decide)) (i3 (x := 0) (y := 0) (z := 0) (by decide))
      (by simp [F32.Small])
    exact isV_normalize this (by simp [F32.Small]) (by norm_num)
  have hn : IsV (faceNormal p) 0 0 (-1) := by
    have h1 := isV_sub (i3 (x := 1) (y := 0) (z := 0) (by decide)) (i3 (x := 0) (y := 0) (z := 0) (by decide))
      (by simp [F32.Small])
    have h2 := isV_sub (i3 (x := 0) (y := 1) (z := 0) (by decide)) (i3 (x := 0) (y := 0) (z := 0) (by decide))
      (by simp [F32.Small])
    have h3 := isV_cross h2 h1 (by simp [F32.Small])
    exact isV_normalize h3 (by simp [F32.Small]) (by norm_num)
  have hv := isV_cross hn hu (by simp [F32.Small])
  let vert (x : V3 F32) : Vertex F32 := ⟨x, x, (x, x.x), none, none⟩
  refine ⟨p, [vert (int3 1 1 0), vert (int3 (-1) (-1) 0), vert ⟨.nan, .nan, .nan⟩], ?_⟩
  have d1 := is_dot (i3 (x := 1) (y := 1) (z := 0) (by decide)) hu (by simp [F32.Small])
  have d2 := is_dot (i3 (x := 1) (y := 1) (z := 0) (by decide)) hv (by simp [F32.Small])
  have d3 := is_dot (i3 (x := -1) (y := -1) (z := 0) (by decide)) hu (by simp [F32.Small])
  have d4 := is_dot (i3 (x := -1) (y := -1) (z := 0) (by decide)) hv (by simp [F32.Small])
  have ang : ∀ {y x : F32} {i j : Int}, Is y i → Is x j →
      Is (Arith.atan2 y x : F32) (quadrant (i : ℝ) (j : ℝ)) := by
    intro y x i j hy hx
    have e : (Arith.atan2 y x : F32) = F32.ofReal (quadrant (F32.val y) (F32.val x)) := by
      show (if isNaN y ∨ isNaN x then F32.nan else F32.ofReal (quadrant (F32.val y) (F32.val x))) = _
      rw [if_neg]
      rintro (h | h)
      · exact fin_not_nan ⟨hy.fin, le_rfl⟩ h
      · exact fin_not_nan ⟨hx.fin, le_rfl⟩ h
    rw [e, hy.val, hx.val]
    have := is_ofReal (z := (quadrant (i : ℝ) (j : ℝ) : Int)) (by unfold quadrant; split_ifs <;> norm_num)
    exact_mod_cast this
  have a1 := ang d2 d1
  have a2 := ang d4 d3
  refine C114_mixed p _ (vert (int3 1 1 0)) (vert (int3 (-1) (-1) 0)) (vert ⟨.nan, .nan, .nan⟩) (by simp) (by simp)
    (by simp) ?_ ?_
  · refine (isG_lt (isG_of_is a1) (isG_of_is a2)).2 ?_
    norm_num [quadrant]
  · refine (Atan2NaN.nan_iff _ _).2 (.inl ?_)
    rw [isNaN_iff]
    exact dot_nan_left (.inl rfl)

end

end Quarch
