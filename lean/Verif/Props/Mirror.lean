import Verif.Spec.Mirror
import Verif.Props.InsideOut
import Verif.Props.Rigid
/-
C140: a mirrored map gives an empty scene.
-/
set_option linter.unusedSectionVars false
namespace Quarch
open Spec Scene Geo Poly

section
variable [RealText]

theorem mirrorR_mirrorR (v : V3 ℝ) : mirrorR (mirrorR v) = v := by simp [mirrorR]

theorem reflect_sub (M : Rigid) (u v : V3 ℝ) : subR (M.reflect u) (M.reflect v) = M.turn (mirrorR (subR u v)) := by
  unfold Rigid.reflect
  rw [Rigid.move_sub]
  congr 1
  simp only [mirrorR, subR]
  apply V3.ext' <;> simp only [] <;> ring

theorem reflect_surj (M : Rigid) (v : V3 ℝ) : ∃ u, M.reflect u = v := by
  obtain ⟨u, hu⟩ := Rigid.move_surj M v
  exact ⟨mirrorR u, by unfold Rigid.reflect; rw [mirrorR_mirrorR, hu]⟩

theorem mirrorR_dot (u v : V3 ℝ) : dotR (mirrorR u) (mirrorR v) = dotR u v := by simp only [mirrorR, dotR]; ring

theorem reflect_raw (M : Rigid) {p q : BrushPlane ℝ} (h0 : q.v0 = M.reflect p.v0) (h1 : q.v1 = M.reflect p.v2)
    (h2 : q.v2 = M.reflect p.v1) : rawNormal q = M.turn (mirrorR (rawNormal p)) := by
  unfold rawNormal
  rw [h0, h1, h2, reflect_sub, reflect_sub, Rigid.turn_cross]
  congr 1
  simp only [mirrorR, crossR, subR]
  apply V3.ext' <;> simp only [] <;> ring

theorem reflect_within (M : Rigid) {p q : BrushPlane ℝ} (h0 : q.v0 = M.reflect p.v0) (h1 : q.v1 = M.reflect p.v2)
    (h2 : q.v2 = M.reflect p.v1) (r : ℝ) (x : V3 ℝ) : WithinR r q (M.reflect x) ↔ WithinR r p x := by
  unfold WithinR
  rw [reflect_raw M h0 h1 h2, h0, reflect_sub, Rigid.turn_dot, mirrorR_dot, Rigid.turn_len]
  unfold lenR
  rw [mirrorR_dot]

theorem abs_le_one_of_unit {v : V3 ℝ} (h : dotR v v = 1) : |v.x| ≤ 1 ∧ |v.y| ≤ 1 ∧ |v.z| ≤ 1 := by
  simp only [dotR] at h
  refine ⟨?_, ?_, ?_⟩ <;> rw [← sq_le_one_iff_abs_le_one] <;> nlinarith [sq_nonneg v.x, sq_nonneg v.y, sq_nonneg v.z]

theorem reflect_bound {a b c u v w t R : ℝ} (hu : |u| ≤ 1) (hv : |v| ≤ 1) (hw : |w| ≤ 1) (ha : |a| ≤ R) (hb : |b| ≤ R)
    (hc : |c| ≤ R) : |a * u + b * v + c * w + t| ≤ 3 * R + |t| := by
  have k : ∀ {a u : ℝ}, |u| ≤ 1 → |a| ≤ R → |a * u| ≤ R := fun {a u} h h' => by
    rw [abs_mul]
    nlinarith [abs_nonneg a, abs_nonneg u]
  have e1 := abs_add_le (a * u + b * v + c * w) t
  have e2 := abs_add_le (a * u + b * v) (c * w)
  have e3 := abs_add_le (a * u) (b * v)
  linarith [k hu ha, k hv hb, k hw hc]

theorem reflect_bounded (M : Rigid) {A : V3 ℝ → Prop} {R : ℝ}
    (h : ∀ x, A (M.reflect x) → |x.x| ≤ R ∧ |x.y| ≤ R ∧ |x.z| ≤ R) :
    ∃ R' : ℝ, ∀ y, A y → |y.x| ≤ R' ∧ |y.y| ≤ R' ∧ |y.z| ≤ R' := by
  refine ⟨3 * R + (|M.t.x| + |M.t.y| + |M.t.z|), fun y hy => ?_⟩
  obtain ⟨x, rfl⟩ := reflect_surj M y
  obtain ⟨k1, k2, k3⟩ := h x hy
  rw [← abs_neg] at k1
  obtain ⟨a1, a2, a3⟩ := abs_le_one_of_unit M.unit_a
  obtain ⟨b1, b2, b3⟩ := abs_le_one_of_unit M.unit_b
  obtain ⟨c1, c2, c3⟩ := abs_le_one_of_unit (Rigid.unit_c M)
  have n1 := abs_nonneg M.t.x
  have n2 := abs_nonneg M.t.y
  have n3 := abs_nonneg M.t.z
  have e1 := reflect_bound (t := M.t.x) a1 b1 c1 k1 k2 k3
  have e2 := reflect_bound (t := M.t.y) a2 b2 c2 k1 k2 k3
  have e3 := reflect_bound (t := M.t.z) a3 b3 c3 k1 k2 k3
  exact ⟨e1.trans (by linarith), e2.trans (by linarith), e3.trans (by linarith)⟩

/-- C140: the mirror image of a body that is thicker than two thousandths has all its faces the wrong way round. -/
theorem C140_brush (M : Rigid) (planes planes' : List (BrushPlane ℝ)) (hthick : Thick planes)
    (h : List.Forall₂ (TurnedFace M.reflect) planes planes') : InsideOut planes' := by
  let back : BrushPlane ℝ → BrushPlane ℝ := fun p => { p with v1 := p.v2, v2 := p.v1 }
  refine ⟨planes'.map back, ⟨?_, ?_⟩, ?_⟩
  · obtain ⟨R, hR⟩ := hthick.bounded
    refine reflect_bounded M fun x hx => hR x fun p hp => ?_
    obtain ⟨p', hp', ht⟩ := forall₂_left h hp
    exact (reflect_within M (p := p) (q := back p') ht.v0 ht.v2 ht.v1 0 x).1 (hx _ (List.mem_map_of_mem hp'))
  · obtain ⟨y, r, hr, hy⟩ := hthick.deep
    refine ⟨M.reflect y, r, hr, fun q hq => ?_⟩
    obtain ⟨p', hp', rfl⟩ := List.mem_map.1 hq
    obtain ⟨p, hp, ht⟩ := forall₂_right h hp'
    exact (reflect_within M (p := p) (q := back p') ht.v0 ht.v2 ht.v1 (-r) y).2 (hy p hp)
  · clear h
    induction planes' with
    | nil => exact .nil
    | cons p l ih => exact .cons ⟨rfl, rfl, rfl⟩ ih

variable [Platform]

/-- C140: a map whose brushes are all thicker than two thousandths, mirrored, gives a scene in which nothing is drawn and
nothing is solid, wherever it is moved and however it is turned. -/
theorem C140_empty (depth : Nat)
    (order : List (Str × List (BrushGeo ℝ)) → List (Str × List (BrushGeo ℝ))) (horder : ∀ l, (order l).Perm l)
    (config : Config ℝ) (nodes : List (Node ℝ)) (h : Quarch.run depth order config = .ok nodes)
    (text : Str) (ht : config.mapFile = some text) (entities entities' : List (Entity ℝ)) (hl : LoadsAs text entities')
    (M : Rigid) (hm : List.Forall₂ (TurnedBy M.reflect) entities entities')
    (hthick : ∀ e ∈ entities, ∀ br ∈ e.brushes, Thick br.planes) (x : V3 ℝ) :
    ¬ Drawn nodes x ∧ ¬ InSolid nodes x ∧ ¬ OnSolid nodes x := by
  have all : ∀ e' ∈ entities', ∀ br ∈ e'.brushes, InsideOut br.planes := by
    intro e' he' br' hbr'
    obtain ⟨e, he, hte⟩ := forall₂_right hm he'
    obtain ⟨br, hbr, htb⟩ := forall₂_right hte.brushes hbr'
    exact C140_brush M _ _ (hthick e he br hbr) htb
  have hp : ∀ e ∈ entities', Anchored entities' e → ∀ br ∈ e.brushes, InsideOut br.planes ∨ ProperBrush br.planes :=
    fun e he _ br hbr => .inl (all e he br hbr)
  refine ⟨fun hx => ?_, fun hx => ?_, fun hx => ?_⟩
  · obtain ⟨e, he, _, br, hbr, hn, _⟩ := (C139_picture depth order horder config nodes h text ht entities' hl hp x).1 hx
    exact hn (all e he br hbr)
  · obtain ⟨e, he, _, br, hbr, hn, _⟩ :=
      ((C139_convex depth order horder config nodes h text ht entities' hl).2 hp x).1 hx
    exact hn (all e he br hbr)
  · obtain ⟨e, he, _, br, hbr, hn, _⟩ := (C139_concave depth order horder config nodes h text ht entities' hl hp x).1 hx
    exact hn (all e he br hbr)

end
end Quarch
