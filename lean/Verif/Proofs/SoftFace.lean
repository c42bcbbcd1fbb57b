import Verif.Proofs.Soft
import Verif.Spec.Box
/-
Evaluating the corners of a face in single precision: the evaluator of `Soft.lean` carried on to the list of vertices.
-/
set_option linter.unusedSectionVars false
namespace Quarch.Spec
open Geo

namespace Soft

/-- The corner of three planes, if any; nothing if unknown. -/
def corner (ps : List Plane) (a b c : Plane) : Option (Option (V3 Soft)) :=
  let ab := cross a.n b.n
  let denom := dot ab c.n
  if lt denom eps = some true then some none
  else if lt denom eps = some false then
    let v := sdiv (vadd (vadd (smul (cross b.n c.n) a.d) (smul (cross c.n a.n) b.d)) (smul ab c.d)) denom
    if (ps.any fun p => outside v p == some true) = true then some none
    else if (ps.all fun p => outside v p == some false) = true then some (some v) else none
  else none

def allSome {α : Type} : List (Option α) → Option (List α)
  | [] => some []
  | none :: _ => none
  | some a :: l => (allSome l).map (a :: ·)

/-- The corners of a face before equal ones are merged. -/
def corners (ps : List Plane) (a : Plane) : Option (List (V3 Soft)) :=
  (allSome (ps.map fun b => (allSome (ps.map fun c => corner ps a b c)).map (·.filterMap id))).map List.flatten

def eq1 (a b : Soft) : Option Bool :=
  match lt a b, lt b a with
  | some p, some q => some (!p && !q)
  | _, _ => none

/-- Equal in all coordinates; nothing if unknown. -/
def same (a b : V3 Soft) : Option Bool :=
  match eq1 a.x b.x, eq1 a.y b.y, eq1 a.z b.z with
  | some p, some q, some r => some (p && q && r)
  | _, _, _ => none

/-- Merging equal corners. -/
def uniq : List (V3 Soft) → Option (List (V3 Soft))
  | [] => some []
  | v :: rest =>
    if (rest.all fun w => same w v == some false) = true then (uniq rest).map (v :: ·)
    else if (rest.any fun w => same w v == some true) = true then uniq rest
    else none

def mean (l : List (V3 Soft)) : V3 Soft :=
  sdiv (l.foldl vadd ⟨fin 0 0, fin 0 0, fin 0 0⟩) (fin (max l.length 1 : Nat) 0)

/-- Moving the centre to the origin and back. -/
def recentred (c : V3 Soft) (l : List (V3 Soft)) : List (V3 Soft) := l.map fun v => vadd (vsub v c) c

end Soft

namespace F32
open Soft
variable [F32Lib]

theorem allSome_eq {α : Type} {l : List (Option α)} {r : List α} (h : allSome l = some r) : l = r.map some := by
  induction l generalizing r with
  | nil => cases h; rfl
  | cons o l ih =>
    cases o with
    | none => cases h
    | some a =>
      obtain ⟨r', h1, rfl⟩ := Option.map_eq_some_iff.1 h
      rw [ih h1, List.map_cons]

theorem inside_inHull {v : V3 Soft} {w : V3 F32} {q : Plane} {p : BrushPlane F32} (hv : DenV v w) (hp : DenP q p)
    (h : outside v q = some false) : (Arith.lt p.dist (Arith.dot p.normal w) &&
      Arith.lt Arith.cmpEpsilon (Arith.sub (Arith.dot p.normal w) p.dist)) = false := by
  unfold outside at h
  have hd := den_dot hp.n hv
  cases h1 : Soft.lt q.d (Soft.dot q.n v) <;> cases h2 : Soft.lt eps (Soft.sub (Soft.dot q.n v) q.d) <;>
    simp only [h1, h2, reduceCtorEq, Option.some.injEq] at h
  have e2 : Arith.lt Arith.cmpEpsilon (Arith.sub (Arith.dot p.normal w) p.dist) = _ := den_lt den_eps (den_sub hd hp.d) h2
  rw [den_lt hp.d hd h1, e2, h]

theorem corner_vertex {qs : List Plane} {planes : List (BrushPlane F32)} (hs : List.Forall₂ DenP qs planes)
    {q0 q1 q2 : Plane} {p0 p1 p2 : BrushPlane F32} (h0 : DenP q0 p0) (h1 : DenP q1 p1) (h2 : DenP q2 p2)
    {o : Option (V3 Soft)} (h : corner qs q0 q1 q2 = some o) {texture : Option Texture} {entity : Entity F32}
    {o' : Option (Vertex F32)} (hv : buildPlaneVertex texture entity planes p0 p1 p2 = .ok o') :
    Option.Rel DenV o (o'.map (·.pos)) := by
  have hn : noCorner qs q0 q1 q2 = true → o = none → Option.Rel DenV o (o'.map (·.pos)) := by
    intro hn ho
    rw [noCorner_none hs h0 h1 h2 hn] at hv
    cases hv
    rw [ho]
    exact .none
  have hc := denV_cross h0.n h1.n
  have hd := den_dot hc h2.n
  unfold noCorner at hn
  unfold corner at h
  simp only at h hn
  by_cases l1 : Soft.lt (Soft.dot (Soft.cross q0.n q1.n) q2.n) eps = some true
  · rw [if_pos l1] at h hn
    cases h
    exact hn rfl rfl
  rw [if_neg l1] at h hn
  by_cases l2 : Soft.lt (Soft.dot (Soft.cross q0.n q1.n) q2.n) eps = some false
  swap
  · rw [if_neg l2] at h; cases h
  rw [if_pos l2] at h hn
  have hw := denV_sdiv (denV_add (denV_add (denV_smul (denV_cross h1.n h2.n) h0.d)
    (denV_smul (denV_cross h2.n h0.n) h1.d)) (denV_smul hc h2.d)) hd
  split_ifs at h with l3 l4
  · cases h
    exact hn l3 rfl
  · cases h
    unfold buildPlaneVertex intersect at hv
    simp only at hv
    rw [den_lt hd den_eps l2] at hv
    simp only [Bool.false_eq_true, if_false] at hv
    rw [if_pos] at hv
    · obtain ⟨tg, -, hv⟩ := Outcome.bind_eq_ok.1 hv
      obtain ⟨uv, -, hv⟩ := Outcome.bind_eq_ok.1 hv
      cases hv
      exact .some hw
    · unfold inHull
      rw [List.all_eq_true]
      intro p hp
      obtain ⟨q, hq, hqp⟩ := forall₂_right hs hp
      have ho := beq_iff_eq.1 (List.all_eq_true.1 l4 q hq)
      simp only
      rw [inside_inHull hw hqp ho]
      rfl

theorem forall₂_filterMap {α β : Type} {R : α → β → Prop} {γ : Type} {f : γ → β} {l : List (Option α)}
    {l' : List (Option γ)} (h : List.Forall₂ (fun a b => Option.Rel R a (b.map f)) l l') :
    List.Forall₂ R (l.filterMap id) ((l'.filterMap id).map f) := by
  induction h with
  | nil => exact .nil
  | @cons a b _ _ hd _ ih =>
    cases a <;> cases b <;> simp only [Option.map_none, Option.map_some] at hd
    · simpa using ih
    · cases hd
    · cases hd
    · cases hd with
      | some hd =>
        exact List.Forall₂.cons hd ih

/-- The corners of a face before equal ones are merged. -/
theorem corners_vertices {qs : List Plane} {planes : List (BrushPlane F32)} (hs : List.Forall₂ DenP qs planes)
    {q : Plane} {p : BrushPlane F32} (hq : DenP q p) {l : List (V3 Soft)} (hl : corners qs q = some l)
    {texture : Option Texture} {entity : Entity F32} {vs : List (Vertex F32)}
    (h : planeVertices texture entity planes p = .ok vs) : List.Forall₂ DenV l (vs.map (·.pos)) := by
  unfold planeVertices at h
  obtain ⟨vss, h1, h2⟩ := Outcome.bind_eq_ok.1 h
  cases h2
  rw [mapOut_eq_ok] at h1
  unfold corners at hl
  obtain ⟨ls, hls, rfl⟩ := Option.map_eq_some_iff.1 hl
  have hls := allSome_eq hls
  have inner : ∀ {qs' planes'} {q1 p1} {os : List (Option (Vertex F32))} {l'}, List.Forall₂ DenP qs' planes' → DenP q1 p1 →
      (qs'.map fun c => corner qs q q1 c) = List.map some l' →
      List.Forall₂ (fun p2 o => buildPlaneVertex texture entity planes p p1 p2 = .ok o) planes' os →
      List.Forall₂ (fun a b => Option.Rel DenV a (b.map (·.pos))) l' os := by
    intro qs' planes' q1 p1 os l' h1 hq1 h2 h3
    induction h1 generalizing os l' with
    | nil => cases h3; cases l' <;> simp at h2; exact .nil
    | @cons q2 p2 _ _ hd _ ih =>
      cases h3 with
      | cons ho ht =>
        cases l' with
        | nil => simp at h2
        | cons a l' =>
          simp only [List.map_cons, List.cons.injEq] at h2
          exact .cons (corner_vertex hs hq hq1 hd h2.1 ho) (ih h2.2 ht)
  have outer : ∀ {qs' planes'} {vss : List (List (Vertex F32))} {ls}, List.Forall₂ DenP qs' planes' →
      (qs'.map fun b => (allSome (qs.map fun c => corner qs q b c)).map (·.filterMap id)) = List.map some ls →
      List.Forall₂ (fun p1 vs => ((mapOut (fun p2 => buildPlaneVertex texture entity planes p p1 p2) planes).bind fun vs =>
          Outcome.ok (vs.filterMap id)) = .ok vs) planes' vss →
      List.Forall₂ DenV ls.flatten (vss.flatten.map (·.pos)) := by
    intro qs' planes' vss ls h1 h2 h3
    induction h1 generalizing vss ls with
    | nil => cases h3; cases ls <;> simp at h2; exact .nil
    | cons hd _ ih =>
      cases h3 with
      | cons ho ht =>
        cases ls with
        | nil => simp at h2
        | cons a ls =>
          simp only [List.map_cons, List.cons.injEq] at h2
          obtain ⟨os, e1, e2⟩ := Outcome.bind_eq_ok.1 ho
          cases e2
          rw [mapOut_eq_ok] at e1
          obtain ⟨l', e3, rfl⟩ := Option.map_eq_some_iff.1 h2.1
          have h4 := inner hs hd (allSome_eq e3) e1
          simp only [List.flatten_cons, List.map_append]
          exact List.rel_append (forall₂_filterMap h4) (ih h2.2 ht)
  exact outer hs hls h1

/-! ### merging -/

theorem eq1_eq {x y : Soft} {a b : F32} {r : Bool} (ha : Den x a) (hb : Den y b) (h : eq1 x y = some r) :
    Arith.eq a b = r ∧ (r = true ↔ F32.val a = F32.val b) ∧ isFin a ∧ isFin b := by
  rcases x with _ | ⟨m, e⟩ <;> rcases y with _ | ⟨m', e'⟩ <;> simp only [eq1, Soft.lt, reduceCtorEq] at h
  have hl : ∀ {u v : F32}, isFin u → isFin v → (Arith.lt u v = true ↔ F32.val u < F32.val v) := by
    intro u v hu hv
    have e1 : Arith.lt u v = rel (· < ·) u v := rfl
    rw [e1, rel_fin _ u v hu hv, EReal.coe_lt_coe_iff]
  have h1 := den_lt ha hb (show Soft.lt (fin m e) (fin m' e') = some _ from rfl)
  have h2 := den_lt hb ha (show Soft.lt (fin m' e') (fin m e) = some _ from rfl)
  obtain ⟨fa, -⟩ := ha
  obtain ⟨fb, -⟩ := hb
  have k : (r = true ↔ F32.val a = F32.val b) := by
    rw [← Option.some.inj h, ← h1, ← h2]
    rw [Bool.and_eq_true, Bool.not_eq_true', Bool.not_eq_true', ← Bool.not_eq_true, ← Bool.not_eq_true, hl fa fb, hl fb fa,
      not_lt, not_lt]
    exact ⟨fun h => le_antisymm h.2 h.1, fun h => ⟨h.ge, h.le⟩⟩
  refine ⟨?_, k, fa, fb⟩
  have e1 : Arith.eq a b = rel (· = ·) a b := rfl
  rw [e1, Bool.eq_iff_iff, rel_fin _ a b fa fb, EReal.coe_eq_coe_iff, k]

theorem same_beq {x y : V3 Soft} {a b : V3 F32} {r : Bool} (ha : DenV x a) (hb : DenV y b) (h : same x y = some r) :
    V3.beq a b = r ∧ (r = true ↔ vec a = vec b) ∧ Finite3 a ∧ Finite3 b := by
  unfold same at h
  cases e1 : eq1 x.x y.x <;> cases e2 : eq1 x.y y.y <;> cases e3 : eq1 x.z y.z <;>
    simp only [e1, e2, e3, reduceCtorEq, Option.some.injEq] at h
  obtain ⟨a1, b1, c1, d1⟩ := eq1_eq ha.x hb.x e1
  obtain ⟨a2, b2, c2, d2⟩ := eq1_eq ha.y hb.y e2
  obtain ⟨a3, b3, c3, d3⟩ := eq1_eq ha.z hb.z e3
  refine ⟨?_, ?_, ⟨c1, c2, c3⟩, ⟨d1, d2, d3⟩⟩
  · unfold V3.beq
    rw [a1, a2, a3, ← h]
  · rw [← h, Bool.and_eq_true, Bool.and_eq_true, b1, b2, b3]
    unfold vec
    simp only [V3.mk.injEq, and_assoc]

theorem uniqueVertex_pos {F : Type} [Arith F] {phong : Bool} {v w : Vertex F} {rest : List (Vertex F)}
    (h : uniqueVertex phong v rest = some w) : w.pos = v.pos := by
  unfold uniqueVertex at h
  split at h
  · split at h
    · cases h
      simp only
      have key : ∀ (l : List (Vertex F)) (u : Vertex F), (l.foldl (fun acc next =>
          if V3.beq next.pos acc.pos then { acc with normal := next.normal } else acc) u).pos = u.pos := by
        intro l
        induction l with
        | nil => exact fun _ => rfl
        | cons n l ih =>
          intro u
          rw [List.foldl_cons, ih]
          split <;> rfl
      exact key rest v
    · cases h; rfl
  · cases h

/-- Merging equal corners. -/
theorem uniq_vertices {l r : List (V3 Soft)} {vs : List (Vertex F32)} (hl : List.Forall₂ DenV l (vs.map (·.pos)))
    (h : uniq l = some r) (phong : Bool) : List.Forall₂ DenV r ((uniqueVertices phong vs).map (·.pos)) := by
  induction vs generalizing l r with
  | nil => cases hl; cases h; exact .nil
  | cons v vs ih =>
    cases hl with
    | @cons a _ l _ ha ht =>
      unfold uniq at h
      unfold uniqueVertices
      rw [List.map_append]
      split_ifs at h with h1 h2
      · obtain ⟨r, e, rfl⟩ := Option.map_eq_some_iff.1 h
        have hn : vs.find? (fun comp => V3.beq comp.pos v.pos) = none := by
          rw [List.find?_eq_none]
          intro w hw
          obtain ⟨b, hb, hd⟩ := forall₂_right ht (List.mem_map_of_mem (f := (·.pos)) hw)
          rw [(same_beq hd ha (beq_iff_eq.1 (List.all_eq_true.1 h1 b hb))).1]
          simp
        obtain ⟨w, hw⟩ : ∃ w, uniqueVertex phong v vs = some w := by
          unfold uniqueVertex
          rw [hn]
          simp only
          split
          · exact ⟨_, rfl⟩
          · exact ⟨_, rfl⟩
        rw [hw]
        refine .cons ?_ (ih ht e)
        have := uniqueVertex_pos hw
        show DenV a w.pos
        rw [this]
        exact ha
      · have hn : uniqueVertex phong v vs = none := by
          obtain ⟨b, hb, hs⟩ := List.any_eq_true.1 h2
          obtain ⟨x, hx, hd⟩ := forall₂_left ht hb
          obtain ⟨w, hw, rfl⟩ := List.mem_map.1 hx
          have hbq := (same_beq hd ha (beq_iff_eq.1 hs)).1
          unfold uniqueVertex
          cases hf : vs.find? (fun comp => V3.beq comp.pos v.pos) with
          | none => exact absurd hbq (List.find?_eq_none.1 hf w hw)
          | some _ => rfl
        rw [hn]
        exact ih ht h

/-! ### the vertices of a face -/

theorem den_ofNat {n : Nat} (h : n < 2 ^ 24) : Den (fin n 0) (Arith.ofNat n : F32) := by
  have := is_ofAbs (s := false) (x := n) h rfl
  exact ⟨this.1, by rw [show (Arith.ofNat n : F32) = ofAbs false n from rfl, this.2]; simp [sv]⟩

theorem denV_mean {l : List (V3 Soft)} {ps : List (V3 F32)} (h : List.Forall₂ DenV l ps) (hn : l.length < 2 ^ 24) :
    DenV (Soft.mean l) (Geo.mean ps) := by
  have hf : ∀ {l ps} {a : V3 Soft} {b : V3 F32}, List.Forall₂ DenV l ps → DenV a b →
      DenV (l.foldl vadd a) (ps.foldl V3.add b) := by
    intro l ps a b h hab
    induction h generalizing a b with
    | nil => exact hab
    | cons hd _ ih => exact ih (denV_add hab hd)
  unfold Soft.mean Geo.mean
  rw [h.length_eq]
  have h0 : Den (fin 0 0) (Arith.zero : F32) := ⟨is_zero.fin, by rw [is_zero.val]; simp⟩
  exact denV_sdiv (hf h ⟨h0, h0, h0⟩) (den_ofNat (by rw [← h.length_eq]; omega))

/-- The positions of the vertices of a face, up to their order. -/
theorem face_positions [Platform] {qs : List Plane} {planes : List (BrushPlane F32)} (hs : List.Forall₂ DenP qs planes)
    {q : Plane} {p : BrushPlane F32} (hq : DenP q p) {l u : List (V3 Soft)} (hl : corners qs q = some l)
    (hu : uniq l = some u) (hn : u.length < 2 ^ 24) {textures : TextureInfo} {entity : Entity F32} {geo : PlaneGeo F32}
    (h : buildPlane textures entity planes p = .ok geo) :
    ∃ w, w.Perm (recentred (Soft.mean u) u) ∧ List.Forall₂ DenV w (geo.vertices.map (·.pos)) := by
  obtain ⟨pvs, lv, h1, h2, h3, h4, -⟩ := buildPlane_ok h
  have k1 := uniq_vertices (corners_vertices hs hq hl h1) hu (isPhong entity)
  have kc : DenV (Soft.mean u) geo.center := by
    rw [h2]
    exact denV_mean k1 hn
  have k2 : List.Forall₂ DenV (recentred (Soft.mean u) u)
      ((uniqueVertices (isPhong entity) pvs).map fun v => V3.add (V3.sub v.pos geo.center) geo.center) := by
    unfold recentred
    rw [List.forall₂_map_left_iff, List.forall₂_map_right_iff]
    rw [List.forall₂_map_right_iff] at k1
    exact k1.imp fun _ _ hd => denV_add (denV_sub hd kc) kc
  have hp : ((uniqueVertices (isPhong entity) pvs).map fun v => V3.add (V3.sub v.pos geo.center) geo.center).Perm
      (geo.vertices.map (·.pos)) := by
    rw [h4, List.map_map, h3]
    refine List.Perm.trans ?_ ((Platform.sortBy_perm _ _).symm.map _)
    rw [List.map_map]
    exact List.Perm.of_eq rfl
  obtain ⟨w, hw1, hw2⟩ := List.perm_comp_forall₂ hp.symm (k2.flip)
  exact ⟨w, hw2, hw1.flip⟩

end F32
end Quarch.Spec
