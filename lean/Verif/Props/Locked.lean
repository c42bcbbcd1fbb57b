import Verif.Spec.Locked
import Verif.Props.RealTangent
import Verif.Props.Scaling
/-
C106: a map moved together with its textures gives the moved scene with all vertex attributes, in exact arithmetic.
-/
set_option linter.unusedSectionVars false
namespace Quarch
open Spec Scene Geo

section
variable [RealText] {S : Similar}

theorem normalize_rot (M : Rigid) (v : V3 ℝ) : Arith.normalize (M.turn v) = M.turn (Arith.normalize v) := by
  have := normalize_turn (S := Rigid.similar M) v
  rw [Rigid.similar_turn] at this
  exact this

theorem beq_rot (M : Rigid) (a b : V3 ℝ) : V3.beq (M.turn a) (M.turn b) = V3.beq a b := by
  rw [Bool.eq_iff_iff, v3_beq, v3_beq]
  exact ⟨Rigid.turn_inj M, fun h => by rw [h]⟩

theorem beq_move (a b : V3 ℝ) : V3.beq (S.move a) (S.move b) = V3.beq a b := by
  rw [Bool.eq_iff_iff, v3_beq, v3_beq]
  exact Similar.move_inj S

/-- The vertex, moved. -/
noncomputable def carryV (S : Similar) (v : Vertex ℝ) : Vertex ℝ :=
  ⟨S.move v.pos, S.toRigid.turn v.normal, (S.toRigid.turn v.tangent.1, v.tangent.2), v.uv, v.color⟩

/-! ### faces -/

theorem vertexNormal_locked {e e' : Entity ℝ} (h1 : e.properties (str! "_phong") = e'.properties (str! "_phong"))
    (h2 : e.properties (str! "_phong_angle") = e'.properties (str! "_phong_angle")) {p q r p' q' r' : BrushPlane ℝ}
    (hp : TurnedFace S.move p p') (hq : TurnedFace S.move q q') (hr : TurnedFace S.move r r') :
    vertexNormal e' p' q' r' = S.toRigid.turn (vertexNormal e p q r) := by
  have add : ∀ a b : V3 ℝ, V3.add (S.toRigid.turn a) (S.toRigid.turn b) = S.toRigid.turn (V3.add a b) :=
    fun a b => Rigid.turn_add S.toRigid a b
  have dot : ∀ a b : V3 ℝ, Arith.dot (S.toRigid.turn a) (S.toRigid.turn b) = Arith.dot a b :=
    fun a b => Rigid.turn_dot S.toRigid a b
  unfold vertexNormal isPhong Entity.getProperty Map.get?
  rw [h1, h2]
  split
  · unfold phongNormal
    rw [normal_turn hp, normal_turn hq, normal_turn hr]
    cases (e'.properties (str! "_phong_angle")).bind (Arith.parse (F := ℝ)) with
    | none => simp only [add, normalize_rot]
    | some a =>
      simp only [dot]
      split <;> split <;> simp only [add, normalize_rot]
  · exact normal_turn hp

variable [Platform]

theorem vertexTangent_locked {p p' : BrushPlane ℝ} (h : LockedFace S p p') {t : V3 ℝ × ℝ} (ht : vertexTangent p = .ok t) :
    vertexTangent p' = .ok (S.toRigid.turn t.1, t.2) := by
  rcases h.layout with ⟨u, v, ou, ov, ou', ov', h1, h2, _⟩ | ⟨ht', hr, hs, ou, ov, ou', ov', h1, h2, _⟩
  · unfold vertexTangent at ht ⊢
    rw [h1] at ht
    rw [h2]
    cases ht
    simp only
    have : Arith.dot (Arith.cross p'.normal (S.toRigid.turn u)) (S.toRigid.turn v) =
        Arith.dot (Arith.cross p.normal u) v := by
      rw [normal_turn h.face]
      show dotR (crossR (S.toRigid.turn p.normal) (S.toRigid.turn u)) (S.toRigid.turn v) = dotR (crossR p.normal u) v
      rw [Rigid.turn_cross, Rigid.turn_dot]
    rw [this]
  · have hsg : Arith.signum (S.scale * p.scale.y) = Arith.signum p.scale.y := by
      rw [ar_signum, ar_signum]
      unfold sgn
      congr 1
      rw [← not_le, ← not_le, mul_nonneg_iff_of_pos_left S.scale_pos]
    have hn : p'.normal = p.normal := by rw [normal_turn h.face, ht']
    rw [ht']
    unfold vertexTangent at ht ⊢
    rw [h1] at ht
    rw [h2]
    simp only at ht ⊢
    unfold standardTangent at ht ⊢
    rw [hn, hr, hs]
    simp only [hsg]
    exact ht

/-- The case distinction of the program on the unit normal is the one of the specification. -/
theorem projected_branch (p : BrushPlane ℝ) :
    (Arith.abs (Arith.dot p.normal rightVector) ≤ Arith.abs (Arith.dot p.normal upVector) ↔
      |(rawNormal p).y| ≤ |(rawNormal p).z|) ∧
    (Arith.abs (Arith.dot p.normal forwardVector) ≤ Arith.abs (Arith.dot p.normal upVector) ↔
      |(rawNormal p).x| ≤ |(rawNormal p).z|) ∧
    (Arith.abs (Arith.dot p.normal forwardVector) ≤ Arith.abs (Arith.dot p.normal rightVector) ↔
      |(rawNormal p).x| ≤ |(rawNormal p).y|) := by
  have hn : p.normal = unitR (rawNormal p) := by rw [← normalize_unitR]; rfl
  have hx : Arith.abs (Arith.dot p.normal forwardVector) = |(rawNormal p).x| / lenR (rawNormal p) := by
    rw [hn]
    simp [dotR, forwardVector, unitR, smulR, abs_mul, abs_of_nonneg (lenR_nonneg _), div_eq_inv_mul]
  have hy : Arith.abs (Arith.dot p.normal rightVector) = |(rawNormal p).y| / lenR (rawNormal p) := by
    rw [hn]
    simp [dotR, rightVector, unitR, smulR, abs_mul, abs_of_nonneg (lenR_nonneg _), div_eq_inv_mul]
  have hz : Arith.abs (Arith.dot p.normal upVector) = |(rawNormal p).z| / lenR (rawNormal p) := by
    rw [hn]
    simp [dotR, upVector, unitR, smulR, abs_mul, abs_of_nonneg (lenR_nonneg _), div_eq_inv_mul]
  rw [hx, hy, hz]
  by_cases h0 : rawNormal p = zeroR
  · rw [h0]; simp [zeroR]
  · have hl := lenR_pos h0
    simp only [div_le_div_iff_of_pos_right hl, and_self]

theorem vertexUV_locked {p p' : BrushPlane ℝ} (h : LockedFace S p p') (x : V3 ℝ) (t : Texture) :
    vertexUV (S.move x) p' t = vertexUV x p t := by
  have fin : ∀ {a b c d a' b' c' d' o1 o2 o1' o2' : ℝ},
      V2.mk (a' / c' + o1') (b' / d' + o2') = V2.mk (a / c + o1) (b / d + o2) →
      V2.mk (a' / t.size.x / c' + o1' / t.size.x) (b' / t.size.y / d' + o2' / t.size.y) =
      V2.mk (a / t.size.x / c + o1 / t.size.x) (b / t.size.y / d + o2 / t.size.y) := by
    intro a b c d a' b' c' d' o1 o2 o1' o2' h
    rw [V2.mk.injEq] at h
    congr 1
    · rw [div_right_comm, ← add_div, h.1, add_div, div_right_comm]
    · rw [div_right_comm, ← add_div, h.2, add_div, div_right_comm]
  rcases h.layout with ⟨u, v, ou, ov, ou', ov', h1, h2, h3⟩ | ⟨ht, hr, _, ou, ov, ou', ov', h1, h2, h3⟩
  · unfold vertexUV
    rw [h1, h2]
    exact congrArg _ (fin (h3 x))
  · have hn : p'.normal = p.normal := by rw [normal_turn h.face, ht]
    obtain ⟨b1, b2, b3⟩ := projected_branch p
    unfold vertexUV
    rw [h1, h2]
    simp only [standardUV]
    rw [hn, hr]
    have lt : ∀ {a b : ℝ}, Arith.le a b = true ↔ a ≤ b := by intro a b; simp
    simp only [Bool.and_eq_true, lt]
    by_cases c1 : Arith.abs (Arith.dot p.normal rightVector) ≤ Arith.abs (Arith.dot p.normal upVector) ∧
        Arith.abs (Arith.dot p.normal forwardVector) ≤ Arith.abs (Arith.dot p.normal upVector)
    · rw [if_pos c1, if_pos c1]
      exact congrArg _ (fin (h3 x _ _ _ _ (.inl ⟨b1.1 c1.1, b2.1 c1.2, rfl, rfl⟩) (.inl ⟨b1.1 c1.1, b2.1 c1.2, rfl, rfl⟩)))
    · rw [if_neg c1, if_neg c1]
      by_cases c2 : Arith.abs (Arith.dot p.normal upVector) ≤ Arith.abs (Arith.dot p.normal rightVector) ∧
          Arith.abs (Arith.dot p.normal forwardVector) ≤ Arith.abs (Arith.dot p.normal rightVector)
      · rw [if_pos c2, if_pos c2]
        have k1 : |(rawNormal p).z| < |(rawNormal p).y| := by
          rw [← not_le, ← b1]
          exact fun hc => c1 ⟨hc, c2.2.trans hc⟩
        exact congrArg _ (fin (h3 x _ _ _ _ (.inr (.inl ⟨k1, b3.1 c2.2, rfl, rfl⟩))
          (.inr (.inl ⟨k1, b3.1 c2.2, rfl, rfl⟩))))
      · rw [if_neg c2, if_neg c2]
        by_cases c3 : Arith.abs (Arith.dot p.normal upVector) ≤ Arith.abs (Arith.dot p.normal forwardVector) ∧
            Arith.abs (Arith.dot p.normal rightVector) ≤ Arith.abs (Arith.dot p.normal forwardVector)
        · rw [if_pos c3, if_pos c3]
          have k1 : |(rawNormal p).z| < |(rawNormal p).x| := by
            rw [← not_le, ← b2]
            exact fun hc => c1 ⟨c3.2.trans hc, hc⟩
          have k2 : |(rawNormal p).y| < |(rawNormal p).x| := by
            rw [← not_le, ← b3]
            exact fun hc => c2 ⟨c3.1.trans hc, hc⟩
          exact congrArg _ (fin (h3 x _ _ _ _ (.inr (.inr ⟨k1, k2, rfl, rfl⟩)) (.inr (.inr ⟨k1, k2, rfl, rfl⟩))))
        · rw [if_neg c3, if_neg c3]

theorem buildPlaneVertex_locked {texture : Option Texture} {e e' : Entity ℝ}
    (h1 : e.properties (str! "_phong") = e'.properties (str! "_phong"))
    (h2 : e.properties (str! "_phong_angle") = e'.properties (str! "_phong_angle"))
    {planes planes' : List (BrushPlane ℝ)} (hk : HullKept S planes planes') {p q r p' q' r' : BrushPlane ℝ}
    (mp : p ∈ planes) (mq : q ∈ planes) (mr : r ∈ planes)
    (hp : LockedFace S p p') (hq : TurnedFace S.move q q') (hr : TurnedFace S.move r r') {o o' : Option (Vertex ℝ)}
    (h : buildPlaneVertex texture e planes p q r = .ok o) (h' : buildPlaneVertex texture e' planes' p' q' r' = .ok o') :
    o' = o.map (carryV S) := by
  unfold buildPlaneVertex at h h'
  rw [intersect_turn hp.face hq hr] at h'
  cases hx : intersect p q r with
  | none => rw [hx] at h h'; cases h; cases h'; rfl
  | some x =>
    rw [hx] at h h'
    simp only [Option.map_some, hk p mp q mq r mr x hx] at h h'
    split at h
    · rw [if_pos ‹_›] at h'
      obtain ⟨t, t1, h⟩ := Outcome.bind_eq_ok.1 h
      rw [vertexTangent_locked hp t1, Outcome.ok_bind] at h'
      have hcol : planeColor p' = planeColor p := by unfold planeColor; rw [hp.extra]
      rw [vertexNormal_locked h1 h2 hp.face hq hr, hcol] at h'
      cases texture with
      | none => cases h; cases h'; rfl
      | some tx =>
        simp only [vertexUV_locked hp] at h h'
        cases hu : vertexUV x p tx with
        | ok uv => rw [hu] at h h'; cases h; cases h'; rfl
        | err _ => rw [hu] at h; cases h
        | panic _ => rw [hu] at h; cases h
        | overflow => rw [hu] at h; cases h
    · rw [if_neg ‹_›] at h'
      cases h; cases h'; rfl

theorem map_of_forall₂ {α β : Type} {f : α → β} {l : List α} {l' : List β} (h : List.Forall₂ (fun a b => b = f a) l l') :
    l' = l.map f := by
  induction h with
  | nil => rfl
  | cons hx _ ih => rw [List.map_cons, ← ih, hx]

variable [NaturalSort]

theorem planeVertices_locked {texture : Option Texture} {e e' : Entity ℝ}
    (h1 : e.properties (str! "_phong") = e'.properties (str! "_phong"))
    (h2 : e.properties (str! "_phong_angle") = e'.properties (str! "_phong_angle"))
    {planes planes' : List (BrushPlane ℝ)} (hl : List.Forall₂ (TurnedFace S.move) planes planes')
    (hk : HullKept S planes planes') {p p' : BrushPlane ℝ} (mp : p ∈ planes) (hp : LockedFace S p p')
    {vs vs' : List (Vertex ℝ)} (h : planeVertices texture e planes p = .ok vs)
    (h' : planeVertices texture e' planes' p' = .ok vs') : vs' = vs.map (carryV S) := by
  unfold planeVertices at h h'
  obtain ⟨a, ha, h⟩ := Outcome.bind_eq_ok.1 h
  obtain ⟨a', ha', h'⟩ := Outcome.bind_eq_ok.1 h'
  cases h; cases h'
  have := mapOut_rel (Q := fun a a' => a' = List.map (carryV S) a) (fun q q' hq c c' hc hc' => by
    obtain ⟨b, hb, hc⟩ := Outcome.bind_eq_ok.1 hc
    obtain ⟨b', hb', hc'⟩ := Outcome.bind_eq_ok.1 hc'
    cases hc; cases hc'
    have hr := mapOut_rel (Q := fun a a' => a' = Option.map (carryV S) a) (fun r r' hr c c' hc hc' =>
      buildPlaneVertex_locked h1 h2 hk mp hq.1 hr.1 hp hq.2 hr.2 hc hc') (forall₂_mem hl) hb hb'
    rw [map_of_forall₂ hr, List.filterMap_map, List.map_filterMap]
    rfl) (forall₂_mem hl) ha ha'
  rw [map_of_forall₂ this, List.map_flatten]

theorem uniqueVertex_carry (phong : Bool) (v : Vertex ℝ) (rest : List (Vertex ℝ)) :
    uniqueVertex phong (carryV S v) (rest.map (carryV S)) = (uniqueVertex phong v rest).map (carryV S) := by
  unfold uniqueVertex
  have hf : (rest.map (carryV S)).find? (fun comp => V3.beq comp.pos (carryV S v).pos) =
      (rest.find? fun comp => V3.beq comp.pos v.pos).map (carryV S) := by
    rw [List.find?_map]
    congr 2
    funext a
    exact beq_move _ _
  have hfold : ∀ (l : List (Vertex ℝ)) (a : Vertex ℝ), (l.map (carryV S)).foldl (fun acc next =>
      if V3.beq next.pos acc.pos then { acc with normal := next.normal } else acc) (carryV S a) =
      carryV S (l.foldl (fun acc next => if V3.beq next.pos acc.pos then { acc with normal := next.normal } else acc) a) := by
    intro l
    induction l with
    | nil => intro a; rfl
    | cons x l ih =>
      intro a
      rw [List.map_cons, List.foldl_cons, List.foldl_cons, ← ih]
      congr 1
      have : V3.beq (carryV S x).pos (carryV S a).pos = V3.beq x.pos a.pos := beq_move _ _
      rw [this]
      split <;> rfl
  rw [hf]
  cases rest.find? (fun comp => V3.beq comp.pos v.pos) with
  | some _ => rfl
  | none =>
    simp only [Option.map_none]
    cases phong with
    | false => rfl
    | true =>
      simp only [if_true, Option.map_some, Option.some.injEq, hfold]
      unfold carryV
      simp only [normalize_rot]

theorem uniqueVertices_carry (phong : Bool) (l : List (Vertex ℝ)) :
    uniqueVertices phong (l.map (carryV S)) = (uniqueVertices phong l).map (carryV S) := by
  induction l with
  | nil => rfl
  | cons v l ih =>
    rw [List.map_cons]
    unfold uniqueVertices
    rw [uniqueVertex_carry, ih, List.map_append]
    cases uniqueVertex phong v l <;> rfl

theorem wind_carry {p p' : BrushPlane ℝ} (h : TurnedFace S.move p p') (c : V3 ℝ) (l : List (Vertex ℝ)) :
    windVertices p' (S.move c) (l.map (carryV S)) = (windVertices p c l).map (carryV S) := by
  apply map_of_forall₂
  unfold windVertices
  refine map_rel (R := fun v v' : Vertex ℝ => v' = { carryV S v with pos := S.turn v.pos }) ?_ ?_
  · rintro a _ rfl
    unfold carryV
    have : V3.add (S.turn a.pos) (S.move c) = S.move (V3.add a.pos c) := (turnedPos_rel S).add rfl rfl
    simp only [this]
  · refine sort_rel ?_ (map_rel (R := fun v v' : Vertex ℝ => v' = carryV S v) ?_ ?_)
    · rintro a _ b _ rfl rfl
      unfold windCmp
      rw [angle_turn h, angle_turn h]
    · rintro a _ rfl
      unfold carryV
      have : V3.sub (S.move a.pos) (S.move c) = S.turn (V3.sub a.pos c) := Similar.move_sub S _ _
      simp only [this]
    · rw [List.forall₂_map_right_iff, List.forall₂_same]
      exact fun _ _ => rfl

/-- The faces have the same texture and moved vertices. -/
def CarriedFace (S : Similar) (g g' : PlaneGeo ℝ) : Prop :=
  SameTexture g g' ∧ g'.vertices = g.vertices.map (carryV S)

theorem buildPlane_locked {textures : TextureInfo} {e e' : Entity ℝ}
    (h1 : e.properties (str! "_phong") = e'.properties (str! "_phong"))
    (h2 : e.properties (str! "_phong_angle") = e'.properties (str! "_phong_angle"))
    {planes planes' : List (BrushPlane ℝ)} (hl : List.Forall₂ (TurnedFace S.move) planes planes')
    (hk : HullKept S planes planes') {p p' : BrushPlane ℝ} (mp : p ∈ planes) (hp : LockedFace S p p')
    (hne : ∃ x, Found planes p x) {g g' : PlaneGeo ℝ} (h : buildPlane textures e planes p = .ok g)
    (h' : buildPlane textures e' planes' p' = .ok g') :
    LikeFace (TurnedPos S) g g' ∧ CarriedFace S g g' := by
  obtain ⟨k1, k2⟩ := buildPlane_turned hl hk mp hp.face hne h h'
  refine ⟨k1, k2, ?_⟩
  have hc : g'.center = S.move g.center := k1.center
  unfold buildPlane at h h'
  obtain ⟨a, ha, h⟩ := Outcome.bind_eq_ok.1 h
  obtain ⟨a', ha', h'⟩ := Outcome.bind_eq_ok.1 h'
  rw [hp.face.texture] at ha'
  cases h; cases h'
  simp only at hc ⊢
  have hph : isPhong e' = isPhong e := by
    unfold isPhong Entity.getProperty Map.get?
    rw [h1]
  rw [hc]
  rw [planeVertices_locked h1 h2 hl hk mp hp ha ha', hph, uniqueVertices_carry, wind_carry hp.face]

/-! ### surfaces -/

theorem sameVertex_carry (a b : Vertex ℝ) : sameVertex (carryV S a) (carryV S b) = sameVertex a b := by
  unfold sameVertex tanBeq carryV
  simp only [beq_move, beq_rot]

theorem samePos_carry (a b : Vertex ℝ) : samePos (carryV S a) (carryV S b) = samePos a b := beq_move _ _

theorem vertexUnique_carry (i : Nat) (v : Vertex ℝ) (vs : List (Vertex ℝ)) :
    vertexUnique i (carryV S v) (vs.map (carryV S)) = vertexUnique i v vs := by
  unfold vertexUnique
  rw [List.findIdx?_map]
  congr 2
  funext a
  exact sameVertex_carry _ _

theorem filterStep_carry (vs : List (Vertex ℝ)) (s : FilterState ℝ) (v : Vertex ℝ) (i : Nat) :
    filterStep (vs.map (carryV S)) vertexUnique ⟨s.indices, s.newIndices, s.newVertices.map (carryV S)⟩ (carryV S v, i) =
      (filterStep vs vertexUnique s (v, i)).bind fun s =>
        .ok ⟨s.indices, s.newIndices, s.newVertices.map (carryV S)⟩ := by
  unfold filterStep
  simp only [vertexUnique_carry]
  split
  · simp only [Outcome.ok_bind, List.map_append, List.map_cons, List.map_nil]
  · have : (vs.map (carryV S)).findIdx? (fun comp => samePos comp (carryV S v)) =
        vs.findIdx? fun comp => samePos comp v := by
      rw [List.findIdx?_map]
      congr 1
      funext a
      exact samePos_carry _ _
    rw [this]
    cases vs.findIdx? (fun comp => samePos comp v) <;> rfl

theorem filterVertices_carry (vs : List (Vertex ℝ)) (is : List Nat) :
    filterVertices (vs.map (carryV S)) is vertexUnique =
      (filterVertices vs is vertexUnique).bind fun r => .ok (r.1.map (carryV S), r.2) := by
  unfold filterVertices
  have key : ∀ (l : List (Vertex ℝ × Nat)) (s : FilterState ℝ),
      foldOut (filterStep (vs.map (carryV S)) vertexUnique) ⟨s.indices, s.newIndices, s.newVertices.map (carryV S)⟩
        (l.map fun x => (carryV S x.1, x.2)) =
      (foldOut (filterStep vs vertexUnique) s l).bind fun s => .ok ⟨s.indices, s.newIndices, s.newVertices.map (carryV S)⟩ := by
    intro l
    induction l with
    | nil => intro s; rfl
    | cons x l ih =>
      intro s
      rw [List.map_cons, foldOut_cons, foldOut_cons, filterStep_carry]
      cases filterStep vs vertexUnique s x with
      | ok s' => rw [Outcome.ok_bind, Outcome.ok_bind, Outcome.ok_bind]; exact ih s'
      | err _ => rfl
      | panic _ => rfl
      | overflow => rfl
  have hz : (vs.map (carryV S)).zipIdx = vs.zipIdx.map fun x => (carryV S x.1, x.2) := by
    rw [List.zipIdx_map]
    rfl
  rw [hz]
  have := key vs.zipIdx ⟨is, [], []⟩
  rw [List.map_nil] at this
  rw [this]
  cases foldOut (filterStep vs vertexUnique) ⟨is, [], []⟩ vs.zipIdx <;> rfl

theorem gatherBrush_carry {b b' : BrushGeo ℝ} (h : LikeBrush (TurnedPos S) (CarriedFace S) b b') (texture : Option Str)
    {r r' : List (Vertex ℝ) × List Nat} (hr : gatherBrush b (some (hasTexture texture)) (some vertexUnique) = .ok r)
    (hr' : gatherBrush b' (some (hasTexture texture)) (some vertexUnique) = .ok r') : r' = (r.1.map (carryV S), r.2) := by
  have hp := filter_rel (p := hasTexture texture) (p' := hasTexture texture)
    (fun p p' hp => by unfold hasTexture; rw [hp.2.1]) h.planes
  unfold gatherBrush at hr hr'
  simp only [Option.getD_some] at hr hr'
  have hv : (b'.planes.filter (hasTexture texture)).flatMap (·.vertices) =
      ((b.planes.filter (hasTexture texture)).flatMap (·.vertices)).map (carryV S) :=
    flatMap_map_rel (R := fun p p' => LikeFace (TurnedPos S) p p' ∧ CarriedFace S p p') (fun p p' hp => hp.2.2) hp
  have hi : (b'.planes.filter (hasTexture texture)).map (fun p => (p.vertices.length, p.indices)) =
      (b.planes.filter (hasTexture texture)).map fun p => (p.vertices.length, p.indices) := by
    generalize b.planes.filter (hasTexture texture) = x at hp
    generalize b'.planes.filter (hasTexture texture) = y at hp
    clear hv hr hr'
    induction hp with
    | nil => rfl
    | cons hx _ ih => rw [List.map_cons, List.map_cons, ih, hx.2.2, List.length_map, hx.1.indices]
  rw [hv, hi, filterVertices_carry, hr] at hr'
  cases hr'
  rfl

theorem surface_carried : SurfacesFollow S (CarriedFace S) (CarriedSurface S) := by
  intro g g' hg hg' h bl texture o o' ho ho'
  have hb := filter_rel (p := brushNotBlacklisted bl) (p' := brushNotBlacklisted bl) (fun b b' hb => by
    unfold brushNotBlacklisted
    exact any_rel (R := fun p p' => LikeFace (TurnedPos S) p p' ∧ CarriedFace S p p') (fun p p' hp => by rw [hp.2.1]) hb.planes) h
  unfold textureSurface gatherEntity at ho ho'
  obtain ⟨x, hx, ho⟩ := Outcome.bind_eq_ok.1 ho
  obtain ⟨x', hx', ho'⟩ := Outcome.bind_eq_ok.1 ho'
  obtain ⟨parts, hp, hx⟩ := Outcome.bind_eq_ok.1 hx
  obtain ⟨parts', hp', hx'⟩ := Outcome.bind_eq_ok.1 hx'
  simp only [Option.getD_some] at hp hp'
  have hr := map_of_forall₂ (f := fun r : List (Vertex ℝ) × List Nat => (r.1.map (carryV S), r.2))
    (mapOut_rel (R := LikeBrush (TurnedPos S) (CarriedFace S)) (Q := fun r r' => r' = (r.1.map (carryV S), r.2))
      (fun b b' hbb r r' hr hr' => gatherBrush_carry hbb texture hr hr') hb hp hp')
  have hv : parts'.flatMap (·.1) = (parts.flatMap (·.1)).map (carryV S) := by
    rw [hr, List.flatMap_map, List.map_flatMap]
  have hi : parts'.map (fun p => (p.1.length, p.2)) = parts.map fun p => (p.1.length, p.2) := by
    rw [hr, List.map_map]
    congr 1
    funext a
    simp
  cases hx; cases hx'
  simp only [hv, hi, List.isEmpty_map] at ho ho'
  split at ho
  · rw [if_pos ‹_›] at ho'
    cases ho; cases ho'
    exact .inl ⟨rfl, rfl⟩
  · rw [if_neg ‹_›] at ho'
    cases ho; cases ho'
    refine .inr ⟨_, _, rfl, rfl, ?_⟩
    unfold CarriedSurface
    simp only [List.map_map]
    rfl

/-- C106: a map whose entities are all scaled, turned and moved by `S` together with their textures loads if the original
map does, and gives the same scene with everything scaled, turned and moved: every surface has the same indices, texture
coordinates and colours, its positions are moved and its normals and tangents are turned. If the scale is not 1, no corner
of the brushes of either map may need the tolerance of the program. -/
theorem C106_locked (depth : Nat) (order order' : List (Str × List (BrushGeo ℝ)) → List (Str × List (BrushGeo ℝ)))
    (horder : ∀ l, (order l).Perm l) (horder' : ∀ l, (order' l).Perm l) (config : Config ℝ) (map map' : Str)
    (hfile : config.mapFile = some map) (entities entities' : List (Entity ℝ)) (hl : LoadsAs map entities)
    (hl' : LoadsAs map' entities') (S : Similar) (hm : List.Forall₂ (LockedBy S) entities entities')
    (hp : ∀ e ∈ entities, Settled e)
    (hc : S.scale = 1 ∨ ((∀ e ∈ entities, ∀ b ∈ e.brushes, Crisp b.planes) ∧
      ∀ e ∈ entities', ∀ b ∈ e.brushes, Crisp b.planes))
    (nodes : List (Node ℝ)) (h : Quarch.run depth order config = .ok nodes) :
    ∃ w ls es w' ls' ls'' es', nodes = w :: (ls ++ es) ∧
      Quarch.run depth order' { config with mapFile := some map' } = .ok (w' :: (ls' ++ es')) ∧
      es.length = entities.countP (fun e => TopLevel e) ∧
      Turned (CarriedSurface S) S.move S.turn S.move S.move w w' ∧ ls''.Perm ls' ∧
      List.Forall₂ (Turned (CarriedSurface S) S.move S.turn id id) ls ls'' ∧
      List.Forall₂ (Turned (CarriedSurface S) S.move S.turn S.move S.move) es es' := by
  refine scene_turned (fun h => h.1) surface_carried depth order order' horder horder' config map map' hfile entities
    entities' hl hl' ?_ nodes h
  have both : ∀ {α β : Type} {R : α → β → Prop} {l : List α} {l' : List β}, List.Forall₂ R l l' →
      List.Forall₂ (fun a b => a ∈ l ∧ b ∈ l' ∧ R a b) l l' := by
    intro α β R l l' h
    induction h with
    | nil => exact .nil
    | cons hab _ ih => exact .cons ⟨by simp, by simp, hab⟩ (ih.imp fun _ _ h => ⟨by simp [h.1], by simp [h.2.1], h.2.2⟩)
  refine (both hm).imp ?_
  rintro e e' ⟨he, he', hee⟩
  refine ⟨hee.moved, fun g g' => geo_faces hee.moved (hp e he) ((both hee.locked).imp ?_)⟩
  rintro b b' ⟨hb, hb', hbb⟩
  have hpl : List.Forall₂ (TurnedFace S.move) b.planes b'.planes := hbb.imp fun _ _ h => h.face
  have hk : HullKept S b.planes b'.planes := by
    rcases hc with hc | ⟨hc, hc'⟩
    · exact fun p _ q _ r _ x _ => inHull_turn hc hpl x
    · exact inHull_crisp hpl (hc e he b hb) (hc' e' he' b' hb')
  refine (both hbb).imp ?_
  rintro p p' ⟨mp, _, hpp⟩ g g' hg hg'
  exact buildPlane_locked (hee.moved.properties _ (by decide)) (hee.moved.properties _ (by decide)) hpl hk mp hpp
    ((hp e he).corners b hb p mp) hg hg'

/-- C106: every face with texture axes of its own and scales other than zero can be moved with its texture. -/
theorem spec_C106_axes (S : Similar) (p : BrushPlane ℝ) (u v : V3 ℝ) (ou ov : ℝ) (hu : p.uv = .valve u ou v ov)
    (hx : p.scale.x ≠ 0) (hy : p.scale.y ≠ 0) : ∃ p', LockedFace S p p' := by
  have hk := S.scale_pos.ne'
  refine ⟨⟨S.move p.v0, S.move p.v1, S.move p.v2, p.texture,
    .valve (S.toRigid.turn u) (ou - dotR (S.toRigid.turn u) S.t / (S.scale * p.scale.x)) (S.toRigid.turn v)
      (ov - dotR (S.toRigid.turn v) S.t / (S.scale * p.scale.y)), p.rotation,
    ⟨S.scale * p.scale.x, S.scale * p.scale.y⟩, p.extra⟩, ⟨rfl, rfl, rfl, rfl⟩,
    .inl ⟨u, v, ou, ov, _, _, hu, rfl, fun x => ?_⟩, rfl⟩
  have key : ∀ w : V3 ℝ, dotR (S.toRigid.turn w) (S.move x) = S.scale * dotR w x + dotR (S.toRigid.turn w) S.t := by
    intro w
    rw [← Rigid.turn_dot S.toRigid w x]
    simp only [Similar.move, Similar.turn, dotR, addR, smulR]
    ring
  simp only [onTexture, key, V2.mk.injEq]
  constructor <;> field_simp <;> ring

/-- C106: every face without texture axes of its own and with scales other than zero can be scaled and moved with its
texture. -/
theorem spec_C106_plain (S : Similar) (hS : ∀ v, S.toRigid.turn v = v) (p : BrushPlane ℝ) (ou ov : ℝ) (hu : p.uv = .quake ou ov)
    (hx : p.scale.x ≠ 0) (hy : p.scale.y ≠ 0) : ∃ p', LockedFace S p p' := by
  have hk := S.scale_pos.ne'
  obtain ⟨a0, b0, h0⟩ : ∃ a b, ∀ x a1 b1 a2 b2, Projected (rawNormal p) x a1 b1 → Projected (rawNormal p) (S.move x) a2 b2 →
      a2 = S.scale * a1 + a ∧ b2 = S.scale * b1 + b := by
    by_cases c1 : |(rawNormal p).y| ≤ |(rawNormal p).z| ∧ |(rawNormal p).x| ≤ |(rawNormal p).z|
    · refine ⟨S.t.x, -S.t.y, ?_⟩
      rintro x a1 b1 a2 b2 (⟨_, _, rfl, rfl⟩ | ⟨h, _⟩ | ⟨h, _⟩) (⟨_, _, rfl, rfl⟩ | ⟨h', _⟩ | ⟨h', _⟩) <;>
        first
        | (exfalso; linarith [c1.1, c1.2])
        | (constructor <;> simp only [Similar.move, Similar.turn, hS, addR, smulR] <;> ring)
    · by_cases c2 : |(rawNormal p).z| < |(rawNormal p).y| ∧ |(rawNormal p).x| ≤ |(rawNormal p).y|
      · refine ⟨S.t.x, -S.t.z, ?_⟩
        rintro x a1 b1 a2 b2 (⟨h, h1, _⟩ | ⟨_, _, rfl, rfl⟩ | ⟨h, h1, _⟩) (⟨h', h1', _⟩ | ⟨_, _, rfl, rfl⟩ | ⟨h', h1', _⟩) <;>
          first
          | (exfalso; linarith [c2.1, c2.2])
          | (constructor <;> simp only [Similar.move, Similar.turn, hS, addR, smulR] <;> ring)
      · refine ⟨S.t.y, -S.t.z, ?_⟩
        rintro x a1 b1 a2 b2 (⟨h, h1, _⟩ | ⟨h, h1, _⟩ | ⟨_, _, rfl, rfl⟩) (⟨h', h1', _⟩ | ⟨h', h1', _⟩ | ⟨_, _, rfl, rfl⟩) <;>
          first
          | exact (c1 ⟨h, h1⟩).elim
          | exact (c2 ⟨h, h1⟩).elim
          | exact (c1 ⟨h', h1'⟩).elim
          | exact (c2 ⟨h', h1'⟩).elim
          | (constructor <;> simp only [Similar.move, Similar.turn, hS, addR, smulR] <;> ring)
  refine ⟨⟨S.move p.v0, S.move p.v1, S.move p.v2, p.texture,
    .quake (ou - (Real.cos (p.rotation * Real.pi / 180) * a0 - Real.sin (p.rotation * Real.pi / 180) * b0) /
        (S.scale * p.scale.x))
      (ov - (Real.sin (p.rotation * Real.pi / 180) * a0 + Real.cos (p.rotation * Real.pi / 180) * b0) /
        (S.scale * p.scale.y)), p.rotation,
    ⟨S.scale * p.scale.x, S.scale * p.scale.y⟩, p.extra⟩, ⟨rfl, rfl, rfl, rfl⟩,
    .inr ⟨hS, rfl, rfl, ou, ov, _, _, hu, rfl, fun x a b a' b' h h' => ?_⟩, rfl⟩
  obtain ⟨rfl, rfl⟩ := h0 x a b a' b' h h'
  simp only [onTurnedTexture, V2.mk.injEq]
  constructor <;> field_simp <;> ring

end
end Quarch
