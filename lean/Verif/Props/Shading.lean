import Verif.Spec.Shading
import Verif.Props.Texturing
/-
C102: texture coordinates, texture sizes and shading do not change which triangles are drawn.
-/
set_option linter.unusedSectionVars false
namespace Quarch
open Spec Scene Geo

section
variable {F : Type} [Arith F]

theorem Spec.AlikeFace.points {p p' : BrushPlane F} (h : AlikeFace p p') : SamePoints p p' :=
  ⟨h.v0, h.v1, h.v2, fun t _ => by rw [h.texture]⟩

theorem Spec.AlikeFaces.solid {fgd : Forge.GameData F} {e e' : Entity F} (h : AlikeFaces fgd e e') : SameSolid fgd e e' :=
  ⟨h.properties, h.brushes.imp fun _ _ hb => hb.imp fun _ _ hp => hp.points⟩

theorem with_mem {α β : Type} {R : α → β → Prop} {l : List α} {l' : List β} (h : List.Forall₂ R l l') :
    List.Forall₂ (fun a b => a ∈ l ∧ R a b) l l' := by
  induction h with
  | nil => exact .nil
  | cons hx _ ih => exact .cons ⟨by simp, hx⟩ (ih.imp fun _ _ h => ⟨by simp [h.1], h.2⟩)

section
variable [Platform] [NaturalSort]

theorem buildPlane_shade {textures textures' : TextureInfo} {e e' : Entity F} {planes planes' : List (BrushPlane F)}
    (hs : List.Forall₂ AlikeFace planes planes') {p p' : BrushPlane F} (hp : AlikeFace p p')
    (hl : (textures p.texture).isSome ↔ (textures' p.texture).isSome) {g g' : PlaneGeo F}
    (h : buildPlane textures e planes p = .ok g) (h' : buildPlane textures' e' planes' p' = .ok g') :
    LikeFace Eq g g' ∧ SameTexture g g' := by
  unfold buildPlane at h h'
  obtain ⟨pvs, h1, h⟩ := Outcome.bind_eq_ok.1 h
  obtain ⟨pvs', h1', h'⟩ := Outcome.bind_eq_ok.1 h'
  cases h; cases h'
  have hv : List.Forall₂ (At Eq) pvs pvs' := at_eq (by
    rw [vertices_pos h1, vertices_pos h1', samePoints_vertices (hs.imp fun _ _ h => h.points) hp.points])
  have hu := uniqueVertices_rel .eq (phong := isPhong e) (phong' := isPhong e') hv
  have hc : mean ((uniqueVertices (isPhong e) pvs).map (·.pos)) = mean ((uniqueVertices (isPhong e') pvs').map (·.pos)) := by
    rw [map_at hu]
  have hw := wind_rel .eq (p := p) (p' := p') (angle_eq (by unfold uAxis; rw [hp.v0, hp.v1]) hp.points.normal) hc hu
  refine ⟨⟨hc, hw, ?_⟩, ?_⟩
  · simp only [hw.length_eq]
  · unfold SameTexture
    simp only [Map.get?, ← hp.texture]
    cases h1 : textures p.texture <;> cases h2 : textures' p.texture <;> simp [h1, h2] at hl ⊢

theorem geo_shade {textures textures' : TextureInfo} {fgd : Forge.GameData F} {e e' : Entity F}
    (hs : AlikeFaces fgd e e')
    (hl : ∀ b ∈ e.brushes, ∀ p ∈ b.planes, ((textures p.texture).isSome ↔ (textures' p.texture).isSome))
    {g g' : EntityGeo F} (h : Geo.buildEntity textures e = .ok g) (h' : Geo.buildEntity textures' e' = .ok g') :
    LikeEntity Eq SameTexture g g' := by
  unfold Geo.buildEntity at h h'
  obtain ⟨bgs, h1, h⟩ := Outcome.bind_eq_ok.1 h
  obtain ⟨bgs', h1', h'⟩ := Outcome.bind_eq_ok.1 h'
  cases h; cases h'
  have hb : List.Forall₂ (LikeBrush Eq SameTexture) bgs bgs' := by
    refine mapOut_rel (R := fun b b' : Brush F => b ∈ e.brushes ∧ List.Forall₂ AlikeFace b.planes b'.planes)
      (f := fun b => buildBrush textures e b) (f' := fun b => buildBrush textures' e' b) ?_ (with_mem hs.brushes) h1 h1'
    rintro b b' ⟨hbm, hb⟩ c c' hc hc'
    unfold buildBrush at hc hc'
    obtain ⟨pgs, h2, hc⟩ := Outcome.bind_eq_ok.1 hc
    obtain ⟨pgs', h2', hc'⟩ := Outcome.bind_eq_ok.1 hc'
    cases hc; cases hc'
    have hp := mapOut_rel (R := fun p p' => p ∈ b.planes ∧ AlikeFace p p') (f := fun p => buildPlane textures e b.planes p)
      (f' := fun p => buildPlane textures' e' b'.planes p) (Q := fun p p' => LikeFace Eq p p' ∧ SameTexture p p')
      (fun p p' hp g g' hg hg' => buildPlane_shade hb hp.2 (hl b hbm p hp.1) hg hg') (with_mem hb) h2 h2'
    refine ⟨?_, hp⟩
    have : pgs.map (·.center) = pgs'.map (·.center) := map_eq_of_rel (fun _ _ h => h.1.center) hp
    simp only [this]
  have ho : e.properties (str! "origin") = e'.properties (str! "origin") :=
    hs.properties _ (.inl (by unfold placeKeys; simp))
  have hc : bgs.map (·.center) = bgs'.map (·.center) := map_eq_of_rel (fun _ _ h => h.center) hb
  refine ⟨?_, hb⟩
  simp only [Map.get?, ho, hc]

end

/-! ### surfaces -/

theorem samePlace_trans [LawfulEq F] {a b c : V3 F} (h : SamePlace a b) (h' : SamePlace b c) : SamePlace a c := by
  rcases h with rfl | h
  · exact h'
  · rcases h' with rfl | h'
    · exact .inr h
    · exact .inr (eqV3_iff.2 (V3.beq_trans (eqV3_iff.1 h) (eqV3_iff.1 h')))

theorem samePlace_symm [LawfulEq F] {a b : V3 F} (h : SamePlace a b) : SamePlace b a := by
  rcases h with rfl | h
  · exact .inl rfl
  · exact .inr (eqV3_iff.2 (V3.beq_symm (eqV3_iff.1 h)))

theorem surface_places [LawfulEq F] {g : EntityGeo F} {bl : TextureBlacklist} {texture : Option Str}
    (hg : Fanned g.brushes) {s : MeshSurface F} (h : textureSurface g bl texture = .ok (some s)) : s.texture = texture ∧
    ∃ cs, Corners s.vertices s.indices cs ∧ List.Forall₂ SamePlace cs
      (((shownFaces bl texture g.brushes).flatten.flatMap faceCorners).map (·.pos)) := by
  obtain ⟨parts, h2, ⟨_, h3⟩ | ⟨_, s', h3, ht, ha, hc⟩⟩ := textureSurface_ok bl texture hg
  · rw [h] at h3; cases h3
  · rw [h] at h3; cases h3
    refine ⟨ht, (parts.flatMap (·.2)).map (·.pos), ?_, ?_⟩
    · rw [ha.pos]; exact hc.map _
    · rw [List.forall₂_map_left_iff, List.forall₂_map_right_iff, forall₂_comm]
      exact (parts_corners h2 (R := fun v w => SamePlace w.pos v.pos) fun _ _ _ _ _ hm => mergedTo_place hm)

theorem places_trans [LawfulEq F] {a b c : List (V3 F)} (h : List.Forall₂ SamePlace a b) (h' : List.Forall₂ SamePlace c b) :
    List.Forall₂ SamePlace a c := by
  induction h generalizing c with
  | nil => cases h'; exact .nil
  | cons hx _ ih =>
    cases h' with
    | cons hy h' => exact .cons (samePlace_trans hx (samePlace_symm hy)) (ih h')

theorem textureSurface_shade [LawfulEq F] {g g' : EntityGeo F} (hg : Fanned g.brushes) (hg' : Fanned g'.brushes)
    (h : List.Forall₂ (LikeBrush Eq SameTexture) g.brushes g'.brushes) (bl : TextureBlacklist)
    (texture : Option Str) {o o' : Option (MeshSurface F)} (ho : textureSurface g bl texture = .ok o)
    (ho' : textureSurface g' bl texture = .ok o') :
    (o = none ∧ o' = none) ∨ ∃ s s', o = some s ∧ o' = some s' ∧ s'.texture = s.texture ∧
      ∃ cs cs', Corners s.vertices s.indices cs ∧ Corners s'.vertices s'.indices cs' ∧ List.Forall₂ SamePlace cs cs' := by
  have hs := surface_exists_rel hg hg' h bl texture
  cases o with
  | none =>
    cases o' with
    | none => exact .inl ⟨rfl, rfl⟩
    | some s' =>
      obtain ⟨s, hx⟩ := hs.2 ⟨s', ho'⟩
      rw [ho] at hx
      cases hx
  | some s =>
    cases o' with
    | none =>
      obtain ⟨s', hx⟩ := hs.1 ⟨s, ho⟩
      rw [ho'] at hx
      cases hx
    | some s' =>
      obtain ⟨t1, cs, c1, p1⟩ := surface_places hg ho
      obtain ⟨t2, cs', c2, p2⟩ := surface_places hg' ho'
      refine .inr ⟨s, s', rfl, rfl, t2.trans t1.symm, cs, cs', c1, c2, places_trans p1 ?_⟩
      have := map_at (shown_rel h bl texture)
      rw [this]
      exact p2

theorem brushVisual_shade [LawfulEq F] {fgd : Forge.GameData F} {e e' : Entity F} (hm : AlikeFaces fgd e e')
    {g g' : EntityGeo F} (hg : Fanned g.brushes)
    (hg' : Fanned g'.brushes) (h : List.Forall₂ (LikeBrush Eq SameTexture) g.brushes g'.brushes)
    (bd : BrushData) (bl : TextureBlacklist) {v v' : VisualGeometry F} (hv : brushVisual e g bd bl = .ok v)
    (hv' : brushVisual e' g' bd bl = .ok v') : SameTriangles v v' := by
  have ht : (e'.brushes.flatMap fun b => b.planes.map (·.texture)) = e.brushes.flatMap fun b => b.planes.map (·.texture) := by
    have hk := flatMap_rel (R := fun b b' : Brush F => List.Forall₂ AlikeFace b.planes b'.planes) (Q := Eq)
      (f := fun b => b.planes.map (·.texture)) (f' := fun b => b.planes.map (·.texture))
      (fun b b' hb => map_rel (R := AlikeFace) (Q := Eq) (f := (·.texture)) (f' := (·.texture)) (fun _ _ h => h.texture) hb)
      hm.brushes
    rw [List.forall₂_eq_eq_eq] at hk
    exact hk.symm
  unfold brushVisual at hv hv'
  cases hbd : bd.visualType with
  | none => rw [hbd] at hv hv'; cases hv; cases hv'; trivial
  | mesh =>
    rw [hbd] at hv hv'
    simp only [ht] at hv hv'
    obtain ⟨ss, h1, hv⟩ := Outcome.bind_eq_ok.1 hv
    obtain ⟨ss', h1', hv'⟩ := Outcome.bind_eq_ok.1 hv'
    have hr := mapOut_rel (R := Eq) (Q := fun o o' : Option (MeshSurface F) => (o = none ∧ o' = none) ∨
        ∃ s s', o = some s ∧ o' = some s' ∧ s'.texture = s.texture ∧
          ∃ cs cs', Corners s.vertices s.indices cs ∧ Corners s'.vertices s'.indices cs' ∧ List.Forall₂ SamePlace cs cs')
      (f := textureSurface g bl) (f' := textureSurface g' bl)
      (by rintro x _ rfl c c' hc hc'; exact textureSurface_shade hg hg' h bl x hc hc')
      (List.forall₂_same.2 fun _ _ => rfl) h1 h1'
    have hf : List.Forall₂ (fun s s' : MeshSurface F => s'.texture = s.texture ∧
        ∃ cs cs', Corners s.vertices s.indices cs ∧ Corners s'.vertices s'.indices cs' ∧ List.Forall₂ SamePlace cs cs')
        (ss.filterMap id) (ss'.filterMap id) := by
      clear h1 h1' hv hv'
      induction hr with
      | nil => exact .nil
      | cons hx _ ih =>
        rcases hx with ⟨rfl, rfl⟩ | ⟨s, s', rfl, rfl, hx⟩
        · exact ih
        · exact .cons hx ih
    have he : (ss.filterMap id).isEmpty = (ss'.filterMap id).isEmpty := by
      generalize ss.filterMap id = a at hf
      generalize ss'.filterMap id = b at hf
      cases hf <;> rfl
    simp only [he] at hv
    split at hv
    · rw [if_pos ‹_›] at hv'
      cases hv; cases hv'; trivial
    · rw [if_neg ‹_›] at hv'
      cases hv; cases hv'
      exact hf

/-! ### nodes -/

theorem sameLooks_append : ∀ {a a' b b' : List (Node F)}, SameLooks a a' → SameLooks b b' → SameLooks (a ++ b) (a' ++ b')
  | [], [], _, _, _, h => h
  | [], _ :: _, _, _, h, _ => h.elim
  | _ :: _, [], _, _, h, _ => h.elim
  | _ :: _, _ :: _, _, _, h, h' => ⟨h.1, sameLooks_append h.2 h'⟩

theorem sameLooks_of {a a' : List (Node F)} (h : List.Forall₂ SameLook a a') : SameLooks a a' := by
  induction h with
  | nil => trivial
  | cons hx _ ih => exact ⟨hx, ih⟩

theorem children_shade {o : V3 F} {v v' : VisualGeometry F} (hv : SameTriangles v v') (c : CollisionGeometry F) :
    SameLooks (visualChildren o v ++ collisionChildren o c) (visualChildren o v' ++ collisionChildren o c) := by
  refine sameLooks_append ?_ ?_
  · cases v <;> cases v' <;> first | exact hv.elim | trivial
  · cases c <;> trivial

/-- Entities with the same faces and their geometry. -/
def ShadeData (fgd : Forge.GameData F) (d d' : Entity F × EntityGeo F) : Prop :=
  AlikeFaces fgd d.1 d'.1 ∧ LikeEntity Eq SameTexture d.2 d'.2 ∧ Fanned d.2.brushes ∧ Fanned d'.2.brushes

theorem buildEntity_shade [LawfulEq F] {gd : GameData F} {fgd : Forge.GameData F} {bl : TextureBlacklist}
    {data data' : List (Entity F × EntityGeo F)} (hd : List.Forall₂ (ShadeData fgd) data data') :
    ∀ {depth depth' : Nat} {o : V3 F} {d d' : Entity F × EntityGeo F} {n n' : Node F}, ShadeData fgd d d' →
    Scene.buildEntity gd fgd bl data depth o d = .ok n → Scene.buildEntity gd fgd bl data' depth' o d' = .ok n' →
    SameLook n n' := by
  intro depth
  induction depth with
  | zero => intro depth' o d d' n n' _ h; unfold Scene.buildEntity at h; cases h
  | succ depth ih =>
    rintro depth' o ⟨e, g⟩ ⟨e', g'⟩ n n' hdd h h'
    cases depth' with
    | zero => unfold Scene.buildEntity at h'; cases h'
    | succ depth' =>
    obtain ⟨_, v, c, ents, name, props, e0, h1, h2, h3, h4, h5, rfl⟩ := buildEntity_ok h
    cases e0
    obtain ⟨_, v', c', ents', name', props', e0', h1', h2', h3', h4', h5', rfl⟩ := buildEntity_ok h'
    cases e0'
    obtain ⟨hm, hl, hf, hf'⟩ := hdd
    simp only at hm hl hf hf'
    have hk : ∀ key ∈ placeKeys, e.properties key = e'.properties key := fun key hk => hm.properties key (.inl hk)
    have k1 := hk (str! "classname") (by unfold placeKeys; simp)
    have k2 := hk (str! "_tb_id") (by unfold placeKeys; simp)
    have hn : name' = name := by
      rw [k1, h4'] at h4
      exact Option.some.inj h4
    subst hn
    have hp : props' = props := by
      rw [entityProperties_solid hm.properties, h5'] at h5
      exact Outcome.ok.inj h5
    have hcen : g'.center = g.center := hl.center.symm
    have hvv : SameTriangles v v' := by
      unfold entityVisual Map.get? at h1 h1'
      rw [h4] at h1
      rw [h4'] at h1'
      simp only at h1 h1'
      cases hx : findDef gd name' with
      | none => rw [hx] at h1 h1'; cases h1; cases h1'; trivial
      | some x =>
        rw [hx] at h1 h1'
        simp only at h1 h1'
        cases hy : x.data with
        | point => rw [hy] at h1 h1'; cases h1; cases h1'; trivial
        | brush _ bd =>
          rw [hy] at h1 h1'
          exact brushVisual_shade hm hf hf' hl.brushes bd bl h1 h1'
    have hcc : c' = c := by
      unfold entityCollision Map.get? at h2 h2'
      rw [h4] at h2
      rw [h4'] at h2'
      simp only at h2 h2'
      cases hx : findDef gd name' with
      | none => rw [hx] at h2 h2'; cases h2; cases h2'; rfl
      | some x =>
        rw [hx] at h2 h2'
        simp only at h2 h2'
        cases hy : x.data with
        | point => rw [hy] at h2 h2'; cases h2; cases h2'; rfl
        | brush _ bd =>
          rw [hy] at h2 h2'
          exact (collision_rel .eq (P := Eq) (C := Eq) hl.center hl.brushes h2 h2').eq.symm
    have hdrop : List.Forall₂ (ShadeData fgd) (data.drop 1) (data'.drop 1) := by
      cases hd with
      | nil => exact .nil
      | cons _ hd => exact hd
    have hmem : List.Forall₂ (ShadeData fgd) ((data.drop 1).filter fun child => inGroup e child.1)
        ((data'.drop 1).filter fun child => inGroup e' child.1) := by
      refine filter_rel ?_ hdrop
      intro a a' ha
      have : a.1.properties (str! "_tb_group") = a'.1.properties (str! "_tb_group") :=
        ha.1.properties _ (.inl (by unfold placeKeys; simp))
      unfold inGroup Map.get?
      rw [this, k2]
    have hch : SameLooks ents ents' := by
      have hk : ∀ {l l' : List (Entity F × EntityGeo F)} {ents ents' : List (Node F)}, List.Forall₂ (ShadeData fgd) l l' →
          List.Forall₂ (fun child n => Scene.buildEntity gd fgd bl data depth (V3.neg g.center) child = .ok n) l ents →
          List.Forall₂ (fun child n => Scene.buildEntity gd fgd bl data' depth' (V3.neg g.center) child = .ok n) l' ents' →
          SameLooks ents ents' := by
        intro l l' ents ents' hl
        induction hl generalizing ents ents' with
        | nil => intro a b; cases a; cases b; trivial
        | cons hx _ ihl =>
          intro a b
          cases a with
          | cons a1 a =>
            cases b with
            | cons b1 b => exact ⟨ih hx a1 b1, ihl a b⟩
      exact hk hmem h3 (hcen ▸ h3')
    have ht : entityType gd e = entityType gd e' ∧ entityComponentClass gd e = entityComponentClass gd e' ∧
        entityPropertyApplicationType gd e = entityPropertyApplicationType gd e' := by
      unfold entityType entityComponentClass entityPropertyApplicationType Map.get?
      rw [k1]
      exact ⟨rfl, rfl, rfl⟩
    refine ⟨by rw [hcen], ?_, ?_⟩
    · rw [ht.1, ht.2.1, ht.2.2, hp]
    · rw [hcen, hcc]
      exact sameLooks_append (children_shade hvv c) hch

/-! ### layers -/

/-- Layers of brushes with the same faces. -/
def ShadeLayer (l l' : Str × List (BrushGeo F)) : Prop :=
  l.1 = l'.1 ∧ List.Forall₂ (LikeBrush Eq SameTexture) l.2 l'.2 ∧ Fanned l.2 ∧ Fanned l'.2

/-- Both layers have no node, or the nodes correspond. -/
def ShadeOption (o o' : Option (Node F)) : Prop :=
  (o = none ∧ o' = none) ∨ ∃ n n', o = some n ∧ o' = some n' ∧ SameLook n n'

theorem buildLayer_shade [LawfulEq F] {gd : GameData F} {l l' : Str × List (BrushGeo F)} (h : ShadeLayer l l')
    {o o' : Option (Node F)} (ho : buildLayer gd l = .ok o) (ho' : buildLayer gd l' = .ok o') : ShadeOption o o' := by
  obtain ⟨ht, hb, hf, hf'⟩ := h
  unfold buildLayer at ho ho'
  rw [← ht] at ho'
  cases hx : gd.worldspawnLayers.filter fun x => x.texture == l.1 with
  | nil => rw [hx] at ho ho'; cases ho; cases ho'; exact .inl ⟨rfl, rfl⟩
  | cons layer rest =>
    cases rest with
    | cons _ _ => rw [hx] at ho ho'; cases ho; cases ho'; exact .inl ⟨rfl, rfl⟩
    | nil =>
      rw [hx] at ho ho'
      simp only at ho ho'
      obtain ⟨v, h1, ho⟩ := Outcome.bind_eq_ok.1 ho
      obtain ⟨c, h2, ho⟩ := Outcome.bind_eq_ok.1 ho
      obtain ⟨v', h1', ho'⟩ := Outcome.bind_eq_ok.1 ho'
      obtain ⟨c', h2', ho'⟩ := Outcome.bind_eq_ok.1 ho'
      have hvv : SameTriangles v v' := by
        unfold layerVisual at h1 h1'
        cases hl : layer.visualType with
        | none => rw [hl] at h1 h1'; cases h1; cases h1'; trivial
        | mesh =>
          rw [hl] at h1 h1'
          simp only at h1 h1'
          obtain ⟨s, h3, h1⟩ := Outcome.bind_eq_ok.1 h1
          obtain ⟨s', h3', h1'⟩ := Outcome.bind_eq_ok.1 h1'
          rcases textureSurface_shade (g := ⟨V3.zero, l.2⟩) (g' := ⟨V3.zero, l'.2⟩) hf hf' hb _ _ h3 h3' with
            ⟨rfl, rfl⟩ | ⟨s, s', rfl, rfl, hs⟩
          · cases h1; cases h1'; trivial
          · cases h1; cases h1'; exact .cons hs .nil
      have hcc : c = c' := (collision_rel .eq (P := Eq) (T := SameTexture) (C := Eq)
        (g := ⟨V3.zero, l.2⟩) (g' := ⟨V3.zero, l'.2⟩) rfl hb h2 h2').eq
      subst hcc
      have hch := children_shade (o := V3.zero) hvv c
      generalize visualChildren V3.zero v ++ collisionChildren V3.zero c = a at ho hch
      generalize visualChildren V3.zero v' ++ collisionChildren V3.zero c = a' at hch ho'
      cases a with
      | nil =>
        cases a' with
        | cons _ _ => exact hch.elim
        | nil => cases ho; cases ho'; exact .inl ⟨rfl, rfl⟩
      | cons x a =>
        cases a' with
        | nil => exact hch.elim
        | cons x' a' =>
          cases ho; cases ho'
          exact .inr ⟨_, _, rfl, rfl, rfl, rfl, hch⟩

theorem layers_shade [LawfulEq F] {gd : GameData F}
    {order order' : List (Str × List (BrushGeo F)) → List (Str × List (BrushGeo F))}
    (horder : ∀ l, (order l).Perm l) (horder' : ∀ l, (order' l).Perm l) {L L' : List (Str × List (BrushGeo F))}
    (hL : List.Forall₂ ShadeLayer L L') {ls ls' : List (Option (Node F))}
    (h : List.Forall₂ (fun l o => buildLayer gd l = .ok o) (order L) ls)
    (h' : List.Forall₂ (fun l o => buildLayer gd l = .ok o) (order' L') ls') :
    ∃ ls'', ls''.Perm ls' ∧ List.Forall₂ ShadeOption ls ls'' := by
  obtain ⟨M, h1, h2⟩ : ∃ M, List.Forall₂ ShadeLayer (order L) M ∧ M.Perm L' := by
    obtain ⟨M, h1, h2⟩ := List.perm_comp_forall₂ (horder L) hL
    exact ⟨M, h1, h2⟩
  obtain ⟨ls'', h3, h4⟩ := List.perm_comp_forall₂ (h2.trans (horder' L').symm) h'
  refine ⟨ls'', h4, ?_⟩
  generalize order L = A at h h1
  clear h2 h4
  induction h1 generalizing ls ls'' with
  | nil => cases h; cases h3; exact .nil
  | cons hx _ ih =>
    cases h with
    | cons a1 a =>
      cases h3 with
      | cons b1 b => exact .cons (buildLayer_shade hx a1 b1) (ih _ b a)

variable [Platform] [NaturalSort]

/-- C102: how textures are laid out on the faces, the sizes of texture files, surface flags, colours, shading and
properties that no class declares do not change which triangles are drawn: if two maps with the same points and textures of
faces and the same significant properties load, their scenes have the same nodes with the same properties, positions and
collision shapes, and the surfaces of visual nodes have the same textures and consist of the same triangles in the same
order. -/
theorem C102_same_triangles [LawfulEq F] (depth depth' : Nat)
    (order order' : List (Str × List (BrushGeo F)) → List (Str × List (BrushGeo F)))
    (horder : ∀ l, (order l).Perm l) (horder' : ∀ l, (order' l).Perm l)
    (config config' : Config F) (hg : config'.quarchitectGameData = config.quarchitectGameData)
    (hf : config'.forgeGameData = config.forgeGameData) (hb : config'.textureBlacklist = config.textureBlacklist)
    (text text' : Str) (hm : config.mapFile = some text) (hm' : config'.mapFile = some text')
    (entities entities' : List (Entity F)) (hl : LoadsAs text entities) (hl' : LoadsAs text' entities')
    (hknown : ∀ e ∈ entities, ∀ b ∈ e.brushes, ∀ p ∈ b.planes,
      ((config.textureInfo p.texture).isSome ↔ (config'.textureInfo p.texture).isSome))
    (hs : List.Forall₂ (AlikeFaces config.forgeGameData) entities entities') (nodes nodes' : List (Node F))
    (h : Quarch.run depth order config = .ok nodes) (h' : Quarch.run depth' order' config' = .ok nodes') :
    ∃ w ls es w' ls' ls'' es', nodes = w :: (ls ++ es) ∧ nodes' = w' :: (ls' ++ es') ∧
      es.length = entities.countP (fun e => TopLevel e) ∧
      SameLook w w' ∧ ls''.Perm ls' ∧ SameLooks ls ls'' ∧ SameLooks es es' := by
  obtain ⟨hall, w, wn, ls, es, hw, e1, hwn, hls, hes⟩ := (run_list hm hl).1 h
  obtain ⟨hall', w', wn', ls', es', hw', e1', hwn', hls', hes'⟩ := (run_list hm' hl').1 h'
  rw [hg] at hwn' hls' hes'
  rw [hf, hb] at hwn' hes'
  have hclass : ∀ e e', AlikeFaces config.forgeGameData e e' →
      e.properties (str! "classname") = e'.properties (str! "classname") ∧
      e.properties (str! "_tb_group") = e'.properties (str! "_tb_group") := fun e e' h =>
    ⟨h.properties _ (.inl (by unfold placeKeys; simp)), h.properties _ (.inl (by unfold placeKeys; simp))⟩
  have hworld : ∀ e e', AlikeFaces config.forgeGameData e e' → decide (IsWorld e) = decide (IsWorld e') := by
    intro e e' h
    rw [decide_eq_decide]
    unfold IsWorld
    rw [(hclass e e' h).1]
  have htop : ∀ e e', AlikeFaces config.forgeGameData e e' → decide (TopLevel e) = decide (TopLevel e') := by
    intro e e' h
    rw [decide_eq_decide]
    unfold TopLevel groupOf
    rw [(hclass e e' h).1, (hclass e e' h).2]
  have hdata : List.Forall₂ (fun e e' => ShadeData config.forgeGameData (e, geoOf config.textureInfo e)
      (e', geoOf config'.textureInfo e')) entities entities' := by
    have : ∀ {l l' : List (Entity F)}, List.Forall₂ (AlikeFaces config.forgeGameData) l l' →
        (∀ e ∈ l, e ∈ entities) → (∀ e ∈ l', e ∈ entities') →
        List.Forall₂ (fun e e' => ShadeData config.forgeGameData (e, geoOf config.textureInfo e)
          (e', geoOf config'.textureInfo e')) l l' := by
      intro l l' hll
      induction hll with
      | nil => intro _ _; exact .nil
      | @cons e e' l l' he _ ih =>
        intro k k'
        have g1 := hall e (k e (by simp))
        have g2 := hall' e' (k' e' (by simp))
        exact .cons ⟨he, geo_shade he (hknown e (k e (by simp))) g1 g2, built_fanned g1, built_fanned g2⟩
          (ih (fun x hx => k x (by simp [hx])) fun x hx => k' x (by simp [hx]))
    exact this hs (fun _ h => h) fun _ h => h
  have hww : ShadeData config.forgeGameData (w, geoOf config.textureInfo w) (w', geoOf config'.textureInfo w') := by
    have := filter_rel (p := fun e => decide (IsWorld e)) (p' := fun e => decide (IsWorld e))
      (fun e e' h => hworld e e' h.1) hdata
    rw [hw, hw'] at this
    cases this with
    | cons h _ => exact h
  obtain ⟨hwm, hwl, hwf, hwf'⟩ := hww
  simp only at hwm hwl hwf hwf'
  obtain ⟨k1, k2⟩ := splitLayers_rel (T := SameTexture) (fun h t _ => by rw [show _ = _ from h]) hwl.brushes
  obtain ⟨m1, m2⟩ := splitLayers_mem (geoOf config.textureInfo w).brushes
  obtain ⟨m1', m2'⟩ := splitLayers_mem (geoOf config'.textureInfo w').brushes
  have hwd : ShadeData config.forgeGameData (worldOf config.textureInfo w) (worldOf config'.textureInfo w') :=
    ⟨hwm, ⟨hwl.center, k1⟩, fun b hb => hwf b (m1 b hb), fun b hb => hwf' b (m1' b hb)⟩
  have hlay : List.Forall₂ ShadeLayer
      (LayerFilter.splitLayers LayerFilter.layerTextures (geoOf config.textureInfo w).brushes).2
      (LayerFilter.splitLayers LayerFilter.layerTextures (geoOf config'.textureInfo w').brushes).2 := by
    clear k1 hwd
    generalize (LayerFilter.splitLayers LayerFilter.layerTextures (geoOf config.textureInfo w).brushes).2 = a at k2 m2
    generalize (LayerFilter.splitLayers LayerFilter.layerTextures (geoOf config'.textureInfo w').brushes).2 = b at k2 m2'
    induction k2 with
    | nil => exact .nil
    | cons hx _ ih =>
      exact .cons ⟨hx.1, hx.2.2, fun c hc => hwf c (m2 _ (by simp) c hc), fun c hc => hwf' c (m2' _ (by simp) c hc)⟩
        (ih (fun l hl => m2 l (by simp [hl])) fun l hl => m2' l (by simp [hl]))
  have hoth : List.Forall₂ (ShadeData config.forgeGameData)
      ((others entities).map fun e => (e, geoOf config.textureInfo e))
      ((others entities').map fun e => (e, geoOf config'.textureInfo e)) := by
    refine map_rel (Q := ShadeData config.forgeGameData) (f := fun e => (e, geoOf config.textureInfo e))
      (f' := fun e => (e, geoOf config'.textureInfo e)) (fun _ _ h => h) (filter_rel ?_ hdata)
    intro e e' h
    have := hworld e e' h.1
    simp only [decide_not, this]
  have hd := List.Forall₂.cons hwd hoth
  have htops := filter_rel (p := fun e => decide (TopLevel e)) (p' := fun e => decide (TopLevel e))
    (fun e e' h => htop e e' h.1) hdata
  obtain ⟨ls'', hperm, hlr⟩ := layers_shade horder horder' hlay hls hls'
  refine ⟨wn, ls.filterMap id, es, wn', ls'.filterMap id, ls''.filterMap id, es', e1, e1', ?_,
    buildEntity_shade hd hwd hwn hwn', hperm.filterMap _, ?_, ?_⟩
  · rw [← hes.length_eq, List.countP_eq_length_filter]
  · refine sameLooks_of ?_
    clear hls hls' hperm e1 e1'
    induction hlr with
    | nil => exact .nil
    | cons hx _ ih =>
      rcases hx with ⟨rfl, rfl⟩ | ⟨n, n', rfl, rfl, hx⟩
      · exact ih
      · exact .cons hx ih
  · refine sameLooks_of ?_
    clear e1 e1'
    generalize entities.filter (fun e => decide (TopLevel e)) = a at hes htops
    generalize entities'.filter (fun e => decide (TopLevel e)) = b at hes' htops
    induction htops generalizing es es' with
    | nil => cases hes; cases hes'; exact .nil
    | cons hx _ ih =>
      cases hes with
      | cons a1 a =>
        cases hes' with
        | cons b1 b => exact .cons (buildEntity_shade hd hx a1 b1) (ih _ _ a b)

end
end Quarch
