import Verif.Spec.Join
import Verif.Props.Solid
import Verif.Props.Shading
/-
C142: what is drawn and solid in two maps together is what is drawn and solid in them one by one.
-/
set_option linter.unusedSectionVars false
namespace Quarch
namespace Spec
section
variable {F : Type} [Arith F]

/-- There is a triangle with these corners in a visual node of the scene. -/
def DrawsTriangle (nodes : List (Node F)) (x y z : V3 F) : Prop :=
  ∃ o v s a b c, Occurs (.visual o v) nodes ∧ s ∈ surfaces v ∧ TriangleOf s.vertices s.indices a b c ∧
    SamePlace a x ∧ SamePlace b y ∧ SamePlace c z

/-- There is a triangle with these corners in a concave collision shape of the scene. -/
def StopsTriangle (nodes : List (Node F)) (x y z : V3 F) : Prop :=
  ∃ o shapes s a b c, Occurs (.collision o (.concave shapes)) nodes ∧ s ∈ shapes ∧ TriangleOf s.vertices s.indices a b c ∧
    SamePlace a x ∧ SamePlace b y ∧ SamePlace c z

end
end Spec
open Spec Scene Geo

section
variable {F : Type} [Arith F] [Platform] [LawfulEq F]

/-- An entity without brushes. -/
def bareEntity (properties : Map Str Str) : Entity F := ⟨properties, []⟩

theorem buildPlane_bare {textures : TextureInfo} {e : Entity F} {planes : List (BrushPlane F)} {p : BrushPlane F} :
    buildPlane textures e planes p = buildPlane textures (bareEntity e.properties) planes p := rfl

theorem shown_bare {config : Config F} {e : Entity F} {br : Brush F} {p : BrushPlane F} :
    ShownFace config e br p ↔ ShownFace config (bareEntity e.properties) br p := Iff.rfl

theorem solid_bare {config : Config F} {e : Entity F} {br : Brush F} {ct : CollisionType} :
    SolidAs config e br ct ↔ SolidAs config (bareEntity e.properties) br ct := Iff.rfl

/-- A triangle of a face of a brush. -/
def BareTriangle (textures : TextureInfo) (properties : Map Str Str) (br : Brush F) (p : BrushPlane F) (x y z : V3 F) : Prop :=
  ∃ face, buildPlane textures (bareEntity properties) br.planes p = .ok face ∧
    ∃ u v w, TriangleOf face.vertices face.indices u v w ∧ SamePlace x u.pos ∧ SamePlace y v.pos ∧ SamePlace z w.pos

theorem draws_iff {depth : Nat} {order : List (Str × List (BrushGeo F)) → List (Str × List (BrushGeo F))}
    (horder : ∀ l, (order l).Perm l) {config : Config F} {nodes : List (Node F)}
    (h : Quarch.run depth order config = .ok nodes) {text : Str} (ht : config.mapFile = some text)
    {entities : List (Entity F)} (hl : LoadsAs text entities) (x y z : V3 F) :
    DrawsTriangle nodes x y z ↔ ∃ properties br, HasBrush entities properties br ∧ ∃ p ∈ br.planes,
      ShownFace config (bareEntity properties) br p ∧ BareTriangle config.textureInfo properties br p x y z := by
  obtain ⟨h1, h2⟩ := C87_triangles depth order horder config nodes h text ht entities hl
  constructor
  · rintro ⟨o, v, s, a, b, c, hocc, hs, hT, ea, eb, ec⟩
    obtain ⟨e, he, ha, br, hbr, p, hpm, hsh, face, hb, u, v, w, hT', e1, e2, e3⟩ := h1 o v s a b c hocc hs hT
    exact ⟨e.properties, br, ⟨e, he, ha, rfl, hbr⟩, p, hpm, hsh, face, hb, u, v, w, hT',
      samePlace_trans (samePlace_symm ea) e1, samePlace_trans (samePlace_symm eb) e2, samePlace_trans (samePlace_symm ec) e3⟩
  · rintro ⟨_, br, ⟨e, he, ha, rfl, hbr⟩, p, hpm, hsh, face, hb, u, v, w, hT, ea, eb, ec⟩
    obtain ⟨face', hb', hf⟩ := h2 e he ha br hbr p hpm hsh
    rw [buildPlane_bare, hb] at hb'
    cases hb'
    obtain ⟨o, v', s, a, b, c, hocc, hs, hT', e1, e2, e3⟩ := hf u v w hT
    exact ⟨o, v', s, a, b, c, hocc, hs, hT', samePlace_trans e1 (samePlace_symm ea), samePlace_trans e2 (samePlace_symm eb),
      samePlace_trans e3 (samePlace_symm ec)⟩

theorem stops_iff {depth : Nat} {order : List (Str × List (BrushGeo F)) → List (Str × List (BrushGeo F))}
    (horder : ∀ l, (order l).Perm l) {config : Config F} {nodes : List (Node F)}
    (h : Quarch.run depth order config = .ok nodes) {text : Str} (ht : config.mapFile = some text)
    {entities : List (Entity F)} (hl : LoadsAs text entities) (x y z : V3 F) :
    StopsTriangle nodes x y z ↔ ∃ properties br, HasBrush entities properties br ∧ ∃ p ∈ br.planes,
      SolidAs config (bareEntity properties) br .concave ∧ BareTriangle config.textureInfo properties br p x y z := by
  obtain ⟨h1, h2⟩ := C88_concave depth order horder config nodes h text ht entities hl
  constructor
  · rintro ⟨o, shapes, s, a, b, c, hocc, hs, hT, ea, eb, ec⟩
    obtain ⟨e, he, ha, br, hbr, hsh, p, hpm, face, hb, u, v, w, hT', e1, e2, e3⟩ := h1 o shapes s a b c hocc hs hT
    exact ⟨e.properties, br, ⟨e, he, ha, rfl, hbr⟩, p, hpm, hsh, face, hb, u, v, w, hT',
      samePlace_trans (samePlace_symm ea) e1, samePlace_trans (samePlace_symm eb) e2, samePlace_trans (samePlace_symm ec) e3⟩
  · rintro ⟨_, br, ⟨e, he, ha, rfl, hbr⟩, p, hpm, hsh, face, hb, u, v, w, hT, ea, eb, ec⟩
    obtain ⟨face', hb', hf⟩ := h2 e he ha br hbr hsh p hpm
    rw [buildPlane_bare, hb] at hb'
    cases hb'
    obtain ⟨o, v', s, a, b, c, hocc, hs, hT', e1, e2, e3⟩ := hf u v w hT
    exact ⟨o, v', s, a, b, c, hocc, hs, hT', samePlace_trans e1 (samePlace_symm ea), samePlace_trans e2 (samePlace_symm eb),
      samePlace_trans e3 (samePlace_symm ec)⟩

theorem joins_split {a b whole : List (Entity F)} (hj : Joins a b whole) (Q : Map Str Str → Brush F → Prop) :
    (∃ properties br, HasBrush whole properties br ∧ Q properties br) ↔
      (∃ properties br, HasBrush a properties br ∧ Q properties br) ∨ ∃ properties br, HasBrush b properties br ∧ Q properties br := by
  constructor
  · rintro ⟨pr, br, h, hq⟩
    rcases (hj pr br).1 h with h | h
    · exact .inl ⟨pr, br, h, hq⟩
    · exact .inr ⟨pr, br, h, hq⟩
  · rintro (⟨pr, br, h, hq⟩ | ⟨pr, br, h, hq⟩)
    · exact ⟨pr, br, (hj pr br).2 (.inl h), hq⟩
    · exact ⟨pr, br, (hj pr br).2 (.inr h), hq⟩

/-- C142: if a map has exactly the brushes of two other maps, then the triangles that are drawn in it are those that are drawn
in one of the two, and the same holds for concave collision; in any arithmetic. -/
theorem C142_triangles (depth da db : Nat)
    (order oa ob : List (Str × List (BrushGeo F)) → List (Str × List (BrushGeo F)))
    (horder : ∀ l, (order l).Perm l) (hoa : ∀ l, (oa l).Perm l) (hob : ∀ l, (ob l).Perm l)
    (config : Config F) (text ta tb : Str) (whole a b : List (Entity F))
    (hl : LoadsAs text whole) (hla : LoadsAs ta a) (hlb : LoadsAs tb b) (hj : Joins a b whole) (nodes na nb : List (Node F))
    (h : Quarch.run depth order { config with mapFile := some text } = .ok nodes)
    (ha : Quarch.run da oa { config with mapFile := some ta } = .ok na)
    (hb : Quarch.run db ob { config with mapFile := some tb } = .ok nb) (x y z : V3 F) :
    (DrawsTriangle nodes x y z ↔ DrawsTriangle na x y z ∨ DrawsTriangle nb x y z) ∧
      (StopsTriangle nodes x y z ↔ StopsTriangle na x y z ∨ StopsTriangle nb x y z) := by
  constructor
  · rw [draws_iff horder h rfl hl, draws_iff hoa ha rfl hla, draws_iff hob hb rfl hlb]
    exact joins_split hj fun pr br => ∃ p ∈ br.planes, ShownFace config (bareEntity pr) br p ∧
      BareTriangle config.textureInfo pr br p x y z
  · rw [stops_iff horder h rfl hl, stops_iff hoa ha rfl hla, stops_iff hob hb rfl hlb]
    exact joins_split hj fun pr br => ∃ p ∈ br.planes, SolidAs config (bareEntity pr) br .concave ∧
      BareTriangle config.textureInfo pr br p x y z

end

section
variable [RealText] [Platform]

theorem inHullOf_mono {l l' : List (V3 ℝ)} (h : ∀ p ∈ l, p ∈ l') {x : V3 ℝ} (hx : InHullOf l x) : InHullOf l' x :=
  fun C hC hl => hx C hC fun p hp => hl p (h p hp)

theorem inSolid_iff {depth : Nat} {order : List (Str × List (BrushGeo ℝ)) → List (Str × List (BrushGeo ℝ))}
    (horder : ∀ l, (order l).Perm l) {config : Config ℝ} {nodes : List (Node ℝ)}
    (h : Quarch.run depth order config = .ok nodes) {text : Str} (ht : config.mapFile = some text)
    {entities : List (Entity ℝ)} (hl : LoadsAs text entities) (x : V3 ℝ) :
    InSolid nodes x ↔ ∃ properties br, HasBrush entities properties br ∧ SolidAs config (bareEntity properties) br .convex ∧
      ∃ bg, buildBrush config.textureInfo (bareEntity properties) br = .ok bg ∧
        ∃ pts, (∀ q ∈ pts, ∃ p ∈ bg.planes, ∃ v ∈ p.vertices, v.pos = q) ∧ InHullOf pts x := by
  obtain ⟨h1, h2⟩ := C88_convex depth order horder config nodes h text ht entities hl
  constructor
  · rintro ⟨o, shapes, shape, hs, hocc, hx⟩
    obtain ⟨e, he, ha, br, hbr, hsol, bg, hb, _, k1, _, _⟩ := h1 o shapes shape hocc hs
    exact ⟨e.properties, br, ⟨e, he, ha, rfl, hbr⟩, hsol, bg, hb, shape.points, k1, hx⟩
  · rintro ⟨_, br, ⟨e, he, ha, rfl, hbr⟩, hsol, bg, hb, pts, hpts, hx⟩
    have hne : br.planes ≠ [] := by
      intro h0
      have hb' := hb
      unfold buildBrush at hb'
      rw [h0] at hb'
      obtain ⟨gs, hgs, hb'⟩ := Outcome.bind_eq_ok.1 hb'
      cases hgs
      cases hb'
      refine hx (fun _ => False) (fun _ _ h => h.elim) fun q hq => ?_
      obtain ⟨p, hp, _⟩ := hpts q hq
      cases hp
    obtain ⟨bg', hb', o, shapes, shape, hocc, hs, _, _, k2, _⟩ := h2 e he ha br hbr hne hsol
    have : buildBrush config.textureInfo e br = buildBrush config.textureInfo (bareEntity e.properties) br := rfl
    rw [this, hb] at hb'
    cases hb'
    refine ⟨o, shapes, shape, hs, hocc, inHullOf_mono (fun q hq => ?_) hx⟩
    obtain ⟨p, hp, v, hv, rfl⟩ := hpts q hq
    obtain ⟨y, hy, e⟩ := k2 p hp v hv
    rw [samePlace_real] at e
    rw [← e]
    exact hy

/-- C142: and a point is in a convex collision shape if and only if it is in one of one of the two maps, in exact
arithmetic. -/
theorem C142_solid (depth da db : Nat)
    (order oa ob : List (Str × List (BrushGeo ℝ)) → List (Str × List (BrushGeo ℝ)))
    (horder : ∀ l, (order l).Perm l) (hoa : ∀ l, (oa l).Perm l) (hob : ∀ l, (ob l).Perm l)
    (config : Config ℝ) (text ta tb : Str) (whole a b : List (Entity ℝ))
    (hl : LoadsAs text whole) (hla : LoadsAs ta a) (hlb : LoadsAs tb b) (hj : Joins a b whole) (nodes na nb : List (Node ℝ))
    (h : Quarch.run depth order { config with mapFile := some text } = .ok nodes)
    (ha : Quarch.run da oa { config with mapFile := some ta } = .ok na)
    (hb : Quarch.run db ob { config with mapFile := some tb } = .ok nb) (x : V3 ℝ) :
    InSolid nodes x ↔ InSolid na x ∨ InSolid nb x := by
  rw [inSolid_iff horder h rfl hl, inSolid_iff hoa ha rfl hla, inSolid_iff hob hb rfl hlb]
  exact joins_split hj fun pr br => SolidAs config (bareEntity pr) br .convex ∧
    ∃ bg, buildBrush config.textureInfo (bareEntity pr) br = .ok bg ∧
      ∃ pts, (∀ q ∈ pts, ∃ p ∈ bg.planes, ∃ v ∈ p.vertices, v.pos = q) ∧ InHullOf pts x

end
end Quarch
