import Verif.Spec.Scaling
import Verif.Spec.Projected
/-
Scaling, turning and moving a whole map together with its textures (C106), in exact arithmetic. Written without the
functions of the geometry and scene builders.
-/
namespace Quarch.Spec

/-- Where a point of space lies on a texture with the given axes, offsets and scales, in pixels. -/
noncomputable def onTexture (u v : V3 ℝ) (ou ov : ℝ) (scale : V2 ℝ) (x : V3 ℝ) : V2 ℝ :=
  ⟨dotR u x / scale.x + ou, dotR v x / scale.y + ov⟩

/-- Where a point lies on a texture that is turned by the given number of degrees, with the given offsets and scales, in
pixels; `a` and `b` are the coordinates of the projected point. -/
noncomputable def onTurnedTexture (degrees ou ov : ℝ) (scale : V2 ℝ) (a b : ℝ) : V2 ℝ :=
  ⟨(Real.cos (degrees * Real.pi / 180) * a - Real.sin (degrees * Real.pi / 180) * b) / scale.x + ou,
   (Real.sin (degrees * Real.pi / 180) * a + Real.cos (degrees * Real.pi / 180) * b) / scale.y + ov⟩

/-- Texture axes given by the face: they are turned, and every point of space stays at the same place on the texture. -/
def LockedAxes (S : Similar) (p p' : BrushPlane ℝ) : Prop :=
  ∃ u v ou ov ou' ov', p.uv = .valve u ou v ov ∧ p'.uv = .valve (S.toRigid.turn u) ou' (S.toRigid.turn v) ov' ∧
    ∀ x, onTexture (S.toRigid.turn u) (S.toRigid.turn v) ou' ov' p'.scale (S.move x) = onTexture u v ou ov p.scale x

/-- No texture axes given by the face: nothing is turned, the texture is scaled like the map, and every point of space
stays at the same place on the texture. -/
def LockedPlain (S : Similar) (p p' : BrushPlane ℝ) : Prop :=
  (∀ v, S.toRigid.turn v = v) ∧ p'.rotation = p.rotation ∧ p'.scale = ⟨S.scale * p.scale.x, S.scale * p.scale.y⟩ ∧
    ∃ ou ov ou' ov', p.uv = .quake ou ov ∧ p'.uv = .quake ou' ov' ∧
      ∀ x a b a' b', Projected (rawNormal p) x a b → Projected (rawNormal p) (S.move x) a' b' →
        onTurnedTexture p.rotation ou' ov' p'.scale a' b' = onTurnedTexture p.rotation ou ov p.scale a b

/-- The second face is the first one, moved with its texture. -/
structure LockedFace (S : Similar) (p p' : BrushPlane ℝ) : Prop where
  face : TurnedFace S.move p p'
  layout : LockedAxes S p p' ∨ LockedPlain S p p'
  extra : p'.extra = p.extra

/-- The second entity is the first one, moved with its textures. -/
structure LockedBy [RealText] (S : Similar) (e e' : Entity ℝ) : Prop where
  moved : TurnedBy S.move e e'
  locked : List.Forall₂ (fun b b' : Brush ℝ => List.Forall₂ (LockedFace S) b.planes b'.planes) e.brushes e'.brushes

/-- The same surface, moved: the same indices, texture coordinates and colours; positions moved; normals and tangents
turned. -/
def CarriedSurface (S : Similar) (s s' : MeshSurface ℝ) : Prop :=
  s' = ⟨s.texture, s.vertices.map S.move, s.normals.map S.toRigid.turn,
    s.tangents.map fun t => (S.toRigid.turn t.1, t.2), s.uvs, s.colors, s.indices⟩

end Quarch.Spec
