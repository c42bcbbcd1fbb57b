import Verif.Spec.Scene
import Verif.Spec.Rendered
import Verif.Spec.Spin
/-
What is stored for the corners of the triangles of a surface (C126).
-/
namespace Quarch.Spec

section
variable {F : Type}

/-- Three consecutive indices that make up a triangle. -/
def IndexTriple (is : List Nat) (i j k : Nat) : Prop :=
  ∃ t, is[3 * t]? = some i ∧ is[3 * t + 1]? = some j ∧ is[3 * t + 2]? = some k

/-- The surface has exactly the position, normal, tangent and, as far as it has any, texture coordinate and colour of this
vertex at index `i`. -/
structure DataAt (s : MeshSurface F) (i : Nat) (v : Vertex F) : Prop where
  pos : s.vertices[i]? = some v.pos
  normal : s.normals[i]? = some v.normal
  tangent : s.tangents[i]? = some v.tangent
  uv : ∀ l, s.uvs = some l → ∃ c, v.uv = some c ∧ l[i]? = some c
  color : ∀ l, s.colors = some l → ∃ c, v.color = some c ∧ l[i]? = some c
end

/-- `x` is a corner of the face `p` of the brush, exactly: three planes meet there in one point and it is in the brush. -/
def Corner32 (planes : List (BrushPlane F32)) (p : BrushPlane F32) (x : V3 ℝ) : Prop :=
  OnFace32 planes p x ∧ ∃ p1 ∈ planes, ∃ p2 ∈ planes, (triOf p1).above x = 0 ∧ (triOf p2).above x = 0 ∧
    0 < Tri.spread (triOf p) (triOf p1) (triOf p2)

/-- The layout of the texture on the face is such that its coordinates can be computed accurately (C120). -/
def CleanLayout (tx : Texture) (p : BrushPlane F32) : Prop :=
  match p.uv with
  | .valve ua uo va vo => ModestLayout tx p uo vo ∧ AxisLike ua ∧ AxisLike va
  | .quake uo vo => ModestLayout tx p uo vo ∧ DecidedFace (triOf p).normal ∧ F32.isFin p.rotation ∧ |F32.val p.rotation| ≤ 360

/-- The texture coordinates are those of the point `x` on the face, up to a hundredth of a texel. -/
def RightTexel (tx : Texture) (p : BrushPlane F32) (x : V3 ℝ) (uv : V2 F32) : Prop :=
  match p.uv with
  | .valve ua uo va vo => AtTexel tx.width uv.x (dotR (vec ua) x / F32.val p.scale.x + F32.val uo) ∧
      AtTexel tx.height uv.y (dotR (vec va) x / F32.val p.scale.y + F32.val vo)
  | .quake uo vo => ∃ s t, Projected (triOf p).normal x s t ∧
      AtTexel tx.width uv.x ((Real.cos (F32.val p.rotation * Real.pi / 180) * s -
        Real.sin (F32.val p.rotation * Real.pi / 180) * t) / F32.val p.scale.x + F32.val uo) ∧
      AtTexel tx.height uv.y ((Real.sin (F32.val p.rotation * Real.pi / 180) * s +
        Real.cos (F32.val p.rotation * Real.pi / 180) * t) / F32.val p.scale.y + F32.val vo)

/-- The texture axes of the face are such that its tangent can be computed accurately (C122). -/
def CleanAxes (p : BrushPlane F32) : Prop :=
  match p.uv with
  | .valve ua _ va _ => AxisLike ua ∧ AxisLike va ∧ 1 / 100000 ≤ |detR (triOf p).normal (vec ua) (vec va)|
  | .quake _ _ => DecidedFace (triOf p).normal ∧ F32.isFin p.rotation ∧ |F32.val p.rotation| ≤ 360 ∧
      F32.isFin p.scale.y ∧ F32.val p.scale.y ≠ 0

/-- The tangent is that of the face: the first texture axis and minus the orientation of the normal and the axes; without
texture axes, the first axis of the plane the face is projected onto, turned with the texture, up to 1/50000, and the side
from which the plane is seen times the sign of the second scale. -/
def RightTangent (p : BrushPlane F32) (t : V3 F32 × F32) : Prop :=
  match p.uv with
  | .valve ua _ va _ => t.1 = ua ∧ F32.isFin t.2 ∧ F32.val t.2 = -signR (detR (triOf p).normal (vec ua) (vec va))
  | .quake _ _ => ∃ a s, FirstAxis (triOf p).normal a s ∧ Finite3 t.1 ∧
      Close (1 / 50000) (vec t.1) (spun (triOf p).normal (-(F32.val p.rotation * Real.pi / 180) * s) a) ∧
      F32.isFin t.2 ∧ F32.val t.2 = s * signR (F32.val p.scale.y)

/-- What a surface should have at index `i` for a corner of the flat face `p`, the texture of which has the size `tx`, if it is
known. -/
structure PaintedAt (s : MeshSurface F32) (i : Nat) (planes : List (BrushPlane F32)) (p : BrushPlane F32)
    (tx : Option Texture) (x : V3 ℝ) : Prop where
  corner : Corner32 planes p x
  pos : ∃ a, s.vertices[i]? = some a ∧ Finite3 a ∧ Close (1 / 2000) (vec a) x
  normal : ∃ a, s.normals[i]? = some a ∧ Finite3 a ∧ Close (1 / 1000000) (vec a) (triOf p).normal
  uv : ∀ t, tx = some t → CleanLayout t p → ∃ l c, s.uvs = some l ∧ l[i]? = some c ∧ RightTexel t p x c
  tangent : CleanAxes p → ∃ t, s.tangents[i]? = some t ∧ RightTangent p t

end Quarch.Spec
