import Verif.Model.GeoBuilder
/-
What the corners of a face are, written relationally with the arithmetic operations only.
-/
namespace Quarch.Spec

/-- The only assumption ever made about `==` on numbers: symmetric and transitive. True of IEEE floats
(reflexivity, which fails for NaN, is not assumed). -/
class LawfulEq (F : Type) [Arith F] : Prop where
  symm : ∀ a b : F, Arith.eq a b = true → Arith.eq b a = true
  trans : ∀ a b c : F, Arith.eq a b = true → Arith.eq b c = true → Arith.eq a c = true

section
variable {F : Type} [Arith F]

/-- Equal coordinates in the sense of `==`. -/
def EqV3 (a b : V3 F) : Prop := Arith.eq a.x b.x = true ∧ Arith.eq a.y b.y = true ∧ Arith.eq a.z b.z = true

/-- Identical or equal in the sense of `==`. -/
def SamePlace (a b : V3 F) : Prop := a = b ∨ EqV3 a b

/-- No two of the points are equal in the sense of `==`. -/
def AllDifferent (points : List (V3 F)) : Prop := points.Pairwise fun a b => ¬ EqV3 a b ∧ ¬ EqV3 b a

end

section
variable {F : Type} [Arith F]

/-- Outward unit normal of a face given by three points. -/
def faceNormal (p : BrushPlane F) : V3 F :=
  Arith.normalize (Arith.cross (V3.sub p.v2 p.v0) (V3.sub p.v1 p.v0))

/-- Distance of the face plane from the origin. -/
def faceDist (p : BrushPlane F) : F := Arith.dot (faceNormal p) p.v0

/-- `v` is the computed intersection point of three planes (Cramer's rule), which counts only if the
determinant of the normals is not below the threshold. -/
def Meet (p0 p1 p2 : BrushPlane F) (v : V3 F) : Prop :=
  ∃ det : F, det = Arith.dot (Arith.cross (faceNormal p0) (faceNormal p1)) (faceNormal p2) ∧
    Arith.lt det Arith.cmpEpsilon = false ∧
    v = V3.sdiv (V3.add (V3.add
        (V3.smul (Arith.cross (faceNormal p1) (faceNormal p2)) (faceDist p0))
        (V3.smul (Arith.cross (faceNormal p2) (faceNormal p0)) (faceDist p1)))
        (V3.smul (Arith.cross (faceNormal p0) (faceNormal p1)) (faceDist p2))) det

/-- `v` is not in front of the face by more than the threshold. -/
def Behind (p : BrushPlane F) (v : V3 F) : Prop :=
  ¬ (Arith.lt (faceDist p) (Arith.dot (faceNormal p) v) = true ∧
     Arith.lt Arith.cmpEpsilon (Arith.sub (Arith.dot (faceNormal p) v) (faceDist p)) = true)

/-- `v` is an intersection point found for the face `plane` of the brush with the given planes. -/
def Found (planes : List (BrushPlane F)) (plane : BrushPlane F) (v : V3 F) : Prop :=
  (∃ p1 ∈ planes, ∃ p2 ∈ planes, Meet plane p1 p2 v) ∧ ∀ p ∈ planes, Behind p v

/-- Moving a point to the face centre and back. -/
def recentre (c v : V3 F) : V3 F := V3.add (V3.sub v c) c

/-- A triangle fan over `n` corners: none below three corners, otherwise the triangles
`(0, t+1, t+2)` for `t < n - 2` in this order. -/
def IsFan (n : Nat) (indices : List Nat) : Prop :=
  indices.length = 3 * (n - 2) ∧
  ∀ t, t < n - 2 → indices[3 * t]? = some 0 ∧ indices[3 * t + 1]? = some (t + 1) ∧
    indices[3 * t + 2]? = some (t + 2)

/-- Angle of a (centre-relative) position in the axes of the face: `u` runs along the first edge given in
the file, `v` is perpendicular to it. -/
def faceAngle (p : BrushPlane F) (pos : V3 F) : F :=
  Arith.atan2 (Arith.dot pos (Arith.cross (faceNormal p) (Arith.normalize (V3.sub p.v1 p.v0))))
    (Arith.dot pos (Arith.normalize (V3.sub p.v1 p.v0)))

/-- Number read from one word of `origin`: 0 if the word is missing or not a number. -/
def numOr0 (w : Option Str) : F := (w.bind Arith.parse).getD Arith.zero

/-- Words joined by single spaces. -/
def joinSpace : List Str → Str
  | [] => []
  | [w] => w
  | w :: ws => w ++ ' ' :: joinSpace ws

end
end Quarch.Spec
