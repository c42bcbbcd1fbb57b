import Verif.Model.Rust
/-
Scalars, vectors and the small value types of /repo/src/types*.
-/
namespace Quarch

/-- `glam::Vec3` (`/repo/src/types.rs:7`): three lanes. -/
structure V3 (F : Type) where
  x : F
  y : F
  z : F
deriving DecidableEq, Repr

/-- `glam::Vec2` (`/repo/src/types.rs:6`). -/
structure V2 (F : Type) where
  x : F
  y : F
deriving DecidableEq, Repr

/-- The scalar and vector operations /repo takes from `f32`, `std` and `glam`. Nothing is assumed about
them here: a theorem stated for every `Arith F` holds for `f32` in particular. Lane-wise vector
operations are defined below from the scalar ones; the remaining glam operations are fields. -/
class Arith (F : Type) where
  /-- the literal `0.0` -/
  zero : F
  /-- the literal `1.0` -/
  one : F
  /-- `CMP_EPSILON = 0.001`, `/repo/src/geo_builder/brush_plane/vertices.rs:4` -/
  cmpEpsilon : F
  /-- the literal `0.01`, `/repo/src/geo_builder/brush_plane/normals.rs:23` -/
  hundredth : F
  /-- `ONE_DEGREE`, `/repo/src/geo_builder/brush_plane/normals.rs:5` -/
  oneDegree : F
  /-- the literal `255.0`, `/repo/src/types/color.rs:27-29` -/
  c255 : F
  /-- `n as f32` for `usize`/`u32` -/
  ofNat : Nat → F
  /-- `x as i32`, saturating -/
  toI32 : F → Int
  add : F → F → F
  sub : F → F → F
  mul : F → F → F
  div : F → F → F
  neg : F → F
  abs : F → F
  signum : F → F
  cos : F → F
  atan2 : F → F → F
  toRadians : F → F
  /-- `a < b` -/
  lt : F → F → Bool
  /-- `a <= b` -/
  le : F → F → Bool
  /-- `a == b` -/
  eq : F → F → Bool
  /-- `str::parse::<f32>` -/
  parse : Str → Option F
  /-- `Display` for `f32` -/
  disp : F → Str
  /-- `Vec3::dot` -/
  dot : V3 F → V3 F → F
  /-- `Vec3::cross` -/
  cross : V3 F → V3 F → V3 F
  /-- `Vec3::normalize` -/
  normalize : V3 F → V3 F
  /-- `Quat::from_axis_angle(axis, angle) * v` -/
  rotate : V3 F → F → V3 F → V3 F
  /-- `Mat2::from_angle(angle) * v` -/
  rotate2 : F → V2 F → V2 F

section
variable {F : Type} [Arith F]

/-- `f32::partial_cmp`. -/
def partialCmp (a b : F) : Option Ordering :=
  if Arith.lt a b then some .lt
  else if Arith.lt b a then some .gt
  else if Arith.eq a b then some .eq
  else none

namespace V3
/-- `Vec3::new(0.0, 0.0, 0.0)` and `Vec3::default()`. -/
def zero : V3 F := ⟨Arith.zero, Arith.zero, Arith.zero⟩
/-- `Vec3 + Vec3`, lane-wise. -/
def add (a b : V3 F) : V3 F := ⟨Arith.add a.x b.x, Arith.add a.y b.y, Arith.add a.z b.z⟩
/-- `Vec3 - Vec3`, lane-wise. -/
def sub (a b : V3 F) : V3 F := ⟨Arith.sub a.x b.x, Arith.sub a.y b.y, Arith.sub a.z b.z⟩
/-- `-Vec3`, lane-wise. -/
def neg (a : V3 F) : V3 F := ⟨Arith.neg a.x, Arith.neg a.y, Arith.neg a.z⟩
/-- `Vec3 * f32`, lane-wise. -/
def smul (a : V3 F) (k : F) : V3 F := ⟨Arith.mul a.x k, Arith.mul a.y k, Arith.mul a.z k⟩
/-- `Vec3 / f32`, lane-wise. -/
def sdiv (a : V3 F) (k : F) : V3 F := ⟨Arith.div a.x k, Arith.div a.y k, Arith.div a.z k⟩
/-- `Vec3 == Vec3`: all lanes equal. -/
def beq (a b : V3 F) : Bool := Arith.eq a.x b.x && Arith.eq a.y b.y && Arith.eq a.z b.z
end V3

namespace V2
/-- `Vec2 + Vec2`, lane-wise. -/
def add (a b : V2 F) : V2 F := ⟨Arith.add a.x b.x, Arith.add a.y b.y⟩
/-- `Vec2 / Vec2`, lane-wise. -/
def div (a b : V2 F) : V2 F := ⟨Arith.div a.x b.x, Arith.div a.y b.y⟩
/-- `Vec2 == Vec2`. -/
def beq (a b : V2 F) : Bool := Arith.eq a.x b.x && Arith.eq a.y b.y
end V2
end

/-- `/repo/src/types/color.rs:1-6` -/
structure Color (F : Type) where
  r : F
  g : F
  b : F
deriving DecidableEq, Repr

section
variable {F : Type} [Arith F]

/-- `Color: PartialEq` (derived), `/repo/src/types/color.rs:1`. -/
def Color.beq (a b : Color F) : Bool := Arith.eq a.r b.r && Arith.eq a.g b.g && Arith.eq a.b b.b

/-- `Color::to_string`, `/repo/src/types/color.rs:23-32`. -/
def Color.toStr (c : Color F) : Str :=
  showInt (Arith.toI32 (Arith.mul c.r Arith.c255)) ++ str! " " ++
  showInt (Arith.toI32 (Arith.mul c.g Arith.c255)) ++ str! " " ++
  showInt (Arith.toI32 (Arith.mul c.b Arith.c255))
end

/-- `/repo/src/types/vertex.rs:5-12`; the field `vertex` is called `pos`. -/
structure Vertex (F : Type) where
  pos : V3 F
  normal : V3 F
  tangent : V3 F × F
  uv : Option (V2 F)
  color : Option (Color F)
deriving DecidableEq, Repr

/-- `Option: PartialEq`. -/
def optBeq {α : Type} (eq : α → α → Bool) : Option α → Option α → Bool
  | some a, some b => eq a b
  | none, none => true
  | _, _ => false

section
variable {F : Type} [Arith F]
/-- `(Vector3, f32): PartialEq`. -/
def tanBeq (a b : V3 F × F) : Bool := V3.beq a.1 b.1 && Arith.eq a.2 b.2
end

/-- `/repo/src/types/texture.rs:7-11` -/
structure Texture where
  width : Nat
  height : Nat
deriving DecidableEq, Repr

/-- `Texture::size`, `/repo/src/types/texture.rs:18-20`. -/
def Texture.size {F : Type} [Arith F] (t : Texture) : V2 F :=
  ⟨Arith.ofNat t.width, Arith.ofNat t.height⟩

/-- `TextureInfo`, `/repo/src/types/texture.rs:4-5`: a `HashMap` of which only `get` is used. -/
abbrev TextureInfo := Map Str Texture

/-- `/repo/src/types/texture.rs:23-27` -/
structure TextureBlacklist where
  brush : List Str
  plane : List Str
deriving DecidableEq, Repr

namespace TextureBlacklist
/-- `Default for TextureBlacklist`, `/repo/src/types/texture.rs:29-35`. -/
def default : TextureBlacklist := ⟨[], []⟩
/-- `is_blacklisted_brush`, `/repo/src/types/texture.rs:42-50`. -/
def isBlacklistedBrush (b : TextureBlacklist) (texture : Str) : Bool :=
  b.brush.any fun t => texture == t
/-- `is_blacklisted_plane`, `/repo/src/types/texture.rs:52-60`. -/
def isBlacklistedPlane (b : TextureBlacklist) (texture : Str) : Bool :=
  b.plane.any fun t => texture == t
end TextureBlacklist

/-- Behaviour of the standard library that varies between toolchains or is only partly specified, with
the part the model relies on:
* `lowercase` – `str::to_lowercase` (`brush_plane.rs:122`), arbitrary;
* `bareCR` – see `lines`;
* `sortBy` – `slice::sort_by` (`geo_builder/brush_plane/mod.rs:79`): always returns a permutation of its
  input, and a sorted one if the comparison is a consistent total preorder on the input. -/
class Platform where
  lowercase : Str → Str
  bareCR : Bool
  sortBy : {α : Type} → (α → α → Ordering) → List α → List α
  sortBy_perm : ∀ {α : Type} (cmp : α → α → Ordering) (l : List α), (sortBy cmp l).Perm l
  sortBy_sorted : ∀ {α : Type} (cmp : α → α → Ordering) (l : List α),
    (∀ a ∈ l, ∀ b ∈ l, cmp b a = (cmp a b).swap) →
    (∀ a ∈ l, ∀ b ∈ l, ∀ c ∈ l, cmp a b ≠ .gt → cmp b c ≠ .gt → cmp a c ≠ .gt) →
    (sortBy cmp l).Pairwise fun a b => cmp a b ≠ .gt

end Quarch
