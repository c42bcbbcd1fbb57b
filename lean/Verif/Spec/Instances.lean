import Verif.Model.Arith
/-
Concrete instances used in examples and counterexamples: a reference `Platform` (its existence also shows
that the laws assumed of `sort_by` are consistent) and whole-number arithmetic that is exact for
axis-aligned geometry.
-/
namespace Quarch.Spec

/-- Insertion of one element into a sorted list. -/
def insertBy {α : Type} (cmp : α → α → Ordering) (x : α) : List α → List α
  | [] => [x]
  | y :: ys => if cmp x y = .gt then y :: insertBy cmp x ys else x :: y :: ys

/-- Stable insertion sort. -/
def insertionSortBy {α : Type} (cmp : α → α → Ordering) : List α → List α
  | [] => []
  | x :: xs => insertBy cmp x (insertionSortBy cmp xs)

theorem insertBy_perm {α : Type} (cmp : α → α → Ordering) (x : α) (l : List α) :
    (insertBy cmp x l).Perm (x :: l) := by
  induction l with
  | nil => exact .refl _
  | cons y ys ih =>
    unfold insertBy
    split
    · exact (ih.cons y).trans (.swap _ _ _)
    · exact .refl _

theorem insertionSortBy_perm {α : Type} (cmp : α → α → Ordering) (l : List α) :
    (insertionSortBy cmp l).Perm l := by
  induction l with
  | nil => exact .refl _
  | cons x xs ih => exact (insertBy_perm cmp x _).trans (ih.cons x)

theorem insertBy_sorted {α : Type} (cmp : α → α → Ordering) (x : α) (l : List α)
    (hs : ∀ y ∈ l, cmp y x = (cmp x y).swap)
    (ht : ∀ a ∈ l, ∀ b ∈ l, cmp x a ≠ .gt → cmp a b ≠ .gt → cmp x b ≠ .gt)
    (h : l.Pairwise fun a b => cmp a b ≠ .gt) :
    (insertBy cmp x l).Pairwise fun a b => cmp a b ≠ .gt := by
  induction l with
  | nil => simp [insertBy]
  | cons y ys ih =>
    obtain ⟨h1, h2⟩ := List.pairwise_cons.1 h
    unfold insertBy
    split
    · rename_i hgt
      refine List.pairwise_cons.2 ⟨?_, ih (fun z hz => hs z (by simp [hz]))
        (fun a ha b hb => ht a (by simp [ha]) b (by simp [hb])) h2⟩
      intro z hz
      rcases List.mem_cons.1 ((insertBy_perm cmp x ys).mem_iff.1 hz) with rfl | hz
      · rw [hs y (by simp), hgt]; decide
      · exact h1 z hz
    · rename_i hgt
      refine List.pairwise_cons.2 ⟨?_, h⟩
      intro z hz
      rcases List.mem_cons.1 hz with rfl | hz
      · exact hgt
      · exact ht y (by simp) z (by simp [hz]) hgt (h1 z hz)

theorem insertionSortBy_sorted {α : Type} (cmp : α → α → Ordering) (l : List α)
    (hs : ∀ a ∈ l, ∀ b ∈ l, cmp b a = (cmp a b).swap)
    (ht : ∀ a ∈ l, ∀ b ∈ l, ∀ c ∈ l, cmp a b ≠ .gt → cmp b c ≠ .gt → cmp a c ≠ .gt) :
    (insertionSortBy cmp l).Pairwise fun a b => cmp a b ≠ .gt := by
  induction l with
  | nil => exact .nil
  | cons x xs ih =>
    have hp := insertionSortBy_perm cmp xs
    refine insertBy_sorted cmp x _ ?_ ?_ (ih (fun a ha b hb => hs a (by simp [ha]) b (by simp [hb]))
      (fun a ha b hb c hc => ht a (by simp [ha]) b (by simp [hb]) c (by simp [hc])))
    · intro y hy
      exact hs x (by simp) y (by simp [hp.mem_iff.1 hy])
    · intro a ha b hb
      exact ht x (by simp) a (by simp [hp.mem_iff.1 ha]) b (by simp [hp.mem_iff.1 hb])

/-- Reference platform: ASCII lower-casing, insertion sort. -/
@[reducible] def refPlatform : Platform where
  lowercase s := s.map Char.toLower
  bareCR := false
  sortBy := insertionSortBy
  sortBy_perm := insertionSortBy_perm
  sortBy_sorted := insertionSortBy_sorted

/-- Whole-number arithmetic: exact for axis-aligned planes (`normalize` takes signs lane by lane, so it
is the unit normal of an axis-aligned face; `atan2` is a monotone substitute; rotations are by 0). -/
@[reducible] def intArith : Arith Int where
  zero := 0
  one := 1
  cmpEpsilon := 1
  hundredth := 0
  oneDegree := 1
  c255 := 255
  ofNat := Int.ofNat
  toI32 := id
  add := (· + ·)
  sub := (· - ·)
  mul := (· * ·)
  div := Int.tdiv
  neg := Int.neg
  abs := fun a => a.natAbs
  signum := fun a => if a < 0 then -1 else 1
  cos := fun _ => 0
  atan2 := fun y x =>
    let p := (y * 1000).tdiv (x.natAbs + y.natAbs)
    if 0 ≤ x then p else if 0 ≤ y then 2000 - p else -2000 - p
  toRadians := id
  lt := fun a b => decide (a < b)
  le := fun a b => decide (a ≤ b)
  eq := fun a b => decide (a = b)
  parse := parseI32
  disp := showInt
  dot := fun a b => a.x * b.x + a.y * b.y + a.z * b.z
  cross := fun a b => ⟨a.y * b.z - a.z * b.y, a.z * b.x - a.x * b.z, a.x * b.y - a.y * b.x⟩
  normalize := fun a => ⟨a.x.sign, a.y.sign, a.z.sign⟩
  rotate := fun _ _ v => v
  rotate2 := fun _ v => v

end Quarch.Spec
