import Verif.Props.WadExamples
/-
C113: the parsers of WAD records.
-/
set_option linter.unusedSectionVars false
namespace Quarch
open Spec Wad

namespace Spec
/-- The parser reads a record of `n` bytes: with fewer it fails; otherwise it succeeds, what it returns is determined by
the first `n` bytes, and it leaves all others. -/
def FixedSize {α : Type} (p : Wad.Bytes → Option (Wad.Bytes × α)) (n : Nat) : Prop :=
  (∀ bs, bs.length < n → p bs = none) ∧
  ∀ bs, bs.length = n → ∃ r, ∀ rest, p (bs ++ rest) = some (rest, r)
end Spec

theorem fixed_pure {α : Type} (a : α) : FixedSize (fun i => some (i, a)) 0 :=
  ⟨fun _ h => absurd h (by omega), fun bs h => ⟨a, fun rest => by rw [List.length_eq_zero_iff.1 h]; rfl⟩⟩

theorem fixed_u8 : FixedSize leU8 1 := by
  refine ⟨fun bs h => ?_, fun bs h => ?_⟩
  · rw [List.length_eq_zero_iff.1 (by omega : bs.length = 0)]; rfl
  · obtain ⟨b, rfl⟩ := List.length_eq_one_iff.1 h
    exact ⟨b, fun _ => rfl⟩

theorem fixed_char : FixedSize anychar 1 := by
  refine ⟨fun bs h => ?_, fun bs h => ?_⟩
  · rw [List.length_eq_zero_iff.1 (by omega : bs.length = 0)]; rfl
  · obtain ⟨b, rfl⟩ := List.length_eq_one_iff.1 h
    exact ⟨latin1 b, fun _ => rfl⟩

theorem fixed_u16 : FixedSize leU16 2 := by
  refine ⟨fun bs h => ?_, fun bs h => ?_⟩
  · match bs, h with
    | [], _ => rfl
    | [_], _ => rfl
  · match bs, h with
    | [a, b], _ => exact ⟨_, fun _ => rfl⟩

theorem fixed_u32 : FixedSize leU32 4 := by
  refine ⟨fun bs h => ?_, fun bs h => ?_⟩
  · match bs, h with
    | [], _ => rfl
    | [_], _ => rfl
    | [_, _], _ => rfl
    | [_, _, _], _ => rfl
  · match bs, h with
    | [a, b, c, d], _ => exact ⟨_, fun _ => rfl⟩

theorem fixed_then {α β : Type} {p : Parser α} {f : α → Parser β} {m n : Nat} (hp : FixedSize p m)
    (hf : ∀ a, FixedSize (f a) n) : FixedSize (andThen p f) (m + n) := by
  refine ⟨fun bs h => ?_, fun bs h => ?_⟩
  · unfold andThen
    by_cases hm : bs.length < m
    · rw [hp.1 bs hm]
    · obtain ⟨r, hr⟩ := hp.2 (bs.take m) (by simp; omega)
      have h1 := hr (bs.drop m)
      rw [List.take_append_drop] at h1
      rw [h1]
      exact (hf r).1 _ (by simp; omega)
  · obtain ⟨r, hr⟩ := hp.2 (bs.take m) (by simp; omega)
    obtain ⟨s, hs⟩ := (hf r).2 (bs.drop m) (by simp; omega)
    refine ⟨s, fun rest => ?_⟩
    have h1 := hr (bs.drop m ++ rest)
    rw [← List.append_assoc, List.take_append_drop] at h1
    unfold andThen
    rw [h1]
    exact hs rest

theorem count_then {α : Type} (p : Parser α) (n : Nat) :
    count p (n + 1) = andThen p fun a => andThen (count p n) fun as => fun i => some (i, a :: as) := by
  funext i
  unfold andThen
  conv_lhs => unfold count
  cases p i with
  | none => rfl
  | some x =>
    simp only
    cases count p n x.1 <;> rfl

theorem fixed_count {α : Type} {p : Parser α} {m : Nat} (hp : FixedSize p m) (n : Nat) :
    FixedSize (count p n) (n * m) := by
  induction n with
  | zero =>
    rw [Nat.zero_mul]
    refine ⟨fun _ h => absurd h (by omega), fun bs h => ⟨[], fun rest => ?_⟩⟩
    rw [List.length_eq_zero_iff.1 h]; rfl
  | succ n ih =>
    rw [count_then, Nat.succ_mul, Nat.add_comm]
    exact fixed_then hp fun _ => fixed_then (n := 0) ih fun _ => fixed_pure _

/-- C113 Every record has a fixed size: a WAD header 12 bytes, a directory entry 32, the header of a texture 40, a
palette 768, a colour 3 and a mip level as many as it has pixels. -/
theorem C113_sizes : FixedSize headerParser 12 ∧ FixedSize entryParser 32 ∧ FixedSize mipTextureParser 40 ∧
    FixedSize paletteParser 768 ∧ FixedSize colorParser 3 ∧ ∀ n, FixedSize (mipLevelParser n) n := by
  have hc : FixedSize colorParser 3 :=
    fixed_then fixed_u8 fun _ => fixed_then fixed_u8 fun _ => fixed_then (n := 0) fixed_u8 fun _ => fixed_pure _
  refine ⟨?_, ?_, ?_, fixed_count hc 256, hc, fun n => ?_⟩
  · exact fixed_then (m := 4 * 1) (fixed_count fixed_char 4) fun _ => fixed_then fixed_u32 fun _ =>
      fixed_then (n := 0) fixed_u32 fun _ => fixed_pure _
  · exact fixed_then fixed_u32 fun _ => fixed_then fixed_u32 fun _ => fixed_then fixed_u32 fun _ =>
      fixed_then fixed_char fun _ => fixed_then fixed_u8 fun _ => fixed_then fixed_u16 fun _ =>
      fixed_then (m := 16 * 1) (n := 0) (fixed_count fixed_char 16) fun _ => fixed_pure _
  · exact fixed_then (m := 16 * 1) (fixed_count fixed_char 16) fun _ => fixed_then fixed_u32 fun _ =>
      fixed_then fixed_u32 fun _ => fixed_then fixed_u32 fun _ => fixed_then fixed_u32 fun _ =>
      fixed_then fixed_u32 fun _ => fixed_then (n := 0) fixed_u32 fun _ => fixed_pure _
  · have := fixed_count fixed_u8 n
    rwa [Nat.mul_one] at this

/-- C113 A mip level is its bytes. -/
theorem C113_level (bs rest : Bytes) : mipLevelParser bs.length (bs ++ rest) = some (rest, bs) :=
  count_leU8 bs rest

/-- C113 Whatever is parsed as a palette: 256 colours, and colour `i` has the bytes `3 i`, `3 i + 1`, `3 i + 2`. -/
theorem C113_palette (bs rest : Bytes) (p : Palette) (h : paletteParser bs = some (rest, p)) :
    p.length = 256 ∧ rest = bs.drop 768 ∧ ∀ i (hi : i < p.length),
      bs[3 * i]? = some p[i].r ∧ bs[3 * i + 1]? = some p[i].g ∧ bs[3 * i + 2]? = some p[i].b := by
  have key : ∀ n (bs rest : Bytes) (p : Palette), count colorParser n bs = some (rest, p) →
      p.length = n ∧ rest = bs.drop (3 * n) ∧ ∀ i (hi : i < p.length),
      bs[3 * i]? = some p[i].r ∧ bs[3 * i + 1]? = some p[i].g ∧ bs[3 * i + 2]? = some p[i].b := by
    intro n
    induction n with
    | zero =>
      intro bs rest p h
      cases h
      exact ⟨rfl, rfl, fun i hi => absurd hi (by simp)⟩
    | succ n ih =>
      intro bs rest p h
      match bs, h with
      | r :: g :: b :: bs, h =>
        simp only [count, colorParser, andThen, leU8] at h
        split at h
        · rename_i i as hc
          cases h
          obtain ⟨h1, h2, h3⟩ := ih bs rest as hc
          refine ⟨by simp [h1], by rw [h2, Nat.mul_succ]; rfl, fun i hi => ?_⟩
          cases i with
          | zero => exact ⟨rfl, rfl, rfl⟩
          | succ i =>
            have := h3 i (by simpa using hi)
            simpa [Nat.mul_succ] using this
        · cases h
  exact key 256 bs rest p h

/-- C113: eleven bytes are no header; twelve are, and nothing after them is read. -/
example : headerParser (List.replicate 11 7) = none ∧
    ∃ r, ∀ rest, headerParser ([87, 65, 68, 50, 1, 0, 0, 0, 12, 0, 0, 0] ++ rest) = some (rest, r) :=
  ⟨C113_sizes.1.1 _ (by decide), C113_sizes.1.2 _ (by decide)⟩

set_option maxRecDepth 100000 in
/-- C113: the last colour of a palette with one byte after it. -/
example : ∃ p, paletteParser (List.replicate 765 0 ++ [1, 2, 3, 9]) = some ([9], p) ∧ p[255]? = some ⟨1, 2, 3⟩ := by
  obtain ⟨p, hp⟩ := C113_sizes.2.2.2.1.2 (List.replicate 765 0 ++ [1, 2, 3]) (by simp)
  have h := hp [9]
  rw [List.append_assoc] at h
  refine ⟨p, h, ?_⟩
  obtain ⟨h1, _, h3⟩ := C113_palette _ _ _ h
  obtain ⟨a, b, c⟩ := h3 255 (by omega)
  rw [List.getElem?_append_right (by simp)] at a b c
  simp only [List.length_replicate] at a b c
  rw [List.getElem?_eq_getElem (by omega)]
  generalize hq : p[255] = q at a b c
  obtain ⟨r, g, bl⟩ := q
  simp at a b c
  subst a b c
  rfl

/-- C113: the pixels of a texture. -/
example : mipLevelParser 4 [1, 2, 3, 4, 5] = some ([5], [1, 2, 3, 4]) := C113_level [1, 2, 3, 4] [5]
end Quarch
