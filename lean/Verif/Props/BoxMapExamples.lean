import Verif.Props.BoxMap
import Verif.Props.BoxSolid
import Verif.Props.DrawnExamples
/-
A map with a cube in single precision, for C91 and C92.
-/
set_option linter.unusedSectionVars false
namespace Quarch
open Quarch.Spec Quarch.Spec.F32 Quarch.Spec.Box Scene

/-- The requirement on `atan2` can be met together with the one on reading numbers. -/
theorem decimalLib_quadrant : @QuadrantAtan2 decimalLib := by
  let _ := decimalLib
  refine ⟨fun y x y' x' _ _ _ _ _ _ _ _ _ _ _ _ h => ?_⟩
  have h1 := is_ofReal (z := quadrant (F32.val y) (F32.val x)) (by unfold quadrant; split_ifs <;> norm_num)
  have h2 := is_ofReal (z := quadrant (F32.val y') (F32.val x')) (by unfold quadrant; split_ifs <;> norm_num)
  exact (isG_lt (isG_of_is h1) (isG_of_is h2)).2 (by exact_mod_cast h)

section
attribute [local instance] refPlatform decimalLib

local instance : DecimalText := decimalLib_reads
local instance : QuadrantAtan2 := decimalLib_quadrant

/-- `0` or `1`. -/
def bit (b : Bool) : Str := if b then str! "1" else str! "0"

def step (b : Bool) : Int := if b then 1 else 0

def steps (v : V3 Bool) : V3 Int := ⟨step v.x, step v.y, step v.z⟩

theorem bit_decimal (b : Bool) : Decimal (bit b) false (step b) := by
  refine ⟨bit b, ?_, .inr ⟨rfl, .inl rfl⟩⟩
  cases b
  · have := Mantissa.whole (DecVal.one (c := '0') (d := 0) (by decide) (by decide))
    simpa [bit, step] using this
  · have := Mantissa.whole (DecVal.one (c := '1') (d := 1) (by decide) (by decide))
    simpa [bit, step] using this

theorem bit_num (b : Bool) : NumText 0 (bit b) (step b) :=
  ⟨by cases b <;> decide, false, _, bit_decimal b, by simp⟩

theorem scale_decimal : ∃ x, Decimal (str! "0.015625") false x := by
  have h0 : DecVal ['0'] 0 := .one (by decide) (by decide)
  have h : DecVal (((((['0'] ++ ['1']) ++ ['5']) ++ ['6']) ++ ['2']) ++ ['5'])
      (10 * (10 * (10 * (10 * (10 * 0 + 1) + 5) + 6) + 2) + 5) :=
    .snoc (.snoc (.snoc (.snoc (.snoc h0 (by decide) (by decide)) (by decide) (by decide)) (by decide) (by decide))
      (by decide) (by decide)) (by decide) (by decide)
  exact ⟨_, _, Mantissa.both h0 h, .inr ⟨rfl, .inl rfl⟩⟩

open Classical in
/-- A bracket is not a number. -/
theorem bracket_none : (Arith.parse (str! "[") : Option F32) = none := by
  have dig : ∀ {s : Str} {n : Nat}, DecVal s n → '[' ∉ s ∧ s ≠ [] := by
    intro s n h
    have hc : ∀ {c : Char} {d : Nat}, d < 10 → c.toNat = 48 + d → c ≠ '[' := by
      rintro c d hd hc rfl
      have : ('[' : Char).toNat = 91 := rfl
      omega
    induction h with
    | one h1 h2 => exact ⟨by simpa using (hc h1 h2).symm, by simp⟩
    | snoc _ h1 h2 ih => exact ⟨by simpa using ⟨ih.1, (hc h1 h2).symm⟩, by simp⟩
  have key : ∀ x, ¬ Mantissa (str! "[") x := by
    intro x h
    generalize hs : (str! "[") = s at h
    cases h with
    | whole h => exact (dig h).1 (by rw [← hs]; decide)
    | point h =>
      have := congrArg List.getLast? hs
      simp at this
    | fraction h => cases hs
    | both h h' =>
      have h1 := (dig h).2
      have h2 := congrArg List.length hs
      rw [← List.length_pos_iff_ne_nil] at h1
      simp at h2
      omega
  have hno : ¬ ∃ p : Bool × ℝ, Decimal (str! "[") p.1 p.2 := by
    rintro ⟨p, m, hm, ⟨-, h⟩ | ⟨-, h | h⟩⟩
    · cases h
    · subst h; exact key _ hm
    · cases h
  change (if h : ∃ p : Bool × ℝ, Decimal (str! "[") p.1 p.2 then some (F32.ofAbs h.choose.1 h.choose.2) else none) = _
  rw [dif_neg hno]

/-! ### the face lines -/

def lineWords (a b c : V3 Bool) : List Str :=
  [str! "(", bit a.x, bit a.y, bit a.z, str! ")", str! "(", bit b.x, bit b.y, bit b.z, str! ")",
    str! "(", bit c.x, bit c.y, bit c.z, str! ")", str! "brick",
    str! "[", bit false, bit true, bit false, bit false, str! "]", str! "[", bit false, bit false, bit true, bit false,
    str! "]", bit false, str! "0.015625"]

/-- The words with a blank after each but the last. -/
def linePairs (a b c : V3 Bool) : List (Str × Str) :=
  (lineWords a b c).map (fun w => (w, [' '])) ++ [(str! "0.015625", [])]

def faceLine (a b c : V3 Bool) : Str := spaced [] (linePairs a b c)

theorem linePairs_ok (a b c : V3 Bool) : SpacedOk (linePairs a b c) := by
  obtain ⟨a1, a2, a3⟩ := a
  obtain ⟨b1, b2, b3⟩ := b
  obtain ⟨c1, c2, c3⟩ := c
  have h : ∀ b, bit b ≠ [] ∧ (∀ c ∈ bit b, isBlank c = false) ∧ (∀ c ∈ ([' '] : Str), isBlank c = true) := by decide
  have h2 : ∀ w ∈ [str! "(", str! ")", str! "[", str! "]", str! "brick", str! "0.015625"],
      w ≠ [] ∧ (∀ c ∈ w, isBlank c = false) ∧ (∀ c ∈ ([' '] : Str), isBlank c = true) := by decide
  have cons : ∀ {w : Str} {l : List (Str × Str)},
      (w ≠ [] ∧ (∀ c ∈ w, isBlank c = false) ∧ (∀ c ∈ ([' '] : Str), isBlank c = true)) → SpacedOk l →
      SpacedOk ((w, [' ']) :: l) := fun h1 h2 => ⟨h1.1, h1.2.1, h1.2.2, by simp, h2⟩
  simp only [linePairs, lineWords, List.map_cons, List.map_nil, List.cons_append, List.nil_append]
  repeat' first
    | exact (by decide : SpacedOk [(str! "0.015625", [])])
    | exact h _
    | refine cons ?_ ?_
    | exact h2 _ (by decide)

theorem linePairs_words (a b c : V3 Bool) :
    (linePairs a b c).map Prod.fst = lineWords a b c ++ [str! "0.015625"] := by
  unfold linePairs
  rw [List.map_append, List.map_map]
  exact congrArg (· ++ _) (List.map_id _)

theorem faceLine_reads (a b c : V3 Bool) : ∃ p : BrushPlane F32, FaceText (faceLine a b c) p := by
  obtain ⟨x, hx⟩ := scale_decimal
  have hbit : ∀ b, (Arith.parse (bit b) : Option F32) = some (F32.ofAbs false (step b)) :=
    fun b => DecimalText.reads (bit b) false _ (by cases b <;> decide) (bit_decimal b)
  have hscale : (Arith.parse (str! "0.015625") : Option F32) = some (F32.ofAbs false x) :=
    DecimalText.reads _ false _ (by decide) hx
  let n := fun b : Bool => F32.ofAbs false (step b)
  refine ⟨⟨⟨n a.x, n a.y, n a.z⟩, ⟨n b.x, n b.y, n b.z⟩, ⟨n c.x, n c.y, n c.z⟩, str! "brick",
    .valve ⟨n false, n true, n false⟩ (n false) ⟨n false, n false, n true⟩ (n false), n false,
    ⟨F32.ofAbs false x, F32.ofAbs false x⟩, .none⟩, [], linePairs a b c, rfl, by simp, linePairs_ok a b c, ?_⟩
  rw [linePairs_words]
  refine ⟨⟨hbit _, hbit _, hbit _⟩, ⟨hbit _, hbit _, hbit _⟩, ⟨hbit _, hbit _, hbit _⟩, by rfl, ?_, ?_⟩
  · exact ⟨bracket_none, hbit _, hbit _, hbit _, hbit _, hbit _, hbit _, hbit _, hbit _, hbit _, hscale, hscale⟩
  · have hp : plainUV F32 (lineWords a b c ++ [str! "0.015625"]) = false := by
      have : numAt (F := F32) (lineWords a b c ++ [str! "0.015625"]) 16 = none := bracket_none
      unfold plainUV
      rw [this]; rfl
    unfold extraWords
    rw [hp]
    exact trivial

theorem pointText_bits {ws : List Str} {i : Nat} {v : V3 Bool} (hx : ws[i]? = some (bit v.x))
    (hy : ws[i + 1]? = some (bit v.y)) (hz : ws[i + 2]? = some (bit v.z)) : PointText 0 ws i (steps v) := by
  refine ⟨⟨_, hx, bit_num _⟩, ⟨_, hy, bit_num _⟩, ⟨_, hz, bit_num _⟩, fun a => ?_⟩
  have h : ∀ b, (step b).natAbs ≤ 2 ^ 20 := by decide
  cases a <;> exact h _

theorem faceLine_side (a b c : V3 Bool) (ax : Axis) (up : Bool) (k : Int) (d : Axis)
    (hs : SidePoints ax up k (steps a) (steps b) (steps c)) (hd : d ≠ ax) (he : EdgePoints d (steps a) (steps b)) :
    SideText 0 ax up k d (faceLine a b c) := by
  refine ⟨[], linePairs a b c, rfl, by simp, linePairs_ok a b c, steps a, steps b, steps c, ?_, ?_, ?_, hs, hd, he⟩
  all_goals
    rw [linePairs_words]
    exact pointText_bits rfl rfl rfl

/-- Whatever box a line is said to give a side of, the side is at 0 or 1. -/
theorem faceLine_coordinate {a b c : V3 Bool} {g : Nat} {ax d : Axis} {up : Bool} {k : Int}
    (h : SideText g ax up k d (faceLine a b c)) : (k : ℝ) / 2 ^ g = 0 ∨ (k : ℝ) / 2 ^ g = 1 := by
  obtain ⟨lead, ws, e, h1, h2, n0, n1, n2, t0, _, _, hs, _⟩ := h
  have hw : ws.map Prod.fst = lineWords a b c ++ [str! "0.015625"] := by
    have e1 := splitWhitespace_spaced h1 h2
    rw [← e] at e1
    rw [← e1, ← linePairs_words]
    exact splitWhitespace_spaced (by simp) (linePairs_ok a b c)
  rw [hw] at t0
  have key : ∀ {v : Bool} {i : Nat} {m : Int}, (∃ w, (lineWords a b c ++ [str! "0.015625"])[i]? = some w ∧ NumText g w m) →
      (lineWords a b c ++ [str! "0.015625"])[i]? = some (bit v) → (m : ℝ) / 2 ^ g = step v := by
    rintro v i m ⟨w, hw, -, neg, x, hd, hx⟩ hv
    rw [hv] at hw
    cases hw
    obtain ⟨rfl, rfl⟩ := decimal_unique hd (bit_decimal v)
    rw [← hx]
    rfl
  have fin : ∀ v : Bool, ((step v : Int) : ℝ) = 0 ∨ ((step v : Int) : ℝ) = 1 := by
    intro v
    cases v
    · left; simp [step]
    · right; simp [step]
  have hk := hs.1
  cases ax
  · have := key t0.x (v := a.x) rfl
    simp only [Axis.of] at hk
    rw [hk] at this
    rw [this]; exact fin _
  · have := key t0.y (v := a.y) rfl
    simp only [Axis.of] at hk
    rw [hk] at this
    rw [this]; exact fin _
  · have := key t0.z (v := a.z) rfl
    simp only [Axis.of] at hk
    rw [hk] at this
    rw [this]; exact fin _

/-! ### the map -/

def boxFaces : List Str :=
  [faceLine ⟨true, false, false⟩ ⟨true, false, true⟩ ⟨true, true, false⟩,
   faceLine ⟨false, false, false⟩ ⟨false, true, false⟩ ⟨false, false, true⟩,
   faceLine ⟨false, true, false⟩ ⟨true, true, false⟩ ⟨false, true, true⟩,
   faceLine ⟨false, false, false⟩ ⟨false, false, true⟩ ⟨true, false, false⟩,
   faceLine ⟨false, false, true⟩ ⟨false, true, true⟩ ⟨true, false, true⟩,
   faceLine ⟨false, false, false⟩ ⟨true, false, false⟩ ⟨false, true, false⟩]

theorem boxFaces_mem {line : Str} (h : line ∈ boxFaces) : ∃ a b c, line = faceLine a b c := by
  simp only [boxFaces, List.mem_cons, List.not_mem_nil, or_false] at h
  rcases h with rfl | rfl | rfl | rfl | rfl | rfl <;> exact ⟨_, _, _, rfl⟩

/-- The unit cube. -/
def unitBox : GridBox where
  g := 0
  lo := ⟨0, 0, 0⟩
  hi := ⟨1, 1, 1⟩
  fine := by norm_num
  lt a := by cases a <;> simp [Axis.of]
  lo_small a := by cases a <;> simp [Axis.of]
  hi_small a := by cases a <;> simp [Axis.of]

theorem boxFaces_text : BoxText unitBox boxFaces := by
  have key : ∀ (a b c : V3 Bool) (ax : Axis) (up : Bool) (d : Axis), d ≠ ax →
      ax.of (steps a) = unitBox.side ax up → ax.of (steps b) = unitBox.side ax up →
      ax.of (steps c) = unitBox.side ax up → Spec.turn ax (steps a) (steps c) (steps b) = (if up then 1 else -1) →
      (∀ b', b' ≠ d → b'.of (steps b) = b'.of (steps a)) → (d.of (steps b) - d.of (steps a)).natAbs = 1 →
      SideText unitBox.g ax up (unitBox.side ax up) d (faceLine a b c) := by
    intro a b c ax up d hd h0 h1 h2 ht he hl
    have small : ∀ x y : Bool, (step x - step y).natAbs ≤ 2048 := by decide
    refine faceLine_side a b c ax up _ d ⟨h0, h1, h2, fun b' => ?_, 1, ?_, .inl ⟨0, rfl⟩⟩ hd ⟨he, .inl ⟨0, hl⟩⟩
    · cases b' <;> exact ⟨small _ _, small _ _⟩
    · rw [ht]; simp
  have edge : ∀ {d : Axis} {P : Axis → Prop}, (∀ b' ∈ [Axis.x, .y, .z], b' ≠ d → P b') → ∀ b', b' ≠ d → P b' :=
    fun h b' => h b' (by cases b' <;> decide)
  have k1 := key ⟨true, false, false⟩ ⟨true, false, true⟩ ⟨true, true, false⟩ .x true .z (by decide) rfl rfl rfl rfl
    (edge (by decide)) rfl
  have k2 := key ⟨false, false, false⟩ ⟨false, true, false⟩ ⟨false, false, true⟩ .x false .y (by decide) rfl rfl rfl rfl
    (edge (by decide)) rfl
  have k3 := key ⟨false, true, false⟩ ⟨true, true, false⟩ ⟨false, true, true⟩ .y true .x (by decide) rfl rfl rfl rfl
    (edge (by decide)) rfl
  have k4 := key ⟨false, false, false⟩ ⟨false, false, true⟩ ⟨true, false, false⟩ .y false .z (by decide) rfl rfl rfl rfl
    (edge (by decide)) rfl
  have k5 := key ⟨false, false, true⟩ ⟨false, true, true⟩ ⟨true, false, true⟩ .z true .y (by decide) rfl rfl rfl rfl
    (edge (by decide)) rfl
  have k6 := key ⟨false, false, false⟩ ⟨true, false, false⟩ ⟨false, true, false⟩ .z false .x (by decide) rfl rfl rfl rfl
    (edge (by decide)) rfl
  constructor
  · intro line hl
    simp only [boxFaces, List.mem_cons, List.not_mem_nil, or_false] at hl
    rcases hl with rfl | rfl | rfl | rfl | rfl | rfl
    exacts [⟨_, _, _, k1⟩, ⟨_, _, _, k2⟩, ⟨_, _, _, k3⟩, ⟨_, _, _, k4⟩, ⟨_, _, _, k5⟩, ⟨_, _, _, k6⟩]
  · intro a up
    cases a <;> cases up
    exacts [⟨_, by simp [boxFaces], _, k2⟩, ⟨_, by simp [boxFaces], _, k1⟩, ⟨_, by simp [boxFaces], _, k4⟩,
      ⟨_, by simp [boxFaces], _, k3⟩, ⟨_, by simp [boxFaces], _, k6⟩, ⟨_, by simp [boxFaces], _, k5⟩]

def boxItems : List Spec.Item := [.prop (str! "classname") (str! "worldspawn"), .brush boxFaces]

def boxFile : MapFile := ⟨[boxItems], .none⟩

set_option maxRecDepth 100000 in
theorem boxFile_toks : boxFile.toks = cubeTokens := by decide

theorem boxFile_text : TextIs cubeMap boxFile := by
  obtain ⟨ls, final, h1, h2, e⟩ := spec_C01_text_is_lines cubeMap
  have ht := cube_tokens
  rw [e] at ht
  refine ⟨ls, final, cubeTokens, e, h1, h2, (C01_line_by_line _ ls final h1 h2 _).1 ht, ?_⟩
  rw [boxFile_toks]
  rfl

theorem boxMap_is : ∃ planes : List (BrushPlane F32),
    MapIs cubeMap [(⟨fun key => lastValue key boxItems, [⟨planes⟩]⟩ : Entity F32)] := by
  obtain ⟨planes, hp⟩ := exists_forall₂ (R := fun line (p : BrushPlane F32) => FaceText line p) (l := boxFaces)
    (fun line hl => by
      obtain ⟨a, b, c, rfl⟩ := boxFaces_mem hl
      exact faceLine_reads a b c)
  exact ⟨planes, boxFile, boxFile_text, .cons ⟨fun _ => rfl, .cons hp .nil⟩ .nil⟩

/-- The worldspawn has a mesh; no texture is known. -/
noncomputable def boxConfig : Config F32 :=
  ⟨some cubeMap, fun _ => none, ⟨[], []⟩, ⟨[], [], []⟩,
    ⟨[⟨str! "worldspawn", .brush ⟨.cls (str! "world"), .script [], .properties, Map.empty⟩ ⟨.mesh, .convex⟩⟩], []⟩⟩

/-- The map loads; a point of the top of the cube is drawn, a point inside is not. -/
example : ∃ nodes, Quarch.run 1 id boxConfig = .ok nodes ∧ Drawn32 nodes ⟨1 / 2, 1 / 3, 1⟩ ∧
    ¬ Drawn32 nodes ⟨1 / 2, 1 / 2, 1 / 2⟩ := by
  obtain ⟨planes, hm⟩ := boxMap_is
  have hno : ¬ Loop [(⟨fun key => lastValue key boxItems, [⟨planes⟩]⟩ : Entity F32)] :=
    no_loop_of_unique (List.pairwise_singleton _ _)
  obtain ⟨nodes, hn, h⟩ := C91_loads 1 id (fun _ => .refl _) boxConfig cubeMap rfl boxFile boxFile_text
    (fun block hb faces hf => by
      cases List.mem_singleton.1 hb
      simp only [boxItems, List.mem_cons, reduceCtorEq, false_or, List.not_mem_nil, or_false, Spec.Item.brush.injEq] at hf
      subst hf
      exact ⟨unitBox, boxFaces_text⟩) _ hm ⟨[], _, [], rfl, rfl, by simp⟩
    (fun e he => by cases List.mem_singleton.1 he; exact ⟨_, rfl⟩)
    (fun e he k hk s hs => by
      cases List.mem_singleton.1 he
      simp only [List.mem_cons, List.not_mem_nil, or_false] at hk
      rcases hk with rfl | rfl <;> cases hs) hno (by simp)
  have key := h
    (fun e he => by cases List.mem_singleton.1 he; exact .world rfl)
    (fun e he br hbr p hp => by
      cases List.mem_singleton.1 he
      cases List.mem_singleton.1 hbr
      refine .inr ⟨?_, ⟨_, _, _, ⟨str! "worldspawn", rfl, [], [], rfl, rfl, by simp⟩, rfl, rfl⟩, ⟨p, hp, ?_⟩, ?_⟩
      · rintro t ⟨_, _, hall⟩
        cases hall p hp
      · intro t ht; cases ht
      · intro t ht; cases ht)
  refine ⟨nodes, hn, (key _).2 ⟨boxItems, by simp [boxFile, MapFile.blocks], boxFaces, by simp [boxItems], unitBox,
    boxFaces_text, .z, true, ?_⟩, fun hd => ?_⟩
  · refine ⟨by simp [Axis.of, unitBox, GridBox.side], fun c => ?_⟩
    cases c <;> norm_num [Axis.of, unitBox]
  · obtain ⟨block, hb, faces, hf, b, hbt, a, up, hx, -⟩ := (key _).1 hd
    cases List.mem_singleton.1 hb
    simp only [boxItems, List.mem_cons, reduceCtorEq, false_or, List.not_mem_nil, or_false, Spec.Item.brush.injEq] at hf
    subst hf
    obtain ⟨line, hl, d, hs⟩ := hbt.2 a up
    obtain ⟨u, v, w, rfl⟩ := boxFaces_mem hl
    have := faceLine_coordinate hs
    rw [← hx] at this
    cases a <;> norm_num [Axis.of] at this

/-- C93: the collision of the map is the cube: it has the middle, but no point above the top. -/
example : ∃ nodes, Quarch.run 1 id boxConfig = .ok nodes ∧ InSolid32 nodes ⟨1 / 2, 1 / 2, 1 / 2⟩ ∧
    ¬ InSolid32 nodes ⟨1 / 2, 1 / 2, 3 / 2⟩ := by
  obtain ⟨planes, hm⟩ := boxMap_is
  obtain ⟨nodes, hn, h⟩ := C93_loads 1 id (fun _ => .refl _) boxConfig cubeMap rfl boxFile boxFile_text
    (fun block hb faces hf => by
      cases List.mem_singleton.1 hb
      simp only [boxItems, List.mem_cons, reduceCtorEq, false_or, List.not_mem_nil, or_false, Spec.Item.brush.injEq] at hf
      subst hf
      exact ⟨unitBox, boxFaces_text⟩) _ hm ⟨[], _, [], rfl, rfl, by simp⟩
    (fun e he => by cases List.mem_singleton.1 he; exact ⟨_, rfl⟩)
    (fun e he k hk s hs => by
      cases List.mem_singleton.1 he
      simp only [List.mem_cons, List.not_mem_nil, or_false] at hk
      rcases hk with rfl | rfl <;> cases hs) (no_loop_of_unique (List.pairwise_singleton _ _)) (by simp)
  have hne : planes ≠ [] := by
    have k := C91_text cubeMap boxFile boxFile_text _ ((C92_text _ _).2 hm)
    obtain ⟨e, he, hbe⟩ := forall₂_left k (a := boxItems) (by simp [boxFile, MapFile.blocks])
    cases List.mem_singleton.1 he
    obtain ⟨br, hbr, hfb⟩ := forall₂_left hbe (a := boxFaces) (by simp [boxItems, Spec.Item.faces?])
    cases List.mem_singleton.1 hbr
    exact brush_nonempty (hfb unitBox boxFaces_text).1
  have key := (h (fun e he => by cases List.mem_singleton.1 he; exact .world rfl)).1
    (fun e he br hbr => by
      cases List.mem_singleton.1 he
      cases List.mem_singleton.1 hbr
      refine .inr ⟨?_, ⟨_, _, _, ⟨str! "worldspawn", rfl, [], [], rfl, rfl, by simp⟩, rfl, rfl⟩⟩
      rintro t ⟨_, _, hall⟩
      obtain ⟨p, hp⟩ := List.exists_mem_of_ne_nil _ hne
      cases hall p hp)
  refine ⟨nodes, hn, (key _).2 ⟨boxItems, by simp [boxFile, MapFile.blocks], boxFaces, by simp [boxItems], unitBox,
    boxFaces_text, fun c => ?_⟩, fun hd => ?_⟩
  · cases c <;> norm_num [Axis.of, unitBox]
  · obtain ⟨block, hb, faces, hf, b, hbt, hx⟩ := (key _).1 hd
    cases List.mem_singleton.1 hb
    simp only [boxItems, List.mem_cons, reduceCtorEq, false_or, List.not_mem_nil, or_false, Spec.Item.brush.injEq] at hf
    subst hf
    obtain ⟨line, hl, d, hs⟩ := hbt.2 .z true
    obtain ⟨u, v, w, rfl⟩ := boxFaces_mem hl
    have h1 := faceLine_coordinate hs
    have h2 := (hx .z).2
    simp only [GridBox.side, if_true] at h1
    rcases h1 with h1 | h1 <;> rw [h1] at h2 <;> norm_num [Axis.of] at h2

/-- C92: the map meets the requirements. -/
example : ∃ entities, Loadable boxConfig entities := by
  refine (C92_loads_iff id (fun _ => .refl _) boxConfig).1 ?_
  obtain ⟨planes, hm⟩ := boxMap_is
  obtain ⟨nodes, hn, -⟩ := C91_loads 1 id (fun _ => .refl _) boxConfig cubeMap rfl boxFile boxFile_text
    (fun block hb faces hf => by
      cases List.mem_singleton.1 hb
      simp only [boxItems, List.mem_cons, reduceCtorEq, false_or, List.not_mem_nil, or_false, Spec.Item.brush.injEq] at hf
      subst hf
      exact ⟨unitBox, boxFaces_text⟩) _ hm ⟨[], _, [], rfl, rfl, by simp⟩
    (fun e he => by cases List.mem_singleton.1 he; exact ⟨_, rfl⟩)
    (fun e he k hk s hs => by
      cases List.mem_singleton.1 he
      simp only [List.mem_cons, List.not_mem_nil, or_false] at hk
      rcases hk with rfl | rfl <;> cases hs) (no_loop_of_unique (List.pairwise_singleton _ _)) (by simp)
  exact ⟨1, nodes, hn⟩

/-- C92: a map without a worldspawn is not loaded. -/
example : ¬ ∃ depth nodes, Quarch.run depth id { boxConfig with mapFile := some (str! "// nothing") } = .ok nodes := by
  rw [C92_loads_iff id (fun _ => .refl _)]
  rintro ⟨entities, h⟩
  obtain ⟨text, ht, hm⟩ := h.text
  cases ht
  have h0 : LoadsAs (str! "// nothing") ([] : List (Entity F32)) := ⟨[.comment (str! "// nothing")], _, rfl, rfl⟩
  have := ((C92_text _ _).2 hm).unique h0
  subst this
  obtain ⟨pre, w, post, e, -⟩ := h.world
  cases pre <;> cases e

end
end Quarch
