import Verif.Props.Flat
import Verif.Props.BoxMapExamples
/-
C96 on map files: one face with plain UVs, whose points lie on a line or not.
-/
set_option linter.unusedSectionVars false
namespace Quarch
open Quarch.Spec Quarch.Spec.F32 Quarch.Spec.Box Scene

section
attribute [local instance] refPlatform decimalLib
local instance : DecimalText := decimalLib_reads

def plainWords (a b c : V3 Bool) : List Str :=
  [str! "(", bit a.x, bit a.y, bit a.z, str! ")", str! "(", bit b.x, bit b.y, bit b.z, str! ")",
    str! "(", bit c.x, bit c.y, bit c.z, str! ")", str! "brick", bit false, bit false, bit false, bit true]

def plainPairs (a b c : V3 Bool) : List (Str × Str) :=
  (plainWords a b c).map (fun w => (w, [' '])) ++ [(bit true, [])]

def plainLine (a b c : V3 Bool) : Str := spaced [] (plainPairs a b c)

theorem plainPairs_ok (a b c : V3 Bool) : SpacedOk (plainPairs a b c) := by
  obtain ⟨a1, a2, a3⟩ := a
  obtain ⟨b1, b2, b3⟩ := b
  obtain ⟨c1, c2, c3⟩ := c
  have h : ∀ b, bit b ≠ [] ∧ (∀ c ∈ bit b, isBlank c = false) ∧ (∀ c ∈ ([' '] : Str), isBlank c = true) := by decide
  have h2 : ∀ w ∈ [str! "(", str! ")", str! "brick"],
      w ≠ [] ∧ (∀ c ∈ w, isBlank c = false) ∧ (∀ c ∈ ([' '] : Str), isBlank c = true) := by decide
  have cons : ∀ {w : Str} {l : List (Str × Str)},
      (w ≠ [] ∧ (∀ c ∈ w, isBlank c = false) ∧ (∀ c ∈ ([' '] : Str), isBlank c = true)) → SpacedOk l →
      SpacedOk ((w, [' ']) :: l) := fun h1 h2 => ⟨h1.1, h1.2.1, h1.2.2, by simp, h2⟩
  simp only [plainPairs, plainWords, List.map_cons, List.map_nil, List.cons_append, List.nil_append]
  repeat' first
    | exact (by decide : SpacedOk [(bit true, [])])
    | exact h _
    | refine cons ?_ ?_
    | exact h2 _ (by decide)

theorem plainPairs_words (a b c : V3 Bool) : (plainPairs a b c).map Prod.fst = plainWords a b c ++ [bit true] := by
  unfold plainPairs
  rw [List.map_append, List.map_map]
  exact congrArg (· ++ _) (List.map_id _)

noncomputable def bitNum (b : Bool) : F32 := F32.ofAbs false (step b)

noncomputable def bitPoint (v : V3 Bool) : V3 F32 := ⟨bitNum v.x, bitNum v.y, bitNum v.z⟩

noncomputable def plainFace (a b c : V3 Bool) : BrushPlane F32 :=
  ⟨bitPoint a, bitPoint b, bitPoint c, str! "brick", .quake (bitNum false) (bitNum false), bitNum false,
    ⟨bitNum true, bitNum true⟩, .none⟩

theorem plainLine_reads (a b c : V3 Bool) : FaceText (plainLine a b c) (plainFace a b c) := by
  have hbit : ∀ b, (Arith.parse (bit b) : Option F32) = some (bitNum b) :=
    fun b => DecimalText.reads (bit b) false _ (by cases b <;> decide) (bit_decimal b)
  refine ⟨[], plainPairs a b c, rfl, by simp, plainPairs_ok a b c, ?_⟩
  rw [plainPairs_words]
  refine ⟨⟨hbit _, hbit _, hbit _⟩, ⟨hbit _, hbit _, hbit _⟩, ⟨hbit _, hbit _, hbit _⟩, by rfl,
    ⟨hbit _, hbit _, hbit _, hbit _, hbit _⟩, ?_⟩
  have hp : plainUV F32 (plainWords a b c ++ [bit true]) = true := by
    have h1 : numAt (F := F32) (plainWords a b c ++ [bit true]) 16 = some (bitNum false) := hbit _
    unfold plainUV
    rw [h1]; rfl
  unfold extraWords
  rw [hp]
  exact trivial

theorem plainFace_grid (a b c : V3 Bool) : GridFace 0 (plainFace a b c) (steps a) (steps b) (steps c) ∧
    Near (steps a) (steps b) (steps c) := by
  have num : ∀ b, GridNum 0 (bitNum b) (step b) := by
    intro b
    obtain ⟨h1, h2⟩ := is_ofAbs (s := false) (n := (step b).toNat) (x := step b) (by cases b <;> decide)
      (by cases b <;> simp [step])
    exact ⟨h1, by unfold bitNum; rw [h2]; simp [sv]⟩
  have pt : ∀ v : V3 Bool, GridPoint 0 (bitPoint v) (steps v) := by
    intro v
    refine ⟨num _, num _, num _, fun a => ?_⟩
    have h : ∀ b, (step b).natAbs ≤ 2 ^ 20 := by decide
    cases a <;> exact h _
  refine ⟨⟨by norm_num, pt a, pt b, pt c⟩, fun ax => ?_⟩
  have h : ∀ b b', (step b - step b').natAbs < 4096 := by decide
  cases ax <;> exact ⟨h _ _, h _ _⟩

/-! ### two maps -/

def plainItems (a b c : V3 Bool) : List Spec.Item :=
  [.prop (str! "classname") (str! "worldspawn"), .brush [plainLine a b c]]

noncomputable def plainEntity (a b c : V3 Bool) : Entity F32 :=
  ⟨fun key => lastValue key (plainItems a b c), [⟨[plainFace a b c]⟩]⟩

def lineMap : Str := str! "{\n\"classname\" \"worldspawn\"\n{\n( 0 0 0 ) ( 1 0 1 ) ( 1 0 1 ) brick 0 0 0 1 1\n}\n}\n"
def faceMap : Str := str! "{\n\"classname\" \"worldspawn\"\n{\n( 0 0 0 ) ( 1 0 1 ) ( 1 1 1 ) brick 0 0 0 1 1\n}\n}\n"

set_option maxRecDepth 100000 in
theorem lineMap_tokens : Tokenizer.run Platform.bareCR lineMap =
    .ok (MapFile.toks ⟨[plainItems ⟨false, false, false⟩ ⟨true, false, true⟩ ⟨true, false, true⟩], .none⟩) := by decide

set_option maxRecDepth 100000 in
theorem faceMap_tokens : Tokenizer.run Platform.bareCR faceMap =
    .ok (MapFile.toks ⟨[plainItems ⟨false, false, false⟩ ⟨true, false, true⟩ ⟨true, true, true⟩], .none⟩) := by decide

theorem plain_map {text : Str} {a b c : V3 Bool}
    (h : Tokenizer.run Platform.bareCR text = .ok (MapFile.toks ⟨[plainItems a b c], .none⟩)) :
    MapIs text [plainEntity a b c] := by
  obtain ⟨ls, final, h1, h2, e⟩ := spec_C01_text_is_lines text
  rw [e] at h
  refine ⟨⟨[plainItems a b c], .none⟩, ⟨ls, final, _, e, h1, h2, (C01_line_by_line _ ls final h1 h2 _).1 h, ?_⟩,
    .cons ⟨fun _ => rfl, .cons (.cons (plainLine_reads a b c) .nil) .nil⟩ .nil⟩
  rfl

theorem plain_loads_iff {text : Str} {a b c : V3 Bool}
    (h : Tokenizer.run Platform.bareCR text = .ok (MapFile.toks ⟨[plainItems a b c], .none⟩)) :
    (∃ depth nodes, Quarch.run depth id { boxConfig with mapFile := some text } = .ok nodes) ↔
      ¬ OnLine (steps a) (steps b) (steps c) := by
  rw [C96_loads_iff id (fun _ => .refl _) _ text [plainEntity a b c] rfl (plain_map h) (by
    intro e he b' hb p hp _
    cases List.mem_singleton.1 he
    cases List.mem_singleton.1 hb
    cases List.mem_singleton.1 hp
    exact ⟨0, _, _, _, plainFace_grid a b c⟩)]
  constructor
  · rintro ⟨-, hl, -⟩
    exact hl _ (List.mem_singleton_self _) _ (List.mem_singleton_self _) _ (List.mem_singleton_self _) ⟨_, _, rfl⟩ _ _ _ _
      (plainFace_grid a b c).1
  · intro hl
    refine ⟨⟨[], _, [], rfl, rfl, by simp⟩, ?_, ?_, ?_, no_loop_of_unique (List.pairwise_singleton _ _)⟩
    · intro e he b' hb p hp _ g n0 n1 n2 hg hon
      cases List.mem_singleton.1 he
      cases List.mem_singleton.1 hb
      cases List.mem_singleton.1 hp
      have hn := (spec_C96_no_direction hg hon).1
      have hf := (spec_C96_direction (plainFace_grid a b c).1 (plainFace_grid a b c).2 hl).1
      revert hn hf
      generalize (faceNormal (plainFace a b c)).x = x
      cases x <;> intro hn hf
      · exact hf
      · exact hn
      · exact hn
    · intro e he _
      cases List.mem_singleton.1 he
      exact ⟨_, rfl⟩
    · intro e he _ _ k hk s hs
      cases List.mem_singleton.1 he
      simp only [List.mem_cons, List.not_mem_nil, or_false] at hk
      rcases hk with rfl | rfl <;> cases hs

/-- C96: the points of the face lie on a line, so the map cannot be loaded. -/
example : ¬ ∃ depth nodes, Quarch.run depth id { boxConfig with mapFile := some lineMap } = .ok nodes := by
  rw [plain_loads_iff lineMap_tokens]
  exact fun h => h fun a => by cases a <;> decide

/-- C96: they do not, so it can. -/
example : ∃ depth nodes, Quarch.run depth id { boxConfig with mapFile := some faceMap } = .ok nodes := by
  rw [plain_loads_iff faceMap_tokens]
  exact fun h => absurd (h .x) (by decide)

end

section
variable [F32Lib] [Platform]

theorem gridPoint_int {x y z : Int} (h : ∀ i ∈ [x, y, z], i.natAbs ≤ 2 ^ 20) : GridPoint 0 (int3 x y z) ⟨x, y, z⟩ := by
  have key : ∀ {i : Int}, i.natAbs ≤ 2 ^ 20 → GridNum 0 (F32.ofReal i) i := fun {i} hi => by
    have := is_ofReal (z := i) (by omega)
    exact ⟨this.fin, by rw [this.val]; simp⟩
  simp only [List.mem_cons, List.not_mem_nil, or_false, forall_eq_or_imp, forall_eq] at h
  exact ⟨key h.1, key h.2.1, key h.2.2, fun a => by cases a; exacts [h.1, h.2.1, h.2.2]⟩

/-- C96: a thin triangle. -/
example (textures : TextureInfo) : ∃ m, Geo.run textures
    [(⟨Map.empty, [⟨[octFace (int3 0 0 0) (int3 8192 8193 0) (int3 8191 8192 0)]⟩]⟩ : Entity F32)] = .panic m :=
  (C96_thin_aborts textures _ _ (List.mem_singleton_self _) _ (List.mem_singleton_self _) _ (List.mem_singleton_self _) _ _
    rfl ⟨by norm_num, gridPoint_int (by decide), gridPoint_int (by decide), gridPoint_int (by decide)⟩).2

/-- C96: points on a line far apart. -/
example (textures : TextureInfo) : ∃ m, Geo.run textures
    [(⟨Map.empty, [⟨[octFace (int3 0 0 0) (int3 300000 300000 3) (int3 900000 900000 9)]⟩]⟩ : Entity F32)] = .panic m :=
  C96_line_aborts textures _ _ (List.mem_singleton_self _) _ (List.mem_singleton_self _) _ (List.mem_singleton_self _) _ _
    rfl 0 _ _ _ ⟨by norm_num, gridPoint_int (by decide), gridPoint_int (by decide), gridPoint_int (by decide)⟩
    (fun a => by cases a <;> decide)

end
end Quarch
