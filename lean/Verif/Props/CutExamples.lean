import Verif.Props.Cut
import Verif.Props.TwiceExamples
/-
A box of two units, cut in the middle, for C143.
-/
set_option linter.unusedSectionVars false
namespace Quarch
open Spec Scene Geo

section
variable [RealText] [Platform]

/-- The plane looks along a coordinate axis and is at a whole coordinate. -/
def OnAxis (p : BrushPlane ℝ) : Prop := ∃ (s : ℝ) (k : ℤ), (s = 1 ∨ s = -1) ∧
  ((rawNormal p = ⟨s, 0, 0⟩ ∧ p.v0.x = k) ∨ (rawNormal p = ⟨0, s, 0⟩ ∧ p.v0.y = k) ∨ (rawNormal p = ⟨0, 0, s⟩ ∧ p.v0.z = k))

theorem onAxis_len {p : BrushPlane ℝ} (h : OnAxis p) : lenR (rawNormal p) = 1 := by
  obtain ⟨s, k, rfl | rfl, ⟨e, _⟩ | ⟨e, _⟩ | ⟨e, _⟩⟩ := h <;> rw [e] <;> norm_num [lenR, dotR]

theorem onAxis_det {p q r : BrushPlane ℝ} (hp : OnAxis p) (hq : OnAxis q) (hr : OnAxis r) :
    unitDet p q r = 0 ∨ unitDet p q r = 1 ∨ unitDet p q r = -1 := by
  unfold unitDet
  rw [onAxis_len hp, onAxis_len hq, onAxis_len hr]
  obtain ⟨s, _, hs, hp⟩ := hp
  obtain ⟨t, _, ht, hq⟩ := hq
  obtain ⟨u, _, hu, hr⟩ := hr
  rcases hp with ⟨e, _⟩ | ⟨e, _⟩ | ⟨e, _⟩ <;> rcases hq with ⟨e', _⟩ | ⟨e', _⟩ | ⟨e', _⟩ <;>
    rcases hr with ⟨e'', _⟩ | ⟨e'', _⟩ | ⟨e'', _⟩ <;> rw [e, e', e''] <;> simp only [detR, crossR, dotR] <;>
    rcases hs with rfl | rfl <;> rcases ht with rfl | rfl <;> rcases hu with rfl | rfl <;> norm_num

/-- On three such planes that meet in a point, all coordinates are whole. -/
theorem onAxis_whole {p q r : BrushPlane ℝ} (hp : OnAxis p) (hq : OnAxis q) (hr : OnAxis r) (hd : unitDet p q r ≠ 0)
    {x : V3 ℝ} (h1 : OnPlane p x) (h2 : OnPlane q x) (h3 : OnPlane r x) : ∃ a b c : ℤ, x = ⟨a, b, c⟩ := by
  have key : ∀ {p : BrushPlane ℝ}, OnAxis p → OnPlane p x →
      ((∃ s, rawNormal p = ⟨s, 0, 0⟩) ∧ ∃ k : ℤ, x.x = k) ∨ ((∃ s, rawNormal p = ⟨0, s, 0⟩) ∧ ∃ k : ℤ, x.y = k) ∨
        ((∃ s, rawNormal p = ⟨0, 0, s⟩) ∧ ∃ k : ℤ, x.z = k) := by
    rintro p ⟨s, k, hs, ⟨e, hk⟩ | ⟨e, hk⟩ | ⟨e, hk⟩⟩ h <;> unfold OnPlane at h <;> rw [e] at h <;>
      simp only [dotR, subR] at h
    · refine .inl ⟨⟨s, e⟩, k, ?_⟩
      rcases hs with rfl | rfl <;> linarith
    · refine .inr (.inl ⟨⟨s, e⟩, k, ?_⟩)
      rcases hs with rfl | rfl <;> linarith
    · refine .inr (.inr ⟨⟨s, e⟩, k, ?_⟩)
      rcases hs with rfl | rfl <;> linarith
  unfold unitDet at hd
  obtain ⟨x1, x2, x3⟩ := x
  rcases key hp h1 with ⟨⟨s, e⟩, k, hk⟩ | ⟨⟨s, e⟩, k, hk⟩ | ⟨⟨s, e⟩, k, hk⟩ <;>
    rcases key hq h2 with ⟨⟨s', e'⟩, k', hk'⟩ | ⟨⟨s', e'⟩, k', hk'⟩ | ⟨⟨s', e'⟩, k', hk'⟩ <;>
    rcases key hr h3 with ⟨⟨s'', e''⟩, k'', hk''⟩ | ⟨⟨s'', e''⟩, k'', hk''⟩ | ⟨⟨s'', e''⟩, k'', hk''⟩ <;>
    first
      | (exfalso; apply hd; rw [e, e', e'']; simp [detR, crossR, dotR]; done)
      | exact ⟨k, k', k'', V3.mk.injEq .. ▸ ⟨hk, hk', hk''⟩⟩
      | exact ⟨k, k'', k', V3.mk.injEq .. ▸ ⟨hk, hk'', hk'⟩⟩
      | exact ⟨k', k, k'', V3.mk.injEq .. ▸ ⟨hk', hk, hk''⟩⟩
      | exact ⟨k', k'', k, V3.mk.injEq .. ▸ ⟨hk', hk'', hk⟩⟩
      | exact ⟨k'', k, k', V3.mk.injEq .. ▸ ⟨hk'', hk, hk'⟩⟩
      | exact ⟨k'', k', k, V3.mk.injEq .. ▸ ⟨hk'', hk', hk⟩⟩

theorem onAxis_clear {p : BrushPlane ℝ} (h : OnAxis p) {a b c : ℤ} (hx : WithinR (1 / 1000) p ⟨a, b, c⟩) :
    WithinR 0 p ⟨a, b, c⟩ := by
  have whole : ∀ m n : ℤ, (m : ℝ) - n ≤ 1 / 1000 → (m : ℝ) - n ≤ 0 := by
    intro m n h
    have h1 : m - n < 1 := by
      have : ((m - n : ℤ) : ℝ) < 1 := by push_cast; linarith
      exact_mod_cast this
    have : ((m - n : ℤ) : ℝ) ≤ 0 := by exact_mod_cast Int.lt_add_one_iff.1 (by omega : m - n < 0 + 1)
    push_cast at this
    exact this
  unfold WithinR at *
  rw [onAxis_len h] at hx ⊢
  obtain ⟨s, k, rfl | rfl, ⟨e, hk⟩ | ⟨e, hk⟩ | ⟨e, hk⟩⟩ := h <;> rw [e] at hx ⊢ <;>
    simp only [dotR, subR, hk] at hx ⊢
  · have := whole a k (by linarith); linarith
  · have := whole b k (by linarith); linarith
  · have := whole c k (by linarith); linarith
  · have := whole k a (by linarith); linarith
  · have := whole k b (by linarith); linarith
  · have := whole k c (by linarith); linarith

/-- Boxes with whole coordinates are proper, also if they have faces that do not touch them. -/
theorem onAxis_proper {planes : List (BrushPlane ℝ)} (h : ∀ p ∈ planes, OnAxis p)
    (hs : ∃ y, ∀ p ∈ planes, dotR (rawNormal p) (subR y p.v0) < 0)
    (hb : ∃ R : ℝ, ∀ x, (∀ p ∈ planes, WithinR 0 p x) → |x.x| ≤ R ∧ |x.y| ≤ R ∧ |x.z| ≤ R) : ProperBrush planes := by
  refine ⟨fun p hp e => ?_, fun p hp q hq r hr => ?_, fun p hp q hq r hr hd x h1 h2 h3 hx s hs => ?_, hs, hb⟩
  · have := onAxis_len (h p hp)
    rw [e] at this
    norm_num [lenR, dotR, zeroR] at this
  · rcases onAxis_det (h p hp) (h q hq) (h r hr) with e | e | e <;> rw [e] <;> norm_num
  · obtain ⟨a, b, c, rfl⟩ := onAxis_whole (h p hp) (h q hq) (h r hr) hd h1 h2 h3
    exact onAxis_clear (h s hs) (hx s hs)

end

section
attribute [local instance] refPlatform stepText

/-- A box of two units. -/
noncomputable def plank : Brush ℝ := ⟨[stepPlane ⟨2, 0, 0⟩ ⟨2, 0, 1⟩ ⟨2, 1, 0⟩,
    stepPlane ⟨0, 0, 0⟩ ⟨0, 1, 0⟩ ⟨0, 0, 1⟩,
    stepPlane ⟨0, 1, 0⟩ ⟨1, 1, 0⟩ ⟨0, 1, 1⟩,
    stepPlane ⟨0, 0, 0⟩ ⟨0, 0, 1⟩ ⟨1, 0, 0⟩,
    stepPlane ⟨0, 0, 1⟩ ⟨0, 1, 1⟩ ⟨1, 0, 1⟩,
    stepPlane ⟨0, 0, 0⟩ ⟨1, 0, 0⟩ ⟨0, 1, 0⟩]⟩

noncomputable def sawCut : BrushPlane ℝ := stepPlane ⟨1, 0, 0⟩ ⟨1, 0, 1⟩ ⟨1, 1, 0⟩
noncomputable def sawCut' : BrushPlane ℝ := stepPlane ⟨1, 0, 0⟩ ⟨1, 1, 0⟩ ⟨1, 0, 1⟩

theorem saw_cut : SawnBy plank sawCut sawCut' :=
  ⟨⟨rfl, rfl, rfl⟩, ⟨_, List.mem_cons_self, rfl⟩, ⟨_, List.mem_cons_self, rfl⟩⟩

theorem plank_axis : ∀ p ∈ plank.planes, OnAxis p := by
  intro p hp
  simp only [plank, List.mem_cons, List.not_mem_nil, or_false] at hp
  rcases hp with rfl | rfl | rfl | rfl | rfl | rfl
  · exact ⟨1, 2, .inl rfl, .inl ⟨by norm_num [rawNormal, stepPlane, crossR, subR], by norm_num [stepPlane]⟩⟩
  · exact ⟨-1, 0, .inr rfl, .inl ⟨by norm_num [rawNormal, stepPlane, crossR, subR], by norm_num [stepPlane]⟩⟩
  · exact ⟨1, 1, .inl rfl, .inr (.inl ⟨by norm_num [rawNormal, stepPlane, crossR, subR], by norm_num [stepPlane]⟩)⟩
  · exact ⟨-1, 0, .inr rfl, .inr (.inl ⟨by norm_num [rawNormal, stepPlane, crossR, subR], by norm_num [stepPlane]⟩)⟩
  · exact ⟨1, 1, .inl rfl, .inr (.inr ⟨by norm_num [rawNormal, stepPlane, crossR, subR], by norm_num [stepPlane]⟩)⟩
  · exact ⟨-1, 0, .inr rfl, .inr (.inr ⟨by norm_num [rawNormal, stepPlane, crossR, subR], by norm_num [stepPlane]⟩)⟩

theorem cut_axis : OnAxis sawCut :=
  ⟨1, 1, .inl rfl, .inl ⟨by norm_num [sawCut, rawNormal, stepPlane, crossR, subR], by norm_num [sawCut, stepPlane]⟩⟩

theorem cut_axis' : OnAxis sawCut' :=
  ⟨-1, 1, .inr rfl, .inl ⟨by norm_num [sawCut', rawNormal, stepPlane, crossR, subR], by norm_num [sawCut', stepPlane]⟩⟩

theorem plank_bounded (x : V3 ℝ) (h : ∀ p ∈ plank.planes, WithinR 0 p x) : |x.x| ≤ 2 ∧ |x.y| ≤ 2 ∧ |x.z| ≤ 2 := by
  simp only [plank, List.mem_cons, List.not_mem_nil, or_false, forall_eq_or_imp, forall_eq, WithinR, zero_mul] at h
  norm_num [rawNormal, stepPlane, crossR, subR, dotR] at h
  obtain ⟨h1, h2, h3, h4, h5, h6⟩ := h
  refine ⟨abs_le.2 ⟨?_, ?_⟩, abs_le.2 ⟨?_, ?_⟩, abs_le.2 ⟨?_, ?_⟩⟩ <;> linarith

theorem plank_inside {a : ℝ} (h0 : 0 < a) (h2 : a < 2) :
    ∀ p ∈ plank.planes, dotR (rawNormal p) (subR ⟨a, 1 / 2, 1 / 2⟩ p.v0) < 0 := by
  intro p hp
  simp only [plank, List.mem_cons, List.not_mem_nil, or_false] at hp
  rcases hp with rfl | rfl | rfl | rfl | rfl | rfl <;> norm_num [rawNormal, stepPlane, crossR, subR, dotR] <;> linarith

theorem plank_proper : ProperBrush plank.planes :=
  onAxis_proper plank_axis ⟨_, plank_inside one_pos one_lt_two⟩ ⟨2, plank_bounded⟩

theorem sawn_proper {p : BrushPlane ℝ} (hp : OnAxis p) {a : ℝ} (h0 : 0 < a) (h2 : a < 2)
    (ha : dotR (rawNormal p) (subR ⟨a, 1 / 2, 1 / 2⟩ p.v0) < 0) : ProperBrush (sawn plank p).planes := by
  refine onAxis_proper (fun q hq => ?_) ⟨⟨a, 1 / 2, 1 / 2⟩, fun q hq => ?_⟩ ⟨2, fun x hx => plank_bounded x (half_in.1 hx).1⟩
  · rcases List.mem_append.1 hq with hq | hq
    · exact plank_axis q hq
    · cases List.mem_singleton.1 hq
      exact hp
  · rcases List.mem_append.1 hq with hq | hq
    · exact plank_inside h0 h2 q hq
    · cases List.mem_singleton.1 hq
      exact ha

noncomputable def plankWorld (brs : List (Brush ℝ)) : Entity ℝ := { stepWorld Cube.planes with brushes := brs }

def plankMap : Str :=
  str! "{\n\"classname\" \"worldspawn\"\n{\n( 2 0 0 ) ( 2 0 1 ) ( 2 1 0 ) brick [ 0 1 0 0 ] [ 0 0 1 0 ] 0 0.015625 0.015625\n( 0 0 0 ) ( 0 1 0 ) ( 0 0 1 ) brick [ 0 1 0 0 ] [ 0 0 1 0 ] 0 0.015625 0.015625\n( 0 1 0 ) ( 1 1 0 ) ( 0 1 1 ) brick [ 0 1 0 0 ] [ 0 0 1 0 ] 0 0.015625 0.015625\n( 0 0 0 ) ( 0 0 1 ) ( 1 0 0 ) brick [ 0 1 0 0 ] [ 0 0 1 0 ] 0 0.015625 0.015625\n( 0 0 1 ) ( 0 1 1 ) ( 1 0 1 ) brick [ 0 1 0 0 ] [ 0 0 1 0 ] 0 0.015625 0.015625\n( 0 0 0 ) ( 1 0 0 ) ( 0 1 0 ) brick [ 0 1 0 0 ] [ 0 0 1 0 ] 0 0.015625 0.015625\n}\n}\n"

def plankTokens : List Token :=
  [.openBrace, .property (str! "classname") (str! "worldspawn"),
    .openBrace,
    .brushPlane (cubeLine (str! "2 0 0") (str! "2 0 1") (str! "2 1 0")),
    .brushPlane (cubeLine (str! "0 0 0") (str! "0 1 0") (str! "0 0 1")),
    .brushPlane (cubeLine (str! "0 1 0") (str! "1 1 0") (str! "0 1 1")),
    .brushPlane (cubeLine (str! "0 0 0") (str! "0 0 1") (str! "1 0 0")),
    .brushPlane (cubeLine (str! "0 0 1") (str! "0 1 1") (str! "1 0 1")),
    .brushPlane (cubeLine (str! "0 0 0") (str! "1 0 0") (str! "0 1 0")),
    .closeBrace,
    .closeBrace]

set_option maxRecDepth 100000 in
theorem plank_tokens : Tokenizer.run (Platform.bareCR) plankMap = .ok plankTokens := by decide

set_option maxRecDepth 100000 in
theorem plank_parse : ∃ paths, Parser.run (F := ℝ) plankTokens = .ok (paths, [plankWorld [plank]]) := ⟨_, rfl⟩

theorem plank_loads : LoadsAs plankMap [plankWorld [plank]] := by
  obtain ⟨paths, h⟩ := plank_parse
  exact ⟨_, _, plank_tokens, h⟩

theorem plank_run : ∃ nodes, Quarch.run 1 id { stepConfig with mapFile := some plankMap } = .ok nodes := by
  refine C92_enough 1 id (fun _ => .refl _) { stepConfig with mapFile := some plankMap } [plankWorld [plank]]
    ⟨⟨_, rfl, (C92_text _ _).1 plank_loads⟩, ⟨[], _, [], rfl, rfl, fun e he => by simp at he⟩, ?_, ?_, ?_, ?_⟩ (Nat.le_refl _)
  · exact (geo_succeeds stepConfig.textureInfo _).1 (mapOut_isOk.2 fun e _ => buildEntity_real _ e)
  · intro e he _
    cases List.mem_singleton.1 he
    exact ⟨_, rfl⟩
  · intro e he _ _ k hk s hs
    exfalso
    simp only [List.mem_cons, List.not_mem_nil, or_false] at he hk
    subst he
    rcases hk with rfl | rfl <;> revert hs <;> simp [plankWorld, stepWorld]
  · apply no_loop_of_unique
    exact .cons (fun b hb => by cases hb) .nil

def sawMap : Str :=
  str! "{\n\"classname\" \"worldspawn\"\n{\n( 2 0 0 ) ( 2 0 1 ) ( 2 1 0 ) brick [ 0 1 0 0 ] [ 0 0 1 0 ] 0 0.015625 0.015625\n( 0 0 0 ) ( 0 1 0 ) ( 0 0 1 ) brick [ 0 1 0 0 ] [ 0 0 1 0 ] 0 0.015625 0.015625\n( 0 1 0 ) ( 1 1 0 ) ( 0 1 1 ) brick [ 0 1 0 0 ] [ 0 0 1 0 ] 0 0.015625 0.015625\n( 0 0 0 ) ( 0 0 1 ) ( 1 0 0 ) brick [ 0 1 0 0 ] [ 0 0 1 0 ] 0 0.015625 0.015625\n( 0 0 1 ) ( 0 1 1 ) ( 1 0 1 ) brick [ 0 1 0 0 ] [ 0 0 1 0 ] 0 0.015625 0.015625\n( 0 0 0 ) ( 1 0 0 ) ( 0 1 0 ) brick [ 0 1 0 0 ] [ 0 0 1 0 ] 0 0.015625 0.015625\n( 1 0 0 ) ( 1 0 1 ) ( 1 1 0 ) brick [ 0 1 0 0 ] [ 0 0 1 0 ] 0 0.015625 0.015625\n}\n{\n( 2 0 0 ) ( 2 0 1 ) ( 2 1 0 ) brick [ 0 1 0 0 ] [ 0 0 1 0 ] 0 0.015625 0.015625\n( 0 0 0 ) ( 0 1 0 ) ( 0 0 1 ) brick [ 0 1 0 0 ] [ 0 0 1 0 ] 0 0.015625 0.015625\n( 0 1 0 ) ( 1 1 0 ) ( 0 1 1 ) brick [ 0 1 0 0 ] [ 0 0 1 0 ] 0 0.015625 0.015625\n( 0 0 0 ) ( 0 0 1 ) ( 1 0 0 ) brick [ 0 1 0 0 ] [ 0 0 1 0 ] 0 0.015625 0.015625\n( 0 0 1 ) ( 0 1 1 ) ( 1 0 1 ) brick [ 0 1 0 0 ] [ 0 0 1 0 ] 0 0.015625 0.015625\n( 0 0 0 ) ( 1 0 0 ) ( 0 1 0 ) brick [ 0 1 0 0 ] [ 0 0 1 0 ] 0 0.015625 0.015625\n( 1 0 0 ) ( 1 1 0 ) ( 1 0 1 ) brick [ 0 1 0 0 ] [ 0 0 1 0 ] 0 0.015625 0.015625\n}\n}\n"

def sawTokens : List Token :=
  [.openBrace, .property (str! "classname") (str! "worldspawn"),
    .openBrace,
    .brushPlane (cubeLine (str! "2 0 0") (str! "2 0 1") (str! "2 1 0")),
    .brushPlane (cubeLine (str! "0 0 0") (str! "0 1 0") (str! "0 0 1")),
    .brushPlane (cubeLine (str! "0 1 0") (str! "1 1 0") (str! "0 1 1")),
    .brushPlane (cubeLine (str! "0 0 0") (str! "0 0 1") (str! "1 0 0")),
    .brushPlane (cubeLine (str! "0 0 1") (str! "0 1 1") (str! "1 0 1")),
    .brushPlane (cubeLine (str! "0 0 0") (str! "1 0 0") (str! "0 1 0")),
    .brushPlane (cubeLine (str! "1 0 0") (str! "1 0 1") (str! "1 1 0")),
    .closeBrace,
    .openBrace,
    .brushPlane (cubeLine (str! "2 0 0") (str! "2 0 1") (str! "2 1 0")),
    .brushPlane (cubeLine (str! "0 0 0") (str! "0 1 0") (str! "0 0 1")),
    .brushPlane (cubeLine (str! "0 1 0") (str! "1 1 0") (str! "0 1 1")),
    .brushPlane (cubeLine (str! "0 0 0") (str! "0 0 1") (str! "1 0 0")),
    .brushPlane (cubeLine (str! "0 0 1") (str! "0 1 1") (str! "1 0 1")),
    .brushPlane (cubeLine (str! "0 0 0") (str! "1 0 0") (str! "0 1 0")),
    .brushPlane (cubeLine (str! "1 0 0") (str! "1 1 0") (str! "1 0 1")),
    .closeBrace,
    .closeBrace]

set_option maxRecDepth 100000 in
theorem saw_tokens : Tokenizer.run (Platform.bareCR) sawMap = .ok sawTokens := by decide

set_option maxRecDepth 100000 in
theorem saw_parse : ∃ paths, Parser.run (F := ℝ) sawTokens = .ok (paths, [plankWorld [sawn plank sawCut, sawn plank sawCut']]) := ⟨_, rfl⟩

theorem saw_loads : LoadsAs sawMap [plankWorld [sawn plank sawCut, sawn plank sawCut']] := by
  obtain ⟨paths, h⟩ := saw_parse
  exact ⟨_, _, saw_tokens, h⟩

theorem saw_run : ∃ nodes, Quarch.run 1 id { stepConfig with mapFile := some sawMap } = .ok nodes := by
  refine C92_enough 1 id (fun _ => .refl _) { stepConfig with mapFile := some sawMap } [plankWorld [sawn plank sawCut, sawn plank sawCut']]
    ⟨⟨_, rfl, (C92_text _ _).1 saw_loads⟩, ⟨[], _, [], rfl, rfl, fun e he => by simp at he⟩, ?_, ?_, ?_, ?_⟩ (Nat.le_refl _)
  · exact (geo_succeeds stepConfig.textureInfo _).1 (mapOut_isOk.2 fun e _ => buildEntity_real _ e)
  · intro e he _
    cases List.mem_singleton.1 he
    exact ⟨_, rfl⟩
  · intro e he _ _ k hk s hs
    exfalso
    simp only [List.mem_cons, List.not_mem_nil, or_false] at he hk
    subst he
    rcases hk with rfl | rfl <;> revert hs <;> simp [plankWorld, stepWorld]
  · apply no_loop_of_unique
    exact .cons (fun b hb => by cases hb) .nil

/-- C143 from end to end: the box and the cut box both load, are solid in the same places, and what is drawn only of the cut box
is in the middle. -/
example : ∃ nodes nodes', Quarch.run 1 id { stepConfig with mapFile := some plankMap } = .ok nodes ∧
    Quarch.run 1 id { stepConfig with mapFile := some sawMap } = .ok nodes' ∧
    ∀ x, (InSolid nodes' x ↔ InSolid nodes x) ∧ (Drawn nodes x → Drawn nodes' x) ∧
      (Drawn nodes' x → Drawn nodes x ∨ x.x = 1) := by
  obtain ⟨nodes, h⟩ := plank_run
  obtain ⟨nodes', h'⟩ := saw_run
  have hm : List.Forall₂ (CutEntity fun br p => br = plank ∧ p = sawCut) [plankWorld [plank]]
      [plankWorld [sawn plank sawCut, sawn plank sawCut']] :=
    .cons ⟨rfl, .cut ⟨rfl, rfl⟩ saw_cut .nil⟩ .nil
  have hp : ∀ e ∈ [plankWorld [plank]], Anchored [plankWorld [plank]] e → ∀ br ∈ e.brushes, ProperBrush br.planes := by
    intro e he _ br hbr
    cases List.mem_singleton.1 he
    cases List.mem_singleton.1 hbr
    exact plank_proper
  have hp' : ∀ e ∈ [plankWorld [sawn plank sawCut, sawn plank sawCut']],
      Anchored [plankWorld [sawn plank sawCut, sawn plank sawCut']] e → ∀ br ∈ e.brushes, ProperBrush br.planes := by
    intro e he _ br hbr
    cases List.mem_singleton.1 he
    simp only [plankWorld, List.mem_cons, List.not_mem_nil, or_false] at hbr
    rcases hbr with rfl | rfl
    · exact sawn_proper cut_axis (a := 1 / 2) (by norm_num) (by norm_num)
        (by norm_num [sawCut, rawNormal, stepPlane, crossR, subR, dotR])
    · exact sawn_proper cut_axis' (a := 3 / 2) (by norm_num) (by norm_num)
        (by norm_num [sawCut', rawNormal, stepPlane, crossR, subR, dotR])
  refine ⟨nodes, nodes', h, h', fun x => ⟨C143_solid 1 1 id id (fun _ => .refl _) (fun _ => .refl _)
    { stepConfig with mapFile := some plankMap } plankMap sawMap rfl _ _ plank_loads saw_loads nodes nodes' h h' hm hp hp' x, ?_⟩⟩
  obtain ⟨h1, h2⟩ := C143_drawn 1 1 id id (fun _ => .refl _) (fun _ => .refl _)
    { stepConfig with mapFile := some plankMap } plankMap sawMap rfl _ _ plank_loads saw_loads nodes nodes' h h' hm hp hp' x
  refine ⟨h1, fun hx => (h2 hx).imp_right ?_⟩
  rintro ⟨_, _, ⟨rfl, rfl⟩, _, h3⟩
  norm_num [OnPlane, sawCut, rawNormal, stepPlane, crossR, subR, dotR] at h3
  linarith

end
end Quarch
