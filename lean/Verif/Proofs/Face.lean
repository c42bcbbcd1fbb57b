import Verif.Spec.Face
import Verif.Proofs.Basic
import Verif.Proofs.Num
/-
Reading a face line.
-/
namespace Quarch
open Spec

/-! ### Words -/

theorem splitWs_ne_nil (s : Str) : splitWs s ≠ [] := by
  cases s with
  | nil => simp [splitWs]
  | cons x xs =>
    unfold splitWs
    split
    · simp
    · split <;> simp

theorem splitWhitespace_gap {gap : Str} (h : ∀ c ∈ gap, isBlank c = true) (s : Str) :
    splitWhitespace (gap ++ s) = splitWhitespace s := by
  induction gap with
  | nil => rfl
  | cons c gap ih =>
    have := ih fun d hd => h d (by simp [hd])
    unfold splitWhitespace at this ⊢
    rw [List.cons_append, splitWs, isWhitespace_eq, if_pos (h c (by simp))]
    simpa using this

theorem splitWs_word {w : Str} (h : ∀ c ∈ w, isBlank c = false) (s : Str) :
    splitWs (w ++ s) = (w ++ (splitWs s).head (splitWs_ne_nil s)) :: (splitWs s).tail := by
  induction w with
  | nil => simp
  | cons c w ih =>
    rw [List.cons_append, splitWs, isWhitespace_eq, if_neg (by simp [h c (by simp)]), ih fun d hd => h d (by simp [hd])]
    rfl

theorem splitWhitespace_word {w : Str} (hne : w ≠ []) (h : ∀ c ∈ w, isBlank c = false) :
    splitWhitespace w = [w] := by
  have := splitWs_word h []
  rw [List.append_nil] at this
  unfold splitWhitespace
  rw [this]
  simp [splitWs, hne]

theorem splitWhitespace_word_gap {w : Str} (hne : w ≠ []) (h : ∀ c ∈ w, isBlank c = false)
    {c : Char} (hc : isBlank c = true) (s : Str) :
    splitWhitespace (w ++ c :: s) = w :: splitWhitespace s := by
  unfold splitWhitespace
  rw [splitWs_word h (c :: s)]
  have : splitWs (c :: s) = [] :: splitWs s := by rw [splitWs, isWhitespace_eq, if_pos hc]
  simp [this, hne]

theorem splitWhitespace_spaced {lead : Str} {ws : List (Str × Str)}
    (hl : ∀ c ∈ lead, isBlank c = true) (h : SpacedOk ws) :
    splitWhitespace (spaced lead ws) = ws.map Prod.fst := by
  induction ws generalizing lead with
  | nil =>
    have := splitWhitespace_gap hl []
    rw [List.append_nil] at this
    simpa [spaced, splitWhitespace, splitWs] using this
  | cons p rest ih =>
    obtain ⟨w, gap⟩ := p
    obtain ⟨h1, h2, h3, h4, h5⟩ := h
    rw [spaced, List.append_assoc, splitWhitespace_gap hl]
    have ih' := ih h3 h5
    rw [List.map_cons, ← ih']
    cases gap with
    | nil =>
      have : rest = [] := by
        by_contra hr
        exact h4 hr rfl
      subst this
      simp only [spaced, List.append_nil]
      rw [splitWhitespace_word h1 h2]
      rfl
    | cons c g =>
      have hsp : spaced (c :: g) rest = c :: spaced g rest := by
        cases rest with
        | nil => rfl
        | cons q r => rfl
      rw [hsp, splitWhitespace_word_gap h1 h2 (h3 c (by simp))]
      congr 1
      exact (splitWhitespace_gap (gap := [c]) (by simpa using h3 c (by simp)) _).symm

section
variable {F : Type} [Arith F]

/-! ### The reader as a sequence of reads at positions -/

/-- The outcome of reading a number at a position. -/
def numRead (ws : List Str) (i : Nat) : Outcome F :=
  (Outcome.unwrap ws[i]?).bind fun w => Outcome.unwrapParse (Arith.parse w)

theorem numRead_cases (ws : List Str) (i : Nat) :
    (∃ x : F, numAt ws i = some x ∧ numRead ws i = .ok x) ∨
    (numAt (F := F) ws i = none ∧ ∃ m, numRead (F := F) ws i = .panic m) := by
  unfold numAt numRead
  cases h : ws[i]? with
  | none => right; exact ⟨rfl, _, rfl⟩
  | some w =>
    cases h' : Arith.parse (F := F) w with
    | none => right; exact ⟨h', _, by rw [Outcome.unwrap_some, Outcome.ok_bind, h']; rfl⟩
    | some x => left; exact ⟨x, h', by simp [h']⟩

theorem nextF_drop (ws : List Str) (i : Nat) :
    nextF (F := F) (ws.drop i) = (numRead ws i).bind fun x => .ok (x, ws.drop (i + 1)) := by
  unfold nextF numRead
  rw [List.head?_drop, Outcome.bind_assoc, List.tail_drop]

theorem parsePoint_drop (ws : List Str) (i : Nat) :
    parsePoint (F := F) (ws.drop i) =
      (numRead ws (i + 1)).bind fun x => (numRead ws (i + 2)).bind fun y =>
      (numRead ws (i + 3)).bind fun z => .ok (⟨x, y, z⟩, ws.drop (i + 5)) := by
  unfold parsePoint
  simp only [List.tail_drop, nextF_drop, Outcome.bind_assoc, Outcome.ok_bind]

theorem numAt_numRead {ws : List Str} {i : Nat} {x : F} (h : numAt ws i = some x) :
    numRead ws i = .ok x := by
  rcases numRead_cases (F := F) ws i with ⟨y, h1, h2⟩ | ⟨h1, _⟩
  · rw [h] at h1; cases h1; exact h2
  · rw [h] at h1; cases h1

theorem parseUV_drop_plain {ws : List Str} {u : F} (h : numAt ws 16 = some u) :
    parseUV (F := F) (ws.drop 16) =
      (numRead ws 17).bind fun v => .ok (.quake u v, ws.drop 18) := by
  unfold parseUV
  unfold numAt at h
  cases hw : ws[16]? with
  | none => simp [hw] at h
  | some w =>
    rw [hw] at h
    simp only [Option.bind_some] at h
    simp only [List.head?_drop, hw, Outcome.unwrap_some, Outcome.ok_bind, h, List.tail_drop, nextF_drop,
      Outcome.bind_assoc]

theorem parseUV_drop_valve {ws : List Str} (h : numAt (F := F) ws 16 = none) :
    parseUV (F := F) (ws.drop 16) =
      (Outcome.unwrap ws[16]?).bind fun _ =>
      (numRead ws 17).bind fun ux => (numRead ws 18).bind fun uy => (numRead ws 19).bind fun uz =>
      (numRead ws 20).bind fun uo => (numRead ws 23).bind fun vx => (numRead ws 24).bind fun vy =>
      (numRead ws 25).bind fun vz => (numRead ws 26).bind fun vo =>
      .ok (.valve ⟨ux, uy, uz⟩ uo ⟨vx, vy, vz⟩ vo, ws.drop 28) := by
  unfold parseUV
  unfold numAt at h
  cases hw : ws[16]? with
  | none => simp [List.head?_drop, hw, Outcome.unwrap]
  | some w =>
    rw [hw] at h
    simp only [Option.bind_some] at h
    simp only [List.head?_drop, hw, Outcome.unwrap_some, Outcome.ok_bind, h, List.tail_drop, nextF_drop,
      Outcome.bind_assoc]

theorem parseExtra_long {a b c d e f g : Str} {l : List Str} :
    parseExtra (F := F) (a :: b :: c :: d :: e :: f :: g :: l) =
      .err (.quarch "Unrecognized extra data") := by
  unfold parseExtra
  split <;> simp_all

/-- Reading the surface values: the first unreadable one decides. -/
theorem surface_cases (ex : List Str) (h : 3 ≤ ex.length) :
    (∃ s : SurfaceData F, SurfaceData.parse ex = .ok s ∧ (∃ w, ex[0]? = some w ∧ ReadsI32 w s.contents) ∧
      (∃ w, ex[1]? = some w ∧ ReadsI32 w s.flags) ∧ numAt ex 2 = some s.value) ∨
    (∃ i msg, i < 3 ∧ extraMessages[i]? = some msg ∧ SurfaceData.parse (F := F) ex = .err (.quarch msg) ∧
      ¬ ExtraReadable F ex i ∧ ∀ j < i, ExtraReadable F ex j) := by
  obtain ⟨a, b, c, l, rfl⟩ : ∃ a b c l, ex = a :: b :: c :: l := by
    match ex, h with
    | a :: b :: c :: l, _ => exact ⟨a, b, c, l, rfl⟩
  unfold SurfaceData.parse
  simp only [List.getElem?_cons_zero, List.getElem?_cons_succ, Outcome.unwrap_some, Outcome.ok_bind]
  cases ha : parseI32 a with
  | none => right; exact ⟨0, _, by omega, rfl, rfl, by simp [ExtraReadable, ← parseI32_iff, ha], by simp⟩
  | some x =>
    have h0 : ExtraReadable F (a :: b :: c :: l) 0 := by simp [ExtraReadable, ← parseI32_iff, ha]
    cases hb : parseI32 b with
    | none =>
      right
      refine ⟨1, _, by omega, rfl, rfl, by simp [ExtraReadable, ← parseI32_iff, hb], fun j hj => ?_⟩
      obtain rfl : j = 0 := by omega
      exact h0
    | some y =>
      have h1 : ExtraReadable F (a :: b :: c :: l) 1 := by simp [ExtraReadable, ← parseI32_iff, hb]
      cases hc : Arith.parse (F := F) c with
      | none =>
        right
        refine ⟨2, _, by omega, rfl, rfl, by simp [ExtraReadable, numAt, hc], fun j hj => ?_⟩
        obtain rfl | rfl : j = 0 ∨ j = 1 := by omega
        · exact h0
        · exact h1
      | some z => left; exact ⟨⟨x, y, z⟩, rfl, ⟨a, rfl, parseI32_iff.1 ha⟩, ⟨b, rfl, parseI32_iff.1 hb⟩, by simp [numAt, hc]⟩

/-- The trailing words: read, refused, or aborting. -/
theorem parseExtra_cases (ex : List Str) :
    (∃ d : ExtraData F, parseExtra ex = .ok d ∧ ExtraIs ex d) ∨
    (∃ msg, parseExtra (F := F) ex = .err (.quarch msg) ∧ ExtraError F ex msg) ∨
    (ex.length = 1 ∧ numAt (F := F) ex 0 = none ∧ ∃ m, parseExtra (F := F) ex = .panic m) := by
  match ex with
  | [] => exact .inl ⟨.none, rfl, trivial⟩
  | [a] =>
    cases ha : Arith.parse (F := F) a with
    | none => exact .inr (.inr ⟨rfl, ha, _, by
      simp only [parseExtra, List.length_singleton, List.head?_cons, Outcome.unwrap_some, Outcome.ok_bind, ha]
      rfl⟩)
    | some x => exact .inl ⟨.hexen2 x, by simp [parseExtra, ha], ha⟩
  | [a, b] => exact .inr (.inl ⟨_, rfl, .inl ⟨by simp, rfl⟩⟩)
  | [a, b, c] =>
    rcases surface_cases (F := F) [a, b, c] (by simp) with ⟨s, h, ⟨_, ⟨⟩, h1⟩, ⟨_, ⟨⟩, h2⟩, h3⟩ | ⟨i, msg, hi, hm, h, h1, h2⟩
    · exact .inl ⟨.quake2 s, by simp [parseExtra, h], h1, h2, h3⟩
    · exact .inr (.inl ⟨msg, by simp [parseExtra, h], .inr ⟨by simp, i, hi, hm, h1, h2⟩⟩)
  | [a, b, c, d] => exact .inr (.inl ⟨_, rfl, .inl ⟨by simp, rfl⟩⟩)
  | [a, b, c, d, e] => exact .inr (.inl ⟨_, rfl, .inl ⟨by simp, rfl⟩⟩)
  | [a, b, c, d, e, f] =>
    have hp : parseExtra (F := F) [a, b, c, d, e, f] = ExtraData.parseDaikatana [a, b, c, d, e, f] := rfl
    rw [hp]
    unfold ExtraData.parseDaikatana
    rcases surface_cases (F := F) [a, b, c, d, e, f] (by simp) with
      ⟨s, h, ⟨_, ⟨⟩, h1⟩, ⟨_, ⟨⟩, h2⟩, h3⟩ | ⟨i, msg, hi, hm, h, h1, h2⟩
    · simp only [h, Outcome.ok_bind, List.getElem?_cons_zero, List.getElem?_cons_succ, Outcome.unwrap_some]
      have r0 : ExtraReadable F [a, b, c, d, e, f] 0 := ⟨_, _, rfl, h1⟩
      have r1 : ExtraReadable F [a, b, c, d, e, f] 1 := ⟨_, _, rfl, h2⟩
      have r2 : ExtraReadable F [a, b, c, d, e, f] 2 := ⟨_, h3⟩
      cases hd : Arith.parse (F := F) d with
      | none =>
        refine .inr (.inl ⟨_, rfl, .inr ⟨by simp, 3, by simp, rfl, by simp [ExtraReadable, numAt, hd], ?_⟩⟩)
        intro j hj
        obtain rfl | rfl | rfl : j = 0 ∨ j = 1 ∨ j = 2 := by omega
        all_goals assumption
      | some r =>
        have r3 : ExtraReadable F [a, b, c, d, e, f] 3 := ⟨_, hd⟩
        cases he : Arith.parse (F := F) e with
        | none =>
          refine .inr (.inl ⟨_, rfl, .inr ⟨by simp, 4, by simp, rfl, by simp [ExtraReadable, numAt, he], ?_⟩⟩)
          intro j hj
          obtain rfl | rfl | rfl | rfl : j = 0 ∨ j = 1 ∨ j = 2 ∨ j = 3 := by omega
          all_goals assumption
        | some g =>
          have r4 : ExtraReadable F [a, b, c, d, e, f] 4 := ⟨_, he⟩
          cases hf : Arith.parse (F := F) f with
          | none =>
            refine .inr (.inl ⟨_, rfl, .inr ⟨by simp, 5, by simp, rfl, by simp [ExtraReadable, numAt, hf], ?_⟩⟩)
            intro j hj
            obtain rfl | rfl | rfl | rfl | rfl : j = 0 ∨ j = 1 ∨ j = 2 ∨ j = 3 ∨ j = 4 := by omega
            all_goals assumption
          | some bl => exact .inl ⟨_, rfl, h1, h2, h3, hd, he, hf⟩
    · exact .inr (.inl ⟨msg, by simp [h], .inr ⟨by simp, i, by simp; omega, hm, h1, h2⟩⟩)
  | a :: b :: c :: d :: e :: f :: g :: l =>
    exact .inr (.inl ⟨_, parseExtra_long, .inl ⟨by simp, rfl⟩⟩)

theorem extraIs_readable {ex : List Str} {d : ExtraData F} (h : ExtraIs ex d) :
    ex.length ∈ [0, 1, 3, 6] ∧ (ex.length ∈ [3, 6] → ∀ i < ex.length, ExtraReadable F ex i) := by
  unfold ExtraIs at h
  split at h
  · simp
  · simp
  · obtain ⟨h1, h2, h3⟩ := h
    refine ⟨by simp, fun _ i hi => ?_⟩
    simp only [List.length_cons, List.length_nil] at hi
    obtain rfl | rfl | rfl : i = 0 ∨ i = 1 ∨ i = 2 := by omega
    · exact ⟨_, _, rfl, h1⟩
    · exact ⟨_, _, rfl, h2⟩
    · exact ⟨_, h3⟩
  · obtain ⟨h1, h2, h3, h4, h5, h6⟩ := h
    refine ⟨by simp, fun _ i hi => ?_⟩
    simp only [List.length_cons, List.length_nil] at hi
    obtain rfl | rfl | rfl | rfl | rfl | rfl : i = 0 ∨ i = 1 ∨ i = 2 ∨ i = 3 ∨ i = 4 ∨ i = 5 := by omega
    · exact ⟨_, _, rfl, h1⟩
    · exact ⟨_, _, rfl, h2⟩
    · exact ⟨_, h3⟩
    · exact ⟨_, h4⟩
    · exact ⟨_, h5⟩
    · exact ⟨_, h6⟩
  · exact h.elim

theorem extraIs_unique {ex : List Str} {d d' : ExtraData F} (h : ExtraIs ex d) (h' : ExtraIs ex d') :
    d = d' := by
  unfold ExtraIs at h
  split at h
  · cases d' <;> simp_all [ExtraIs]
  · cases d' <;> simp_all [ExtraIs]
  · cases d' <;> simp only [ExtraIs] at h'
    rename_i s s'
    obtain ⟨h1, h2, h3⟩ := h
    obtain ⟨h4, h5, h6⟩ := h'
    rw [← parseI32_iff] at h1 h2 h4 h5
    rw [h1] at h4; rw [h2] at h5; rw [h3] at h6
    cases s; cases s'
    simp_all
  · cases d' <;> simp only [ExtraIs] at h'
    rename_i s col s' col'
    obtain ⟨h1, h2, h3, h7, h8, h9⟩ := h
    obtain ⟨h4, h5, h6, h10, h11, h12⟩ := h'
    rw [← parseI32_iff] at h1 h2 h4 h5
    cases s; cases s'; cases col; cases col'
    simp_all
  · exact h.elim

theorem extraError_not_is {ex : List Str} {msg : String} {d : ExtraData F} (h : ExtraError F ex msg) :
    ¬ ExtraIs ex d := by
  intro h'
  obtain ⟨h1, h2⟩ := extraIs_readable h'
  rcases h with ⟨h3, _⟩ | ⟨h3, i, hi, _, h4, _⟩
  · exact h3 h1
  · exact h4 (h2 h3 i hi)

theorem extraError_unique {ex : List Str} {msg msg' : String} (h : ExtraError F ex msg)
    (h' : ExtraError F ex msg') : msg = msg' := by
  rcases h with ⟨h1, rfl⟩ | ⟨h1, i, hi, hm, hr, hj⟩ <;>
    rcases h' with ⟨h2, rfl⟩ | ⟨h2, i', hi', hm', hr', hj'⟩
  · rfl
  · exfalso; apply h1; simp at h2 ⊢; omega
  · exfalso; apply h2; simp at h1 ⊢; omega
  · have : i = i' := by
      rcases Nat.lt_trichotomy i i' with h | h | h
      · exact absurd (hj' i h) hr
      · exact h
      · exact absurd (hj i' h) hr'
    subst this
    rw [hm] at hm'
    injection hm'

variable [Platform]

/-- All three outcomes of reading the words of a face. -/
theorem ofWords_cases (ws : List Str) :
    (∃ p : BrushPlane F, BrushPlane.ofWords ws = .ok p ∧ FaceIs ws p ∧ HeadOk F ws) ∨
    (∃ msg, BrushPlane.ofWords (F := F) ws = .err (.quarch msg) ∧ HeadOk F ws ∧
      ExtraError F (extraWords F ws) msg) ∨
    ((∃ m, BrushPlane.ofWords (F := F) ws = .panic m) ∧
      (¬ HeadOk F ws ∨ ((extraWords F ws).length = 1 ∧ numAt (F := F) (extraWords F ws) 0 = none))) := by
  -- a position that must hold a number and does not
  have miss : ∀ i, i ∈ numberPositions F ws → numAt (F := F) ws i = none → ¬ HeadOk F ws := by
    intro i hi hn h
    obtain ⟨x, hx⟩ := h i hi
    rw [hn] at hx; cases hx
  have hd0 : ws = ws.drop 0 := rfl
  have unfold0 : BrushPlane.ofWords (F := F) ws =
      (numRead ws 1).bind fun x0 => (numRead ws 2).bind fun y0 => (numRead ws 3).bind fun z0 =>
      (numRead ws 6).bind fun x1 => (numRead ws 7).bind fun y1 => (numRead ws 8).bind fun z1 =>
      (numRead ws 11).bind fun x2 => (numRead ws 12).bind fun y2 => (numRead ws 13).bind fun z2 =>
      (Outcome.unwrap ws[15]?).bind fun tex =>
      (parseUV (ws.drop 16)).bind fun r =>
      (nextF r.2).bind fun r1 => (nextF r1.2).bind fun r2 => (nextF r2.2).bind fun r3 =>
      (parseExtra r3.2).bind fun extra =>
      .ok ⟨⟨x0, y0, z0⟩, ⟨x1, y1, z1⟩, ⟨x2, y2, z2⟩, Platform.lowercase tex, r.1, r1.1, ⟨r2.1, r3.1⟩,
        extra⟩ := by
    unfold BrushPlane.ofWords
    conv_lhs => rw [hd0]
    simp only [parsePoint_drop, Outcome.bind_assoc, Outcome.ok_bind, List.head?_drop, List.tail_drop]
  rw [unfold0]
  have early : ∀ i, i ∈ [1, 2, 3, 6, 7, 8, 11, 12, 13] → i ∈ numberPositions F ws := by
    intro i hi
    exact List.mem_append_left _ hi
  rcases numRead_cases (F := F) ws 1 with ⟨x0, a1, b1⟩ | ⟨a1, m, b1⟩
  swap; · rw [b1]; exact .inr (.inr ⟨⟨m, rfl⟩, .inl (miss 1 (early 1 (by simp)) a1)⟩)
  rcases numRead_cases (F := F) ws 2 with ⟨y0, a2, b2⟩ | ⟨a2, m, b2⟩
  swap; · simp only [b1, Outcome.ok_bind, b2]; exact .inr (.inr ⟨⟨m, rfl⟩, .inl (miss 2 (early 2 (by simp)) a2)⟩)
  rcases numRead_cases (F := F) ws 3 with ⟨z0, a3, b3⟩ | ⟨a3, m, b3⟩
  swap; · simp only [b1, b2, Outcome.ok_bind, b3]; exact .inr (.inr ⟨⟨m, rfl⟩, .inl (miss 3 (early 3 (by simp)) a3)⟩)
  rcases numRead_cases (F := F) ws 6 with ⟨x1, a6, b6⟩ | ⟨a6, m, b6⟩
  swap; · simp only [b1, b2, b3, Outcome.ok_bind, b6]; exact .inr (.inr ⟨⟨m, rfl⟩, .inl (miss 6 (early 6 (by simp)) a6)⟩)
  rcases numRead_cases (F := F) ws 7 with ⟨y1, a7, b7⟩ | ⟨a7, m, b7⟩
  swap; · simp only [b1, b2, b3, b6, Outcome.ok_bind, b7]; exact .inr (.inr ⟨⟨m, rfl⟩, .inl (miss 7 (early 7 (by simp)) a7)⟩)
  rcases numRead_cases (F := F) ws 8 with ⟨z1, a8, b8⟩ | ⟨a8, m, b8⟩
  swap; · simp only [b1, b2, b3, b6, b7, Outcome.ok_bind, b8]; exact .inr (.inr ⟨⟨m, rfl⟩, .inl (miss 8 (early 8 (by simp)) a8)⟩)
  rcases numRead_cases (F := F) ws 11 with ⟨x2, a11, b11⟩ | ⟨a11, m, b11⟩
  swap; · simp only [b1, b2, b3, b6, b7, b8, Outcome.ok_bind, b11]; exact .inr (.inr ⟨⟨m, rfl⟩, .inl (miss 11 (early 11 (by simp)) a11)⟩)
  rcases numRead_cases (F := F) ws 12 with ⟨y2, a12, b12⟩ | ⟨a12, m, b12⟩
  swap; · simp only [b1, b2, b3, b6, b7, b8, b11, Outcome.ok_bind, b12]; exact .inr (.inr ⟨⟨m, rfl⟩, .inl (miss 12 (early 12 (by simp)) a12)⟩)
  rcases numRead_cases (F := F) ws 13 with ⟨z2, a13, b13⟩ | ⟨a13, m, b13⟩
  swap; · simp only [b1, b2, b3, b6, b7, b8, b11, b12, Outcome.ok_bind, b13]; exact .inr (.inr ⟨⟨m, rfl⟩, .inl (miss 13 (early 13 (by simp)) a13)⟩)
  simp only [b1, b2, b3, b6, b7, b8, b11, b12, b13, Outcome.ok_bind]
  -- every layout has a number at position 17
  have h17 : 17 ∈ numberPositions F ws := by
    unfold numberPositions; split <;> simp
  cases h15 : ws[15]? with
  | none =>
    refine .inr (.inr ⟨⟨_, rfl⟩, .inl (miss 17 h17 ?_)⟩)
    have : ws[17]? = none := by
      rw [List.getElem?_eq_none_iff] at h15 ⊢; omega
    simp [numAt, this]
  | some tex =>
    simp only [Outcome.unwrap_some, Outcome.ok_bind]
    cases h16 : numAt (F := F) ws 16 with
    | some u =>
      have hpl : plainUV F ws = true := by simp [plainUV, h16]
      have hpos : numberPositions F ws = [1, 2, 3, 6, 7, 8, 11, 12, 13, 16, 17, 18, 19, 20] := by
        simp [numberPositions, hpl]
      have hex : extraWords F ws = ws.drop 21 := by simp [extraWords, hpl]
      rw [parseUV_drop_plain h16]
      rcases numRead_cases (F := F) ws 17 with ⟨v, a17, b17⟩ | ⟨a17, m, b17⟩
      swap; · simp only [b17]; exact .inr (.inr ⟨⟨m, rfl⟩, .inl (miss 17 h17 a17)⟩)
      simp only [b17, Outcome.ok_bind, nextF_drop, Outcome.bind_assoc]
      rcases numRead_cases (F := F) ws 18 with ⟨r, a18, b18⟩ | ⟨a18, m, b18⟩
      swap; · simp only [b18]; exact .inr (.inr ⟨⟨m, rfl⟩, .inl (miss 18 (by simp [hpos]) a18)⟩)
      rcases numRead_cases (F := F) ws 19 with ⟨sx, a19, b19⟩ | ⟨a19, m, b19⟩
      swap; · simp only [b18, Outcome.ok_bind, b19]; exact .inr (.inr ⟨⟨m, rfl⟩, .inl (miss 19 (by simp [hpos]) a19)⟩)
      rcases numRead_cases (F := F) ws 20 with ⟨sy, a20, b20⟩ | ⟨a20, m, b20⟩
      swap; · simp only [b18, b19, Outcome.ok_bind, b20]; exact .inr (.inr ⟨⟨m, rfl⟩, .inl (miss 20 (by simp [hpos]) a20)⟩)
      simp only [b18, b19, b20, Outcome.ok_bind]
      have hhead : HeadOk F ws := by
        intro i hi
        rw [hpos] at hi
        simp only [List.mem_cons, List.not_mem_nil, or_false] at hi
        rcases hi with rfl | rfl | rfl | rfl | rfl | rfl | rfl | rfl | rfl | rfl | rfl | rfl | rfl | rfl <;>
          exact ⟨_, by assumption⟩
      rw [hex]
      rcases parseExtra_cases (F := F) (ws.drop 21) with ⟨d, h1, h2⟩ | ⟨msg, h1, h2⟩ | ⟨h1, h2, m, h3⟩
      · refine .inl ⟨_, by rw [h1]; rfl, ?_, hhead⟩
        exact ⟨⟨a1, a2, a3⟩, ⟨a6, a7, a8⟩, ⟨a11, a12, a13⟩, by simp [h15], ⟨h16, a17, a18, a19, a20⟩,
          by rw [hex]; exact h2⟩
      · exact .inr (.inl ⟨msg, by rw [h1]; rfl, hhead, h2⟩)
      · exact .inr (.inr ⟨⟨m, by rw [h3]; rfl⟩, .inr ⟨h1, h2⟩⟩)
    | none =>
      have hpl : plainUV F ws = false := by simp [plainUV, h16]
      have hpos : numberPositions F ws =
          [1, 2, 3, 6, 7, 8, 11, 12, 13, 17, 18, 19, 20, 23, 24, 25, 26, 28, 29, 30] := by
        simp [numberPositions, hpl]
      have hex : extraWords F ws = ws.drop 31 := by simp [extraWords, hpl]
      rw [parseUV_drop_valve h16]
      cases hw16 : ws[16]? with
      | none =>
        refine .inr (.inr ⟨⟨_, rfl⟩, .inl (miss 17 h17 ?_)⟩)
        have : ws[17]? = none := by
          rw [List.getElem?_eq_none_iff] at hw16 ⊢; omega
        simp [numAt, this]
      | some w =>
      simp only [Outcome.unwrap_some, Outcome.ok_bind]
      rcases numRead_cases (F := F) ws 17 with ⟨ux, a17, b17⟩ | ⟨a17, m, b17⟩
      swap; · simp only [b17]; exact .inr (.inr ⟨⟨m, rfl⟩, .inl (miss 17 h17 a17)⟩)
      simp only [b17, Outcome.ok_bind, nextF_drop, Outcome.bind_assoc]
      rcases numRead_cases (F := F) ws 18 with ⟨uy, a18, b18⟩ | ⟨a18, m, b18⟩
      swap; · simp only [b18]; exact .inr (.inr ⟨⟨m, rfl⟩, .inl (miss 18 (by simp [hpos]) a18)⟩)
      simp only [b18, Outcome.ok_bind]
      rcases numRead_cases (F := F) ws 19 with ⟨uz, a19, b19⟩ | ⟨a19, m, b19⟩
      swap; · simp only [b19]; exact .inr (.inr ⟨⟨m, rfl⟩, .inl (miss 19 (by simp [hpos]) a19)⟩)
      simp only [b19, Outcome.ok_bind]
      rcases numRead_cases (F := F) ws 20 with ⟨uo, a20, b20⟩ | ⟨a20, m, b20⟩
      swap; · simp only [b20]; exact .inr (.inr ⟨⟨m, rfl⟩, .inl (miss 20 (by simp [hpos]) a20)⟩)
      simp only [b20, Outcome.ok_bind]
      rcases numRead_cases (F := F) ws 23 with ⟨vx, a23, b23⟩ | ⟨a23, m, b23⟩
      swap; · simp only [b23]; exact .inr (.inr ⟨⟨m, rfl⟩, .inl (miss 23 (by simp [hpos]) a23)⟩)
      simp only [b23, Outcome.ok_bind]
      rcases numRead_cases (F := F) ws 24 with ⟨vy, a24, b24⟩ | ⟨a24, m, b24⟩
      swap; · simp only [b24]; exact .inr (.inr ⟨⟨m, rfl⟩, .inl (miss 24 (by simp [hpos]) a24)⟩)
      simp only [b24, Outcome.ok_bind]
      rcases numRead_cases (F := F) ws 25 with ⟨vz, a25, b25⟩ | ⟨a25, m, b25⟩
      swap; · simp only [b25]; exact .inr (.inr ⟨⟨m, rfl⟩, .inl (miss 25 (by simp [hpos]) a25)⟩)
      simp only [b25, Outcome.ok_bind]
      rcases numRead_cases (F := F) ws 26 with ⟨vo, a26, b26⟩ | ⟨a26, m, b26⟩
      swap; · simp only [b26]; exact .inr (.inr ⟨⟨m, rfl⟩, .inl (miss 26 (by simp [hpos]) a26)⟩)
      simp only [b26, Outcome.ok_bind]
      rcases numRead_cases (F := F) ws 28 with ⟨r, a28, b28⟩ | ⟨a28, m, b28⟩
      swap; · simp only [b28]; exact .inr (.inr ⟨⟨m, rfl⟩, .inl (miss 28 (by simp [hpos]) a28)⟩)
      simp only [b28, Outcome.ok_bind]
      rcases numRead_cases (F := F) ws 29 with ⟨sx, a29, b29⟩ | ⟨a29, m, b29⟩
      swap; · simp only [b29]; exact .inr (.inr ⟨⟨m, rfl⟩, .inl (miss 29 (by simp [hpos]) a29)⟩)
      simp only [b29, Outcome.ok_bind]
      rcases numRead_cases (F := F) ws 30 with ⟨sy, a30, b30⟩ | ⟨a30, m, b30⟩
      swap; · simp only [b30]; exact .inr (.inr ⟨⟨m, rfl⟩, .inl (miss 30 (by simp [hpos]) a30)⟩)
      simp only [b30, Outcome.ok_bind]
      have hhead : HeadOk F ws := by
        intro i hi
        rw [hpos] at hi
        simp only [List.mem_cons, List.not_mem_nil, or_false] at hi
        rcases hi with rfl | rfl | rfl | rfl | rfl | rfl | rfl | rfl | rfl | rfl | rfl | rfl | rfl | rfl |
          rfl | rfl | rfl | rfl | rfl | rfl <;> exact ⟨_, by assumption⟩
      rw [hex]
      rcases parseExtra_cases (F := F) (ws.drop 31) with ⟨d, h1, h2⟩ | ⟨msg, h1, h2⟩ | ⟨h1, h2, m, h3⟩
      · refine .inl ⟨_, by rw [h1]; rfl, ?_, hhead⟩
        exact ⟨⟨a1, a2, a3⟩, ⟨a6, a7, a8⟩, ⟨a11, a12, a13⟩, by simp [h15],
          ⟨h16, a17, a18, a19, a20, a23, a24, a25, a26, a28, a29, a30⟩, by rw [hex]; exact h2⟩
      · exact .inr (.inl ⟨msg, by rw [h1]; rfl, hhead, h2⟩)
      · exact .inr (.inr ⟨⟨m, by rw [h3]; rfl⟩, .inr ⟨h1, h2⟩⟩)

/-- The words of a face determine it. -/
theorem faceIs_unique {ws : List Str} {p p' : BrushPlane F} (h : FaceIs ws p) (h' : FaceIs ws p') :
    p = p' := by
  obtain ⟨⟨a1, a2, a3⟩, ⟨a4, a5, a6⟩, ⟨a7, a8, a9⟩, a10, a11, a12⟩ := h
  obtain ⟨⟨b1, b2, b3⟩, ⟨b4, b5, b6⟩, ⟨b7, b8, b9⟩, b10, b11, b12⟩ := h'
  have e := extraIs_unique a12 b12
  obtain ⟨⟨x0, y0, z0⟩, ⟨x1, y1, z1⟩, ⟨x2, y2, z2⟩, tex, uv, rot, ⟨sx, sy⟩, ex⟩ := p
  obtain ⟨⟨x0', y0', z0'⟩, ⟨x1', y1', z1'⟩, ⟨x2', y2', z2'⟩, tex', uv', rot', ⟨sx', sy'⟩, ex'⟩ := p'
  simp only at *
  rw [a1] at b1; rw [a2] at b2; rw [a3] at b3; rw [a4] at b4; rw [a5] at b5; rw [a6] at b6
  rw [a7] at b7; rw [a8] at b8; rw [a9] at b9; rw [a10] at b10
  cases b1; cases b2; cases b3; cases b4; cases b5; cases b6; cases b7; cases b8; cases b9; cases b10
  subst e
  cases uv with
  | quake u v =>
    cases uv' with
    | quake u' v' =>
      obtain ⟨c1, c2, c3, c4, c5⟩ := a11
      obtain ⟨d1, d2, d3, d4, d5⟩ := b11
      simp only at *
      rw [c1] at d1; rw [c2] at d2; rw [c3] at d3; rw [c4] at d4; rw [c5] at d5
      cases d1; cases d2; cases d3; cases d4; cases d5; rfl
    | valve ua uo va vo =>
      have := a11.1; rw [b11.1] at this; cases this
  | valve ua uo va vo =>
    cases uv' with
    | quake u' v' => have := a11.1; rw [b11.1] at this; cases this
    | valve ua' uo' va' vo' =>
      obtain ⟨_, c1, c2, c3, c4, c5, c6, c7, c8, c9, c10, c11⟩ := a11
      obtain ⟨_, d1, d2, d3, d4, d5, d6, d7, d8, d9, d10, d11⟩ := b11
      cases ua; cases va; cases ua'; cases va'
      simp only at *
      rw [c1] at d1; rw [c2] at d2; rw [c3] at d3; rw [c4] at d4; rw [c5] at d5; rw [c6] at d6
      rw [c7] at d7; rw [c8] at d8; rw [c9] at d9; rw [c10] at d10; rw [c11] at d11
      cases d1; cases d2; cases d3; cases d4; cases d5; cases d6; cases d7; cases d8; cases d9
      cases d10; cases d11; rfl

theorem faceIs_headOk {ws : List Str} {p : BrushPlane F} (h : FaceIs ws p) : HeadOk F ws := by
  obtain ⟨⟨a1, a2, a3⟩, ⟨a4, a5, a6⟩, ⟨a7, a8, a9⟩, _, a11, _⟩ := h
  intro i hi
  rcases List.mem_append.1 hi with hi | hi
  · simp only [List.mem_cons, List.not_mem_nil, or_false] at hi
    rcases hi with rfl | rfl | rfl | rfl | rfl | rfl | rfl | rfl | rfl <;> exact ⟨_, by assumption⟩
  · cases huv : p.uv with
    | quake u v =>
      rw [huv] at a11
      obtain ⟨c1, c2, c3, c4, c5⟩ := a11
      rw [if_pos (by simp [plainUV, c1])] at hi
      simp only [List.mem_cons, List.not_mem_nil, or_false] at hi
      rcases hi with rfl | rfl | rfl | rfl | rfl <;> exact ⟨_, by assumption⟩
    | valve ua uo va vo =>
      rw [huv] at a11
      obtain ⟨c0, c1, c2, c3, c4, c5, c6, c7, c8, c9, c10, c11⟩ := a11
      rw [if_neg (by simp [plainUV, c0])] at hi
      simp only [List.mem_cons, List.not_mem_nil, or_false] at hi
      rcases hi with rfl | rfl | rfl | rfl | rfl | rfl | rfl | rfl | rfl | rfl | rfl <;>
        exact ⟨_, by assumption⟩

theorem ofWords_ok_iff (ws : List Str) (p : BrushPlane F) :
    BrushPlane.ofWords ws = .ok p ↔ FaceIs ws p := by
  constructor
  · intro h
    rcases ofWords_cases (F := F) ws with ⟨q, h1, h2, _⟩ | ⟨msg, h1, _⟩ | ⟨⟨m, h1⟩, _⟩
    · rw [h] at h1; cases h1; exact h2
    · rw [h] at h1; cases h1
    · rw [h] at h1; cases h1
  · intro h
    rcases ofWords_cases (F := F) ws with ⟨q, h1, h2, _⟩ | ⟨msg, h1, _, h3⟩ | ⟨⟨m, h1⟩, h2 | ⟨h2, h3⟩⟩
    · rw [h1, faceIs_unique h h2]
    · exact absurd h.2.2.2.2.2 (extraError_not_is h3)
    · exact absurd (faceIs_headOk h) h2
    · exfalso
      have := h.2.2.2.2.2
      obtain ⟨w, hw⟩ : ∃ w, extraWords F ws = [w] := List.length_eq_one_iff.1 h2
      rw [hw] at this h3
      cases hp : p.extra <;> rw [hp] at this <;> simp only [ExtraIs] at this
      simp [numAt, this] at h3

/-- Words printed for a face describe it. -/
theorem faceWords_is (hb : Arith.parse (F := F) (str! "[") = none) {p : BrushPlane F} {ws : List Str}
    (h : FaceWords p ws) : FaceIs ws p := by
  obtain ⟨a, b, c, tex, uv, r, sx, sy, ex, rfl, ⟨x0, y0, z0, rfl, a1, a2, a3⟩, ⟨x1, y1, z1, rfl, a4, a5, a6⟩,
    ⟨x2, y2, z2, rfl, a7, a8, a9⟩, htex, huv, hr, hsx, hsy, hex⟩ := h
  refine ⟨⟨a1, a2, a3⟩, ⟨a4, a5, a6⟩, ⟨a7, a8, a9⟩, by simp [htex], ?_, ?_⟩
  · cases h : p.uv with
    | quake u v =>
      rw [h] at huv
      obtain ⟨a, b, rfl, b1, b2⟩ := huv
      exact ⟨b1, b2, hr, hsx, hsy⟩
    | valve ua uo va vo =>
      rw [h] at huv
      obtain ⟨a, b, c, d, e, f, g, i, rfl, b1, b2, b3, b4, b5, b6, b7, b8⟩ := huv
      exact ⟨hb, b1, b2, b3, b4, b5, b6, b7, b8, hr, hsx, hsy⟩
  · cases h : p.uv with
    | quake u v =>
      rw [h] at huv
      obtain ⟨a, b, rfl, b1, b2⟩ := huv
      have : plainUV F ([str! "(", x0, y0, z0, str! ")"] ++ [str! "(", x1, y1, z1, str! ")"] ++
          [str! "(", x2, y2, z2, str! ")"] ++ [tex] ++ [a, b] ++ [r, sx, sy] ++ ex) = true := by
        simp [plainUV, numAt, b1]
      rw [extraWords, this]
      exact hex
    | valve ua uo va vo =>
      rw [h] at huv
      obtain ⟨a, b, c, d, e, f, g, i, rfl, b1, b2, b3, b4, b5, b6, b7, b8⟩ := huv
      have : plainUV F ([str! "(", x0, y0, z0, str! ")"] ++ [str! "(", x1, y1, z1, str! ")"] ++
          [str! "(", x2, y2, z2, str! ")"] ++ [tex] ++
          [str! "[", a, b, c, d, str! "]", str! "[", e, f, g, i, str! "]"] ++ [r, sx, sy] ++ ex) = false := by
        simp [plainUV, numAt, hb]
      rw [extraWords, this]
      exact hex

end
end Quarch
