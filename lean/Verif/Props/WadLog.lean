import Verif.Model.WadLog
import Verif.Spec.WadLog
import Verif.Props.Wad
import Verif.Props.Log
/-
C95: what the WAD reader prints.
-/
set_option linter.unusedSectionVars false
namespace Quarch
open Spec Output Wad

/-- C95: writing does not change what is returned. -/
theorem C95_same_result (style : DebugStyle) (clock : Nat → Nat) (checks : Bool) (file : Option Bytes)
    (wl : Option (List Str)) (levels : Nat) (sched : Nat → List Nat) :
    (readTexturesLog style clock checks file wl levels sched).2 = readTextures checks file wl levels sched := by
  unfold readTexturesLog readTextures
  split
  · rfl
  · split
    · rfl
    · simp only [say_bind, Logged.bind_snd]
      rfl

/-- C95: the conversion to RGB writes one line if there are two palettes, and nothing otherwise. -/
theorem C95_conversion (t : TextureIndexed) (palette : Option Palette) :
    (intoRgbLog t palette).2 = intoRgb t palette ∧
    (t.palette ≠ none ∧ palette ≠ none → (intoRgbLog t palette).1 =
      [.out (str! "Skipping supplied palette: Not necessary for WAD3 RGB conversion")]) ∧
    (t.palette = none ∨ palette = none → (intoRgbLog t palette).1 = []) := by
  unfold intoRgbLog intoRgb
  cases t.palette with
  | none => cases palette <;> simp [quiet]
  | some p =>
    cases palette with
    | none =>
      refine ⟨?_, by simp, fun _ => rfl⟩
      simp only [Logged.bind_snd]
      rfl
    | some q =>
      refine ⟨?_, fun _ => rfl, by simp⟩
      simp only [Logged.bind_snd]
      rfl

theorem took_line (what : Str) (n : Nat) : Took what (.out (tookLine what n)) :=
  ⟨_, n, decVal_showNat n, rfl⟩

theorem entryTold_of (style : DebugStyle) {e : EntryRec} (hk : e.kind = 67 ∨ e.kind = 68) :
    EntryTold e (readingLine style (toEntry e)) := by
  refine ⟨_, _, _, escapeChar style (latin1 e.kind), _, _, _, decVal_showNat e.offset, decVal_showNat e.dsize,
    decVal_showNat e.size, ?_, decVal_showNat e.cmprs.toNat, nameIn_iff.2 rfl, debugStr_quoted style _, ?_⟩
  · rcases hk with h | h
    · left; refine ⟨h, ?_⟩; rw [h]; exact escape_piece style 'C'
    · right; refine ⟨h, ?_⟩; rw [h]; exact escape_piece style 'D'
  · simp [readingLine, debugEntry, toEntry, List.append_assoc]

theorem selection_wanted {wl : Option (List Str)} {es ws : List EntryRec} (h : Selection wl es ws) :
    ∀ e ∈ ws, Wanted wl e := by
  induction h with
  | nil => simp
  | take hw _ ih =>
    intro e he
    rcases List.mem_cons.1 he with rfl | he
    · exact hw
    · exact ih e he
  | skip _ _ ih => exact ih

theorem range_getElem {α : Type} (l : List α) : (List.range l.length).filterMap (fun i => l[i]?) = l := by
  induction l with
  | nil => rfl
  | cons x l ih =>
    rw [List.length_cons, List.range_succ_eq_map, List.filterMap_cons, List.filterMap_map]
    simp only [List.getElem?_cons_zero, Function.comp_def, Nat.succ_eq_add_one, List.getElem?_cons_succ, ih]

/-- A schedule that runs every task once shows each entry once. -/
theorem tasks_told (style : DebugStyle) {ws : List EntryRec} {ms : List MipTexture} (hlen : ws.length = ms.length)
    (hk : ∀ e ∈ ws, e.kind = 67 ∨ e.kind = 68) {sched : List Nat} (hs : sched.Perm (List.range ws.length)) :
    ∃ ws', ws'.Perm ws ∧ List.Forall₂ EntryTold ws' (sched.filterMap fun i =>
      (((ws.map toEntry).zip ms)[i]?).map fun em : Entry × MipTexture => readingLine style em.1) := by
  have e1 : ∀ i : Nat, ((((ws.map toEntry).zip ms)[i]?).map fun em : Entry × MipTexture => readingLine style em.1) =
      (ws[i]?).map fun e => readingLine style (toEntry e) := by
    intro i
    have : (((ws.map toEntry).zip ms).map (·.1)) = ws.map toEntry := by
      rw [List.map_fst_zip (by simp [hlen])]
    have h := congrArg (fun l : List Entry => (l[i]?).map (readingLine style)) this
    simp only [List.getElem?_map, Option.map_map] at h
    exact h
  refine ⟨sched.filterMap fun i => ws[i]?, ?_, ?_⟩
  · refine (hs.filterMap _).trans (List.Perm.of_eq (range_getElem ws))
  · simp only [e1]
    rw [← List.map_filterMap, List.forall₂_map_right_iff]
    refine List.forall₂_same.2 fun e he => entryTold_of style (hk e ?_)
    obtain ⟨i, _, hi⟩ := List.mem_filterMap.1 he
    exact List.mem_of_getElem? hi

theorem bind_ok_inv {α β : Type} {x : Logged α} {f : α → Logged β} {ls : List LogLine} {b : β}
    (h : x.bind f = (ls, .ok b)) : ∃ a ls', x.2 = .ok a ∧ f a = (ls', .ok b) ∧ ls = x.1 ++ ls' := by
  unfold Logged.bind at h
  split at h
  · rename_i a ha
    obtain ⟨rfl, h2⟩ := Prod.mk.inj h
    exact ⟨a, (f a).1, ha, Prod.ext rfl h2, rfl⟩
  · cases h
  · cases h
  · cases h

theorem bind_err_inv {α β : Type} {x : Logged α} {f : α → Logged β} {ls : List LogLine} {e : Err}
    (h : x.bind f = (ls, .err e)) : x = (ls, .err e) ∨ ∃ a ls', x.2 = .ok a ∧ f a = (ls', .err e) ∧ ls = x.1 ++ ls' := by
  unfold Logged.bind at h
  split at h
  · rename_i a ha
    obtain ⟨rfl, h2⟩ := Prod.mk.inj h
    exact .inr ⟨a, (f a).1, ha, Prod.ext rfl h2, rfl⟩
  · rename_i e' he
    cases h
    exact .inl (Prod.ext rfl he)
  · cases h
  · cases h

/-- C95: what is written if reading succeeds. -/
theorem C95_printed (style : DebugStyle) (clock : Nat → Nat) (checks : Bool) (file : Bytes) (wl : Option (List Str))
    (levels : Nat) (sched : Nat → List Nat) (hs : ∀ n, (sched n).Perm (List.range n)) (lines : List LogLine)
    (ts : List TextureIndexed)
    (h : readTexturesLog style clock checks (some file) wl levels sched = (lines, .ok ts)) :
    ∃ wt d es ws ws' l1 l2 l3 l4 told, HasHeader file wt es.length d ∧ HasDirectory checks file d es ∧
      Selection wl es ws ∧ List.Forall₂ (HasTexHeader file) ws (ts.map fun t => t.mipTexture) ∧ ws'.Perm ws ∧
      List.Forall₂ EntryTold ws' told ∧ Took (str! "header") l1 ∧ Took (str! "directory") l2 ∧
      Took (str! "mip textures") l3 ∧ Took (str! "mip data") l4 ∧ lines = [l1, l2, l3] ++ told ++ [l4] := by
  unfold readTexturesLog at h
  split at h
  · cases h
  obtain ⟨hd, k1, h1, h', e1⟩ := bind_ok_inv h
  obtain ⟨_, k2, _, h, e2⟩ := bind_ok_inv h'
  obtain ⟨wt, k3, h2, h', e3⟩ := bind_ok_inv h
  obtain ⟨dir, k4, h3, h, e4⟩ := bind_ok_inv h'
  obtain ⟨_, k5, _, h', e5⟩ := bind_ok_inv h
  obtain ⟨ms, k6, h4, h, e6⟩ := bind_ok_inv h'
  obtain ⟨_, k7, _, h', e7⟩ := bind_ok_inv h
  obtain ⟨ds, k8, h5, h, e8⟩ := bind_ok_inv h'
  obtain ⟨_, k9, _, h', e9⟩ := bind_ok_inv h
  cases h'
  rcases readHeader_cases file with ⟨_, h1'⟩ | ⟨magic, n, d, hm, hn, hdd, hh, h1'⟩
  · rw [show readHeader file = .ok hd from h1] at h1'; cases h1'
  · rw [show readHeader file = .ok hd from h1] at h1'
    simp only [Outcome.ok.injEq] at h1'
    subst h1'
    obtain rfl := wadTypeOf_ok.1 h2
    obtain ⟨es, ws, hlen, hdir, hws, rfl⟩ := readDirectory_ok.1 h3
    have hms := readMipTextures_ok.1 h4
    simp only at hlen
    subst hlen
    have hwl := hms.length_eq
    have hl2 : ds.length = ms.length := by
      have h5 : readMipData checks file wt (ws.map toEntry) ms levels (sched (ws.map toEntry).length) = .ok ds := h5
      rw [readMipData_complete (complete_mono (fun i hi => (hs _).mem_iff.2 (List.mem_range.2 hi)) (zip_le _ ms)),
        collectResults_eq_ok] at h5
      have h7 := congrArg List.length h5
      simp only [List.length_map, List.length_zip] at h7
      omega
    have hperm := hs (ws.map toEntry).length
    rw [List.length_map] at hperm
    obtain ⟨ws', hp, ht⟩ := tasks_told style hwl (fun e he => (selection_wanted hws e he).1) hperm
    refine ⟨wt, d, es, ws, ws', _, _, _, _, _, ⟨hn, hdd, hh⟩, hdir, hws, ?_, hp, ht, took_line _ (clock 0),
      took_line _ (clock 1), took_line _ (clock 2), took_line _ (clock 3), ?_⟩
    · rw [List.map_map]
      have : (((fun t : TextureIndexed => t.mipTexture) ∘ fun x : MipTexture × MipDataIndexed × Option Palette =>
          (match x with | (m, d) => (⟨m, d.1, d.2⟩ : TextureIndexed)))) = Prod.fst := rfl
      rw [this, List.map_fst_zip (by omega)]
      exact hms
    · rw [e1, e2, e3, e4, e5, e6, e7, e8, e9]
      simp [quiet, say, readMipDataLog]

/-- C95: what is written if reading fails tells what is missing. -/
theorem C95_failed (style : DebugStyle) (clock : Nat → Nat) (checks : Bool) (file : Option Bytes)
    (wl : Option (List Str)) (levels : Nat) (sched : Nat → List Nat) (hs : ∀ n, (sched n).Perm (List.range n))
    (lines : List LogLine) (e : Err)
    (h : readTexturesLog style clock checks file wl levels sched = (lines, .err e)) :
    (file = none ∧ lines = []) ∨ ∃ bytes, file = some bytes ∧
      (bytes.length < 12 ∧ lines = [] ∨ ∃ wt n d l1, HasHeader bytes wt n d ∧ Took (str! "header") l1 ∧
        ((¬ ∃ es, es.length = n ∧ HasDirectory checks bytes d es) ∧ lines = [l1] ∨
          ∃ es ws l2, es.length = n ∧ HasDirectory checks bytes d es ∧ Selection wl es ws ∧
            Took (str! "directory") l2 ∧
            ((¬ ∃ ms, List.Forall₂ (HasTexHeader bytes) ws ms) ∧ lines = [l1, l2] ∨
              ∃ ms ws' l3 told, List.Forall₂ (HasTexHeader bytes) ws ms ∧ ws'.Perm ws ∧ List.Forall₂ EntryTold ws' told ∧
                Took (str! "mip textures") l3 ∧ lines = [l1, l2, l3] ++ told))) := by
  unfold readTexturesLog at h
  split at h
  · cases h
  cases file with
  | none => left; cases h; exact ⟨rfl, rfl⟩
  | some bytes =>
    right
    refine ⟨bytes, rfl, ?_⟩
    rcases bind_err_inv h with h | ⟨hd, k1, h1, h', e1⟩
    · rcases readHeader_cases bytes with ⟨hb, hr⟩ | ⟨magic, n, d, hm, hn, hd, hh, hr⟩
      · obtain ⟨rfl, _⟩ := Prod.mk.inj h
        exact .inl ⟨by simpa using hb.2, rfl⟩
      · rw [hr] at h; cases h
    right
    rcases readHeader_cases bytes with ⟨_, h1'⟩ | ⟨magic, n, d, hm, hn, hdd, hh, h1'⟩
    · rw [show readHeader bytes = .ok hd from h1] at h1'; cases h1'
    rw [show readHeader bytes = .ok hd from h1] at h1'
    simp only [Outcome.ok.injEq] at h1'
    subst h1'
    rcases bind_err_inv h' with h | ⟨_, k2, _, h, e2⟩
    · cases h
    rcases bind_err_inv h with h | ⟨wt, k3, h2, h', e3⟩
    · have := congrArg Prod.snd h
      unfold wadTypeOf quiet at this
      simp only at this
      split_ifs at this
    obtain rfl := wadTypeOf_ok.1 h2
    refine ⟨wt, n, d, _, ⟨hn, hdd, hh⟩, took_line _ (clock 0), ?_⟩
    rcases bind_err_inv h' with h | ⟨dir, k4, h3, h, e4⟩
    · left
      obtain ⟨rfl, hb⟩ := Prod.mk.inj h
      refine ⟨?_, by rw [e1, e2, e3]; rfl⟩
      rintro ⟨es, hl, hdir⟩
      obtain ⟨ws, hws⟩ := selection_exists wl es
      rw [readDirectory_ok.2 ⟨es, ws, hl, hdir, hws, rfl⟩] at hb
      cases hb
    right
    obtain ⟨es, ws, hlen, hdir, hws, rfl⟩ := readDirectory_ok.1 h3
    refine ⟨es, ws, _, hlen, hdir, hws, took_line _ (clock 1), ?_⟩
    rcases bind_err_inv h with h | ⟨_, k5, _, h', e5⟩
    · cases h
    rcases bind_err_inv h' with h | ⟨ms, k6, h4, h, e6⟩
    · left
      obtain ⟨rfl, hb⟩ := Prod.mk.inj h
      refine ⟨?_, by rw [e1, e2, e3, e4, e5]; rfl⟩
      rintro ⟨ms, hms⟩
      rw [readMipTextures_ok.2 hms] at hb
      cases hb
    right
    have hms := readMipTextures_ok.1 h4
    have hperm := hs (ws.map toEntry).length
    rw [List.length_map] at hperm
    obtain ⟨ws', hp, ht⟩ := tasks_told style hms.length_eq (fun e he => (selection_wanted hws e he).1) hperm
    refine ⟨ms, ws', _, _, hms, hp, ht, took_line _ (clock 2), ?_⟩
    rcases bind_err_inv h with h | ⟨_, k7, _, h', e7⟩
    · cases h
    rcases bind_err_inv h' with h | ⟨ds, k8, h5, h, e8⟩
    · have h8 := congrArg Prod.fst h
      simp only at h8
      rw [e1, e2, e3, e4, e5, e6, e7, ← h8]
      simp [quiet, say, readMipDataLog]
    · rcases bind_err_inv h with h | ⟨_, k9, _, h', e9⟩
      · cases h
      · cases h'

/-! ### the line about an entry can be read back -/

theorem decVal_digits {s : Str} {n : Nat} (h : DecVal s n) : ',' ∉ s := by
  obtain ⟨_, h⟩ := decVal_iff.1 h
  have key : ∀ (s : Str) (acc : Nat), digitsVal acc s = some n → ',' ∉ s := by
    intro s
    induction s with
    | nil => simp
    | cons x s ih =>
      intro acc h hc
      unfold digitsVal at h
      cases hx : digitVal x with
      | none => rw [hx] at h; cases h
      | some d =>
        rw [hx] at h
        rcases List.mem_cons.1 hc with rfl | hc
        · rw [show digitVal ',' = none by decide] at hx; cases hx
        · exact ih _ h hc
  exact key s 0 h

theorem decVal_unique {s : Str} {n m : Nat} (h : DecVal s n) (h' : DecVal s m) : n = m := by
  have h1 := (decVal_iff.1 h).2
  rw [(decVal_iff.1 h').2] at h1
  exact (Option.some.inj h1).symm

/-- C95: the line about an entry determines the entry. -/
theorem spec_C95_told_unique (e e' : EntryRec) (line : LogLine) (h : EntryTold e line) (h' : EntryTold e' line) :
    e.offset = e'.offset ∧ e.dsize = e'.dsize ∧ e.size = e'.size ∧ e.kind = e'.kind ∧ e.cmprs = e'.cmprs ∧
      ∃ name, NameIn e.field name ∧ NameIn e'.field name := by
  obtain ⟨o, d, s, k, c, n, q, h1, h2, h3, h4, h5, h6, h7, rfl⟩ := h
  obtain ⟨o', d', s', k', c', n', q', h1', h2', h3', h4', h5', h6', h7', eq⟩ := h'
  simp only [LogLine.out.injEq, List.append_assoc, List.append_cancel_left_eq] at eq
  obtain ⟨rfl, eq2⟩ := split_first (c := ',') (decVal_digits h1) (decVal_digits h1') eq
  replace eq := List.append_cancel_left (as := str! " dsize: ") eq2
  clear eq2
  obtain ⟨rfl, eq2⟩ := split_first (c := ',') (decVal_digits h2) (decVal_digits h2') eq
  replace eq := List.append_cancel_left (as := str! " size: ") eq2
  clear eq2
  obtain ⟨rfl, eq2⟩ := split_first (c := ',') (decVal_digits h3) (decVal_digits h3') eq
  replace eq := List.append_cancel_left (as := str! " entry_type: '") eq2
  clear eq2
  have hk : ∀ {a a' : Char}, Piece a k → Piece a' k' → a = a' ∧ _ := fun p p' => piece_split p p' eq
  have : e.kind = e'.kind ∧ str! "', cmprs: " ++ (c ++ (str! ", name: " ++ (q ++ str! " }"))) =
      str! "', cmprs: " ++ (c' ++ (str! ", name: " ++ (q' ++ str! " }"))) := by
    rcases h4 with ⟨e1, p⟩ | ⟨e1, p⟩ <;> rcases h4' with ⟨e2, p'⟩ | ⟨e2, p'⟩
    · exact ⟨e1.trans e2.symm, (hk p p').2⟩
    · exact absurd (hk p p').1 (by decide)
    · exact absurd (hk p p').1 (by decide)
    · exact ⟨e1.trans e2.symm, (hk p p').2⟩
  obtain ⟨hkind, eq3⟩ := this
  replace eq := List.append_cancel_left eq3
  obtain ⟨rfl, eq2⟩ := split_first (c := ',') (decVal_digits h5) (decVal_digits h5') eq
  replace eq := List.append_cancel_left (as := str! " name: ") eq2
  clear eq2
  obtain rfl := List.append_cancel_right eq
  obtain rfl := quoted_unique h7 h7'
  exact ⟨decVal_unique h1 h1', decVal_unique h2 h2', decVal_unique h3 h3', hkind,
    UInt8.toNat_inj.1 (decVal_unique h5 h5'), n, h6, h6'⟩

end Quarch
