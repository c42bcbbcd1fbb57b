import Verif.Props.WadExamples
/-
C107: reading some of the textures of a WAD file and reading all of them.
-/
namespace Quarch
open Spec Wad

/-- Reading texture `e` with this many levels gives `t`. -/
def ReadAs (checks : Bool) (file : Bytes) (wt : WadType) (levels : Nat) (e : EntryRec) (t : TextureIndexed) : Prop :=
  HasTexHeader file e t.mipTexture ∧
    readMipDatum checks file wt levels (toEntry e, t.mipTexture) = .ok (t.mipData, t.palette)

theorem data_levels {checks : Bool} {file : Bytes} {wt : WadType} {levels : Nat} {ws : List EntryRec}
    {ms : List MipTexture} (hms : List.Forall₂ (HasTexHeader file) ws ms) {ts : List TextureIndexed} :
    (∃ ds, collectResults (((ws.map toEntry).zip ms).map (readMipDatum checks file wt levels)) = .ok ds ∧
      ts = (ms.zip ds).map fun (m, d) => ⟨m, d.1, d.2⟩) ↔
    List.Forall₂ (ReadAs checks file wt levels) ws ts := by
  simp only [collectResults_eq_ok]
  induction hms generalizing ts with
  | nil =>
    constructor
    · rintro ⟨ds, h, rfl⟩; simp
    · intro h; cases h; exact ⟨[], rfl, rfl⟩
  | @cons e m ws ms hm _ ih =>
    constructor
    · rintro ⟨ds, h, rfl⟩
      cases ds with
      | nil => simp at h
      | cons d ds =>
        simp only [List.map_cons, List.zip_cons_cons, List.cons.injEq] at h
        simp only [List.zip_cons_cons, List.map_cons]
        exact .cons ⟨hm, h.1⟩ (ih.1 ⟨ds, h.2, rfl⟩)
    · intro h
      cases h with
      | @cons _ t _ ts ht hts =>
        obtain ⟨ds, h1, rfl⟩ := ih.2 hts
        have hmt : t.mipTexture = m := texHeader_unique ht.1 hm
        subst hmt
        refine ⟨(t.mipData, t.palette) :: ds, ?_, by simp⟩
        simp only [List.map_cons, List.zip_cons_cons]
        rw [h1, ht.2]

theorem read_levels {checks : Bool} {file : Bytes} {wl : Option (List Str)} {levels : Nat} {sched : Nat → List Nat}
    (hs : ∀ n, Complete n (sched n)) (hl : 1 ≤ levels ∧ levels ≤ 4) {ts : List TextureIndexed} :
    readTextures checks (some file) wl levels sched = .ok ts ↔
      ∃ wt d es ws, HasHeader file wt es.length d ∧ HasDirectory checks file d es ∧ Selection wl es ws ∧
        List.Forall₂ (ReadAs checks file wt levels) ws ts := by
  rw [readTextures_eq hs hl]
  constructor
  · intro h
    obtain ⟨hd, h1, h⟩ := Outcome.bind_eq_ok.1 h
    obtain ⟨wt, h2, h⟩ := Outcome.bind_eq_ok.1 h
    obtain ⟨dir, h3, h⟩ := Outcome.bind_eq_ok.1 h
    obtain ⟨ms, h4, h⟩ := Outcome.bind_eq_ok.1 h
    obtain ⟨ds, h5, h6⟩ := Outcome.bind_eq_ok.1 h
    simp only [Outcome.ok.injEq] at h6
    rcases readHeader_cases file with ⟨_, h1'⟩ | ⟨magic, n, d, hm, hn, hdd, hh, h1'⟩
    · rw [h1'] at h1; simp at h1
    · rw [h1'] at h1
      simp only [Outcome.ok.injEq] at h1
      subst h1
      obtain rfl := wadTypeOf_ok.1 h2
      obtain ⟨es, ws, hlen, hdir, hws, rfl⟩ := readDirectory_ok.1 h3
      have hms := readMipTextures_ok.1 h4
      simp only at hlen
      subst hlen
      exact ⟨wt, d, es, ws, ⟨hn, hdd, hh⟩, hdir, hws, (data_levels hms).1 ⟨ds, h5, h6.symm⟩⟩
  · rintro ⟨wt, d, es, ws, hh, hdir, hws, hts⟩
    obtain ⟨h1, h2⟩ := readHeader_of hh
    have hms : List.Forall₂ (HasTexHeader file) ws (ts.map (·.mipTexture)) := by
      rw [List.forall₂_map_right_iff]
      exact hts.imp fun _ _ h => h.1
    obtain ⟨ds, h3, h4⟩ := (data_levels hms).2 hts
    rw [h1, Outcome.ok_bind, h2, Outcome.ok_bind, readDirectory_ok.2 ⟨es, ws, rfl, hdir, hws, rfl⟩,
      Outcome.ok_bind, readMipTextures_ok.2 hms, Outcome.ok_bind, h3, Outcome.ok_bind, ← h4]

theorem levels_of_ok {checks : Bool} {file : Option Bytes} {wl : Option (List Str)} {levels : Nat}
    {sched : Nat → List Nat} {ts : List TextureIndexed} (h : readTextures checks file wl levels sched = .ok ts) :
    1 ≤ levels ∧ levels ≤ 4 := by
  by_contra hl
  unfold readTextures at h
  rw [if_pos hl] at h; simp at h

theorem nameIn_unique {field : Bytes} {a b : Str} (h : NameIn field a) (h' : NameIn field b) : a = b := by
  rw [nameIn_iff] at h h'; rw [h, h']

theorem nameIn_exists (field : Bytes) : ∃ name, NameIn field name := ⟨_, nameIn_iff.2 rfl⟩

theorem selection_filter {wl : Option (List Str)} {es ws : List EntryRec} (h : Selection wl es ws) {R : EntryRec → TextureIndexed → Prop}
    {ts : List TextureIndexed} (hts : List.Forall₂ R ws ts) {names : List Str}
    (hn : List.Forall₂ (fun e name => NameIn e.field name) ws names) (w : List Str)
    (hw : ∀ v, wl = some v → ∀ name ∈ w, name ∈ v) :
    ∃ ws', Selection (some w) es ws' ∧
      List.Forall₂ R ws' (((names.zip ts).filter fun p => p.1 ∈ w).map Prod.snd) := by
  induction h generalizing ts names with
  | nil => cases hts; cases hn; exact ⟨[], .nil, .nil⟩
  | @take e es ws hwant _ ih =>
    cases hts with
    | @cons _ t _ ts ht hts =>
      cases hn with
      | @cons _ name _ names hn1 hn =>
        obtain ⟨ws', h1, h2⟩ := ih hts hn
        by_cases hin : name ∈ w
        · refine ⟨e :: ws', .take ⟨hwant.1, ?_⟩ h1, ?_⟩
          · rintro w' hw'
            cases hw'
            exact ⟨name, hin, hn1⟩
          · rw [List.zip_cons_cons, List.filter_cons_of_pos (by simpa using hin), List.map_cons]
            exact .cons ht h2
        · refine ⟨ws', .skip ?_ h1, ?_⟩
          · rintro ⟨_, hx⟩
            obtain ⟨nm, hm, hnm⟩ := hx w rfl
            rw [nameIn_unique hnm hn1] at hm
            exact hin hm
          · rw [List.zip_cons_cons, List.filter_cons_of_neg (by simpa using hin)]
            exact h2
  | @skip e es ws hnot _ ih =>
    obtain ⟨ws', h1, h2⟩ := ih hts hn
    refine ⟨ws', .skip ?_ h1, h2⟩
    rintro ⟨hk, hx⟩
    apply hnot
    refine ⟨hk, fun v hv => ?_⟩
    obtain ⟨nm, hm, hnm⟩ := hx w rfl
    exact ⟨nm, hw v hv nm hm, hnm⟩

/-- C107: if a WAD file can be read, then for every list of names (out of the given one, if there is one) exactly the
textures with these directory names are read, in the same order and unchanged. -/
theorem C107_selected (checks : Bool) (file : Bytes) (wl : Option (List Str)) (levels : Nat)
    (sched : Nat → List Nat) (hs : ∀ n, Complete n (sched n)) (ts : List TextureIndexed)
    (h : readTextures checks (some file) wl levels sched = .ok ts) :
    ∃ wt d es ws names, HasHeader file wt es.length d ∧ HasDirectory checks file d es ∧ Selection wl es ws ∧
      List.Forall₂ (fun e t => HasTexHeader file e t.mipTexture) ws ts ∧
      List.Forall₂ (fun e name => NameIn e.field name) ws names ∧
      ∀ w, (∀ v, wl = some v → ∀ name ∈ w, name ∈ v) → ∀ sched', (∀ n, Complete n (sched' n)) →
        readTextures checks (some file) (some w) levels sched' =
          .ok (((names.zip ts).filter fun p => p.1 ∈ w).map Prod.snd) := by
  have hl := levels_of_ok h
  obtain ⟨wt, d, es, ws, hh, hdir, hws, hts⟩ := (read_levels hs hl).1 h
  obtain ⟨names, hn⟩ : ∃ names, List.Forall₂ (fun (e : EntryRec) name => NameIn e.field name) ws names := by
    clear h hws hts
    induction ws with
    | nil => exact ⟨[], .nil⟩
    | cons e ws ih =>
      obtain ⟨names, hn⟩ := ih
      obtain ⟨name, h1⟩ := nameIn_exists e.field
      exact ⟨name :: names, .cons h1 hn⟩
  refine ⟨wt, d, es, ws, names, hh, hdir, hws, hts.imp fun _ _ h => h.1, hn, fun w hw sched' hs' => ?_⟩
  obtain ⟨ws', h1, h2⟩ := selection_filter hws hts hn w hw
  exact (read_levels hs' hl).2 ⟨wt, d, es, ws', hh, hdir, h1, h2⟩

theorem selection_mem {wl : Option (List Str)} {es ws : List EntryRec} (h : Selection wl es ws) {i : Nat} {e : EntryRec}
    (hi : es[i]? = some e) (hw : Wanted wl e) : e ∈ ws := by
  induction h generalizing i with
  | nil => simp at hi
  | take _ _ ih =>
    cases i with
    | zero => simp only [List.getElem?_cons_zero, Option.some.injEq] at hi; subst hi; simp
    | succ i => exact List.mem_cons_of_mem _ (ih (by simpa using hi))
  | skip hn _ ih =>
    cases i with
    | zero => simp only [List.getElem?_cons_zero, Option.some.injEq] at hi; subst hi; exact absurd hw hn
    | succ i => exact ih (by simpa using hi)

theorem selection_places {wl : Option (List Str)} {es ws : List EntryRec} (h : Selection wl es ws) :
    ∀ e ∈ ws, Wanted wl e ∧ ∃ i : Nat, es[i]? = some e := by
  induction h with
  | nil => simp
  | take hw _ ih =>
    intro e he
    rcases List.mem_cons.1 he with rfl | he
    · exact ⟨hw, 0, rfl⟩
    · obtain ⟨h1, i, hi⟩ := ih e he
      exact ⟨h1, i + 1, by simpa using hi⟩
  | skip _ _ ih =>
    intro e he
    obtain ⟨h1, i, hi⟩ := ih e he
    exact ⟨h1, i + 1, by simpa using hi⟩

theorem forall₂_pick {α β : Type} {R : α → β → Prop} {l : List α} {m : List β} (h : List.Forall₂ R l m) :
    ∀ a ∈ l, ∃ b, R a b := by
  induction h with
  | nil => simp
  | cons h _ ih => simpa using ⟨⟨_, h⟩, ih⟩

theorem forall₂_choose {α β : Type} {R : α → β → Prop} : ∀ {l : List α}, (∀ a ∈ l, ∃ b, R a b) → ∃ m, List.Forall₂ R l m
  | [], _ => ⟨[], .nil⟩
  | a :: l, h => by
    obtain ⟨b, hb⟩ := h a (by simp)
    obtain ⟨m, hm⟩ := forall₂_choose (l := l) fun a ha => h a (by simp [ha])
    exact ⟨b :: m, .cons hb hm⟩

/-- C107: textures that can be read with one list of names and textures that can be read with another one can be read
together. -/
theorem C107_together (checks : Bool) (file : Bytes) (w w' : List Str) (levels : Nat)
    (sched : Nat → List Nat) (hs : ∀ n, Complete n (sched n)) (ts ts' : List TextureIndexed)
    (h : readTextures checks (some file) (some w) levels sched = .ok ts)
    (h' : readTextures checks (some file) (some w') levels sched = .ok ts') :
    ∃ all, readTextures checks (some file) (some (w ++ w')) levels sched = .ok all := by
  have hl := levels_of_ok h
  obtain ⟨wt, d, es, ws, hh, hdir, hws, hts⟩ := (read_levels hs hl).1 h
  obtain ⟨wt', d', es', ws', hh', hdir', hws', hts'⟩ := (read_levels hs hl).1 h'
  have hsame : wt = wt' ∧ es.length = es'.length ∧ d = d' := by
    have a := readHeader_of hh; have b := readHeader_of hh'
    have e1 := a.1.symm.trans b.1
    simp only [Outcome.ok.injEq, Header.mk.injEq] at e1
    have e2 := a.2; rw [e1.1, b.2] at e2
    exact ⟨(Outcome.ok.inj e2).symm, e1.2⟩
  obtain ⟨rfl, hlen, rfl⟩ := hsame
  obtain ⟨us, hus⟩ := selection_exists (some (w ++ w')) es
  have key : ∀ e ∈ us, ∃ t, ReadAs checks file wt levels e t := by
    intro e he
    obtain ⟨⟨hk, hx⟩, i, hi⟩ := selection_places hus e he
    obtain ⟨nm, hm, hnm⟩ := hx _ rfl
    rcases List.mem_append.1 hm with hm | hm
    · have : e ∈ ws := selection_mem hws hi ⟨hk, fun v hv => by cases hv; exact ⟨nm, hm, hnm⟩⟩
      obtain ⟨t, ht⟩ := forall₂_pick hts e this
      exact ⟨t, ht⟩
    · have hlt : i < es'.length := by
        rw [← hlen]; exact (List.getElem?_eq_some_iff.1 hi).1
      have hi' : es'[i]? = some es'[i] := List.getElem?_eq_getElem hlt
      have hte := entry_unique (hdir i e hi) (hdir' i _ hi')
      have hwant : Wanted (some w') es'[i] := by
        have : Wanted (some w') e := ⟨hk, fun v hv => by cases hv; exact ⟨nm, hm, hnm⟩⟩
        by_contra hc
        have h1 := sel_wanted.1 this
        have h2 := sel_wanted.2 hc
        rw [hte, h2] at h1; simp at h1
      obtain ⟨t, ht⟩ := forall₂_pick hts' _ (selection_mem hws' hi' hwant)
      refine ⟨t, ?_, by rw [hte]; exact ht.2⟩
      have ho : e.offset = es'[i].offset := congrArg Entry.offset hte
      obtain ⟨h1, f, n, h2, h3, h4, h5⟩ := ht.1
      exact ⟨h1, f, n, h2, h3, h4, by rw [ho]; exact h5⟩
  obtain ⟨all, hall⟩ := forall₂_choose key
  exact ⟨all, (read_levels hs hl).2 ⟨wt, d, es, us, hh, hdir, hus, hall⟩⟩

set_option maxRecDepth 100000 in
/-- C107: the names to ask for are those in the directory, with upper and lower case. The names of the textures that were
read need not be among them: there is a file that can be read, and in which none of its textures is found by its name. -/
theorem C107_names_differ (checks : Bool) (sched : Nat → List Nat) (hs : ∀ n, Complete n (sched n)) :
    ∃ file ts, readTextures checks (some file) none 1 sched = .ok ts ∧ ts ≠ [] ∧
      readTextures checks (some file) (some (ts.map fun t => t.mipTexture.name)) 1 sched = .ok [] := by
  refine ⟨sky2, _, sky2_reads checks sched hs, by simp, ?_⟩
  rw [C59_schedule_independent checks _ _ 1 sched backwards hs backwards_complete]
  cases checks <;> decide

/-! ### concrete cases -/

/-- A file with two textures: `SKY`, which is there, and `X`, which is not. -/
def halfFile : Bytes :=
  magicOf .wad2 ++ (le4 2 ++ le4 12) ++ (farEntry 76).bytes ++
    { farEntry 1000 with field := [88, 0, 0, 0, 0, 0, 0, 0, 0, 0, 0, 0, 0, 0, 0, 0] }.bytes ++
    headerBytesOf skyLump.field ⟨[], 4, 4, 0, 0, 0, 0⟩

set_option maxRecDepth 100000 in
/-- C107: the file cannot be read, but `SKY` can. -/
example : readTextures true (some halfFile) none 1 backwards = .err (.wad .readMiptex) ∧
    ∃ t, readTextures true (some halfFile) (some [str! "SKY"]) 1 backwards = .ok [t] :=
  ⟨by decide, ⟨⟨str! "sky1", 4, 4, 0, 0, 0, 0⟩, ⟨(halfFile.drop 76).take 16, none, none, none⟩, none⟩, by decide⟩

set_option maxRecDepth 100000 in
/-- C107: two lists. -/
example : ∃ all, readTextures true (some halfFile) (some [str! "SKY", str! "Y"]) 1 backwards = .ok all :=
  C107_together true halfFile [str! "SKY"] [str! "Y"] 1 backwards backwards_complete
    [⟨⟨str! "sky1", 4, 4, 0, 0, 0, 0⟩, ⟨(halfFile.drop 76).take 16, none, none, none⟩, none⟩] [] (by decide) (by decide)

set_option maxRecDepth 100000 in
/-- C107: the hypothesis holds for the file with two textures of the same name; each list has both or none. -/
example : readTextures true (some sky2) none 1 backwards = .ok [skyTexture none, skyTexture none] ∧
    readTextures true (some sky2) (some [str! "A", str! "SKY"]) 1 backwards = .ok [skyTexture none, skyTexture none] ∧
    readTextures true (some sky2) (some [str! "A"]) 1 backwards = .ok [] := by decide

end Quarch
