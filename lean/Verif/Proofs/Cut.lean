import Verif.Proofs.Parser
/-
Cutting lists: `CutOf` is transitive; every parser step extends the entities.
-/
namespace Quarch
open Spec Quarch.Parser

/-- Inductive form of `CutOf`. -/
inductive Cut {α : Type} (R : α → α → Prop) : List α → List α → Prop
  | nil (ys : List α) : Cut R [] ys
  | last {x y : α} (ys : List α) : R x y → Cut R [x] (y :: ys)
  | cons {xs ys : List α} (x : α) : Cut R xs ys → Cut R (x :: xs) (x :: ys)

theorem Cut.trans {α : Type} {R : α → α → Prop} (hR : ∀ a b c, R a b → R b c → R a c)
    {xs ys zs : List α} (h : Cut R xs ys) (h' : Cut R ys zs) : Cut R xs zs := by
  induction h generalizing zs with
  | nil => exact .nil _
  | last ys hr =>
    cases h' with
    | last zs hr' => exact .last _ (hR _ _ _ hr hr')
    | cons _ h => exact .last _ hr
  | cons x h ih =>
    cases h' with
    | last zs hr' => cases h; exact .last _ hr'
    | cons _ h => exact .cons _ (ih h)

theorem Cut.of_prefix {α : Type} {R : α → α → Prop} {xs ys : List α} (h : xs <+: ys) : Cut R xs ys := by
  obtain ⟨t, rfl⟩ := h
  induction xs with
  | nil => exact .nil _
  | cons x xs ih => exact .cons _ ih

theorem Cut.append {α : Type} {R : α → α → Prop} {xs ys : List α} (init : List α) (h : Cut R xs ys) :
    Cut R (init ++ xs) (init ++ ys) := by
  induction init with
  | nil => exact h
  | cons x xs ih => exact .cons _ ih

theorem cutOf_iff {α : Type} {R : α → α → Prop} {xs ys : List α} :
    CutOf R xs ys ↔ Cut R xs ys := by
  constructor
  · rintro (h | ⟨init, x, y, more, rfl, rfl, h⟩)
    · exact .of_prefix h
    · exact .append init (.last _ h)
  · intro h
    induction h with
    | nil => exact .inl (List.nil_prefix)
    | last ys hr => exact .inr ⟨[], _, _, ys, rfl, rfl, hr⟩
    | cons x h ih =>
      rcases ih with ⟨t, rfl⟩ | ⟨init, a, b, more, rfl, rfl, hr⟩
      · exact .inl ⟨t, rfl⟩
      · exact .inr ⟨x :: init, a, b, more, rfl, rfl, hr⟩

theorem brushCut_trans {F : Type} (a b c : Brush F) (h : BrushCut a b) (h' : BrushCut b c) : BrushCut a c :=
  List.IsPrefix.trans h h'

theorem entityCut_refl {F : Type} (a : Entity F) : EntityCut a a :=
  ⟨fun _ h => h, .inl (List.prefix_refl _)⟩

theorem entityCut_trans {F : Type} (a b c : Entity F) (h : EntityCut a b) (h' : EntityCut b c) :
    EntityCut a c :=
  ⟨fun k hk => h'.1 k (h.1 k hk),
    cutOf_iff.2 ((cutOf_iff.1 h.2).trans brushCut_trans (cutOf_iff.1 h'.2))⟩

theorem withLast_ok {α β : Type} {l l' : List α} {f : α → Outcome (α × β)} {r : β}
    (h : withLast l f = .ok (l', r)) :
    ∃ l0 x x', l = l0 ++ [x] ∧ f x = .ok (x', r) ∧ l' = l0 ++ [x'] := by
  rcases List.eq_nil_or_concat' l with rfl | ⟨l0, x, rfl⟩
  · cases h
  · rw [withLast_snoc] at h
    obtain ⟨p, h1, h2⟩ := Outcome.bind_eq_ok.1 h
    cases h2
    exact ⟨l0, x, p.1, rfl, h1, rfl⟩

section
variable {F : Type} [Arith F] [Platform]

/-- What one step does to the entities: nothing, a new entity at file level, or growth of the last one. -/
theorem step_entities {s s' : State F} {t : Token} (h : step s t = .ok s') :
    (s'.entities = s.entities ∧ (s'.scope = .file ∨ (s'.scope = .file ↔ s.scope = .file))) ∨
    (s.scope = .file ∧ s'.scope ≠ .file ∧ s'.entities = s.entities ++ [Entity.new]) ∨
    (s.scope ≠ .file ∧ s'.scope ≠ .file ∧ ∃ es e e', s.entities = es ++ [e] ∧ s'.entities = es ++ [e'] ∧
      EntityCut e e') := by
  cases t with
  | comment m => cases h; exact .inl ⟨rfl, .inr .rfl⟩
  | unrecognized m => cases h; exact .inl ⟨rfl, .inr .rfl⟩
  | closeBrace =>
    cases hs : s.scope with
    | file => simp [step, hs] at h
    | entity e =>
      simp only [step, hs] at h
      cases h
      exact .inl ⟨rfl, .inl rfl⟩
    | brush e b =>
      simp only [step, hs] at h
      cases h
      exact .inl ⟨rfl, .inr (by simp)⟩
  | openBrace =>
    cases hs : s.scope with
    | file =>
      simp only [step, hs] at h
      cases h
      exact .inr (.inl ⟨rfl, by simp, rfl⟩)
    | entity e =>
      simp only [step, hs] at h
      obtain ⟨⟨es, bi⟩, h1, h2⟩ := Outcome.bind_eq_ok.1 h
      obtain ⟨es0, x, x', hes, hx, rfl⟩ := withLast_ok h1
      cases h2
      cases hx
      exact .inr (.inr ⟨by simp, by simp, es0, x, _, hes, rfl,
        fun _ h => h, .inl ⟨_, rfl⟩⟩)
    | brush e b => simp [step, hs] at h
  | property k v =>
    cases hs : s.scope with
    | file => simp [step, hs] at h
    | entity e =>
      simp only [step, hs] at h
      obtain ⟨⟨es, bi⟩, h1, h2⟩ := Outcome.bind_eq_ok.1 h
      obtain ⟨es0, x, x', hes, hx, rfl⟩ := withLast_ok h1
      cases h2
      cases hx
      refine .inr (.inr ⟨by simp, by simp, es0, x, _, hes, rfl, fun key hk => ?_, .inl ⟨[], by simp⟩⟩)
      simp only [Map.insert]
      split
      · rfl
      · exact hk
    | brush e b => simp [step, hs] at h
  | brushPlane line =>
    cases hs : s.scope with
    | file => simp [step, hs] at h
    | entity e => simp [step, hs] at h
    | brush e b =>
      simp only [step, hs] at h
      obtain ⟨⟨es, bi⟩, h1, h2⟩ := Outcome.bind_eq_ok.1 h
      obtain ⟨es0, x, x', hes, hx, rfl⟩ := withLast_ok h1
      cases h2
      obtain ⟨⟨bs, pi⟩, h3, h4⟩ := Outcome.bind_eq_ok.1 hx
      obtain ⟨bs0, y, y', hbs, hy, rfl⟩ := withLast_ok h3
      cases h4
      obtain ⟨pl, h5, h6⟩ := Outcome.bind_eq_ok.1 hy
      cases h6
      exact .inr (.inr ⟨by simp, by simp, es0, x, _, hes, rfl, fun _ h => h,
        .inr ⟨bs0, y, _, [], hbs, rfl, ⟨_, rfl⟩⟩⟩)

theorem fold_cut {s s' : State F} {ts : List Token} (h : foldOut step s ts = .ok s') :
    Cut EntityCut s.entities s'.entities := by
  induction ts generalizing s with
  | nil => cases h; exact .of_prefix (List.prefix_refl _)
  | cons t ts ih =>
    obtain ⟨s1, h1, h2⟩ := Outcome.bind_eq_ok.1 h
    refine Cut.trans entityCut_trans ?_ (ih h2)
    rcases step_entities h1 with ⟨h, _⟩ | ⟨_, _, h⟩ | ⟨_, _, es, e, e', h3, h4, h5⟩
    · rw [h]; exact .of_prefix (List.prefix_refl _)
    · rw [h]; exact .of_prefix ⟨_, rfl⟩
    · rw [h3, h4]; exact .append _ (.last _ h5)

/-- From file scope on, entities that are complete stay as they are. -/
theorem fold_prefix {s s' : State F} {ts : List Token} (hs : s.scope = .file)
    (h : foldOut step s ts = .ok s') : s.entities <+: s'.entities := by
  have key := foldOut_inv (f := step) (s := s) (l := ts) (s' := s')
    (fun _ st => s.entities <+: st.entities ∧ (st.scope ≠ .file → s.entities.length < st.entities.length))
    ⟨List.prefix_refl _, fun h => absurd hs h⟩ ?_ h
  · exact key.1
  · rintro done x st st' _ ⟨h1, h2⟩ h3
    rcases step_entities h3 with ⟨h, h4⟩ | ⟨_, _, h⟩ | ⟨h4, _, es, e, e', h5, h6, _⟩
    · rw [h]
      refine ⟨h1, fun h5 => h2 fun h6 => ?_⟩
      rcases h4 with h4 | h4
      · exact h5 h4
      · exact h5 (h4.2 h6)
    · rw [h]
      refine ⟨h1.trans ⟨_, rfl⟩, fun _ => ?_⟩
      have := h1.length_le
      simp; omega
    · have hlt := h2 h4
      rw [h5] at h1 hlt
      rw [h6]
      simp only [List.length_append, List.length_singleton] at hlt ⊢
      refine ⟨?_, fun _ => hlt⟩
      have : s.entities <+: es := List.prefix_of_prefix_length_le h1 ⟨_, rfl⟩ (by omega)
      exact this.trans ⟨_, rfl⟩

end
end Quarch
