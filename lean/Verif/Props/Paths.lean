import Verif.Props.Parser
/-
C75: the token paths returned by the parser.
-/
set_option linter.unusedSectionVars false
namespace Quarch
namespace Spec

/-- Tokens that become something: opening braces, properties and faces. -/
def HasPlace : Token → Prop
  | .openBrace => True
  | .property _ _ => True
  | .brushPlane _ => True
  | _ => False

section
variable {F : Type} [Arith F] [Platform]

/-- The path leads to something in `entities` that the token describes. -/
def Leads (entities : List (Entity F)) : Token → Parser.TokenPath → Prop
  | .openBrace, .entity e => e < entities.length
  | .openBrace, .brush e b => ∃ ent, entities[e]? = some ent ∧ b < ent.brushes.length
  | .property k _, .property e name => name = k ∧ ∃ ent, entities[e]? = some ent ∧ ent.properties k ≠ none
  | .brushPlane line, .brushPlane e b p => ∃ ent br plane, entities[e]? = some ent ∧ ent.brushes[b]? = some br ∧
      br.planes[p]? = some plane ∧ FaceText line plane
  | _, _ => False

/-- The path leads to what is newest in `entities`, and the token describes it: an empty entity or brush, a
property with its value, a face. -/
def Newest (entities : List (Entity F)) : Token → Parser.TokenPath → Prop
  | .openBrace, .entity e => ∃ old, entities = old ++ [⟨fun _ => none, []⟩] ∧ e = old.length
  | .openBrace, .brush e b => ∃ old ent bs, entities = old ++ [ent] ∧ ent.brushes = bs ++ [⟨[]⟩] ∧ e = old.length ∧
      b = bs.length
  | .property k v, .property e name => name = k ∧ ∃ old ent, entities = old ++ [ent] ∧ e = old.length ∧
      ent.properties k = some v
  | .brushPlane line, .brushPlane e b p => ∃ old ent bs br ps plane, entities = old ++ [ent] ∧
      ent.brushes = bs ++ [br] ∧ br.planes = ps ++ [plane] ∧ e = old.length ∧ b = bs.length ∧ p = ps.length ∧
      FaceText line plane
  | _, _ => False

end
end Spec

open Spec Quarch.Parser

section
variable {F : Type} [Arith F] [Platform]

/-- Entities only grow: nothing that was there disappears. -/
def Grow (es es' : List (Entity F)) : Prop :=
  ∀ (e : Nat) (ent : Entity F), es[e]? = some ent → ∃ ent' : Entity F, es'[e]? = some ent' ∧
    (∀ k, ent.getProperty k ≠ none → ent'.getProperty k ≠ none) ∧
    ∀ (b : Nat) (br : Brush F), ent.brushes[b]? = some br → ∃ br' : Brush F, ent'.brushes[b]? = some br' ∧ br.planes <+: br'.planes

theorem Grow.refl (es : List (Entity F)) : Grow es es :=
  fun _ ent h => ⟨ent, h, fun _ hk => hk, fun _ br hb => ⟨br, hb, List.prefix_refl _⟩⟩

theorem Grow.snoc (es : List (Entity F)) (x : Entity F) : Grow es (es ++ [x]) := by
  intro e ent h
  refine ⟨ent, ?_, fun _ hk => hk, fun _ br hb => ⟨br, hb, List.prefix_refl _⟩⟩
  rw [List.getElem?_append_left (List.getElem?_eq_some_iff.1 h).1, h]

theorem Grow.last {old : List (Entity F)} {x x' : Entity F}
    (h1 : ∀ k, x.getProperty k ≠ none → x'.getProperty k ≠ none)
    (h2 : ∀ (b : Nat) (br : Brush F), x.brushes[b]? = some br → ∃ br' : Brush F, x'.brushes[b]? = some br' ∧ br.planes <+: br'.planes) :
    Grow (old ++ [x]) (old ++ [x']) := by
  intro e ent h
  have hl := (List.getElem?_eq_some_iff.1 h).1
  simp at hl
  by_cases he : e < old.length
  · rw [List.getElem?_append_left he] at h ⊢
    exact ⟨ent, h, fun _ hk => hk, fun _ br hb => ⟨br, hb, List.prefix_refl _⟩⟩
  · have : e = old.length := by omega
    subst this
    simp at h ⊢
    subst h
    exact ⟨h1, h2⟩

theorem leads_mono {es es' : List (Entity F)} (hg : Grow es es') {t : Token} {q : TokenPath} (h : Leads es t q) :
    Leads es' t q := by
  unfold Leads at *
  split at h
  · rename_i e
    obtain ⟨x, hx⟩ : ∃ x, es[e]? = some x := ⟨_, List.getElem?_eq_getElem h⟩
    obtain ⟨x', hx', _⟩ := hg _ _ hx
    exact (List.getElem?_eq_some_iff.1 hx').1
  · rename_i e b
    obtain ⟨x, hx, hb⟩ := h
    obtain ⟨x', hx', _, h2⟩ := hg _ _ hx
    obtain ⟨y', hy', _⟩ := h2 b _ (List.getElem?_eq_getElem hb)
    exact ⟨x', hx', (List.getElem?_eq_some_iff.1 hy').1⟩
  · obtain ⟨rfl, x, hx, hk⟩ := h
    obtain ⟨x', hx', h2, _⟩ := hg _ _ hx
    exact ⟨rfl, x', hx', h2 _ hk⟩
  · obtain ⟨x, y, z, hx, hy, hz, hn⟩ := h
    obtain ⟨x', hx', _, h2⟩ := hg _ _ hx
    obtain ⟨y', hy', hp⟩ := h2 _ _ hy
    refine ⟨x', y', z, hx', hy', ?_, hn⟩
    obtain ⟨w, hw⟩ := hp
    rw [← hw, List.getElem?_append_left (List.getElem?_eq_some_iff.1 hz).1, hz]
  · exact h

/-- What is newest is there. -/
theorem newest_leads {es : List (Entity F)} {t : Token} {q : TokenPath} (h : Newest es t q) : Leads es t q := by
  unfold Newest at h
  unfold Leads
  split at h
  · obtain ⟨old, rfl, rfl⟩ := h; simp
  · obtain ⟨old, ent, bs, rfl, hb, rfl, rfl⟩ := h
    exact ⟨ent, by simp, by simp [hb]⟩
  · obtain ⟨rfl, old, ent, rfl, rfl, hk⟩ := h
    exact ⟨rfl, ent, by simp, by simp [hk]⟩
  · obtain ⟨old, ent, bs, br, ps, plane, rfl, hb, hp, rfl, rfl, rfl, hn⟩ := h
    exact ⟨ent, br, plane, by simp, by simp [hb], by simp [hp], hn⟩
  · exact h

/-- The scope points at the last entity and brush. -/
def ScopeOk (s : State F) : Prop :=
  match s.scope with
  | .file => True
  | .entity e => e + 1 = s.entities.length
  | .brush e b => ∃ old ent bs br, s.entities = old ++ [ent] ∧ ent.brushes = bs ++ [br] ∧ e = old.length ∧ b = bs.length

/-- One step: the new token leads to the newest thing; nothing else changes its path; entities grow. -/
theorem step_paths {s s' : State F} {t : Token} (hs : ScopeOk s) (h : step s t = .ok s') :
    ScopeOk s' ∧ Grow s.entities s'.entities ∧ (∀ u, u ≠ t → s'.tokenPaths u = s.tokenPaths u) ∧
      (HasPlace t → ∃ q, s'.tokenPaths t = some q ∧ Newest s'.entities t q) ∧
      (¬ HasPlace t → s'.tokenPaths t = s.tokenPaths t) := by
  have ins : ∀ (q : TokenPath), (∀ u, u ≠ t → (s.tokenPaths.insert t q) u = s.tokenPaths u) ∧
      (s.tokenPaths.insert t q) t = some q := by
    intro q
    constructor
    · intro u hu; simp [Map.insert, hu]
    · simp [Map.insert]
  unfold step at h
  unfold ScopeOk at hs
  split at h
  · -- open brace
    split at h
    · cases h
      refine ⟨by simp [ScopeOk], Grow.snoc _ _, (ins _).1, fun _ => ⟨_, (ins _).2, ?_⟩, fun hn => absurd trivial hn⟩
      exact ⟨s.entities, rfl, rfl⟩
    · rename_i e he
      simp only [he] at hs
      obtain ⟨⟨es, bi⟩, h1, h2⟩ := Outcome.bind_eq_ok.1 h
      cases h2
      obtain ⟨old, x, x', hes, hx, rfl⟩ := withLast_ok h1
      cases hx
      rw [hes] at hs ⊢
      simp at hs
      subst hs
      refine ⟨⟨old, _, x.brushes, _, rfl, rfl, rfl, rfl⟩, Grow.last (fun _ hk => hk) ?_, (ins _).1,
        fun _ => ⟨_, (ins _).2, ⟨old, _, x.brushes, rfl, rfl, rfl, rfl⟩⟩, fun hn => absurd trivial hn⟩
      intro b br hb
      exact ⟨br, by rw [List.getElem?_append_left (List.getElem?_eq_some_iff.1 hb).1, hb], List.prefix_refl _⟩
    · cases h
  · -- close brace
    split at h
    · cases h
    · cases h
      exact ⟨trivial, Grow.refl _, fun _ _ => rfl, fun hp => hp.elim, fun _ => rfl⟩
    · rename_i e b he
      simp only [he] at hs
      cases h
      obtain ⟨old, ent, bs, br, h1, h2, rfl, rfl⟩ := hs
      exact ⟨by simp [ScopeOk, h1], Grow.refl _, fun _ _ => rfl, fun hp => hp.elim, fun _ => rfl⟩
  · -- property
    rename_i k v
    split at h
    · cases h
    · rename_i e he
      simp only [he] at hs
      obtain ⟨⟨es, bi⟩, h1, h2⟩ := Outcome.bind_eq_ok.1 h
      cases h2
      obtain ⟨old, x, x', hes, hx, rfl⟩ := withLast_ok h1
      cases hx
      rw [hes] at hs ⊢
      simp at hs
      subst hs
      refine ⟨by simp [ScopeOk, he], Grow.last ?_ fun _ br hb => ⟨br, hb, List.prefix_refl _⟩, (ins _).1,
        fun _ => ⟨_, (ins _).2, ⟨rfl, old, _, rfl, rfl, by simp [Entity.getProperty, Map.get?, Map.insert]⟩⟩,
        fun hn => absurd trivial hn⟩
      intro k' hk'
      simp only [Entity.getProperty, Map.get?, Map.insert] at *
      split
      · simp
      · exact hk'
    · cases h
  · -- face
    rename_i line
    split at h
    · cases h
    · cases h
    · rename_i e b he
      simp only [he] at hs
      obtain ⟨⟨es, pi⟩, h1, h2⟩ := Outcome.bind_eq_ok.1 h
      cases h2
      obtain ⟨old, x, x', hes, hx, rfl⟩ := withLast_ok h1
      obtain ⟨⟨bs', pi'⟩, h3, h4⟩ := Outcome.bind_eq_ok.1 hx
      cases h4
      obtain ⟨bs0, y, y', hbs, hy, rfl⟩ := withLast_ok h3
      obtain ⟨plane, hp, h5⟩ := Outcome.bind_eq_ok.1 hy
      cases h5
      obtain ⟨old', ent', bs1, br1, e1, e2, rfl, rfl⟩ := hs
      rw [hes] at e1 ⊢
      obtain ⟨rfl, e3⟩ := List.append_inj' e1 rfl
      cases e3
      rw [hbs] at e2
      obtain ⟨rfl, e4⟩ := List.append_inj' e2 rfl
      cases e4
      refine ⟨?_, Grow.last (fun _ hk => hk) ?_, (ins _).1,
        fun _ => ⟨_, (ins _).2, ⟨old, _, bs0, _, y.planes, plane, rfl, rfl, rfl, rfl, rfl, rfl, (faceText_iff line plane).1 hp⟩⟩,
        fun hn => absurd trivial hn⟩
      · simp only [ScopeOk, he]
        exact ⟨old, _, bs0, _, rfl, rfl, rfl, rfl⟩
      · intro b br hb
        rw [hbs] at hb
        have hl := (List.getElem?_eq_some_iff.1 hb).1
        simp at hl
        by_cases hlt : b < bs0.length
        · rw [List.getElem?_append_left hlt] at hb ⊢
          exact ⟨br, hb, List.prefix_refl _⟩
        · have : b = bs0.length := by omega
          subst this
          simp at hb ⊢
          subst hb
          simp
  · cases h
    exact ⟨hs, Grow.refl _, fun _ _ => rfl, fun hp => hp.elim, fun _ => rfl⟩
  · cases h
    exact ⟨hs, Grow.refl _, fun _ _ => rfl, fun hp => hp.elim, fun _ => rfl⟩

theorem fold_paths {s s' : State F} {ts : List Token} (hs : ScopeOk s)
    (hl : ∀ t q, s.tokenPaths t = some q → Leads s.entities t q) (h : foldOut step s ts = .ok s') :
    ScopeOk s' ∧ (∀ t q, s'.tokenPaths t = some q → Leads s'.entities t q) ∧
      (∀ t, t ∉ ts → s'.tokenPaths t = s.tokenPaths t) ∧
      ∀ t, s'.tokenPaths t ≠ none ↔ s.tokenPaths t ≠ none ∨ (t ∈ ts ∧ HasPlace t) := by
  induction ts generalizing s with
  | nil => cases h; exact ⟨hs, hl, fun _ _ => rfl, by simp⟩
  | cons x xs ih =>
    rw [foldOut_cons] at h
    obtain ⟨s1, h1, h2⟩ := Outcome.bind_eq_ok.1 h
    obtain ⟨a1, a2, a3, a4, a5⟩ := step_paths hs h1
    have hl1 : ∀ t q, s1.tokenPaths t = some q → Leads s1.entities t q := by
      intro t q hq
      by_cases e : t = x
      · subst e
        by_cases hp : HasPlace t
        · obtain ⟨q', hq', hn⟩ := a4 hp
          rw [hq] at hq'; cases hq'
          exact newest_leads hn
        · rw [a5 hp] at hq
          exact leads_mono a2 (hl t q hq)
      · rw [a3 t e] at hq
        exact leads_mono a2 (hl t q hq)
    obtain ⟨b1, b2, b3, b4⟩ := ih a1 hl1 h2
    refine ⟨b1, b2, fun t ht => ?_, fun t => ?_⟩
    · simp at ht
      rw [b3 t ht.2, a3 t ht.1]
    · rw [b4 t, List.mem_cons]
      by_cases e : t = x
      · subst e
        by_cases hp : HasPlace t
        · obtain ⟨q', hq', _⟩ := a4 hp
          simp [hq', hp]
        · rw [a5 hp]; simp [hp]
      · rw [a3 t e]; simp [e]

theorem init_scopeOk : ScopeOk (init : State F) := trivial

theorem run_fold {ts : List Token} {paths es} (h : Parser.run (F := F) ts = .ok (paths, es)) :
    ∃ s, foldOut step init ts = .ok s ∧ s.tokenPaths = paths ∧ s.entities = es := by
  unfold Parser.run at h
  obtain ⟨s, h1, h2⟩ := Outcome.bind_eq_ok.1 h
  cases h2
  exact ⟨s, h1, rfl, rfl⟩

/-- C75: exactly the opening braces, properties and faces of the map have a path. -/
theorem C75_which_tokens (tokens : List Token) (paths) (entities : List (Entity F))
    (h : Parser.run tokens = .ok (paths, entities)) (t : Token) :
    paths.get? t ≠ none ↔ t ∈ tokens ∧ HasPlace t := by
  obtain ⟨s, h1, rfl, rfl⟩ := run_fold h
  have := (fold_paths init_scopeOk (by intro t q hq; cases hq) h1).2.2.2 t
  simpa [init, Map.empty, Map.get?] using this

/-- C75: every path leads to something in the loaded entities that the token describes; for a face line to the
very face read from it. -/
theorem C75_leads (tokens : List Token) (paths) (entities : List (Entity F))
    (h : Parser.run tokens = .ok (paths, entities)) (t : Token) (q : TokenPath) (hq : paths.get? t = some q) :
    Leads entities t q := by
  obtain ⟨s, h1, rfl, rfl⟩ := run_fold h
  exact (fold_paths init_scopeOk (by intro t q hq; cases hq) h1).2.1 t q hq

/-- C75: right after a token its path leads to the newest thing loaded. -/
theorem C75_newest (tokens : List Token) (t : Token) (ht : HasPlace t) (paths) (entities : List (Entity F))
    (h : Parser.run (tokens ++ [t]) = .ok (paths, entities)) :
    ∃ q, paths.get? t = some q ∧ Newest entities t q := by
  obtain ⟨s, h1, rfl, rfl⟩ := run_fold h
  rw [foldOut_append] at h1
  obtain ⟨s1, h2, h3⟩ := Outcome.bind_eq_ok.1 h1
  rw [foldOut_cons] at h3
  obtain ⟨s2, h4, h5⟩ := Outcome.bind_eq_ok.1 h3
  cases h5
  have a := (fold_paths init_scopeOk (by intro t q hq; cases hq) h2).1
  exact (step_paths a h4).2.2.2.1 ht

/-- C75: tokens after it that are not equal to it leave the path of a token as it is. So the path of a token
leads to what its last occurrence became. -/
theorem C75_last_occurrence (tokens more : List Token) (t : Token) (ht : t ∉ more) (paths)
    (entities : List (Entity F)) (h : Parser.run (tokens ++ more) = .ok (paths, entities)) :
    ∃ paths' entities', Parser.run (F := F) tokens = .ok (paths', entities') ∧ paths.get? t = paths'.get? t := by
  obtain ⟨s, h1, rfl, rfl⟩ := run_fold h
  rw [foldOut_append] at h1
  obtain ⟨s1, h2, h3⟩ := Outcome.bind_eq_ok.1 h1
  refine ⟨s1.tokenPaths, s1.entities, by unfold Parser.run; rw [h2]; rfl, ?_⟩
  obtain ⟨a1, a2, _⟩ := fold_paths init_scopeOk (by intro t q hq; cases hq) h2
  exact (fold_paths a1 a2 h3).2.2.1 t ht

end

section Examples
attribute [local instance] refPlatform intArith

/-- The paths of a loaded map at some tokens. -/
def pathsAt (ts : List Token) (o : Outcome (Map Token TokenPath × List (Entity Int))) :
    Outcome (List (Option TokenPath)) :=
  o.bind fun r => .ok (ts.map r.1.get?)

-- the example map: its face is face 0 of brush 0 of entity 0, the last opening brace is entity 1, the comment
-- has no path
example : pathsAt [.brushPlane exampleFace, .openBrace, .property (str! "k") (str! "b"),
      .property (str! "k") (str! "c"), .closeBrace] (Parser.run exampleTokens) =
    .ok [some (.brushPlane 0 0 0), some (.entity 1), some (.property 0 (str! "k")),
      some (.property 1 (str! "k")), none] := by decide

-- a face written in two brushes leads to the second
example : pathsAt [.brushPlane exampleFace] (Parser.run [.openBrace, .openBrace, .brushPlane exampleFace,
      .closeBrace, .openBrace, .brushPlane exampleFace, .brushPlane exampleFace]) =
    .ok [some (.brushPlane 0 1 1)] := by decide

end Examples
end Quarch
