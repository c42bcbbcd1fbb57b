import Verif.Model.Rust
import Mathlib.Data.List.Forall2
/-
Lemmas about outcomes and the loops built from them.
-/
namespace Quarch
namespace Outcome
universe u v w
variable {α : Type u} {β : Type v} {γ : Type w}

@[simp] theorem ok_bind (a : α) (f : α → Outcome β) : (Outcome.ok a).bind f = f a := rfl
@[simp] theorem err_bind (e : Err) (f : α → Outcome β) : (Outcome.err e).bind f = .err e := rfl
@[simp] theorem panic_bind (m : String) (f : α → Outcome β) : (Outcome.panic m).bind f = .panic m := rfl
@[simp] theorem overflow_bind (f : α → Outcome β) : (Outcome.overflow).bind f = .overflow := rfl

@[simp] theorem unwrap_some (a : α) : unwrap (some a) = .ok a := rfl
@[simp] theorem unwrapParse_some (a : α) : unwrapParse (some a) = .ok a := rfl
@[simp] theorem unwrap_eq_ok {o : Option α} {a : α} : unwrap o = .ok a ↔ o = some a := by
  cases o <;> simp [unwrap]
@[simp] theorem unwrapParse_eq_ok {o : Option α} {a : α} : unwrapParse o = .ok a ↔ o = some a := by
  cases o <;> simp [unwrapParse]

theorem bind_assoc (x : Outcome α) (f : α → Outcome β) (g : β → Outcome γ) :
    (x.bind f).bind g = x.bind fun a => (f a).bind g := by
  cases x <;> rfl

@[simp] theorem bind_ok (x : Outcome α) : x.bind .ok = x := by cases x <;> rfl

theorem bind_eq_ok {x : Outcome α} {f : α → Outcome β} {b : β} :
    x.bind f = .ok b ↔ ∃ a, x = .ok a ∧ f a = .ok b := by
  cases x <;> simp

theorem bind_eq_err {x : Outcome α} {f : α → Outcome β} {e : Err} :
    x.bind f = .err e ↔ x = .err e ∨ ∃ a, x = .ok a ∧ f a = .err e := by
  cases x <;> simp

theorem bind_eq_panic {x : Outcome α} {f : α → Outcome β} {m : String} :
    x.bind f = .panic m ↔ x = .panic m ∨ ∃ a, x = .ok a ∧ f a = .panic m := by
  cases x <;> simp

theorem bind_eq_overflow {x : Outcome α} {f : α → Outcome β} :
    x.bind f = .overflow ↔ x = .overflow ∨ ∃ a, x = .ok a ∧ f a = .overflow := by
  cases x <;> simp

theorem bind_congr {x : Outcome α} {f g : α → Outcome β} (h : ∀ a, x = .ok a → f a = g a) :
    x.bind f = x.bind g := by
  cases x <;> simp_all

theorem isOk_iff {x : Outcome α} : x.isOk = true ↔ ∃ a, x = .ok a := by cases x <;> simp [isOk]
theorem isPanic_iff {x : Outcome α} : x.isPanic = true ↔ ∃ m, x = .panic m := by
  cases x <;> simp [isPanic]
theorem isErr_iff {x : Outcome α} : x.isErr = true ↔ ∃ m, x = .err m := by
  cases x <;> simp [isErr]

/-- The same failure at another type; the default is never used on `ok`. -/
def failAs (β : Type v) : Outcome α → Outcome β
  | .ok _ => .overflow
  | .err e => .err e
  | .panic m => .panic m
  | .overflow => .overflow

theorem bind_of_not_ok {x : Outcome α} (h : ∀ a, x ≠ .ok a) (f : α → Outcome β) :
    x.bind f = x.failAs β := by
  cases x with
  | ok a => exact absurd rfl (h a)
  | _ => rfl

end Outcome

section
universe u v
variable {α : Type u} {β : Type v}

@[simp] theorem mapOut_nil (f : α → Outcome β) : mapOut f [] = .ok [] := rfl
theorem mapOut_cons (f : α → Outcome β) (x : α) (xs : List α) :
    mapOut f (x :: xs) = (f x).bind fun y => (mapOut f xs).bind fun ys => .ok (y :: ys) := rfl

theorem mapOut_eq_ok {f : α → Outcome β} {l : List α} {r : List β} :
    mapOut f l = .ok r ↔ List.Forall₂ (fun x y => f x = .ok y) l r := by
  induction l generalizing r with
  | nil =>
    cases r with
    | nil => simp
    | cons b bs => simp
  | cons x xs ih =>
    rw [mapOut_cons, Outcome.bind_eq_ok]
    constructor
    · rintro ⟨y, hy, h⟩
      obtain ⟨ys, hys, h⟩ := Outcome.bind_eq_ok.1 h
      cases h
      exact .cons hy (ih.1 hys)
    · intro h
      cases h with
      | cons hy hys => exact ⟨_, hy, Outcome.bind_eq_ok.2 ⟨_, ih.2 hys, rfl⟩⟩

theorem mapOut_append (f : α → Outcome β) (l₁ l₂ : List α) :
    mapOut f (l₁ ++ l₂) = (mapOut f l₁).bind fun a => (mapOut f l₂).bind fun b => .ok (a ++ b) := by
  induction l₁ with
  | nil => simp
  | cons x xs ih =>
    simp only [List.cons_append, mapOut_cons, ih, Outcome.bind_assoc, Outcome.ok_bind]

theorem mapOut_congr {f g : α → Outcome β} {l : List α} (h : ∀ x ∈ l, f x = g x) :
    mapOut f l = mapOut g l := by
  induction l with
  | nil => rfl
  | cons x xs ih =>
    rw [mapOut_cons, mapOut_cons, h x (by simp), ih fun y hy => h y (by simp [hy])]

theorem mapOut_pure (g : α → β) (l : List α) : mapOut (fun x => .ok (g x)) l = .ok (l.map g) := by
  induction l with
  | nil => rfl
  | cons x xs ih => simp [mapOut_cons, ih]

theorem mapOut_length {f : α → Outcome β} {l : List α} {r : List β} (h : mapOut f l = .ok r) :
    r.length = l.length := ((mapOut_eq_ok.1 h).length_eq).symm

theorem mapOut_isOk {f : α → Outcome β} {l : List α} :
    (∃ r, mapOut f l = .ok r) ↔ ∀ x ∈ l, ∃ y, f x = .ok y := by
  induction l with
  | nil => simp
  | cons x xs ih =>
    constructor
    · rintro ⟨r, hr⟩
      cases mapOut_eq_ok.1 hr with
      | cons h1 h2 =>
        intro y hy
        rcases List.mem_cons.1 hy with rfl | hy
        · exact ⟨_, h1⟩
        · exact ih.1 ⟨_, mapOut_eq_ok.2 h2⟩ y hy
    · intro h
      obtain ⟨y, hy⟩ := h x (by simp)
      obtain ⟨ys, hys⟩ := ih.2 fun z hz => h z (by simp [hz])
      exact ⟨y :: ys, by simp [mapOut_cons, hy, hys]⟩

/-- The first element on which the closure does not return decides the failure. -/
theorem mapOut_fail {f : α → Outcome β} {pre post : List α} {x : α}
    (hpre : ∀ y ∈ pre, ∃ z, f y = .ok z) (hx : ∀ y, f x ≠ .ok y) :
    mapOut f (pre ++ x :: post) = (f x).failAs _ := by
  obtain ⟨r, hr⟩ := mapOut_isOk.2 hpre
  rw [mapOut_append, hr, Outcome.ok_bind, mapOut_cons, Outcome.bind_of_not_ok hx]
  cases h : f x with
  | ok a => exact absurd h (hx a)
  | _ => rfl

theorem mapOut_map {γ : Type*} (f : β → Outcome γ) (g : α → β) (l : List α) :
    mapOut f (l.map g) = mapOut (fun x => f (g x)) l := by
  induction l with
  | nil => rfl
  | cons x xs ih => simp [mapOut_cons, ih]

theorem mapOut_mem {f : α → Outcome β} {l : List α} {r : List β} (h : mapOut f l = .ok r) {y : β}
    (hy : y ∈ r) : ∃ x ∈ l, f x = .ok y := by
  induction l generalizing r with
  | nil => cases mapOut_eq_ok.1 h; simp at hy
  | cons x xs ih =>
    cases mapOut_eq_ok.1 h with
    | cons h1 h2 =>
      rcases List.mem_cons.1 hy with rfl | hy
      · exact ⟨x, by simp, h1⟩
      · obtain ⟨z, hz, e⟩ := ih (mapOut_eq_ok.2 h2) hy
        exact ⟨z, by simp [hz], e⟩

theorem mapOut_mem' {f : α → Outcome β} {l : List α} {r : List β} (h : mapOut f l = .ok r) {x : α}
    (hx : x ∈ l) : ∃ y ∈ r, f x = .ok y := by
  induction l generalizing r with
  | nil => simp at hx
  | cons a xs ih =>
    cases mapOut_eq_ok.1 h with
    | cons h1 h2 =>
      rcases List.mem_cons.1 hx with rfl | hx
      · exact ⟨_, by simp, h1⟩
      · obtain ⟨z, hz, e⟩ := ih (mapOut_eq_ok.2 h2) hx
        exact ⟨z, by simp [hz], e⟩

@[simp] theorem foldOut_nil {σ : Type u} {α : Type v} (f : σ → α → Outcome σ) (s : σ) :
    foldOut f s [] = .ok s := rfl
theorem foldOut_cons {σ : Type u} {α : Type v} (f : σ → α → Outcome σ) (s : σ) (x : α) (xs : List α) :
    foldOut f s (x :: xs) = (f s x).bind fun s' => foldOut f s' xs := rfl
theorem foldOut_append {σ : Type u} {α : Type v} (f : σ → α → Outcome σ) (s : σ) (l₁ l₂ : List α) :
    foldOut f s (l₁ ++ l₂) = (foldOut f s l₁).bind fun s' => foldOut f s' l₂ := by
  induction l₁ generalizing s with
  | nil => rfl
  | cons x xs ih => simp [foldOut_cons, ih, Outcome.bind_assoc]

/-- Invariant rule for `for` loops. -/
theorem foldOut_inv {σ : Type u} {α : Type v} {f : σ → α → Outcome σ} (I : List α → σ → Prop)
    {l : List α} {s : σ} (h0 : I [] s)
    (hstep : ∀ done x s s', (done ++ [x]) <+: l → I done s → f s x = .ok s' → I (done ++ [x]) s')
    {s' : σ} (h : foldOut f s l = .ok s') : I l s' := by
  suffices H : ∀ (rest done : List α) (s : σ), done ++ rest = l → I done s →
      foldOut f s rest = .ok s' → I l s' from H l [] s rfl h0 h
  intro rest
  induction rest with
  | nil =>
    intro done s hd hI h
    simp only [List.append_nil] at hd
    cases h
    subst hd; exact hI
  | cons x xs ih =>
    intro done s hd hI h
    obtain ⟨s1, h1, h2⟩ := Outcome.bind_eq_ok.1 h
    refine ih (done ++ [x]) s1 (by simpa using hd) (hstep done x s s1 ⟨xs, by simpa using hd⟩ hI h1) h2

theorem collectResults_eq_ok {l : List (Outcome α)} {r : List α} :
    collectResults l = .ok r ↔ l = r.map .ok := by
  constructor
  · intro h
    unfold collectResults at h
    split at h
    · simp at h
    · simp at h
    · rename_i h1
      split at h
      · simp at h
      · rename_i h2
        have hnone : ∀ x ∈ l, ∃ a, x = .ok a := by
          intro x hx
          have hx1 := List.find?_eq_none.1 h1 x hx
          cases x with
          | ok a => exact ⟨a, rfl⟩
          | panic m => simp [Outcome.aborts] at hx1
          | overflow => simp [Outcome.aborts] at hx1
          | err e =>
            exfalso
            have hs : (l.find? Outcome.isErr).isSome := by
              rw [List.find?_isSome]; exact ⟨_, hx, rfl⟩
            obtain ⟨y, hy⟩ := Option.isSome_iff_exists.1 hs
            have := List.find?_some hy
            cases y with
            | err e' => exact h2 e' hy
            | _ => simp [Outcome.isErr] at this
        injection h with h
        subst h
        clear h1 h2
        induction l with
        | nil => rfl
        | cons x xs ih =>
          obtain ⟨a, rfl⟩ := hnone x (by simp)
          have := ih fun y hy => hnone y (by simp [hy])
          rw [List.filterMap_cons_some (by rfl), List.map_cons, ← this]
  · rintro rfl
    unfold collectResults
    have h1 : (r.map Outcome.ok).find? Outcome.aborts = none := by
      rw [List.find?_eq_none]; simp [Outcome.aborts]
    have h2 : (r.map Outcome.ok).find? Outcome.isErr = none := by
      rw [List.find?_eq_none]; simp [Outcome.isErr]
    rw [h1, h2]
    simp only [List.filterMap_map]
    congr 1
    have : (Outcome.value? ∘ Outcome.ok : α → Option α) = some := rfl
    rw [this, List.filterMap_some]

end
end Quarch
