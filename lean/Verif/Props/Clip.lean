import Verif.Spec.Clip
import Verif.Props.Cut
/-
C146: a clipped map gives the clipped scene.
-/
set_option linter.unusedSectionVars false
namespace Quarch
open Spec Scene Geo Poly

section
variable {p : BrushPlane ℝ}

theorem sameCut_ahead {q : BrushPlane ℝ} (h : SameCut p q) (x : V3 ℝ) :
    dotR (rawNormal q) (subR x q.v0) = aheadOf p x := by
  obtain ⟨h0, h1, h2⟩ := h
  simp only [aheadOf, rawNormal, h0, h1, h2]

theorem clip_forth {l l' : List (Brush ℝ)} (h : ClipInto p l l') {br : Brush ℝ} (hbr : br ∈ l) :
    br ∈ l' ∨ (∀ x, (∀ q ∈ br.planes, WithinR 0 q x) → 0 < aheadOf p x) ∨
      ∃ q, SameCut p q ∧ (∃ r ∈ br.planes, q.texture = r.texture) ∧ sawn br q ∈ l' := by
  induction h with
  | nil => cases hbr
  | keep _ _ ih =>
    rcases List.mem_cons.1 hbr with rfl | hbr
    · exact .inl List.mem_cons_self
    · rcases ih hbr with h | h | ⟨q, h1, h2, h3⟩
      · exact .inl (List.mem_cons_of_mem _ h)
      · exact .inr (.inl h)
      · exact .inr (.inr ⟨q, h1, h2, List.mem_cons_of_mem _ h3⟩)
  | drop hd _ ih =>
    rcases List.mem_cons.1 hbr with rfl | hbr
    · exact .inr (.inl hd)
    · exact ih hbr
  | cut hq ht _ ih =>
    rcases List.mem_cons.1 hbr with rfl | hbr
    · exact .inr (.inr ⟨_, hq, ht, List.mem_cons_self⟩)
    · rcases ih hbr with h | h | ⟨q, h1, h2, h3⟩
      · exact .inl (List.mem_cons_of_mem _ h)
      · exact .inr (.inl h)
      · exact .inr (.inr ⟨q, h1, h2, List.mem_cons_of_mem _ h3⟩)

theorem clip_back {l l' : List (Brush ℝ)} (h : ClipInto p l l') {br' : Brush ℝ} (hbr : br' ∈ l') :
    (br' ∈ l ∧ ∀ x, (∀ q ∈ br'.planes, WithinR 0 q x) → aheadOf p x ≤ 0) ∨
      ∃ br ∈ l, ∃ q, SameCut p q ∧ (∃ r ∈ br.planes, q.texture = r.texture) ∧ br' = sawn br q := by
  induction h with
  | nil => cases hbr
  | keep hk _ ih =>
    rcases List.mem_cons.1 hbr with rfl | hbr
    · exact .inl ⟨List.mem_cons_self, hk⟩
    · rcases ih hbr with ⟨h, hk⟩ | ⟨br, h0, h⟩
      · exact .inl ⟨List.mem_cons_of_mem _ h, hk⟩
      · exact .inr ⟨br, List.mem_cons_of_mem _ h0, h⟩
  | drop _ _ ih =>
    rcases ih hbr with ⟨h, hk⟩ | ⟨br, h0, h⟩
    · exact .inl ⟨List.mem_cons_of_mem _ h, hk⟩
    · exact .inr ⟨br, List.mem_cons_of_mem _ h0, h⟩
  | cut hq ht _ ih =>
    rcases List.mem_cons.1 hbr with rfl | hbr
    · exact .inr ⟨_, List.mem_cons_self, _, hq, ht, rfl⟩
    · rcases ih hbr with ⟨h, hk⟩ | ⟨br, h0, h⟩
      · exact .inl ⟨List.mem_cons_of_mem _ h, hk⟩
      · exact .inr ⟨br, List.mem_cons_of_mem _ h0, h⟩

variable [RealText] [Platform]

/-- C146: if all brushes are clipped at a plane, and all brushes before and after are proper, then exactly those points are solid
that were solid before and are not in front of the plane. -/
theorem C146_solid (depth depth' : Nat)
    (order order' : List (Str × List (BrushGeo ℝ)) → List (Str × List (BrushGeo ℝ)))
    (horder : ∀ l, (order l).Perm l) (horder' : ∀ l, (order' l).Perm l)
    (config : Config ℝ) (text text' : Str) (ht : config.mapFile = some text)
    (entities entities' : List (Entity ℝ)) (hl : LoadsAs text entities) (hl' : LoadsAs text' entities')
    (nodes nodes' : List (Node ℝ)) (h : Quarch.run depth order config = .ok nodes)
    (h' : Quarch.run depth' order' { config with mapFile := some text' } = .ok nodes')
    (hm : List.Forall₂ (ClipEntity p) entities entities')
    (hp : ∀ e ∈ entities, Anchored entities e → ∀ br ∈ e.brushes, ProperBrush br.planes)
    (hp' : ∀ e ∈ entities', Anchored entities' e → ∀ br ∈ e.brushes, ProperBrush br.planes) (x : V3 ℝ) :
    InSolid nodes' x ↔ InSolid nodes x ∧ aheadOf p x ≤ 0 := by
  have hn : List.Forall₂ NamedAlike entities entities' := hm.imp fun _ _ h k _ => by rw [h.1]
  have hn' : List.Forall₂ NamedAlike entities' entities := List.Forall₂.flip (hn.imp fun _ _ h => namedAlike_symm h)
  rw [C88_filled depth order horder config nodes h text ht entities hl hp,
    C88_filled depth' order' horder' { config with mapFile := some text' } nodes' h' text' rfl entities' hl' hp']
  constructor
  · rintro ⟨e', he', ha, br', hbr', hs, hF⟩
    obtain ⟨e, he, hee⟩ := forall₂_right hm he'
    have ha' : Anchored entities e := anchored_named hn' ha e fun k _ => by rw [hee.1]
    rcases clip_back hee.2 hbr' with ⟨hb, hk⟩ | ⟨br, hb, q, hq, htex, rfl⟩
    · exact ⟨⟨e, he, ha', br', hb, (solid_props (config := config) hee.1).1 hs, hF⟩, hk x hF⟩
    · obtain ⟨k1, k2⟩ := half_in.1 hF
      rw [sameCut_ahead hq] at k2
      exact ⟨⟨e, he, ha', br, hb, (half_solid (config := config) hee.1 htex _).1 hs, k1⟩, k2⟩
  · rintro ⟨⟨e, he, ha, br, hbr, hs, hF⟩, hx⟩
    obtain ⟨e', he', hee⟩ := forall₂_left hm he
    refine ⟨e', he', anchored_named hn ha e' fun k _ => by rw [hee.1], ?_⟩
    rcases clip_forth hee.2 hbr with hb | hd | ⟨q, hq, htex, hb⟩
    · exact ⟨br, hb, (solid_props (config := config) hee.1).2 hs, hF⟩
    · exact absurd (hd x hF) (not_lt.2 hx)
    · exact ⟨_, hb, (half_solid (config := config) hee.1 htex _).2 hs, half_in.2 ⟨hF, by rwa [sameCut_ahead hq]⟩⟩

/-- C146: what was drawn behind the plane is still drawn, nothing is drawn in front of it, and whatever is drawn only after clipping
is in a brush of the original map, on the plane. -/
theorem C146_drawn (depth depth' : Nat)
    (order order' : List (Str × List (BrushGeo ℝ)) → List (Str × List (BrushGeo ℝ)))
    (horder : ∀ l, (order l).Perm l) (horder' : ∀ l, (order' l).Perm l)
    (config : Config ℝ) (text text' : Str) (ht : config.mapFile = some text)
    (entities entities' : List (Entity ℝ)) (hl : LoadsAs text entities) (hl' : LoadsAs text' entities')
    (nodes nodes' : List (Node ℝ)) (h : Quarch.run depth order config = .ok nodes)
    (h' : Quarch.run depth' order' { config with mapFile := some text' } = .ok nodes')
    (hm : List.Forall₂ (ClipEntity p) entities entities')
    (hp : ∀ e ∈ entities, Anchored entities e → ∀ br ∈ e.brushes, ProperBrush br.planes)
    (hp' : ∀ e ∈ entities', Anchored entities' e → ∀ br ∈ e.brushes, ProperBrush br.planes) (x : V3 ℝ) :
    (Drawn nodes x → aheadOf p x < 0 → Drawn nodes' x) ∧
    (Drawn nodes' x → aheadOf p x ≤ 0 ∧ (Drawn nodes x ∨ aheadOf p x = 0 ∧
      ∃ e ∈ entities, Anchored entities e ∧ ∃ br ∈ e.brushes, ∀ q ∈ br.planes, WithinR 0 q x)) := by
  have hn : List.Forall₂ NamedAlike entities entities' := hm.imp fun _ _ h k _ => by rw [h.1]
  have hn' : List.Forall₂ NamedAlike entities' entities := List.Forall₂.flip (hn.imp fun _ _ h => namedAlike_symm h)
  rw [C87_picture depth order horder config nodes h text ht entities hl hp,
    C87_picture depth' order' horder' { config with mapFile := some text' } nodes' h' text' rfl entities' hl' hp']
  constructor
  · rintro ⟨e, he, ha, br, hbr, f, hf, hs, hA, hF⟩ hx
    obtain ⟨e', he', hee⟩ := forall₂_left hm he
    refine ⟨e', he', anchored_named hn ha e' fun k _ => by rw [hee.1], ?_⟩
    rcases clip_forth hee.2 hbr with hb | hd | ⟨q, hq, htex, hb⟩
    · exact ⟨br, hb, f, hf, (shown_props (config := config) hee.1).2 hs, hA, hF⟩
    · exact absurd (hd x hF.2) (not_lt.2 hx.le)
    · rw [← sameCut_ahead hq] at hx
      exact ⟨_, hb, f, by simp [sawn, hf], (half_shown (config := config) hee.1 htex f).2 hs, half_area hA hF hx, hF.1,
        half_in.2 ⟨hF.2, hx.le⟩⟩
  · rintro ⟨e', he', ha, br', hbr', f, hf, hs, hA, hF⟩
    obtain ⟨e, he, hee⟩ := forall₂_right hm he'
    have ha' : Anchored entities e := anchored_named hn' ha e fun k _ => by rw [hee.1]
    rcases clip_back hee.2 hbr' with ⟨hb, hk⟩ | ⟨br, hb, q, hq, htex, rfl⟩
    · exact ⟨hk x hF.2, .inl ⟨e, he, ha', br', hb, f, hf, (shown_props (config := config) hee.1).1 hs, hA, hF⟩⟩
    · obtain ⟨k1, k2⟩ := half_in.1 hF.2
      rw [sameCut_ahead hq] at k2
      refine ⟨k2, ?_⟩
      rcases List.mem_append.1 hf with hf | hf
      · exact .inl ⟨e, he, ha', br, hb, f, hf, (half_shown (config := config) hee.1 htex f).1 hs, half_area_back hA, hF.1, k1⟩
      · cases List.mem_singleton.1 hf
        exact .inr ⟨by rw [← sameCut_ahead hq]; exact hF.1, e, he, ha', br, hb, k1⟩

end
end Quarch
