import Verif.Props.Local
import Verif.Props.TreeExamples
/-
Concrete maps for C97.
-/
set_option linter.unusedSectionVars false
namespace Quarch
open Spec Scene

section Example
attribute [local instance] refPlatform intArith

def worldText : Str := str! "{\n\"classname\" \"worldspawn\"\n}\n"
def groupText : Str := str! "{\n\"classname\" \"group\"\n\"_tb_id\" \"1\"\n\"origin\" \"5 6 7\"\n}\n"
def doorText : Str := str! "{\n\"classname\" \"door\"\n\"_tb_group\" \"1\"\n\"origin\" \"1 2 3\"\n}\n"
def lampText : Str := str! "{\n\"classname\" \"lamp\"\n\"origin\" \"4 4 4\"\n}\n"

def worldPart : Entity Int := pointEntity Int [(str! "classname", str! "worldspawn")]
def groupPart : Entity Int :=
  pointEntity Int [(str! "classname", str! "group"), (str! "_tb_id", str! "1"), (str! "origin", str! "5 6 7")]
def doorPart : Entity Int :=
  pointEntity Int [(str! "classname", str! "door"), (str! "_tb_group", str! "1"), (str! "origin", str! "1 2 3")]
def lampPart : Entity Int := pointEntity Int [(str! "classname", str! "lamp"), (str! "origin", str! "4 4 4")]

/-- Nothing is defined. -/
def bareConfig (text : Str) : Config Int := ⟨some text, exampleTextures, ⟨[], []⟩, ⟨[], [], []⟩, ⟨[], []⟩⟩

/-- A text of lines with line ends is complete if its blocks are. -/
theorem complete_of_tokens {text : Str} {e : Entity Int} (items : List Spec.Item) (hend : ∃ s, text = s ++ ['\n'])
    (ht : Tokenizer.run false text = .ok (blockToks items)) (hj : (blockToks items).filter (fun t => !isJunk t) = blockToks items)
    (hd : Denotes items e) : CompleteMap text [e] := by
  refine ⟨.inr hend, [items], ?_, ?_⟩
  · obtain ⟨ls, final, hls, hf, rfl⟩ := spec_C01_text_is_lines text
    exact ⟨ls, final, _, rfl, hls, hf, (C01_line_by_line _ ls final hls hf _).1 ht, by
      rw [hj]; simp [MapFile.toks, Tail.toks]⟩
  · exact .cons hd .nil

def propItems (ps : List (Str × Str)) : List Spec.Item := ps.map fun p => .prop p.1 p.2

theorem propItems_denote (ps : List (Str × Str)) : Denotes (propItems ps) (pointEntity Int ps) := by
  refine ⟨fun key => ?_, ?_⟩
  · unfold pointEntity
    show (ps.foldl (fun m p => m.insert p.1 p.2) Map.empty) key = _
    induction ps using List.reverseRecOn with
    | nil => rfl
    | append_singleton ps p ih =>
      rw [List.foldl_append, List.foldl_cons, List.foldl_nil]
      unfold lastValue propItems at *
      rw [List.map_append, List.filterMap_append]
      by_cases h : key = p.1
      · subst h
        simp [Map.insert, Spec.Item.valueOf]
      · have h' : ¬ p.1 = key := fun e => h e.symm
        simp [Map.insert, Spec.Item.valueOf, h, h', ih]
  · have : (propItems ps).filterMap Spec.Item.faces? = [] := by
      rw [List.filterMap_eq_nil_iff]
      intro a ha
      obtain ⟨p, _, rfl⟩ := List.mem_map.1 ha
      rfl
    rw [this]
    exact .nil

set_option maxRecDepth 20000 in
theorem world_complete : CompleteMap worldText [worldPart] :=
  complete_of_tokens (propItems [(str! "classname", str! "worldspawn")])
    ⟨str! "{\n\"classname\" \"worldspawn\"\n}", rfl⟩ (by decide) (by decide) (propItems_denote _)

set_option maxRecDepth 20000 in
theorem group_complete : CompleteMap groupText [groupPart] :=
  complete_of_tokens (propItems [(str! "classname", str! "group"), (str! "_tb_id", str! "1"), (str! "origin", str! "5 6 7")])
    ⟨str! "{\n\"classname\" \"group\"\n\"_tb_id\" \"1\"\n\"origin\" \"5 6 7\"\n}", rfl⟩ (by decide) (by decide)
    (propItems_denote _)

set_option maxRecDepth 20000 in
theorem door_complete : CompleteMap doorText [doorPart] :=
  complete_of_tokens (propItems [(str! "classname", str! "door"), (str! "_tb_group", str! "1"), (str! "origin", str! "1 2 3")])
    ⟨str! "{\n\"classname\" \"door\"\n\"_tb_group\" \"1\"\n\"origin\" \"1 2 3\"\n}", rfl⟩ (by decide) (by decide)
    (propItems_denote _)

set_option maxRecDepth 20000 in
theorem lamp_complete : CompleteMap lampText [lampPart] :=
  complete_of_tokens (propItems [(str! "classname", str! "lamp"), (str! "origin", str! "4 4 4")])
    ⟨str! "{\n\"classname\" \"lamp\"\n\"origin\" \"4 4 4\"\n}", rfl⟩ (by decide) (by decide) (propItems_denote _)

theorem complete_is {text : Str} {es : List (Entity Int)} (h : CompleteMap text es) : MapIs text es := by
  obtain ⟨_, blocks, h1, h2⟩ := h
  exact ⟨⟨blocks, .none⟩, h1, by simpa [MapFile.blocks, Tail.blocks] using h2⟩

/-- The worldspawn, a lamp, a group and a door in the group. -/
def lampFirst : Str := worldText ++ (lampText ++ (groupText ++ doorText))
/-- The same without the lamp. -/
def noLamp : Str := worldText ++ (groupText ++ doorText)
/-- The group and the door, a lamp, and the worldspawn at the end. -/
def lampLate : Str := groupText ++ (doorText ++ (lampText ++ worldText))

theorem lampFirst_is : MapIs lampFirst [worldPart, lampPart, groupPart, doorPart] :=
  spec_C97_joined _ _ _ _ world_complete (spec_C97_joined _ _ _ _ lamp_complete (spec_C97_joined _ _ _ _ group_complete
    (complete_is door_complete)))

theorem lampLate_is : MapIs lampLate [groupPart, doorPart, lampPart, worldPart] :=
  spec_C97_joined _ _ _ _ group_complete (spec_C97_joined _ _ _ _ door_complete (spec_C97_joined _ _ _ _ lamp_complete
    (complete_is world_complete)))

def groupNode : Node Int :=
  .actor ⟨5, 6, 7⟩ ⟨str! "group", .placeholder, none, .properties, Map.empty⟩
    [.actor ⟨-4, -4, -4⟩ ⟨str! "door", .placeholder, none, .properties, Map.empty⟩ []]
def lampNode : Node Int := .actor ⟨4, 4, 4⟩ ⟨str! "lamp", .placeholder, none, .properties, Map.empty⟩ []
def worldNode : Node Int := .actor ⟨0, 0, 0⟩ ⟨str! "worldspawn", .placeholder, none, .properties, Map.empty⟩ []

set_option maxRecDepth 20000 in
theorem lampFirst_run : Quarch.run 4 id (bareConfig lampFirst) = .ok [worldNode, lampNode, groupNode] := by
  obtain ⟨tokens, paths, h1, h2⟩ := (C92_text _ _).2 lampFirst_is
  unfold Quarch.run bareConfig
  simp only [h1, h2, Outcome.ok_bind]
  rfl

set_option maxRecDepth 20000 in
theorem lampLate_run : Quarch.run 4 id (bareConfig lampLate) = .ok [worldNode, groupNode, lampNode] := by
  obtain ⟨tokens, paths, h1, h2⟩ := (C92_text _ _).2 lampLate_is
  unfold Quarch.run bareConfig
  simp only [h1, h2, Outcome.ok_bind]
  rfl

theorem lamp_top : TopLevel lampPart := by unfold TopLevel; decide
theorem group_top : TopLevel groupPart := by unfold TopLevel; decide

/-- The group has the same members in both maps. -/
theorem lamp_members (p : Entity Int) :
    membersOf [worldPart, lampPart, groupPart, doorPart] p = membersOf [groupPart, doorPart, lampPart, worldPart] p := by
  have h1 : ¬ Under p worldPart := fun h => absurd h.1 (by decide)
  have h2 : ¬ Under p lampPart := fun h => absurd h.1 (by decide)
  have h3 : ¬ Under p groupPart := fun h => absurd h.1 (by decide)
  unfold membersOf
  simp [List.filter_cons, h1, h2, h3]

-- `C97_entity`: the group, before and after the worldspawn and the lamp
example : ∃ n b a b' a', [worldNode, lampNode, groupNode] = b ++ n :: a ∧ [worldNode, groupNode, lampNode] = b' ++ n :: a' ∧
    a.length = 0 ∧ a'.length = 1 :=
  C97_entity 4 4 id id (bareConfig []) lampFirst lampLate [worldPart, lampPart] [doorPart] [] [doorPart, lampPart, worldPart]
    groupPart ((C92_text _ _).2 lampFirst_is) ((C92_text _ _).2 lampLate_is) group_top
    (fun p _ => lamp_members p) _ _ lampFirst_run lampLate_run

-- `C97_world`
example : ∃ front a a', [worldNode, lampNode, groupNode] = front ++ a ∧ [worldNode, groupNode, lampNode] = front ++ a' ∧
    a.length = 2 ∧ a'.length = 2 :=
  C97_world 4 4 id (bareConfig []) lampFirst lampLate _ _ worldPart ((C92_text _ _).2 lampFirst_is)
    ((C92_text _ _).2 lampLate_is) (by simp) (by simp) rfl (fun p _ => lamp_members p) _ _ lampFirst_run lampLate_run

-- `C97_removed` and `C97_cut_out`: without the lamp
example : ∃ before n after, [worldNode, lampNode, groupNode] = before ++ n :: after ∧ after.length = 1 ∧
    Quarch.run 4 id (bareConfig noLamp) = .ok (before ++ after) :=
  C97_cut_out 4 id (bareConfig []) worldText lampText (groupText ++ doorText) [worldPart] [groupPart, doorPart] lampPart
    world_complete lamp_complete (spec_C97_joined _ _ _ _ group_complete (complete_is door_complete)) lamp_top _ lampFirst_run

-- cutting out the group takes the door along, which is left in the text without a group
example : ∃ before n after, [worldNode, lampNode, groupNode] = before ++ n :: after ∧ after.length = 0 ∧
    Quarch.run 4 id (bareConfig (worldText ++ (lampText ++ doorText))) = .ok (before ++ after) := by
  refine C97_removed 4 id (bareConfig []) lampFirst _ [worldPart, lampPart] [doorPart] groupPart
    ((C92_text _ _).2 lampFirst_is) ((C92_text _ _).2 ?_) group_top _ lampFirst_run
  exact spec_C97_joined _ _ [worldPart] ([lampPart] ++ [doorPart]) world_complete
    (spec_C97_joined _ _ _ _ lamp_complete (complete_is door_complete))

theorem noLamp_is : MapIs noLamp [worldPart, groupPart, doorPart] :=
  spec_C97_joined _ _ [worldPart] ([groupPart] ++ [doorPart]) world_complete
    (spec_C97_joined _ _ _ _ group_complete (complete_is door_complete))

set_option maxRecDepth 20000 in
theorem noLamp_run : Quarch.run 4 id (bareConfig noLamp) = .ok [worldNode, groupNode] := by
  obtain ⟨tokens, paths, h1, h2⟩ := (C92_text _ _).2 noLamp_is
  unfold Quarch.run bareConfig
  simp only [h1, h2, Outcome.ok_bind]
  rfl

-- `C97_added`: the lamp put in
example : ∃ b n a, [worldNode, groupNode] = b ++ a ∧ a.length = 1 ∧
    Quarch.run 4 id (bareConfig lampFirst) = .ok (b ++ n :: a) :=
  C97_added 4 id (bareConfig []) noLamp lampFirst [worldPart] [groupPart, doorPart] lampPart
    ((C92_text _ _).2 noLamp_is) ((C92_text _ _).2 lampFirst_is) lamp_top (by decide)
    ⟨_, rfl⟩ (fun ⟨_, _, _, hd, _⟩ => by simp [bareConfig] at hd) (fun _ hb => absurd hb List.not_mem_nil) _ noLamp_run

end Example
end Quarch
