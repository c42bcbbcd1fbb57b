import Verif.Props.ForgeText
import Verif.Props.Entity
/-
C71: defaults printed in the FGD and loaded from a map; examples for C65–C71.
-/
set_option linter.unusedSectionVars false

namespace Quarch
open Spec Forge Scene

section
variable {F : Type} [Arith F]

/-- C71: the editor default is what the text of the property shows after the short description (for flags:
the sum of the table values switched on). -/
theorem C71_shown (checks : Bool) (p : Property F) (v : Str) (h : EditorDefault p.data v)
    (hf : isFlags p.data = false) :
    ∃ quote post, (quote = [] ∨ quote = ['"']) ∧ (post = str! " : \"" ++ p.longDescription ++ str! "\"" ∨
      (str! " =\n\t[\n") <+: post) ∧
      Property.toStr checks p = .ok (p.name ++ str! "(" ++ kindWord p.data ++ str! ") : \"" ++
        p.shortDescription ++ str! "\" : " ++ quote ++ v ++ quote ++ post) := by
  revert h hf
  cases hd : p.data with
  | integer i =>
    intro h _
    cases h
    exact ⟨[], _, .inl rfl, .inl rfl, by
      rw [line_text (v := dec i) (by rw [hd]; exact .integer i)]; simp [restOf, hd]⟩
  | float f =>
    intro h _
    cases h
    exact ⟨[], _, .inl rfl, .inl rfl, by
      rw [line_text (v := Arith.disp f) (by rw [hd]; exact .float f)]; simp [restOf, hd]⟩
  | vector3 v =>
    intro h _
    cases h
    exact ⟨['"'], _, .inr rfl, .inl rfl, by
      rw [line_text (by rw [hd]; exact .vector3 v)]; simp [restOf, hd]⟩
  | string s =>
    intro h _
    cases h
    exact ⟨['"'], _, .inr rfl, .inl rfl, by
      rw [line_text (by rw [hd]; exact .string v)]; simp [restOf, hd]⟩
  | color c =>
    intro h _
    cases h
    exact ⟨['"'], _, .inr rfl, .inl rfl, by
      rw [line_text (by rw [hd]; exact .color c)]; simp [restOf, hd]⟩
  | choices cs d =>
    intro h _
    cases h with
    | choices _ n c _ h1 h2 =>
      obtain ⟨w, rows, hw, _, ht⟩ := C69_text checks p cs n c hd h1
      obtain rfl := defaultText_unique h2 hw
      refine ⟨['"'], _, .inr rfl, .inr ⟨rows.flatten ++ str! "\t]", rfl⟩, ?_⟩
      rw [ht]
      simp [kindWord]
  | flags fs d => intro _ hf; simp [isFlags] at hf
  | targetSource => intro h; cases h
  | targetDestination => intro h; cases h

/-- The value survives printing and reading. -/
def ReadsBack (x : F) : Prop := Arith.parse (Arith.disp x) = some x ∧ ' ' ∉ Arith.disp x

/-- Kinds for which the default survives: whole numbers in range, floats and vectors that survive printing
and reading, texts; choices whose shown default is no number or the default index itself. -/
def Survives : PropertyData F → Str → Prop
  | .integer i, _ => -2147483648 ≤ i ∧ i ≤ 2147483647
  | .float f, _ => ReadsBack f
  | .vector3 v, _ => ReadsBack v.x ∧ ReadsBack v.y ∧ ReadsBack v.z
  | .string _, _ => True
  | .choices _ d, v => ∀ i, ReadsI32 v i → i = d
  | _, _ => False

theorem triple_reads {a b c : Str} {x y z : F} (ha : ' ' ∉ a) (hb : ' ' ∉ b) (hc : ' ' ∉ c)
    (h1 : Arith.parse a = some x) (h2 : Arith.parse b = some y) (h3 : Arith.parse c = some z) :
    ReadsTriple (a ++ ' ' :: (b ++ ' ' :: c)) x y z :=
  ⟨a, b, c, [], ha, hb, hc, by simp, by simp [joinSpace], h1, h2, h3⟩

theorem survives_loaded {data : PropertyData F} {v : Str} (h : EditorDefault data v) (hs : Survives data v) :
    propertyValue data (some v) = declaredDefault data := by
  cases h with
  | integer i =>
    simp only [propertyValue, Option.bind_some, declaredDefault, ← showInt_eq, parseI32_showInt hs]
    rfl
  | float f => simp only [propertyValue, Option.bind_some, declaredDefault, hs.1]; rfl
  | vector3 w =>
    have := parseVector3_iff.2 (triple_reads hs.1.2 hs.2.1.2 hs.2.2.2 hs.1.1 hs.2.1.1 hs.2.2.1)
    simp only [propertyValue, Option.bind_some, declaredDefault, this]
    rfl
  | string => rfl
  | color c => exact hs.elim
  | choices cs d c _ _ _ =>
    simp only [propertyValue, Option.bind_some, declaredDefault]
    cases hp : parseI32 v with
    | none => rfl
    | some i => rw [hs i (parseI32_iff.1 hp)]; rfl
  | flags fs d => exact hs.elim

/-- C71 (partial): an entity that carries the printed default of a declared property is given the declared
default. Missing: colours, choices whose shown value is a number other than the default index, and flags; for
these the property fails, see `C71_color_fails`, `C71_choices_fail`, `C71_flags_fail`. -/
theorem C71_loaded_partial (fgd : Forge.GameData F) (e : Entity F) (props : Properties F)
    (h : entityProperties fgd e = .ok props) (d : Forge.Entity F) (hd : FirstForge fgd e d)
    (pre post : List (Forge.Property F)) (fp : Forge.Property F) (hp : d.properties = pre ++ fp :: post)
    (hlast : ∀ x ∈ post, x.name ≠ fp.name) (v : Str) (hv : EditorDefault fp.data v)
    (he : e.properties fp.name = some v) (hs : Survives fp.data v) :
    props fp.name = some (declaredDefault fp.data) := by
  obtain ⟨base, rfl, _⟩ := internal_ok hd h
  rw [hp, insertAll_last hlast, he, survives_loaded hv hs]

/-- What is loaded for a choices property that carries the value `v`: the number it shows if it is one, not
the index of the choice with that value. -/
theorem C71_choices_exact (cs : List (Choice F)) (d : Nat) (v : Str) :
    (∀ i, ReadsI32 v i → propertyValue (.choices cs d) (some v) = .choices i) ∧
    ((¬ ∃ i, ReadsI32 v i) → propertyValue (.choices cs d) (some v) = .choices d) := by
  simp only [propertyValue, Option.bind_some]
  constructor
  · intro i hi
    rw [parseI32_iff.2 hi]
    rfl
  · intro hn
    cases hp : parseI32 v with
    | none => rfl
    | some i => exact absurd ⟨i, parseI32_iff.1 hp⟩ hn

/-- C71 fails for choices: a choice with value 7 at index 0 is loaded as 7. -/
theorem C71_choices_fail : ∃ (data : PropertyData F) (v : Str), EditorDefault data v ∧
    (∃ cs d, data = .choices cs d) ∧ propertyValue data (some v) ≠ declaredDefault data := by
  refine ⟨.choices [⟨str! "Seven", .integer 7⟩] (0 : Nat), dec 7,
    .choices _ _ ⟨str! "Seven", .integer 7⟩ _ rfl (.integer 7), ⟨_, _, rfl⟩, ?_⟩
  simp only [propertyValue, Option.bind_some, ← showInt_eq, parseI32_showInt (i := 7) (by omega), declaredDefault]
  simp

/-- C71 fails for flags: they are loaded as choices. -/
theorem C71_flags_fail (fs : List Str) (d : Int) (v : Str) :
    propertyValue (.flags fs d : PropertyData F) (some v) ≠ declaredDefault (.flags fs d) := by
  simp [propertyValue, declaredDefault]

/-- The number loaded for flags is the default if only declared bits are set. -/
theorem C71_flags_number (fs : List Str) (d : Int) (v : Str) (hv : EditorDefault (.flags fs d : PropertyData F) v)
    (h0 : 0 ≤ d) (h1 : d < 2 ^ fs.length) (h2 : d ≤ 2147483647) :
    propertyValue (.flags fs d : PropertyData F) (some v) = .choices d := by
  cases hv
  rw [(spec_C68_sum d fs.length).2.2 h0 h1]
  simp only [propertyValue, Option.bind_some, ← showInt_eq, parseI32_showInt (i := d) (by omega)]
  rfl

/-- C71 fails for colours: a colour is loaded with the printed numbers themselves, not divided by 255. -/
theorem C71_color_exact (c : Color F) (v : Str) (hv : EditorDefault (.color c) v) (r g b : F)
    (hr : Arith.parse (dec (Arith.toI32 (Arith.mul c.r Arith.c255))) = some r)
    (hg : Arith.parse (dec (Arith.toI32 (Arith.mul c.g Arith.c255))) = some g)
    (hb : Arith.parse (dec (Arith.toI32 (Arith.mul c.b Arith.c255))) = some b) :
    propertyValue (.color c) (some v) = .color ⟨r, g, b⟩ := by
  cases hv
  have sp : ∀ i : Int, ' ' ∉ dec i := fun i => dec_notMem i (by decide)
  have := parseColor_iff (v := ⟨r, g, b⟩) |>.2 (triple_reads (sp _) (sp _) (sp _) hr hg hb)
  simp only [propertyValue, Option.bind_some, this]
  rfl

end

section
attribute [local instance] intArith

/-- C71 fails for colours: white is loaded as (255, 255, 255). -/
theorem C71_color_fails : ∃ (c : Color Int) (v : Str), EditorDefault (.color c) v ∧
    propertyValue (.color c) (some v) = .color ⟨255, 255, 255⟩ ∧
    propertyValue (.color c) (some v) ≠ declaredDefault (.color c) := by
  have h : propertyValue (.color (⟨1, 1, 1⟩ : Color Int)) (some (dec 255 ++ ' ' :: (dec 255 ++ ' ' :: dec 255))) =
      .color ⟨255, 255, 255⟩ := by
    apply C71_color_exact _ _ (.color _)
    all_goals
      show parseI32 (dec 255) = some 255
      rw [← showInt_eq]
      exact parseI32_showInt (by omega)
  refine ⟨⟨1, 1, 1⟩, _, .color _, h, ?_⟩
  rw [show (dec (Arith.toI32 (Arith.mul (1 : Int) Arith.c255))) = dec 255 from rfl]
  rw [h]
  simp [declaredDefault]

theorem int_plainDisplay : PlainDisplay Int := fun i => by
  show Clean (showInt i)
  rw [showInt_eq]
  exact dec_clean i

/-- A definition with all kinds of properties. -/
def lampDef : Forge.Entity Int where
  classType := .pointClass
  metadata := [.base [str! "Origin", str! "Targetname"], .color ⟨0, 1, 0⟩, .size ⟨-4, -4, -4⟩ ⟨4, 4, 4⟩]
  className := str! "light_lamp"
  description := str! "A lamp"
  properties := [⟨str! "range", str! "Range", str! "How far", .integer 300⟩,
    ⟨str! "offset", str! "Offset", str! "Where", .vector3 ⟨0, -1, 2⟩⟩,
    ⟨str! "label", str! "Label", str! "Text", .string (str! "lamp one")⟩,
    ⟨str! "spawnflags", [], [], .flags [str! "on", str! "flicker", str! "shadow"] 5⟩,
    ⟨str! "style", str! "Style", [], .choices [⟨str! "Plain", .string (str! "plain")⟩, ⟨str! "Two", .integer 2⟩] 1⟩,
    ⟨str! "target", str! "Target", str! "Fires", .targetDestination⟩]

theorem lampDef_clean : CleanEntity lampDef where
  className := by constructor <;> decide
  noEq := by decide
  description := by constructor <;> decide
  base := by
    intro m hm cs hcs c hc
    simp only [lampDef, List.mem_cons, List.not_mem_nil, or_false] at hm
    rcases hm with rfl | rfl | rfl
    · cases hcs
      simp only [List.mem_cons, List.not_mem_nil, or_false] at hc
      rcases hc with rfl | rfl <;> constructor <;> decide
    · cases hcs
    · cases hcs
  properties := by
    intro p hp
    simp only [lampDef, List.mem_cons, List.not_mem_nil, or_false] at hp
    rcases hp with rfl | rfl | rfl | rfl | rfl | rfl
    all_goals refine ⟨?_, ?_, ?_, ?_⟩
    all_goals first | (constructor <;> decide) | trivial | skip
    · intro f hf
      simp only [List.mem_cons, List.not_mem_nil, or_false] at hf
      rcases hf with rfl | rfl | rfl <;> constructor <;> decide
    · intro c hc
      simp only [List.mem_cons, List.not_mem_nil, or_false] at hc
      rcases hc with rfl | rfl
      · exact ⟨by constructor <;> decide, fun s hs => by cases hs; constructor <;> decide⟩
      · exact ⟨by constructor <;> decide, fun s hs => by cases hs⟩

/-- Names without opening parenthesis, as C66_property asks. -/
example : ∀ p ∈ lampDef.properties, '(' ∉ p.name := by decide

/-- The definition is printable. -/
theorem lampDef_printable : ∃ t, Forge.GameData.toStr true ⟨str! "Game", [str! "base.fgd"], [lampDef]⟩ = .ok t := by
  obtain ⟨h1, h2⟩ := C65_aborts_iff true (⟨str! "Game", [str! "base.fgd"], [lampDef]⟩ : Forge.GameData Int)
  refine h2.resolve_left ?_
  rw [h1]
  rintro ⟨e, he, p, hp, hu⟩
  simp only [List.mem_singleton] at he
  subst he
  simp only [lampDef, List.mem_cons, List.not_mem_nil, or_false] at hp
  rcases hp with rfl | rfl | rfl | rfl | rfl | rfl <;> rcases hu with ⟨cs, d, h, hu⟩ | ⟨_, fs, d, h, hu⟩ <;>
    cases h <;> simp at hu

/-- The flags of the definition: 1 + 4 = 5. -/
example : BitSet 5 0 ∧ ¬ BitSet 5 1 ∧ BitSet 5 2 ∧ flagSum 5 3 = 5 := by
  refine ⟨by decide, by decide, by decide, (spec_C68_sum 5 3).2.2 (by omega) (by norm_num)⟩

/-- A negative default: −1 has all bits set, its declared part is 7. -/
example : flagSum (-1) 3 = 7 := by rw [(spec_C68_sum (-1) 3).1]; decide

/-- A default outside the choices aborts. -/
example : ∃ m, Property.toStr true
    (⟨str! "style", [], [], .choices [⟨str! "One", .integer 1⟩] 1⟩ : Property Int) = .panic m :=
  (C69_aborts_iff true _ _ _ rfl).1.2 (.inr (by decide))

/-- A lamp that carries the printed default of `range`. -/
def lampEntity : Entity Int where
  properties := fun k => if k = str! "classname" then some (str! "light_lamp")
    else if k = str! "range" then some (dec 300) else none
  brushes := []

example : ∃ props, entityProperties ⟨[], [], [lampDef]⟩ lampEntity = .ok props ∧
    props (str! "range") = some (.integer 300) := by
  have hd : FirstForge ⟨[], [], [lampDef]⟩ lampEntity lampDef := ⟨[], [], rfl, rfl, by simp⟩
  obtain ⟨h1, h2⟩ := C50_aborts_iff ⟨[], [], [lampDef]⟩ lampEntity
  rcases h2 with ⟨props, h⟩ | hp
  · exact ⟨props, h, C71_loaded_partial _ _ _ h lampDef hd [] _ ⟨str! "range", str! "Range", str! "How far", .integer 300⟩
      rfl (by decide) (dec 300) (.integer 300) rfl ⟨by omega, by omega⟩⟩
  · obtain ⟨_, k, hk, s, hs, _⟩ := h1.1 hp
    simp only [List.mem_cons, List.not_mem_nil, or_false] at hk
    rcases hk with rfl | rfl <;> exact absurd hs (by simp [lampEntity])

end
end Quarch
