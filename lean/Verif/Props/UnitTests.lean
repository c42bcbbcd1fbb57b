import Verif.Model.Constructors
import Verif.Spec.Instances
/-
The crate's own unit tests, run on the model: each `example` takes its input and its expected string from
a `#[cfg(test)]` module in /repo. The tests use decimal numbers with at most three digits after the point,
so numbers here are whole thousandths; this arithmetic is used nowhere else.
-/
namespace Quarch.UnitTests
open Forge

/-- Digits after the point without trailing zeros, for `n` thousandths (`n < 1000`). -/
def fraction (n : Nat) : Str :=
  let digits := [n / 100, n / 10 % 10, n % 10].map fun d => Char.ofNat (48 + d)
  match (digits.reverse.dropWhile (· == '0')).reverse with
  | [] => []
  | ds => '.' :: ds

/-- Numbers counted in thousandths. -/
@[reducible] def milliArith : Arith Int :=
  { Spec.intArith with
    one := 1000
    c255 := 255000
    toI32 := fun x => x.tdiv 1000
    mul := fun a b => a * b / 1000
    disp := fun x => (if x < 0 then ['-'] else []) ++ showInt (x.natAbs / 1000 : Nat) ++ fraction (x.natAbs % 1000) }

set_option maxRecDepth 4000
attribute [local instance] milliArith

/-- `showNat` by recursion on a bound, so that it can be evaluated. -/
def digits : Nat → Nat → Str
  | 0, _ => []
  | k + 1, n => if n < 10 then [digitChar n] else digits k (n / 10) ++ [digitChar (n % 10)]

theorem showNat_eq (n k : Nat) (h : n < k) : showNat n = digits k n := by
  induction k generalizing n with
  | zero => omega
  | succ k ih =>
    rw [showNat, digits]
    split
    · rfl
    · rw [ih (n / 10) (by omega)]

/-- `showInt`, evaluable. -/
def signed : Int → Str
  | .ofNat n => digits (n + 1) n
  | .negSucc n => '-' :: digits (n + 2) (n + 1)

theorem showInt_eq (i : Int) : showInt i = signed i := by
  cases i with
  | ofNat n => exact showNat_eq n _ (by omega)
  | negSucc n => exact congrArg _ (showNat_eq (n + 1) _ (by omega))

theorem disp_eq (x : Int) : Arith.disp x =
    (if x < 0 then ['-'] else []) ++ signed (x.natAbs / 1000 : Nat) ++ fraction (x.natAbs % 1000) := by
  rw [← showInt_eq]; rfl

/-- Opens the functions down to the printing of numbers, then evaluates both sides. -/
macro "run_test" : tactic => `(tactic| (
  simp only [Color.toStr, Choice.toStr, ChoiceData.display, Choice.mkInteger, Choice.mkFloat, Choice.mkString,
    Metadata.toStr, Metadata.mkBase, Metadata.mkColor, Metadata.mkSize, Property.toStr, Property.new, propertyLine,
    choiceAt, flagLines, flagLine, pow2I32, Forge.Entity.new, Forge.Entity.toStr, Forge.GameData.new, Forge.GameData.toStr, mapOut,
    Outcome.bind, List.map, showInt_eq, disp_eq]
  rfl))

/-- `/repo/src/types/color.rs:38-46` -/
example : (⟨200, 400, 600⟩ : Color Int).toStr =
    str! "51 102 153" := by run_test

/-- `/repo/src/game_data/forge/choice.rs:70-81` -/
example : (Choice.mkInteger (str! "foo") 6 : Choice Int).toStr =
    str! "6 : \"foo\"" := by run_test

/-- `/repo/src/game_data/forge/choice.rs:83-94` -/
example : (Choice.mkFloat (str! "foo") 12500 : Choice Int).toStr =
    str! "12.5 : \"foo\"" := by run_test

/-- `/repo/src/game_data/forge/choice.rs:96-107` -/
example : (Choice.mkString (str! "foo") (str! "bar") : Choice Int).toStr =
    str! "\"bar\" : \"foo\"" := by run_test

/-- `/repo/src/game_data/forge/metadata.rs:62-74` -/
example : (Metadata.mkBase [str! "foo", str! "bar", str! "baz"] : Metadata Int).toStr =
    str! "base(foo, bar, baz)" := by run_test

/-- `/repo/src/game_data/forge/metadata.rs:76-87` -/
example : (Metadata.mkColor ⟨250, 500, 750⟩ : Metadata Int).toStr =
    str! "color(63 127 191)" := by run_test

/-- `/repo/src/game_data/forge/metadata.rs:89-101` -/
example : (Metadata.mkSize ⟨-1000, -2000, -3000⟩ ⟨4000, 5000, 6000⟩ : Metadata Int).toStr =
    str! "size(-1, -2, -3, 4, 5, 6)" := by run_test

/-- `/repo/src/game_data/forge/property.rs:135-152` -/
example : (Property.new (str! "int_property") (str! "Integer") (str! "Integer Property") (.integer 10) : Property Int).toStr true =
    .ok (str! "int_property(integer) : \"Integer\" : 10 : \"Integer Property\"") := by run_test

/-- `/repo/src/game_data/forge/property.rs:154-171` -/
example : (Property.new (str! "float_property") (str! "Float") (str! "Float Property") (.float 6282) : Property Int).toStr true =
    .ok (str! "float_property(float) : \"Float\" : 6.282 : \"Float Property\"") := by run_test

/-- `/repo/src/game_data/forge/property.rs:173-191` -/
example : (Property.new (str! "vector3_property") (str! "Vector3") (str! "Vector3 Property") (.vector3 ⟨10500, 20300, 30700⟩) : Property Int).toStr true =
    .ok (str! "vector3_property(string) : \"Vector3\" : \"10.5 20.3 30.7\" : \"Vector3 Property\"") := by run_test

/-- `/repo/src/game_data/forge/property.rs:193-211` -/
example : (Property.new (str! "string_property") (str! "String") (str! "String Property") (.string (str! "foo bar baz decafisbad")) : Property Int).toStr true =
    .ok (str! "string_property(string) : \"String\" : \"foo bar baz decafisbad\" : \"String Property\"") := by run_test

/-- `/repo/src/game_data/forge/property.rs:213-230` -/
example : (Property.new (str! "color_property") (str! "Color") (str! "Color Property") (.color ⟨200, 400, 600⟩) : Property Int).toStr true =
    .ok (str! "color_property(color255) : \"Color\" : \"51 102 153\" : \"Color Property\"") := by run_test

/-- `/repo/src/game_data/forge/property.rs:232-257` -/
example : (Property.new (str! "choices_property") (str! "Choices") (str! "Choices Property") (.choices [Choice.mkString (str! "Foo") (str! "foo"), Choice.mkString (str! "Bar") (str! "bar"), Choice.mkString (str! "Baz") (str! "baz")] 0) : Property Int).toStr true =
    .ok (str! "choices_property(choices) : \"Choices\" : \"foo\" =\n\t[\n\t\t\"foo\" : \"Foo\"\n\t\t\"bar\" : \"Bar\"\n\t\t\"baz\" : \"Baz\"\n\t]") := by run_test

/-- `/repo/src/game_data/forge/property.rs:259-277` -/
example : (Property.new (str! "flags_property") (str! "Flags") (str! "Flags Property") (.flags [str! "foo", str! "bar", str! "baz"] 5) : Property Int).toStr true =
    .ok (str! "flags_property(flags) =\n\t[\n\t\t1 : \"foo\" : 1\n\t\t2 : \"bar\" : 0\n\t\t4 : \"baz\" : 1\n\t]") := by run_test

/-- `/repo/src/game_data/forge/property.rs:279-297` -/
example : (Property.new (str! "target_source_property") (str! "Target Source") (str! "Target Source Property") (.targetSource) : Property Int).toStr true =
    .ok (str! "target_source_property(target_source) : \"Target Source\" : : \"Target Source Property\"") := by run_test

/-- `/repo/src/game_data/forge/property.rs:299-316` -/
example : (Property.new (str! "target_destination_property") (str! "Target Destination") (str! "Target Destination Property") (.targetDestination) : Property Int).toStr true =
    .ok (str! "target_destination_property(target_destination) : \"Target Destination\" : : \"Target Destination Property\"") := by run_test

/-- `/repo/src/game_data/forge/entity.rs:120-158` -/
example : (Forge.Entity.new .solidClass [.base [str! "Origin"], .color ⟨500, 500, 500⟩, .size ⟨-4000, -4000, -4000⟩ ⟨4000, 4000, 4000⟩]
    (str! "example_class") (str! "Example Class")
    [Property.new (str! "integer_property") (str! "Integer Property") (str! "This is an integer property") (.integer 1234),
     Property.new (str! "float_property") (str! "Float Property") (str! "This is a float property") (.float 6282)] : Forge.Entity Int).toStr true =
    .ok (str! "@SolidClass base(Origin) color(127 127 127) size(-4, -4, -4, 4, 4, 4) = example_class : \"Example Class\"\n[\n\tinteger_property(integer) : \"Integer Property\" : 1234 : \"This is an integer property\"\n\tfloat_property(float) : \"Float Property\" : 6.282 : \"This is a float property\"\n]") := by run_test

/-- `/repo/src/game_data/forge/game_data.rs:55-127` -/
example : (Forge.GameData.new (str! "Test Game Data") [str! "base.fgd", str! "other.fgd"] [Forge.Entity.new .pointClass [.base [str! "Origin"], .color ⟨500, 500, 500⟩, .size ⟨-4000, -4000, -4000⟩ ⟨4000, 4000, 4000⟩]
    (str! "point_class") (str! "Point Class")
    [Property.new (str! "choices_property") (str! "Choices Property") (str! "This is a choices property") (.choices [Choice.mkFloat (str! "foo") 1234, Choice.mkFloat (str! "bar") 2567, Choice.mkFloat (str! "baz") 3891] 1),
     Property.new (str! "flags_property") (str! "Flags Property") (str! "This is a flags property") (.flags [str! "foo", str! "bar", str! "baz"] 3)],
    Forge.Entity.new .solidClass [.base [str! "Origin"], .color ⟨500, 500, 500⟩, .size ⟨-4000, -4000, -4000⟩ ⟨4000, 4000, 4000⟩]
    (str! "solid_class") (str! "Solid Class")
    [Property.new (str! "integer_property") (str! "Integer Property") (str! "This is an integer property") (.integer 1234),
     Property.new (str! "float_property") (str! "Float Property") (str! "This is a float property") (.float 6282)]] : Forge.GameData Int).toStr true =
    .ok (str! "// Test Game Data\n\n@include \"base.fgd\"\n@include \"other.fgd\"\n\n@PointClass base(Origin) color(127 127 127) size(-4, -4, -4, 4, 4, 4) = point_class : \"Point Class\"\n[\n\tchoices_property(choices) : \"Choices Property\" : \"2.567\" =\n\t[\n\t\t1.234 : \"foo\"\n\t\t2.567 : \"bar\"\n\t\t3.891 : \"baz\"\n\t]\n\tflags_property(flags) =\n\t[\n\t\t1 : \"foo\" : 1\n\t\t2 : \"bar\" : 1\n\t\t4 : \"baz\" : 0\n\t]\n]\n\n@SolidClass base(Origin) color(127 127 127) size(-4, -4, -4, 4, 4, 4) = solid_class : \"Solid Class\"\n[\n\tinteger_property(integer) : \"Integer Property\" : 1234 : \"This is an integer property\"\n\tfloat_property(float) : \"Float Property\" : 6.282 : \"This is a float property\"\n]\n\n") := by run_test

end Quarch.UnitTests
