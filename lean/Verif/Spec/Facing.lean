import Verif.Spec.Rendered
/-
Which way a triangle faces (C128).
-/
namespace Quarch.Spec

/-- The triangle goes clockwise seen from the side to which `n` points. In particular it has an area. -/
def FacesTo (n a b c : V3 ℝ) : Prop := dotR (crossR (subR b a) (subR c a)) n < 0

end Quarch.Spec
