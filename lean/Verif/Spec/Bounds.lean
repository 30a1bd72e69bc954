import Verif.Spec.Texts
import Verif.Spec.ReedSolomon

/-!
# How much
-/
namespace Verif.Spec

/-- The number of codewords in which two blocks differ. -/
def changedWords (a b : List U8) : Nat := ((a.zip b).filter fun p => decide (p.1 ≠ p.2)).length

/-- The text is empty, or not longer than one numeric segment of `n` bits can say, with groups of ten bits for four
characters and a last one of four bits for two or of seven bits for three. -/
def TextFits (version n : Nat) (text : List Char) : Prop :=
  text = [] ∨ 10 * text.length + 4 * (4 + Mode.numeric.countBits version) ≤ 4 * n + 4

end Verif.Spec
