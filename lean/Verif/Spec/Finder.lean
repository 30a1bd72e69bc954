import Verif.Spec.Threshold

/-!
# What a finder pattern looks like along a line

A QR finder pattern cut through its centre shows five runs of dark, light, dark, light, dark with lengths in
the ratio 1:1:3:1:1 (ISO/IEC 18004, 6.3.3.1).  The detector allows every run to deviate from the ideal by up
to two thirds of a module, a module being a seventh of the total. All of this is exact arithmetic.
-/
namespace Verif.Spec

/-- The five runs form a finder pattern up to two thirds of a module per run, the module being
`(a + b + c + d + e) / 7`: `|t/7 - a| ≤ 2t/21` for the four outer runs and `|3t/7 - c| ≤ 2t/21` for the middle
run, with denominators cleared. -/
def FinderShaped (a b c d e : Nat) : Prop :=
  let t := a + b + c + d + e
  7 ≤ t ∧ (t ≤ 21 * a ∧ 21 * a ≤ 5 * t) ∧ (t ≤ 21 * b ∧ 21 * b ≤ 5 * t) ∧
  (7 * t ≤ 21 * c ∧ 21 * c ≤ 11 * t) ∧
  (t ≤ 21 * d ∧ 21 * d ≤ 5 * t) ∧ (t ≤ 21 * e ∧ 21 * e ≤ 5 * t)

instance (a b c d e : Nat) : Decidable (FinderShaped a b c d e) := by
  unfold FinderShaped; infer_instance

/-- The number of positions in a row where the grey value changes from one pixel to the next. -/
def colourChanges (img : GrayImage) (y : Nat) : Nat :=
  ((List.range (img.width - 1)).filter fun x => grey img x y != grey img (x + 1) y).length

end Verif.Spec
