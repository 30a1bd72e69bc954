import Verif.Spec.Sampling
import Verif.Spec.Symbol

/-!
# Symbols that are not square

The finder patterns are in three corners of a square, but the rest of the symbol is where the alignment pattern, with
bilinear interpolation, puts it.
-/
namespace Verif.Spec

/-- The image shows the grid of version `v`, given its finder centres: the area around the alignment pattern and all
modules are in the image; an alignment pattern must be found; and wherever its centre is found to be, every pixel nearest
to the bilinear position of a module, up to a hundredth of a pixel, has the colour of the module. -/
def ShowsGrid (img : GrayImage) (q : QRData) (v : Nat) (tl tr bl : Pt) : Prop :=
  (2 ≤ v → ∀ a b : ℚ, |a| ≤ 21 / 5 → |b| ≤ 21 / 5 → ¬ Beyond img (besideAlignment (sideOf v) tl tr bl a b)) ∧
  (2 ≤ v → ∃ x y z : Int, Tried x y z ∧ MustBeAlignment img (sideOf v) tl tr bl x y z) ∧
  ∀ al : Option Pt, (al = none ↔ v = 1) → (∀ a ∈ al, AlignmentAt img (sideOf v) tl tr bl a) →
    ∀ i < sideOf v, ∀ j < sideOf v, ¬ Beyond img (bilinear (sideOf v) tl tr bl al i j) ∧
      ∀ c, PixelNear img (bilinear (sideOf v) tl tr bl al i j) (1 / 100) c → q.data[i * sideOf v + j]? = some c

/-- The centre of a finder pattern with modules of `m` pixels and the upper left pixel `f`, half a pixel to the right and
up to half a pixel up. -/
def finderCentre (m : Nat) (f : Nat × Nat) : Pt := (f.1 + 7 * (m : ℚ) / 2, f.2 + ((7 * m - 1) / 2 : Nat))

end Verif.Spec
