import Verif.Spec.Geometry
import Verif.Model.Image
import Verif.Model.QRData
import Mathlib.Algebra.Order.Group.Unbundled.Abs

/-!
# Upright pictures of a symbol
-/
namespace Verif.Spec

/-- The image shows the grid with modules of `m` by `m` pixels, the top left pixel being `(ox, oy)`. The rest
of the image may be anything. -/
def Drawn (img : GrayImage) (q : QRData) (m ox oy : Nat) : Prop :=
  ox + q.side * m ≤ img.width ∧ oy + q.side * m ≤ img.height ∧
  ∀ i < q.side, ∀ j < q.side, ∀ a < m, ∀ b < m,
    img.pixels[(oy + i * m + b) * img.width + (ox + j * m + a)]? = q.data[i * q.side + j]?

/-- Coordinate of the centre of the `k`-th module from the edge `o`; pixel centres have integer coordinates. -/
def moduleCentre (m o k : Nat) : ℚ := o + k * m + ((m : ℚ) - 1) / 2

/-- The three points are the centres of the finder patterns, displaced by a common `shift`, give or take `ε`. -/
def Centred (tl tr bl : Pt) (side m ox oy : Nat) (shift : Pt) (ε : ℚ) : Prop :=
  (|tl.1 - (moduleCentre m ox 3 + shift.1)| ≤ ε ∧ |tl.2 - (moduleCentre m oy 3 + shift.2)| ≤ ε) ∧
  (|tr.1 - (moduleCentre m ox (side - 4) + shift.1)| ≤ ε ∧ |tr.2 - (moduleCentre m oy 3 + shift.2)| ≤ ε) ∧
  (|bl.1 - (moduleCentre m ox 3 + shift.1)| ≤ ε ∧ |bl.2 - (moduleCentre m oy (side - 4) + shift.2)| ≤ ε)

/-- The grid has the alignment pattern in the lower right corner: a dark square, a light one and a dark
centre, around the module 7 from the right and 7 from the bottom. -/
def HasAlignment (q : QRData) : Prop :=
  ∀ di < 5, ∀ dj < 5, q.data[(q.side - 9 + di) * q.side + (q.side - 9 + dj)]? =
    some (if (1 ≤ di ∧ di ≤ 3) ∧ (1 ≤ dj ∧ dj ≤ 3) ∧ ¬ (di = 2 ∧ dj = 2) then 255#8 else 0#8)

end Verif.Spec
