import Verif.Spec.Geometry
import Verif.Model.Image
import Verif.Model.QRData
import Mathlib.Analysis.SpecialFunctions.Trigonometric.Basic

/-!
# Symbols tilted by any angle
-/
namespace Verif.Spec

/-- The place `j` columns to the right of and `i` rows below the centre `p` of the first module, in a symbol with square
modules of side `m`, tilted by the angle `θ`. Pixel centres have integer coordinates; `m` is in pixels. -/
noncomputable def tiltedPlace (p : ℝ × ℝ) (m θ i j : ℝ) : ℝ × ℝ :=
  (p.1 + m * (j * Real.cos θ - i * Real.sin θ), p.2 + m * (j * Real.sin θ + i * Real.cos θ))

/-- The image shows the grid tilted by the angle `θ`: every pixel with its centre in the symbol has the colour of a module
that its centre is in. (On a border there is more than one.) The rest of the image may be anything. -/
def ShownTilted (img : GrayImage) (q : QRData) (p : ℝ × ℝ) (m θ : ℝ) : Prop :=
  ∀ x < img.width, ∀ y < img.height, ∀ a b : ℝ, ((x : ℝ), (y : ℝ)) = tiltedPlace p m θ a b →
    -(1 / 2) ≤ a → a ≤ q.side - 1 / 2 → -(1 / 2) ≤ b → b ≤ q.side - 1 / 2 →
    ∃ i < q.side, ∃ j < q.side, |a - i| ≤ 1 / 2 ∧ |b - j| ≤ 1 / 2 ∧
      img.pixels[y * img.width + x]? = q.data[i * q.side + j]?

/-- The whole symbol, from the corners of the modules in its corners, is in the image and a fiftieth of a pixel or more
from its edges. -/
def TiltedInside (img : GrayImage) (side : Nat) (p : ℝ × ℝ) (m θ : ℝ) : Prop :=
  ∀ a b : ℝ, -(1 / 2) ≤ a → a ≤ side - 1 / 2 → -(1 / 2) ≤ b → b ≤ side - 1 / 2 →
    (1 / 50 ≤ (tiltedPlace p m θ a b).1 ∧ (tiltedPlace p m θ a b).1 ≤ img.width - 1 / 2 - 1 / 50) ∧
    (1 / 50 ≤ (tiltedPlace p m θ a b).2 ∧ (tiltedPlace p m θ a b).2 ≤ img.height - 1 / 2 - 1 / 50)

/-- There is nothing else in the image: every pixel with its centre outside the symbol is white, and the image contains
the quiet zone, a border of four modules. -/
def AloneTilted (img : GrayImage) (side : Nat) (p : ℝ × ℝ) (m θ : ℝ) : Prop :=
  (∀ x < img.width, ∀ y < img.height, ∀ a b : ℝ, ((x : ℝ), (y : ℝ)) = tiltedPlace p m θ a b →
    (a < -(1 / 2) ∨ (side : ℝ) - 1 / 2 < a ∨ b < -(1 / 2) ∨ (side : ℝ) - 1 / 2 < b) →
    img.pixels[y * img.width + x]? = some 255#8) ∧
  ∀ a b : ℝ, -(9 / 2) ≤ a → a ≤ side + 7 / 2 → -(9 / 2) ≤ b → b ≤ side + 7 / 2 →
    (0 ≤ (tiltedPlace p m θ a b).1 ∧ (tiltedPlace p m θ a b).1 ≤ img.width - 1) ∧
    (0 ≤ (tiltedPlace p m θ a b).2 ∧ (tiltedPlace p m θ a b).2 ≤ img.height - 1)

/-- A point is known up to `ε` in both coordinates. -/
def CloseTo (a : Pt) (b : ℝ × ℝ) (ε : ℝ) : Prop := |(a.1 : ℝ) - b.1| ≤ ε ∧ |(a.2 : ℝ) - b.2| ≤ ε

/-- The three points are the centres of the finder patterns, all displaced in the same way by at most `δ` pixels to the
right or left and up or down, give or take `ε`. -/
def TiltedCentres (side : Nat) (tl tr bl : Pt) (p : ℝ × ℝ) (m θ δ ε : ℝ) : Prop :=
  ∃ shift : ℝ × ℝ, |shift.1| ≤ δ ∧ |shift.2| ≤ δ ∧
    CloseTo tl (tiltedPlace (p + shift) m θ 3 3) ε ∧ CloseTo tr (tiltedPlace (p + shift) m θ 3 (side - 4)) ε ∧
    CloseTo bl (tiltedPlace (p + shift) m θ (side - 4) 3) ε

end Verif.Spec
