import Mathlib.Data.Rat.Defs
import Mathlib.Algebra.Order.Ring.Unbundled.Rat

/-!
# The geometry of the three finder patterns of a QR symbol

Coordinates are in pixels, `x` to the right and `y` downwards. The centres of the finder patterns of a symbol
of version `v` are `17 + 4v - 7 = 10 + 4v` modules apart, the top right and bottom left ones lie at a right
angle from the top left one, and in an unmirrored symbol turning from the top right to the bottom left one is
a turn to the right (positive cross product with `y` downwards). Tolerances are those of the detector,
rounded outwards.
-/
namespace Verif.Spec

/-- A point of the plane. -/
abbrev Pt := ℚ × ℚ

/-- Square of the distance. -/
def dist2 (a b : Pt) : ℚ := (b.1 - a.1) ^ 2 + (b.2 - a.2) ^ 2

/-- Cross product of `b - a` and `c - a`. -/
def cross (a b c : Pt) : ℚ := (b.1 - a.1) * (c.2 - a.2) - (b.2 - a.2) * (c.1 - a.1)

/-- The distance, squared in `d2`, is that of two neighbouring finder patterns of a symbol of version `v` with
modules of `m` pixels, give or take 2.1 modules (versions differ by 4). -/
def FitsVersion (d2 m : ℚ) (v : Nat) : Prop :=
  ((4 * v + 10 - 21 / 10) * m) ^ 2 ≤ d2 ∧ d2 ≤ ((4 * v + 10 + 21 / 10) * m) ^ 2

/-- Three finder centres that make a QR symbol of version `v` with modules of `m` pixels. -/
structure ProperGeometry (tl tr bl : Pt) (m : ℚ) (v : Nat) : Prop where
  /-- There is no version 0. -/
  version : 1 ≤ v
  /-- Modules are at least one pixel. -/
  module : 1 ≤ m
  /-- Not mirrored. -/
  unmirrored : 0 < cross tl tr bl
  /-- The sine of the angle at the top left is at least the square root of 0.9. -/
  perpendicular : 9 * (dist2 tl tr * dist2 tl bl) ≤ 10 * cross tl tr bl ^ 2
  /-- The two sides differ by at most 15.2 per cent (0.848 squared is 0.72). -/
  sides : 72 * dist2 tl tr ≤ 100 * dist2 tl bl ∧ 72 * dist2 tl bl ≤ 100 * dist2 tl tr
  /-- One of the two sides has the length that belongs to the version. -/
  size : FitsVersion (dist2 tl tr) m v ∨ FitsVersion (dist2 tl bl) m v

end Verif.Spec
