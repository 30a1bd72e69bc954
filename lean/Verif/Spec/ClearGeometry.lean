import Verif.Spec.Geometry

/-!
# Three points that are clearly the finder centres of a symbol

The same conditions as in `ProperGeometry`, a little stricter: what rounding may decide either way lies between the two.
-/
namespace Verif.Spec

/-- The distance, squared in `d2`, is that of two neighbouring finder patterns of a symbol of version `v` with
modules of `m` pixels, give or take less than 1.9 modules (versions differ by 4). -/
def ClearlyFits (d2 m : ℚ) (v : Nat) : Prop :=
  ((4 * v + 10 - 19 / 10) * m) ^ 2 < d2 ∧ d2 < ((4 * v + 10 + 19 / 10) * m) ^ 2

/-- Three finder centres that clearly make a QR symbol of version `v` with modules of `m` pixels. -/
structure ClearGeometry (tl tr bl : Pt) (m : ℚ) (v : Nat) : Prop where
  /-- There is no version 0. -/
  version : 1 ≤ v
  /-- Modules are at least one pixel. -/
  module : 1 ≤ m
  /-- Not mirrored. -/
  unmirrored : 0 < cross tl tr bl
  /-- The sine of the angle at the top left is at least the square root of 0.91, 0.954: between 72.6 and 107.4
  degrees. -/
  perpendicular : 91 * (dist2 tl tr * dist2 tl bl) ≤ 100 * cross tl tr bl ^ 2
  /-- The two sides differ by at most 14.5 per cent (0.8544 squared is 0.73). -/
  sides : 73 * dist2 tl tr ≤ 100 * dist2 tl bl ∧ 73 * dist2 tl bl ≤ 100 * dist2 tl tr
  /-- Both sides have the length that belongs to the version. -/
  size : ClearlyFits (dist2 tl tr) m v ∧ ClearlyFits (dist2 tl bl) m v

end Verif.Spec
