import Verif.Spec.Encode
import Verif.Spec.Rendering

/-!
# Drawing symbols
-/
namespace Verif.Spec

/-- A picture of a grid: modules of `m` by `m` pixels and a white border of `b` pixels on all sides. -/
def picture (q : QRData) (m b : Nat) : GrayImage where
  width := q.side * m + 2 * b
  height := q.side * m + 2 * b
  pixels := (List.range ((q.side * m + 2 * b) * (q.side * m + 2 * b))).map fun n =>
    let x := n % (q.side * m + 2 * b)
    let y := n / (q.side * m + 2 * b)
    if b ≤ x ∧ x < b + q.side * m ∧ b ≤ y ∧ y < b + q.side * m then
      q.data.getD ((y - b) / m * q.side + (x - b) / m) 255#8
    else 255#8

/-- 6.3.3: modules of a finder pattern, counted from its upper left corner: a dark frame, a light one and a
dark square; the separator around it is light. -/
def finderModule (x y : Nat) : Bool :=
  x < 7 && y < 7 && (x == 0 || x == 6 || y == 0 || y == 6 || (2 ≤ x && x ≤ 4 && 2 ≤ y && y ≤ 4))

/-- 6.3.6: modules of an alignment pattern, relative to its centre, given as absolute differences. -/
def alignmentModule (dx dy : Nat) : Bool := max dx dy == 2 || max dx dy == 0

instance (v x y : Nat) : Decidable (inAlignment v x y) := by unfold inAlignment; infer_instance

/-- Finder patterns, timing patterns (6.3.5), alignment patterns and the dark module. The version information
is left out. -/
def functionPatterns (v x y : Nat) : Bool :=
  let s := sideOf v
  if x < 8 ∧ y < 8 then finderModule x y
  else if s - 8 ≤ x ∧ y < 8 then finderModule (s - 1 - x) y
  else if x < 8 ∧ s - 8 ≤ y then finderModule x (s - 1 - y)
  else if inAlignment v x y then
    let around (c z : Nat) : Bool := c - 2 ≤ z && z ≤ c + 2
    let cx := ((alignmentCentres v).find? (around · x)).getD 0
    let cy := ((alignmentCentres v).find? (around · y)).getD 0
    alignmentModule (max cx x - min cx x) (max cy y - min cy y)
  else if x = 6 then y % 2 == 0
  else if y = 6 then x % 2 == 0
  else x == 8 && y == s - 8

/-- The exact location of the symbol in its picture. -/
def exactCentres (side m b : Nat) : Pt × Pt × Pt :=
  ((moduleCentre m b 3, moduleCentre m b 3), (moduleCentre m b (side - 4), moduleCentre m b 3),
    (moduleCentre m b 3, moduleCentre m b (side - 4)))

end Verif.Spec
