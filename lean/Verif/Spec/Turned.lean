import Verif.Spec.Rendering

/-!
# Pictures of a symbol in any of the eight axis-parallel positions
-/
namespace Verif.Spec

/-- An axis-parallel position: columns and rows may be exchanged, and each of the two directions may be reversed
after that. -/
structure Orientation where
  /-- Left and right are reversed. -/
  flipX : Bool
  /-- Top and bottom are reversed. -/
  flipY : Bool
  /-- Rows run from top to bottom. -/
  swap : Bool
deriving DecidableEq

/-- Index `k` of `side`, counted from the other end if `f`. -/
def flipIndex (f : Bool) (side k : Nat) : Nat := if f then side - 1 - k else k

/-- The column of the picture in which module (i, j) (row i, column j) of a symbol is shown. -/
def Orientation.column (ρ : Orientation) (side i j : Nat) : Nat := flipIndex ρ.flipX side (if ρ.swap then i else j)

/-- The row of the picture in which module (i, j) of a symbol is shown. -/
def Orientation.row (ρ : Orientation) (side i j : Nat) : Nat := flipIndex ρ.flipY side (if ρ.swap then j else i)

/-- Not turned, not mirrored. -/
def Orientation.upright : Orientation := ⟨false, false, false⟩

/-- Turned clockwise by a number of quarter turns. -/
def Orientation.quarterTurns : Nat → Orientation
  | 0 => upright
  | 1 => ⟨true, false, true⟩
  | 2 => ⟨true, true, false⟩
  | 3 => ⟨false, true, true⟩
  | t + 4 => quarterTurns t

/-- A position is mirrored if it is not one of the four turns: an odd number of its three components holds. -/
def Orientation.Mirrored (ρ : Orientation) : Prop := (ρ.flipX != ρ.flipY) ≠ ρ.swap

/-- The image shows the grid in the position `ρ`, with modules of `m` by `m` pixels, the top left pixel of the picture
being `(ox, oy)`. The rest of the image may be anything. -/
def DrawnAs (img : GrayImage) (q : QRData) (ρ : Orientation) (m ox oy : Nat) : Prop :=
  ox + q.side * m ≤ img.width ∧ oy + q.side * m ≤ img.height ∧
  ∀ i < q.side, ∀ j < q.side, ∀ a < m, ∀ b < m,
    img.pixels[(oy + ρ.row q.side i j * m + b) * img.width + (ox + ρ.column q.side i j * m + a)]? = q.data[i * q.side + j]?

/-- The point is the centre of module (i, j), displaced by `shift`, give or take `ε`. -/
def CentredOn (p : Pt) (ρ : Orientation) (side m ox oy i j : Nat) (shift : Pt) (ε : ℚ) : Prop :=
  |p.1 - (moduleCentre m ox (ρ.column side i j) + shift.1)| ≤ ε ∧ |p.2 - (moduleCentre m oy (ρ.row side i j) + shift.2)| ≤ ε

/-- The three points are the centres of the finder patterns of a symbol in position `ρ`, displaced by a common `shift`,
give or take `ε`. -/
def CentredAs (tl tr bl : Pt) (ρ : Orientation) (side m ox oy : Nat) (shift : Pt) (ε : ℚ) : Prop :=
  CentredOn tl ρ side m ox oy 3 3 shift ε ∧ CentredOn tr ρ side m ox oy 3 (side - 4) shift ε ∧
  CentredOn bl ρ side m ox oy (side - 4) 3 shift ε

/-- The upper left pixel of the finder pattern in one of the four corners of a picture of a symbol of version `v`:
on the left or the right, at the top or the bottom. -/
def cornerFinder (v m ox oy : Nat) (right bottom : Bool) : Nat × Nat :=
  (ox + (if right then (4 * v + 10) * m else 0), oy + (if bottom then (4 * v + 10) * m else 0))

/-- Where the top left finder pattern of a symbol in position `ρ` is shown. -/
def tlFinder (ρ : Orientation) (v m ox oy : Nat) : Nat × Nat := cornerFinder v m ox oy ρ.flipX ρ.flipY

/-- Where the top right finder pattern of a symbol in position `ρ` is shown. -/
def trFinder (ρ : Orientation) (v m ox oy : Nat) : Nat × Nat :=
  if ρ.swap then cornerFinder v m ox oy ρ.flipX (!ρ.flipY) else cornerFinder v m ox oy (!ρ.flipX) ρ.flipY

/-- Where the bottom left finder pattern of a symbol in position `ρ` is shown. -/
def blFinder (ρ : Orientation) (v m ox oy : Nat) : Nat × Nat :=
  if ρ.swap then cornerFinder v m ox oy (!ρ.flipX) ρ.flipY else cornerFinder v m ox oy ρ.flipX (!ρ.flipY)

/-- The finder patterns of a symbol in position `ρ`, from top to bottom and from left to right: all corners but the one
opposite to the top left finder pattern. -/
def turnedFinders (ρ : Orientation) (v m ox oy : Nat) : List (Nat × Nat) :=
  ([(false, false), (true, false), (false, true), (true, true)].filter fun c => c != (!ρ.flipX, !ρ.flipY)).map fun c =>
    cornerFinder v m ox oy c.1 c.2

/-- The grid that looks like `q` in position `ρ`. -/
def turned (ρ : Orientation) (q : QRData) : QRData :=
  { q with data := (List.range (q.side * q.side)).map fun n =>
      let x := flipIndex ρ.flipX q.side (n % q.side)
      let y := flipIndex ρ.flipY q.side (n / q.side)
      q.data.getD (if ρ.swap then x * q.side + y else y * q.side + x) 255#8 }

/-- The grid with rows and columns exchanged. -/
def transposed (q : QRData) : QRData := turned ⟨false, false, true⟩ q

/-- The position that looks the same if rows and columns of the symbol are exchanged first. -/
def Orientation.exchanged (ρ : Orientation) : Orientation := { ρ with swap := !ρ.swap }

/-- The level and mask that the format information of level `l` and mask `k` is taken for if its modules are
mirrored; `none` if it is refused. -/
def mirroredFormat : ECLevel → Nat → Option (ECLevel × Nat)
  | .low, k => [some (.high, 5), some (.low, 4), none, none, some (.low, 1), some (.high, 6), none,
      some (.quartile, 0)].getD k none
  | .medium, k => [none, some (.high, 5), some (.quartile, 2), some (.quartile, 7), some (.medium, 6),
      some (.quartile, 5), some (.medium, 4), some (.high, 0)].getD k none
  | .quartile, k => [some (.low, 7), some (.quartile, 3), some (.medium, 2), some (.quartile, 1), some (.medium, 0),
      some (.medium, 5), some (.low, 2), none].getD k none
  | .high, k => [some (.medium, 7), none, some (.low, 1), some (.high, 6), some (.quartile, 5), none,
      some (.high, 3), some (.low, 2)].getD k none

end Verif.Spec
