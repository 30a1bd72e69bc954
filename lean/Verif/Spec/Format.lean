import Verif.Model.QRData
/-!
# Specification: format information and data masks (ISO/IEC 18004:2015, 7.8 and 7.9)

Only the data types `QRData` and `ECLevel` are taken from the model. Coordinates are `(x, y)` =
(column, row), the origin is the upper left module.
-/
namespace Verif.Spec

/-- The module in column `x`, row `y` of a row-major pixel grid; `some true` is dark (pixel 0). -/
def moduleAt (q : QRData) (x y : Nat) : Option Bool :=
  (q.data[y * q.side + x]?).map fun pixel => decide (pixel = 0)

/-- The modules at the given positions show exactly the bits `w` (1 = dark). -/
def Shows (q : QRData) (positions : List (Nat × Nat)) (w : List Bool) : Prop :=
  positions.map (fun p => moduleAt q p.1 p.2) = w.map some

instance (q : QRData) (ps : List (Nat × Nat)) (w : List Bool) : Decidable (Shows q ps w) :=
  inferInstanceAs (Decidable (_ = _))

/-- First copy of the format information, most significant bit (bit 14) first. -/
def formatCopy1 : List (Nat × Nat) :=
  [(0, 8), (1, 8), (2, 8), (3, 8), (4, 8), (5, 8), (7, 8), (8, 8),
   (8, 7), (8, 5), (8, 4), (8, 3), (8, 2), (8, 1), (8, 0)]

/-- Second copy, most significant bit first. -/
def formatCopy2 (side : Nat) : List (Nat × Nat) :=
  [(8, side - 1), (8, side - 2), (8, side - 3), (8, side - 4), (8, side - 5), (8, side - 6),
   (8, side - 7),
   (side - 8, 8), (side - 7, 8), (side - 6, 8), (side - 5, 8), (side - 4, 8), (side - 3, 8),
   (side - 2, 8), (side - 1, 8)]

/-- Table 12: the two-bit level indicators. -/
def levelBits : ECLevel → Nat
  | .low => 0b01
  | .medium => 0b00
  | .quartile => 0b11
  | .high => 0b10

/-- Remainder of `d * x^n` modulo the generator `x^10+x^8+x^5+x^4+x^2+x+1` (0x537), by long
division: `n` times, shift by one and subtract the generator if `x^10` appears. -/
def bchRemainder (d : Nat) : Nat → Nat
  | 0 => d
  | n + 1 =>
    let r := 2 * bchRemainder d n
    if r.testBit 10 then r ^^^ 0x537 else r

/-- The 15-bit number of the BCH(15,5) code word: five data bits, then the remainder. -/
def bchWord (d : Nat) : Nat := d * 1024 + bchRemainder d 10

/-- The 15 bits of a number, most significant first. -/
def bits15 (n : Nat) : List Bool := (List.range 15).map fun i => n.testBit (14 - i)

/-- The 15 bits shown for level `l` and mask `k`: BCH word xor 101010000010010. -/
def formatWord (l : ECLevel) (k : Nat) : List Bool :=
  bits15 (bchWord (levelBits l * 8 + k) ^^^ 0b101010000010010)

/-- `e` marks the flipped bits. -/
def flipBits (w e : List Bool) : List Bool := w.zipWith xor e

/-- Number of flipped bits. -/
def weight (e : List Bool) : Nat := e.count true

/-- Table 10: mask condition of mask `k` in row `i`, column `j`; `true` means the module is inverted. -/
def isoMask (k i j : Nat) : Bool :=
  match k with
  | 0 => (i + j) % 2 = 0
  | 1 => i % 2 = 0
  | 2 => j % 3 = 0
  | 3 => (i + j) % 3 = 0
  | 4 => (i / 2 + j / 3) % 2 = 0
  | 5 => (i * j) % 2 + (i * j) % 3 = 0
  | 6 => ((i * j) % 2 + (i * j) % 3) % 2 = 0
  | _ => ((i + j) % 2 + (i * j) % 3) % 2 = 0

end Verif.Spec
