import Verif.Spec.Geometry
import Verif.Model.Image

/-!
# Where the modules of a symbol are

Row `i` and column `j` count modules from the top left corner of a symbol with `side` modules per side. The
finder patterns have their centres at the modules (3, 3), (3, side - 4) and (side - 4, 3), and the alignment
pattern in the lower right corner, which versions from 2 on have, at (side - 7, side - 7).
-/
namespace Verif.Spec

/-- One coordinate of a map that is affine along every row and every column, through the three finder centres
and, if there is one, the alignment centre. -/
def bilinear1 (side : Nat) (tl tr bl : ℚ) (al : Option ℚ) (i j : Nat) : ℚ :=
  let u : ℚ := j - 3
  let v : ℚ := i - 3
  let n : ℚ := side - 7
  let affine : ℚ → ℚ → ℚ := fun u v => tl + u / n * (tr - tl) + v / n * (bl - tl)
  match al with
  | none => affine u v
  | some a => affine u v + u * v / (side - 10) ^ 2 * (a - affine (side - 10) (side - 10))

/-- The position of module (i, j). -/
def bilinear (side : Nat) (tl tr bl : Pt) (al : Option Pt) (i j : Nat) : Pt :=
  (bilinear1 side tl.1 tr.1 bl.1 (al.map (·.1)) i j, bilinear1 side tl.2 tr.2 bl.2 (al.map (·.2)) i j)

/-- `p` is the value of a pixel nearest to a point that is known up to `ε`. A negative coordinate counts as 0. -/
def PixelNear (img : GrayImage) (pt : Pt) (ε : ℚ) (p : U8) : Prop :=
  ∃ x y : Nat, x < img.width ∧ y < img.height ∧ img.pixels[y * img.width + x]? = some p ∧
    |(x : ℚ) - max 0 pt.1| ≤ 1 / 2 + ε ∧ |(y : ℚ) - max 0 pt.2| ≤ 1 / 2 + ε

/-- `l` is the nearest white position before `c` on a line, or the beginning of the line. -/
def WhiteBefore (white : Nat → Prop) (c l : Nat) : Prop :=
  (l < c ∧ white l ∧ ∀ k, l < k → k < c → ¬ white k) ∨ (l = 0 ∧ ∀ k < c, ¬ white k)

/-- `r` is the nearest white position from `c` on, on a line of `n` pixels, or the end of the line. -/
def WhiteAfter (white : Nat → Prop) (c n r : Nat) : Prop :=
  (c ≤ r ∧ r < n ∧ white r ∧ ∀ k, c ≤ k → k < r → ¬ white k) ∨ (r = n ∧ ∀ k, c ≤ k → k < n → ¬ white k)

/-- The pixel in column `x` and row `y` is white. -/
def White (img : GrayImage) (x y : Nat) : Prop := img.pixels[y * img.width + x]? = some 255#8

/-- `a` is the middle of the dark spot around the pixel in column `cx` and row `cy`: half way between the white
pixels on both sides in that row, and half way between those above and below in the column nearest to the former
middle. -/
def MiddleOfSpot (img : GrayImage) (cx cy : Nat) (a : Pt) : Prop :=
  ∃ cx' l r t b : Nat,
    WhiteBefore (fun x => White img x cy) cx l ∧ WhiteAfter (fun x => White img x cy) cx img.width r ∧
    a.1 = ((l : ℚ) + r) / 2 ∧ |(cx' : ℚ) - a.1| ≤ 1 / 2 ∧
    WhiteBefore (fun y => White img cx' y) cy t ∧ WhiteAfter (fun y => White img cx' y) cy img.height b ∧
    a.2 = ((t : ℚ) + b) / 2

/-- The position `u` columns to the right of and `v` rows below module (side - 7, side - 7), if the symbol were
affine. -/
def besideAlignment (side : Nat) (tl tr bl : Pt) (u v : ℚ) : Pt :=
  let n : ℚ := side - 7
  let along : ℚ → ℚ → ℚ → ℚ := fun t r b => t + (side - 10 + u) / n * (r - t) + (side - 10 + v) / n * (b - t)
  (along tl.1 tr.1 bl.1, along tl.2 tr.2 bl.2)

/-- The point is beyond the right or lower edge of the image, or less than a fiftieth of a pixel before it. The
pixel in column `x` covers the coordinates from `x - 1/2` to `x + 1/2`. -/
def Beyond (img : GrayImage) (pt : Pt) : Prop :=
  img.width - 1 / 2 - 1 / 50 < pt.1 ∨ img.height - 1 / 2 - 1 / 50 < pt.2

/-- The point is in the image, a fiftieth of a pixel or more from its edges. -/
def Inside (img : GrayImage) (pt : Pt) : Prop := 1 / 50 ≤ pt.1 ∧ 1 / 50 ≤ pt.2 ∧ ¬ Beyond img pt

/-- The modules of an alignment pattern that are looked at, by their distances from its centre to the right and down,
and the colour that they must not have. (Not all modules of the pattern are looked at.) -/
def alignmentLooks : List ((Int × Int) × U8) :=
  [((2, -2), 255#8), ((2, 2), 255#8), ((1, -2), 255#8), ((1, 2), 255#8), ((0, -2), 255#8), ((0, 2), 255#8),
   ((-1, -2), 255#8), ((-1, 2), 255#8), ((-2, 1), 255#8), ((2, 1), 255#8), ((-1, 1), 0#8), ((-1, -1), 0#8),
   ((-2, 0), 255#8), ((2, 0), 255#8), ((-1, 0), 0#8), ((-1, 0), 0#8), ((0, -1), 0#8), ((0, 1), 0#8)]

/-- Where an alignment pattern is looked for: `x` and `y` half modules from where it would be if the symbol were affine,
and larger by `z` tenths. -/
def Tried (x y z : Int) : Prop := |x| ≤ 3 ∧ |y| ≤ 3 ∧ -2 ≤ z ∧ z ≤ 3

/-- The position of a module of the alignment pattern that is tried. -/
def triedModule (side : Nat) (tl tr bl : Pt) (x y z : Int) (o : Int × Int) : Pt :=
  besideAlignment side tl tr bl (x / 2 + o.1 * (1 + z / 10)) (y / 2 + o.2 * (1 + z / 10))

/-- The pixels nearest to the modules, up to a hundredth of a pixel, can be such as an alignment pattern has. -/
def CanBeAlignment (img : GrayImage) (side : Nat) (tl tr bl : Pt) (x y z : Int) : Prop :=
  PixelNear img (triedModule side tl tr bl x y z (0, 0)) (1 / 100) 0#8 ∧
  ∀ o ∈ alignmentLooks, ∃ c ≠ o.2, PixelNear img (triedModule side tl tr bl x y z o.1) (1 / 100) c

/-- All pixels nearest to the modules, up to a hundredth of a pixel, are such as an alignment pattern has. -/
def MustBeAlignment (img : GrayImage) (side : Nat) (tl tr bl : Pt) (x y z : Int) : Prop :=
  (∀ a b : Int, |a| ≤ 2 → |b| ≤ 2 → Inside img (triedModule side tl tr bl x y z (a, b))) ∧
  (∀ c, PixelNear img (triedModule side tl tr bl x y z (0, 0)) (1 / 100) c → c = 0#8) ∧
  ∀ o ∈ alignmentLooks, ∀ c, PixelNear img (triedModule side tl tr bl x y z o.1) (1 / 100) c → c ≠ o.2

/-- The order in which the sizes are tried: 0, 1, -1, 2, -2, 3 tenths more. -/
def sizeRank (z : Int) : Int := if 0 < z then 2 * z - 1 else -2 * z

/-- One place is tried before another: nearer places first, then by size. -/
def TriedBefore (x y z x' y' z' : Int) : Prop :=
  max |x| |y| < max |x'| |y'| ∨ max |x| |y| = max |x'| |y'| ∧ sizeRank z < sizeRank z'

/-- `a` is the middle of the dark spot around the centre of what can be an alignment pattern, in the first place where
there is one. -/
def AlignmentAt (img : GrayImage) (side : Nat) (tl tr bl : Pt) (a : Pt) : Prop :=
  ∃ x y z : Int, Tried x y z ∧ CanBeAlignment img side tl tr bl x y z ∧
    (∀ x' y' z', Tried x' y' z' → TriedBefore x' y' z' x y z → ¬ MustBeAlignment img side tl tr bl x' y' z') ∧
    ∃ cx cy : Nat, cx < img.width ∧ cy < img.height ∧
      |(cx : ℚ) - max 0 (triedModule side tl tr bl x y z (0, 0)).1| ≤ 1 / 2 + 1 / 100 ∧
      |(cy : ℚ) - max 0 (triedModule side tl tr bl x y z (0, 0)).2| ≤ 1 / 2 + 1 / 100 ∧
      img.pixels[cy * img.width + cx]? = some 0#8 ∧ MiddleOfSpot img cx cy a

end Verif.Spec
