import Verif.Model.Image

/-!
# What adaptive thresholding by blocks should do

Written from the documentation of `BlockedMean` (src/prepare/blockedmean.rs:8-14) for a grey image cut into
square blocks of `bs` pixels. Everything is exact arithmetic on natural numbers.
-/
namespace Verif.Spec

/-- All positions (column, row) of an image. -/
def positions (width height : Nat) : List (Nat × Nat) :=
  (List.range height).flatMap fun y => (List.range width).map fun x => (x, y)

/-- Grey value at column `x`, row `y`. -/
def grey (img : GrayImage) (x y : Nat) : Nat := (img.pixels.getD (y * img.width + x) 0).toNat

/-- Along one axis with `n` complete blocks, the blocks around block `b` that count towards its mean: from
`stride` below to `stride - 1` above, as far as they are complete. -/
def nearBlock (n stride b c : Nat) : Bool := b ≤ c + stride && c < b + stride && c < n

/-- The pixels whose mean decides about the pixel at `(x, y)`: those in the blocks around its block. -/
def window (bs ms : Nat) (img : GrayImage) (x y : Nat) : List (Nat × Nat) :=
  (positions img.width img.height).filter fun p =>
    nearBlock (img.width / bs) ((ms - 1) / 2) (x / bs) (p.1 / bs) &&
    nearBlock (img.height / bs) ((ms - 1) / 2) (y / bs) (p.2 / bs)

/-- Sum of the grey values in the window. -/
def windowTotal (bs ms : Nat) (img : GrayImage) (x y : Nat) : Nat :=
  ((window bs ms img x y).map fun p => grey img p.1 p.2).sum

/-- Number of pixels in the window. -/
def windowCount (bs ms : Nat) (img : GrayImage) (x y : Nat) : Nat := (window bs ms img x y).length

/-- The pixel becomes white: the mean of its window is above 250, or it is at least 5 and below the pixel's
own grey value. (`mean = total / count`; compared without division.) -/
def BecomesWhite (bs ms : Nat) (img : GrayImage) (x y : Nat) : Prop :=
  250 * windowCount bs ms img x y < windowTotal bs ms img x y ∨
  (5 * windowCount bs ms img x y ≤ windowTotal bs ms img x y ∧
    windowTotal bs ms img x y < grey img x y * windowCount bs ms img x y)

instance (bs ms : Nat) (img : GrayImage) (x y : Nat) : Decidable (BecomesWhite bs ms img x y) := by
  unfold BecomesWhite; infer_instance

/-- The black and white image: each pixel is white if it becomes white, otherwise black. -/
def thresholded (bs ms : Nat) (img : GrayImage) : GrayImage :=
  { img with pixels := (positions img.width img.height).map fun p =>
      if BecomesWhite bs ms img p.1 p.2 then 255#8 else 0#8 }

/-- The requirements under which thresholding is defined: proper sizes, at least one complete block, and
no `u32` overflow in the number of blocks. -/
def ThresholdDefined (bs ms width height : Nat) : Prop :=
  0 < bs ∧ 3 ≤ ms ∧ bs ≤ width ∧ bs ≤ height ∧
  (width / bs + 1) * (height / bs + 1) < 2 ^ 32 ∧
  width / bs + (ms - 1) / 2 < 2 ^ 32 ∧ height / bs + (ms - 1) / 2 < 2 ^ 32

end Verif.Spec
