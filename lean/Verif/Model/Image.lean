import Verif.Model.Basic

/-!
# Grey images

`image::GrayImage` (crate image 0.24, not part of /repo): dimensions and pixels in row-major order.
Modelled from its documented interface: `dimensions`, `get_pixel` (panics outside the image) and
`enumerate_pixels` (row by row from the top, each row from the left).
-/
namespace Verif

/-- `image::GrayImage`. Dimensions are `u32`. -/
structure GrayImage where
  width : Nat
  height : Nat
  pixels : List U8
deriving DecidableEq, Repr

namespace GrayImage

/-- What the crate guarantees of every image: one pixel per position, dimensions that fit `u32`. -/
def Valid (img : GrayImage) : Prop :=
  img.pixels.length = img.width * img.height ∧ img.width < 2 ^ 32 ∧ img.height < 2 ^ 32

/-- `get_pixel(x, y)[0]`. -/
def getPixel (img : GrayImage) (x y : Nat) : Run U8 :=
  if x < img.width ∧ y < img.height then
    match img.pixels[y * img.width + x]? with
    | some p => .ret p
    | none => .panic
  else .panic

/-- `enumerate_pixels()`: column, row and value of every pixel. -/
def enumeratePixels (img : GrayImage) : List (Nat × Nat × U8) :=
  img.pixels.zipIdx.map fun (p, i) => (i % img.width, i / img.width, p)

end GrayImage
end Verif
