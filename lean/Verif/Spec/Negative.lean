import Verif.Model.Image
import Verif.Model.QRData
import Verif.Model.Format

/-!
# Light symbols on a dark ground
-/
namespace Verif.Spec

/-- The image with other grey values. -/
def recoloured (f : U8 → U8) (img : GrayImage) : GrayImage := { img with pixels := img.pixels.map f }

/-- The opposite grey value: black for white, white for black. -/
def opposite (p : U8) : U8 := 255#8 - p

/-- The image with light and dark exchanged. -/
def negative (img : GrayImage) : GrayImage := recoloured opposite img

/-- Every pixel is black or white. -/
def BlackWhite (img : GrayImage) : Prop := ∀ p ∈ img.pixels, p = 0#8 ∨ p = 255#8

/-- The grid with light and dark modules exchanged. -/
def negativeGrid (q : QRData) : QRData := { q with data := q.data.map opposite }

/-- The level that the two bits of a level say if they are inverted. -/
def oppositeLevel : ECLevel → ECLevel
  | .low => .high
  | .medium => .quartile
  | .quartile => .medium
  | .high => .low

end Verif.Spec
