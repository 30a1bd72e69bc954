import Verif.Spec.Finder
import Verif.Spec.Picture

/-!
# Finder patterns in an image
-/
namespace Verif.Spec

/-- Lengths of the maximal runs of equal elements. -/
def runs {α : Type} [DecidableEq α] : List α → List Nat
  | [] => []
  | [_] => [1]
  | a :: b :: l =>
    if a = b then
      match runs (b :: l) with
      | n :: ns => (n + 1) :: ns
      | [] => []
    else 1 :: runs (b :: l)

/-- The image shows a finder pattern with modules of `m` by `m` pixels whose upper left pixel is `(fx, fy)`. It is
surrounded by one light module, or by what the image has room for, but at least one pixel on the right and
below. -/
def CleanFinder (img : GrayImage) (m fx fy : Nat) : Prop :=
  fx + 7 * m < img.width ∧ fy + 7 * m < img.height ∧
  ∀ x < img.width, ∀ y < img.height, fx ≤ x + m → x < fx + 8 * m → fy ≤ y + m → y < fy + 8 * m →
    grey img x y = if fx ≤ x ∧ fy ≤ y ∧ finderModule ((x - fx) / m) ((y - fy) / m) then 0 else 255

/-- The pixels of row `y` left of column `x`, from right to left. -/
def leftOf (img : GrayImage) (x y : Nat) : List Nat := (List.range x).reverse.map fun i => grey img i y

/-- The pixels of a column from row `top` up to but without row `bottom`, from bottom to top. -/
def upFrom (img : GrayImage) (x top bottom : Nat) : List Nat :=
  ((List.range' top (bottom - top)).reverse).map fun i => grey img x i

/-- The last completed run (the first of the list) is not shorter than a tenth of the one before. The first two
runs of a line do not matter. -/
def Steady : List Nat → Prop
  | b :: a :: _ :: _ => a ≤ 10 * b
  | _ => True

/-- If the last five runs, the first five of the list, have the shape of a finder pattern: its number of pixels. -/
def finderEnd : List Nat → Option Nat
  | e :: d :: c :: b :: a :: _ => if FinderShaped a b c d e then some (a + b + c + d + e) else none
  | _ => none

instance (rs : List Nat) : Decidable (Steady rs) := by unfold Steady; split <;> infer_instance

/-- Does the grey value change from column `x - 1` to column `x`? -/
def changesAt (img : GrayImage) (x y : Nat) : Prop := grey img (x - 1) y ≠ grey img x y

instance (img : GrayImage) (x y : Nat) : Decidable (changesAt img x y) := by unfold changesAt; infer_instance

/-- There is no run in row `y` before column `x` that is shorter than a tenth of the one before it, the first two
runs aside. -/
def SteadyRow (img : GrayImage) (x y : Nat) : Prop :=
  ∀ i < x, changesAt img i y → Steady (runs (leftOf img i y))

/-- Two sizes differ by at most 21 per cent of the larger one. -/
def Similar (t u : Nat) : Prop := 100 * max t u ≤ 21 * max t u + 100 * min t u

/-- Column `x` from five modules above `y` to five modules below, a module being `t / 7` pixels, has no run shorter
than a tenth of the one before, and nowhere the shape of a finder pattern of similar size. -/
def NotConfirmed (img : GrayImage) (x y t : Nat) : Prop :=
  let top := (14 * y + 7 - 10 * t) / 14
  let bottom := min ((14 * y + 7 + 10 * t) / 14) img.height
  ∀ i ≤ bottom, top < i → (i = bottom ∨ grey img x (i - 1) ≠ grey img x i) →
    (i < bottom → Steady (runs (upFrom img x top i))) ∧
    ∀ u, finderEnd (runs (upFrom img x top i)) = some u → ¬ Similar t u

/-- The runs of row `y` up to a colour change at column `x`, or up to the end of the row. -/
def runsAt (img : GrayImage) (x y : Nat) : List Nat :=
  if changesAt img x y then runs (leftOf img x y)
  else if x + 1 = img.width then runs (leftOf img img.width y)
  else []

/-- Apart from the finder patterns at `fs`, wherever a row has the shape of a finder pattern, the column through
its middle does not confirm it. -/
def NoOtherFinders (img : GrayImage) (m : Nat) (fs : List (Nat × Nat)) : Prop :=
  ∀ y < img.height, ∀ x < img.width, ∀ t, finderEnd (runsAt img x y) = some t →
    (∃ f ∈ fs, x = f.1 + 7 * m ∧ f.2 + 2 * m ≤ y ∧ y < f.2 + 5 * m) ∨
    ∀ c < img.width, 2 * x ≤ 2 * c + t + 1 → 2 * c + t ≤ 2 * x + 1 → NotConfirmed img c y t

/-- What follows a row that has the shape of a finder pattern of `t` pixels up to column `x` is out of reach of the
finder pattern at `f`: on the right, on the left, or above. -/
def FarFrom (m : Nat) (f : Nat × Nat) (x y t : Nat) : Prop :=
  2 * f.1 + 23 * m + 2 * t ≤ 2 * x ∨ 2 * x + 8 * m ≤ 2 * f.1 ∨ 6 * y + 31 * m + 2 * t ≤ 6 * f.2

/-- Wherever a row has the shape of a finder pattern, this is one of the finder patterns at `fs`, or the column
through its middle does not confirm it, or it is out of reach of those of the finder patterns that the scan from
top to bottom and from left to right has not yet come to. -/
def NoOtherFindersNear (img : GrayImage) (m : Nat) (fs : List (Nat × Nat)) : Prop :=
  ∀ y < img.height, ∀ x < img.width, ∀ t, finderEnd (runsAt img x y) = some t →
    (∃ f ∈ fs, x = f.1 + 7 * m ∧ f.2 + 2 * m ≤ y ∧ y < f.2 + 5 * m) ∨
    (∀ c < img.width, 2 * x ≤ 2 * c + t + 1 → 2 * c + t ≤ 2 * x + 1 → NotConfirmed img c y t) ∨
    ∀ f ∈ fs, (y < f.2 + 2 * m ∨ y = f.2 + 2 * m ∧ x < f.1 + 7 * m) → FarFrom m f x y t

/-- Finder patterns in the order in which a scan from top to bottom and from left to right meets them, at least ten
modules apart in one direction. -/
def ScanOrder (m : Nat) (a b : Nat × Nat) : Prop :=
  (a.2 < b.2 ∨ a.2 = b.2 ∧ a.1 < b.1) ∧
  (a.1 + 10 * m ≤ b.1 ∨ b.1 + 10 * m ≤ a.1 ∨ a.2 + 10 * m ≤ b.2)

/-- The upper left pixels of the finder patterns of a symbol of version `v` with its upper left pixel at
`(ox, oy)`: they are `4 * v + 10` modules apart. -/
def symbolFinders (v m ox oy : Nat) : List (Nat × Nat) :=
  [(ox, oy), (ox + (4 * v + 10) * m, oy), (ox, oy + (4 * v + 10) * m)]

/-- The grid has finder patterns with separators in three corners. -/
def HasFinders (q : QRData) : Prop :=
  ∀ i < 8, ∀ j < 8, ∀ p ∈ [i * q.side + j, i * q.side + (q.side - 1 - j), (q.side - 1 - i) * q.side + j],
    q.data[p]? = some (if finderModule j i then 0#8 else 255#8)

/-- Around a symbol with `side` modules there is a light border of one module, or of what the image has room for,
but at least one pixel on the right and below. -/
def QuietZone (img : GrayImage) (side m ox oy : Nat) : Prop :=
  ox + side * m < img.width ∧ oy + side * m < img.height ∧
  ∀ x < img.width, ∀ y < img.height, ox ≤ x + m → x < ox + (side + 1) * m → oy ≤ y + m → y < oy + (side + 1) * m →
    ¬ (ox ≤ x ∧ x < ox + side * m ∧ oy ≤ y ∧ y < oy + side * m) → grey img x y = 255

instance (t u : Nat) : Decidable (Similar t u) := by unfold Similar; infer_instance

end Verif.Spec
