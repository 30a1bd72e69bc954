import Verif.Spec.Detection

/-!
# Enlarged images

Conditions on an image under which all its enlargements have the properties of `Verif.Spec.Detection`. Sizes are in
pixels of the small image, which are the modules of the enlarged ones.
-/
namespace Verif.Spec

/-- `img` shows `g` with every pixel enlarged to `m` by `m` pixels. -/
def Enlarged (img g : GrayImage) (m : Nat) : Prop :=
  img.width = g.width * m ∧ img.height = g.height * m ∧
  ∀ x < img.width, ∀ y < img.height, grey img x y = grey g (x / m) (y / m)

/-- The grey image is dark (at most 5) where the black and white one is black, and light (at least 251) where that
is white. -/
def Crisp (src img : GrayImage) : Prop :=
  src.width = img.width ∧ src.height = img.height ∧
  ∀ x < img.width, ∀ y < img.height,
    (grey img x y = 0 ∧ grey src x y ≤ 5) ∨ (grey img x y = 255 ∧ 251 ≤ grey src x y)

/-- The grey image `src` shows the black and white image `g` with every pixel enlarged to `m` by `m` pixels, which are
dark (at most 5) where that is black, and light (at least 251) where that is white. -/
def CrispEnlargement (src g : GrayImage) (m : Nat) : Prop :=
  src.width = g.width * m ∧ src.height = g.height * m ∧
  ∀ x < src.width, ∀ y < src.height,
    (grey g (x / m) (y / m) = 0 ∧ grey src x y ≤ 5) ∨ (grey g (x / m) (y / m) = 255 ∧ 251 ≤ grey src x y)

/-- The two columns on the right and the two rows below are white. -/
def WhiteEnd (g : GrayImage) : Prop :=
  2 ≤ g.width ∧ 2 ≤ g.height ∧
  ∀ x < g.width, ∀ y < g.height, g.width ≤ x + 2 ∨ g.height ≤ y + 2 → grey g x y = 255

/-- Enlarged to `m` by `m` pixels, `g` has enough of both colours everywhere: in the window that decides about a pixel,
at least 18 pixels, a fiftieth of the largest window, have its colour. -/
def Legible (g : GrayImage) (m : Nat) : Prop :=
  2 ≤ m ∧ ∀ img, Enlarged img g m → ∀ x < img.width, ∀ y < img.height,
    18 ≤ ((window 5 7 img x y).filter fun p => grey img p.1 p.2 = grey img x y).length

/-- The grey image `src` shows the black and white image `g` with every pixel enlarged to `m` by `m` pixels, in any
light: around every pixel, in the window that decides about it, the dark pixels have grey values from `d - s` to `d` and
the light ones from `l` to `l + s`, where the contrast `l - d` is more than seven times the variation `s`. Levels and
contrast may change from place to place, and need only avoid being all black or all white. -/
def LitEnlargement (src g : GrayImage) (m : Nat) : Prop :=
  src.width = g.width * m ∧ src.height = g.height * m ∧
  ∀ x < src.width, ∀ y < src.height, ∃ d l s : Nat, d + 7 * s < l ∧ d ≤ 215 ∧ 40 ≤ l ∧
    ∀ p ∈ (x, y) :: window 5 7 src x y,
      (grey g (p.1 / m) (p.2 / m) = 0 ∧ d ≤ grey src p.1 p.2 + s ∧ grey src p.1 p.2 ≤ d) ∨
      (grey g (p.1 / m) (p.2 / m) = 255 ∧ l ≤ grey src p.1 p.2 ∧ grey src p.1 p.2 ≤ l + s)

/-- Enlarged to `m` by `m` pixels, `g` has black and white everywhere: in the window that decides about a pixel, at least
an eighth of the pixels is black and at least an eighth is white. -/
def WellMixed (g : GrayImage) (m : Nat) : Prop :=
  1 ≤ m ∧ ∀ img, Enlarged img g m → ∀ x < img.width, ∀ y < img.height, ∀ c : Nat, c = 0 ∨ c = 255 →
    0 < windowCount 5 7 img x y ∧
    windowCount 5 7 img x y ≤ 8 * ((window 5 7 img x y).filter fun p => grey img p.1 p.2 = c).length

/-- If the last five runs, the first five of the list, have the proportions of a finder pattern: their sum. -/
def shapeEnd : List Nat → Option Nat
  | e :: d :: c :: b :: a :: _ =>
    if FinderShaped (7 * a) (7 * b) (7 * c) (7 * d) (7 * e) then some (a + b + c + d + e) else none
  | _ => none

/-- Five runs, the first and the last of which may be cut short by the ends of a window, could look like a finder
pattern of a size similar to `t`, in some enlargement. -/
def CouldConfirm (t a b c d e : Nat) : Prop :=
  ∃ s a' e', 0 < s ∧ a' ≤ s * a ∧ e' ≤ s * e ∧ FinderShaped a' (s * b) (s * c) (s * d) e' ∧
    Similar (s * t) (a' + s * b + s * c + s * d + e')

/-- Column `x`, within five modules of row `y`, a module being a seventh of `t`, has no run shorter than a tenth of
the one before, and nothing that could confirm a finder pattern of size `t` in any enlargement. -/
def NeverConfirmed (g : GrayImage) (x y t : Nat) : Prop :=
  ∀ i ≤ g.height, 0 < i → (i = g.height ∨ grey g x (i - 1) ≠ grey g x i) →
    (i < g.height → 7 * y < 7 * i + 5 * t → 7 * i < 7 * (y + 1) + 5 * t → Steady (runs (upFrom g x 0 i))) ∧
    match runs (upFrom g x 0 i) with
    | e :: d :: c :: b :: a :: _ =>
      7 * y + 7 * (e + d + c + b) < 7 * i + 5 * t → 7 * i < 7 * (y + 1) + 5 * t + 7 * e → ¬ CouldConfirm t a b c d e
    | _ => True

/-- Column `i` of row `y`: a colour change before it, or the end of the row. -/
def RunEnd (g : GrayImage) (i y : Nat) : Prop := i = g.width ∨ i < g.width ∧ changesAt g i y

/-- The middle column of a finder pattern of `t` modules that ends before column `x`. -/
def middleColumn (g : GrayImage) (x t : Nat) : Nat := if x = g.width then x - (t + 2) / 2 else x - (t + 1) / 2

/-- Apart from the finder patterns at `fs`, whatever has the proportions of a finder pattern in a row is not
confirmed by the column through its middle. -/
def NeverOthers (g : GrayImage) (fs : List (Nat × Nat)) : Prop :=
  ∀ y < g.height, ∀ x ≤ g.width, RunEnd g x y → ∀ t, shapeEnd (runs (leftOf g x y)) = some t →
    (∃ f ∈ fs, x = f.1 + 7 ∧ f.2 + 2 ≤ y ∧ y < f.2 + 5) ∨ NeverConfirmed g (middleColumn g x t) y t

/-- Whatever has the proportions of a finder pattern in a row is one of the finder patterns at `fs`, or not confirmed
by the column through its middle, or too far away from those that a scan has not yet come to. -/
def NeverOthersNear (g : GrayImage) (fs : List (Nat × Nat)) : Prop :=
  ∀ y < g.height, ∀ x ≤ g.width, RunEnd g x y → ∀ t, shapeEnd (runs (leftOf g x y)) = some t →
    (∃ f ∈ fs, x = f.1 + 7 ∧ f.2 + 2 ≤ y ∧ y < f.2 + 5) ∨ NeverConfirmed g (middleColumn g x t) y t ∨
    ∀ f ∈ fs, (y < f.2 + 2 ∨ y = f.2 + 2 ∧ x < f.1 + 7) →
      f.1 + 12 + t ≤ x ∨ x + 4 ≤ f.1 ∨ 6 * (y + 1) + 31 + 2 * t ≤ 6 * f.2

end Verif.Spec
