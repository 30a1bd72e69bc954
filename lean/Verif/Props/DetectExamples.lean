import Verif.Props.Detect

/-!
# Examples for C48-C50: detection is evaluated by the kernel on small images
-/
namespace Verif.Props
open Verif Verif.Spec LineScan

/-- Is this module of a 7 by 7 finder pattern dark? -/
def finderDark (x y : Nat) : Bool :=
  x == 0 || x == 6 || y == 0 || y == 6 || (2 ≤ x && x ≤ 4 && 2 ≤ y && y ≤ 4)

/-- A white image with finder patterns at the given places, drawn with `s` by `s` pixels per module. -/
def finderImage (w h s : Nat) (corners : List (Nat × Nat)) : GrayImage :=
  ⟨w, h, (List.range (w * h)).map fun i =>
    let x := i % w
    let y := i / w
    if corners.any fun c => c.1 ≤ x && c.2 ≤ y && x < c.1 + 7 * s && y < c.2 + 7 * s &&
        finderDark ((x - c.1) / s) ((y - c.2) / s) then 0#8 else 255#8⟩

theorem finderImage_valid {w h s : Nat} {corners : List (Nat × Nat)} (hw : w < 2 ^ 32) (hh : h < 2 ^ 32) :
    (finderImage w h s corners).Valid := by
  refine ⟨?_, hw, hh⟩
  simp [finderImage]

/-- Three finder patterns, slightly rotated, one pixel per module. -/
def tinyImage : GrayImage := finderImage 22 22 1 [(2, 2), (14, 3), (3, 14)]

/-- Where they are found. -/
def tinyLocation : QRLocation :=
  ⟨⟨.fin (11 / 2), .fin 6⟩, ⟨.fin (35 / 2), .fin 7⟩, ⟨.fin (13 / 2), .fin 18⟩, .fin 1, 1⟩

set_option maxRecDepth 100000 in
theorem tiny_detected : detect tinyImage = .ret [tinyLocation] := by decide +kernel

/-- C48 and C49 apply to it and say something: there is a location. -/
example : ProperlyLocated tinyImage tinyLocation :=
  detected_locations_are_proper tinyImage (finderImage_valid (by norm_num) (by norm_num)) (by decide)
    [tinyLocation] tiny_detected tinyLocation (by simp)

example : detect tinyImage ≠ .panic :=
  detect_never_panics tinyImage (finderImage_valid (by norm_num) (by norm_num)) (by decide)

/-- C50: vertical stripes with three changes in every row. -/
def stripes : GrayImage := ⟨8, 3, (List.range 24).map fun i => if (i % 8) / 2 % 2 = 0 then 0#8 else 255#8⟩

example : (∀ y < stripes.height, colourChanges stripes y = 3) ∧ detect stripes = .ret [] := by
  have h : ∀ y < stripes.height, colourChanges stripes y = 3 := by decide
  exact ⟨h, few_changes_no_detection stripes ⟨by decide, by decide, by decide⟩ fun y hy => le_of_eq (h y hy)⟩

end Verif.Props
