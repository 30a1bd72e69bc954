import Verif.Lemmas.Bitmap
import Verif.Lemmas.PlacedCheck
import Verif.Props.ScalesExamples

/-! # Two symbols in one image, at every size -/
namespace Verif.Props
open Verif Verif.Spec LineScan

/-- The rows of an image with a version 1-M symbol for "HELLO WORLD" above a version 1-L symbol for "Hello". -/
def twoRows : List (List Nat) := [
    [255, 255, 255, 255, 255, 255, 255, 255, 255, 255, 255, 255, 255, 255, 255, 255, 255, 255, 255, 255, 255, 255, 255, 255, 255],
    [255, 255, 255, 255, 255, 255, 255, 255, 255, 255, 255, 255, 255, 255, 255, 255, 255, 255, 255, 255, 255, 255, 255, 255, 255],
    [255, 255, 0, 0, 0, 0, 0, 0, 0, 255, 0, 0, 255, 255, 0, 255, 0, 0, 0, 0, 0, 0, 0, 255, 255],
    [255, 255, 0, 255, 255, 255, 255, 255, 0, 255, 0, 255, 0, 255, 255, 255, 0, 255, 255, 255, 255, 255, 0, 255, 255],
    [255, 255, 0, 255, 0, 0, 0, 255, 0, 255, 255, 255, 0, 255, 255, 255, 0, 255, 0, 0, 0, 255, 0, 255, 255],
    [255, 255, 0, 255, 0, 0, 0, 255, 0, 255, 0, 255, 0, 0, 255, 255, 0, 255, 0, 0, 0, 255, 0, 255, 255],
    [255, 255, 0, 255, 0, 0, 0, 255, 0, 255, 255, 255, 255, 255, 255, 255, 0, 255, 0, 0, 0, 255, 0, 255, 255],
    [255, 255, 0, 255, 255, 255, 255, 255, 0, 255, 255, 255, 255, 255, 255, 255, 0, 255, 255, 255, 255, 255, 0, 255, 255],
    [255, 255, 0, 0, 0, 0, 0, 0, 0, 255, 0, 255, 0, 255, 0, 255, 0, 0, 0, 0, 0, 0, 0, 255, 255],
    [255, 255, 255, 255, 255, 255, 255, 255, 255, 255, 0, 0, 255, 255, 255, 255, 255, 255, 255, 255, 255, 255, 255, 255, 255],
    [255, 255, 0, 255, 0, 0, 255, 0, 0, 0, 255, 0, 255, 255, 255, 255, 0, 255, 255, 0, 255, 0, 0, 255, 255],
    [255, 255, 0, 255, 0, 0, 0, 0, 255, 0, 0, 255, 255, 255, 0, 0, 255, 255, 0, 0, 0, 0, 0, 255, 255],
    [255, 255, 0, 255, 255, 0, 255, 255, 0, 0, 0, 0, 0, 255, 0, 255, 0, 255, 255, 255, 0, 255, 255, 255, 255],
    [255, 255, 0, 0, 0, 255, 0, 255, 255, 0, 0, 0, 0, 255, 0, 0, 255, 255, 0, 255, 0, 0, 255, 255, 255],
    [255, 255, 255, 0, 0, 0, 255, 0, 0, 0, 0, 255, 0, 0, 255, 255, 255, 255, 255, 255, 0, 255, 255, 255, 255],
    [255, 255, 255, 255, 255, 255, 255, 255, 255, 255, 0, 0, 0, 255, 255, 0, 255, 0, 255, 255, 0, 0, 255, 255, 255],
    [255, 255, 0, 0, 0, 0, 0, 0, 0, 255, 0, 255, 255, 255, 255, 0, 0, 0, 255, 0, 255, 0, 0, 255, 255],
    [255, 255, 0, 255, 255, 255, 255, 255, 0, 255, 0, 0, 0, 0, 0, 0, 0, 0, 255, 255, 0, 0, 255, 255, 255],
    [255, 255, 0, 255, 0, 0, 0, 255, 0, 255, 255, 0, 0, 0, 255, 255, 0, 0, 255, 255, 255, 0, 0, 255, 255],
    [255, 255, 0, 255, 0, 0, 0, 255, 0, 255, 0, 0, 255, 255, 255, 0, 255, 255, 0, 0, 255, 0, 255, 255, 255],
    [255, 255, 0, 255, 0, 0, 0, 255, 0, 255, 0, 255, 255, 0, 255, 0, 255, 255, 0, 0, 255, 255, 255, 255, 255],
    [255, 255, 0, 255, 255, 255, 255, 255, 0, 255, 255, 0, 255, 0, 0, 255, 0, 0, 255, 0, 255, 255, 255, 255, 255],
    [255, 255, 0, 0, 0, 0, 0, 0, 0, 255, 0, 0, 255, 0, 0, 255, 255, 0, 255, 255, 0, 0, 255, 255, 255],
    [255, 255, 255, 255, 255, 255, 255, 255, 255, 255, 255, 255, 255, 255, 255, 255, 255, 255, 255, 255, 255, 255, 255, 255, 255],
    [255, 255, 255, 255, 255, 255, 255, 255, 255, 255, 255, 255, 255, 255, 255, 255, 255, 255, 255, 255, 255, 255, 255, 255, 255],
    [255, 255, 255, 255, 255, 255, 255, 255, 255, 255, 255, 255, 255, 255, 255, 255, 255, 255, 255, 255, 255, 255, 255, 255, 255],
    [255, 255, 255, 255, 255, 255, 255, 255, 255, 255, 255, 255, 255, 255, 255, 255, 255, 255, 255, 255, 255, 255, 255, 255, 255],
    [255, 255, 255, 255, 255, 255, 255, 255, 255, 255, 255, 255, 255, 255, 255, 255, 255, 255, 255, 255, 255, 255, 255, 255, 255],
    [255, 255, 255, 255, 255, 255, 255, 255, 255, 255, 255, 255, 255, 255, 255, 255, 255, 255, 255, 255, 255, 255, 255, 255, 255],
    [255, 255, 0, 0, 0, 0, 0, 0, 0, 255, 0, 0, 0, 0, 0, 255, 0, 0, 0, 0, 0, 0, 0, 255, 255],
    [255, 255, 0, 255, 255, 255, 255, 255, 0, 255, 0, 255, 0, 255, 0, 255, 0, 255, 255, 255, 255, 255, 0, 255, 255],
    [255, 255, 0, 255, 0, 0, 0, 255, 0, 255, 0, 255, 255, 255, 255, 255, 0, 255, 0, 0, 0, 255, 0, 255, 255],
    [255, 255, 0, 255, 0, 0, 0, 255, 0, 255, 0, 0, 0, 0, 255, 255, 0, 255, 0, 0, 0, 255, 0, 255, 255],
    [255, 255, 0, 255, 0, 0, 0, 255, 0, 255, 255, 255, 255, 255, 0, 255, 0, 255, 0, 0, 0, 255, 0, 255, 255],
    [255, 255, 0, 255, 255, 255, 255, 255, 0, 255, 0, 0, 255, 0, 255, 255, 0, 255, 255, 255, 255, 255, 0, 255, 255],
    [255, 255, 0, 0, 0, 0, 0, 0, 0, 255, 0, 255, 0, 255, 0, 255, 0, 0, 0, 0, 0, 0, 0, 255, 255],
    [255, 255, 255, 255, 255, 255, 255, 255, 255, 255, 255, 0, 0, 0, 0, 255, 255, 255, 255, 255, 255, 255, 255, 255, 255],
    [255, 255, 0, 0, 255, 255, 0, 0, 0, 255, 255, 0, 255, 0, 255, 255, 255, 0, 255, 0, 0, 0, 0, 255, 255],
    [255, 255, 255, 0, 255, 0, 255, 0, 255, 255, 0, 255, 0, 0, 0, 255, 255, 0, 255, 0, 0, 0, 255, 255, 255],
    [255, 255, 0, 255, 255, 0, 0, 0, 0, 0, 0, 0, 255, 0, 255, 255, 0, 0, 0, 255, 255, 0, 255, 255, 255],
    [255, 255, 0, 0, 0, 0, 255, 0, 255, 0, 0, 255, 255, 255, 255, 0, 0, 255, 0, 255, 255, 255, 255, 255, 255],
    [255, 255, 0, 255, 0, 0, 0, 255, 0, 0, 0, 0, 255, 255, 0, 0, 0, 255, 255, 255, 255, 0, 255, 255, 255],
    [255, 255, 255, 255, 255, 255, 255, 255, 255, 255, 0, 0, 255, 255, 0, 0, 0, 255, 255, 0, 255, 0, 0, 255, 255],
    [255, 255, 0, 0, 0, 0, 0, 0, 0, 255, 255, 255, 255, 255, 0, 0, 255, 255, 255, 0, 255, 0, 255, 255, 255],
    [255, 255, 0, 255, 255, 255, 255, 255, 0, 255, 0, 0, 255, 0, 0, 255, 255, 0, 255, 255, 255, 0, 255, 255, 255],
    [255, 255, 0, 255, 0, 0, 0, 255, 0, 255, 0, 255, 0, 0, 255, 255, 0, 0, 0, 255, 255, 255, 0, 255, 255],
    [255, 255, 0, 255, 0, 0, 0, 255, 0, 255, 255, 255, 0, 0, 0, 255, 255, 255, 255, 0, 255, 0, 0, 255, 255],
    [255, 255, 0, 255, 0, 0, 0, 255, 0, 255, 255, 255, 0, 0, 255, 255, 0, 0, 0, 0, 255, 255, 255, 255, 255],
    [255, 255, 0, 255, 255, 255, 255, 255, 0, 255, 0, 255, 0, 255, 255, 0, 0, 255, 255, 255, 255, 255, 255, 255, 255],
    [255, 255, 0, 0, 0, 0, 0, 0, 0, 255, 0, 255, 0, 255, 0, 0, 0, 0, 0, 255, 255, 255, 0, 255, 255],
    [255, 255, 255, 255, 255, 255, 255, 255, 255, 255, 255, 255, 255, 255, 255, 255, 255, 255, 255, 255, 255, 255, 255, 255, 255],
    [255, 255, 255, 255, 255, 255, 255, 255, 255, 255, 255, 255, 255, 255, 255, 255, 255, 255, 255, 255, 255, 255, 255, 255, 255]]

/-- Its columns. -/
def twoCols : List (List Nat) := [
    [255, 255, 255, 255, 255, 255, 255, 255, 255, 255, 255, 255, 255, 255, 255, 255, 255, 255, 255, 255, 255, 255, 255, 255, 255, 255, 255, 255, 255, 255, 255, 255, 255, 255, 255, 255, 255, 255, 255, 255, 255, 255, 255, 255, 255, 255, 255, 255, 255, 255, 255, 255],
    [255, 255, 255, 255, 255, 255, 255, 255, 255, 255, 255, 255, 255, 255, 255, 255, 255, 255, 255, 255, 255, 255, 255, 255, 255, 255, 255, 255, 255, 255, 255, 255, 255, 255, 255, 255, 255, 255, 255, 255, 255, 255, 255, 255, 255, 255, 255, 255, 255, 255, 255, 255],
    [255, 255, 0, 0, 0, 0, 0, 0, 0, 255, 0, 0, 0, 0, 255, 255, 0, 0, 0, 0, 0, 0, 0, 255, 255, 255, 255, 255, 255, 0, 0, 0, 0, 0, 0, 0, 255, 0, 255, 0, 0, 0, 255, 0, 0, 0, 0, 0, 0, 0, 255, 255],
    [255, 255, 0, 255, 255, 255, 255, 255, 0, 255, 255, 255, 255, 0, 0, 255, 0, 255, 255, 255, 255, 255, 0, 255, 255, 255, 255, 255, 255, 0, 255, 255, 255, 255, 255, 0, 255, 0, 0, 255, 0, 255, 255, 0, 255, 255, 255, 255, 255, 0, 255, 255],
    [255, 255, 0, 255, 0, 0, 0, 255, 0, 255, 0, 0, 255, 0, 0, 255, 0, 255, 0, 0, 0, 255, 0, 255, 255, 255, 255, 255, 255, 0, 255, 0, 0, 0, 255, 0, 255, 255, 255, 255, 0, 0, 255, 0, 255, 0, 0, 0, 255, 0, 255, 255],
    [255, 255, 0, 255, 0, 0, 0, 255, 0, 255, 0, 0, 0, 255, 0, 255, 0, 255, 0, 0, 0, 255, 0, 255, 255, 255, 255, 255, 255, 0, 255, 0, 0, 0, 255, 0, 255, 255, 0, 0, 0, 0, 255, 0, 255, 0, 0, 0, 255, 0, 255, 255],
    [255, 255, 0, 255, 0, 0, 0, 255, 0, 255, 255, 0, 255, 0, 255, 255, 0, 255, 0, 0, 0, 255, 0, 255, 255, 255, 255, 255, 255, 0, 255, 0, 0, 0, 255, 0, 255, 0, 255, 0, 255, 0, 255, 0, 255, 0, 0, 0, 255, 0, 255, 255],
    [255, 255, 0, 255, 255, 255, 255, 255, 0, 255, 0, 0, 255, 255, 0, 255, 0, 255, 255, 255, 255, 255, 0, 255, 255, 255, 255, 255, 255, 0, 255, 255, 255, 255, 255, 0, 255, 0, 0, 0, 0, 255, 255, 0, 255, 255, 255, 255, 255, 0, 255, 255],
    [255, 255, 0, 0, 0, 0, 0, 0, 0, 255, 0, 255, 0, 255, 0, 255, 0, 0, 0, 0, 0, 0, 0, 255, 255, 255, 255, 255, 255, 0, 0, 0, 0, 0, 0, 0, 255, 0, 255, 0, 255, 0, 255, 0, 0, 0, 0, 0, 0, 0, 255, 255],
    [255, 255, 255, 255, 255, 255, 255, 255, 255, 255, 0, 0, 0, 0, 0, 255, 255, 255, 255, 255, 255, 255, 255, 255, 255, 255, 255, 255, 255, 255, 255, 255, 255, 255, 255, 255, 255, 255, 255, 0, 0, 0, 255, 255, 255, 255, 255, 255, 255, 255, 255, 255],
    [255, 255, 0, 0, 255, 0, 255, 255, 0, 0, 255, 0, 0, 0, 0, 0, 0, 0, 255, 0, 0, 255, 0, 255, 255, 255, 255, 255, 255, 0, 0, 0, 0, 255, 0, 0, 255, 255, 0, 0, 0, 0, 0, 255, 0, 0, 255, 255, 0, 0, 255, 255],
    [255, 255, 0, 255, 255, 255, 255, 255, 255, 0, 0, 255, 0, 0, 255, 0, 255, 0, 0, 0, 255, 0, 0, 255, 255, 255, 255, 255, 255, 0, 255, 255, 0, 255, 0, 255, 0, 0, 255, 0, 255, 0, 0, 255, 0, 255, 255, 255, 255, 255, 255, 255],
    [255, 255, 255, 0, 0, 0, 255, 255, 0, 255, 255, 255, 0, 0, 0, 0, 255, 0, 0, 255, 255, 255, 255, 255, 255, 255, 255, 255, 255, 0, 0, 255, 0, 255, 255, 0, 0, 255, 0, 255, 255, 255, 255, 255, 255, 0, 0, 0, 0, 0, 255, 255],
    [255, 255, 255, 255, 255, 0, 255, 255, 255, 255, 255, 255, 255, 255, 0, 255, 255, 0, 0, 255, 0, 0, 0, 255, 255, 255, 255, 255, 255, 0, 255, 255, 0, 255, 0, 255, 0, 0, 0, 0, 255, 255, 255, 255, 0, 0, 0, 0, 255, 255, 255, 255],
    [255, 255, 0, 255, 255, 255, 255, 255, 0, 255, 255, 0, 0, 0, 255, 255, 255, 0, 255, 255, 255, 0, 0, 255, 255, 255, 255, 255, 255, 0, 0, 255, 255, 0, 255, 0, 0, 255, 0, 255, 255, 0, 0, 0, 0, 255, 0, 255, 255, 0, 255, 255],
    [255, 255, 255, 255, 255, 255, 255, 255, 255, 255, 255, 0, 255, 0, 255, 0, 0, 0, 255, 0, 0, 255, 255, 255, 255, 255, 255, 255, 255, 255, 255, 255, 255, 255, 255, 255, 255, 255, 255, 255, 0, 0, 0, 0, 255, 255, 255, 255, 0, 0, 255, 255],
    [255, 255, 0, 0, 0, 0, 0, 0, 0, 255, 0, 255, 0, 255, 255, 255, 0, 0, 0, 255, 255, 0, 255, 255, 255, 255, 255, 255, 255, 0, 0, 0, 0, 0, 0, 0, 255, 255, 255, 0, 0, 0, 0, 255, 255, 0, 255, 0, 0, 0, 255, 255],
    [255, 255, 0, 255, 255, 255, 255, 255, 0, 255, 255, 255, 255, 255, 255, 0, 0, 0, 0, 255, 255, 0, 0, 255, 255, 255, 255, 255, 255, 0, 255, 255, 255, 255, 255, 0, 255, 0, 0, 0, 255, 255, 255, 255, 0, 0, 255, 0, 255, 0, 255, 255],
    [255, 255, 0, 255, 0, 0, 0, 255, 0, 255, 255, 0, 255, 0, 255, 255, 255, 255, 255, 0, 0, 255, 255, 255, 255, 255, 255, 255, 255, 0, 255, 0, 0, 0, 255, 0, 255, 255, 255, 0, 0, 255, 255, 255, 255, 0, 255, 0, 255, 0, 255, 255],
    [255, 255, 0, 255, 0, 0, 0, 255, 0, 255, 0, 0, 255, 255, 255, 255, 0, 255, 255, 0, 0, 0, 255, 255, 255, 255, 255, 255, 255, 0, 255, 0, 0, 0, 255, 0, 255, 0, 0, 255, 255, 255, 0, 0, 255, 255, 0, 0, 255, 255, 255, 255],
    [255, 255, 0, 255, 0, 0, 0, 255, 0, 255, 255, 0, 0, 0, 0, 0, 255, 0, 255, 255, 255, 255, 0, 255, 255, 255, 255, 255, 255, 0, 255, 0, 0, 0, 255, 0, 255, 0, 0, 255, 255, 255, 255, 255, 255, 255, 255, 255, 255, 255, 255, 255],
    [255, 255, 0, 255, 255, 255, 255, 255, 0, 255, 0, 0, 255, 0, 255, 0, 0, 0, 0, 0, 255, 255, 0, 255, 255, 255, 255, 255, 255, 0, 255, 255, 255, 255, 255, 0, 255, 0, 0, 0, 255, 0, 0, 0, 0, 255, 0, 255, 255, 255, 255, 255],
    [255, 255, 0, 0, 0, 0, 0, 0, 0, 255, 0, 0, 255, 255, 255, 255, 0, 255, 0, 255, 255, 255, 255, 255, 255, 255, 255, 255, 255, 0, 0, 0, 0, 0, 0, 0, 255, 0, 255, 255, 255, 255, 0, 255, 255, 0, 0, 255, 255, 0, 255, 255],
    [255, 255, 255, 255, 255, 255, 255, 255, 255, 255, 255, 255, 255, 255, 255, 255, 255, 255, 255, 255, 255, 255, 255, 255, 255, 255, 255, 255, 255, 255, 255, 255, 255, 255, 255, 255, 255, 255, 255, 255, 255, 255, 255, 255, 255, 255, 255, 255, 255, 255, 255, 255],
    [255, 255, 255, 255, 255, 255, 255, 255, 255, 255, 255, 255, 255, 255, 255, 255, 255, 255, 255, 255, 255, 255, 255, 255, 255, 255, 255, 255, 255, 255, 255, 255, 255, 255, 255, 255, 255, 255, 255, 255, 255, 255, 255, 255, 255, 255, 255, 255, 255, 255, 255, 255]]

/-- The image. -/
def twoSmall : GrayImage where
  width := 25
  height := 52
  pixels := twoRows.flatten.map (BitVec.ofNat 8)

/-- The image as a number. -/
def twoBits : Nat :=
  0xFFFFFFFFFFFFF705407FE6AFBF86745E5E3A2F719517DD92FBEB9F01E58CFFFBC6117FA7943EC680DF162D5F0BAC67FF87FFC05501EFB4BEF457D17A2C28BD17D45EFAABEF010407FFFFFFFFFFFFFFFFFFFFFFFFFFFFFFFFFFFFFF36480FE92DF7F35A8BE9B945E731A2F9805F7947A03E6B1FFFBF211F964347EEA0DBC19C85E5BD12FFFE7FF80AA03DF7F7DE8BFA2F459517A2EE8BDF757DE02C80FFFFFFFFFFFFF

/-- The modules of the lower symbol. -/
def lowerModules : QRData where
  data := [0, 0, 0, 0, 0, 0, 0, 255, 0, 0, 0, 0, 0, 255, 0, 0, 0, 0, 0, 0, 0,
    0, 255, 255, 255, 255, 255, 0, 255, 0, 255, 0, 255, 0, 255, 0, 255, 255, 255, 255, 255, 0,
    0, 255, 0, 0, 0, 255, 0, 255, 0, 255, 255, 255, 255, 255, 0, 255, 0, 0, 0, 255, 0,
    0, 255, 0, 0, 0, 255, 0, 255, 0, 0, 0, 0, 255, 255, 0, 255, 0, 0, 0, 255, 0,
    0, 255, 0, 0, 0, 255, 0, 255, 255, 255, 255, 255, 0, 255, 0, 255, 0, 0, 0, 255, 0,
    0, 255, 255, 255, 255, 255, 0, 255, 0, 0, 255, 0, 255, 255, 0, 255, 255, 255, 255, 255, 0,
    0, 0, 0, 0, 0, 0, 0, 255, 0, 255, 0, 255, 0, 255, 0, 0, 0, 0, 0, 0, 0,
    255, 255, 255, 255, 255, 255, 255, 255, 255, 0, 0, 0, 0, 255, 255, 255, 255, 255, 255, 255, 255,
    0, 0, 255, 255, 0, 0, 0, 255, 255, 0, 255, 0, 255, 255, 255, 0, 255, 0, 0, 0, 0,
    255, 0, 255, 0, 255, 0, 255, 255, 0, 255, 0, 0, 0, 255, 255, 0, 255, 0, 0, 0, 255,
    0, 255, 255, 0, 0, 0, 0, 0, 0, 0, 255, 0, 255, 255, 0, 0, 0, 255, 255, 0, 255,
    0, 0, 0, 0, 255, 0, 255, 0, 0, 255, 255, 255, 255, 0, 0, 255, 0, 255, 255, 255, 255,
    0, 255, 0, 0, 0, 255, 0, 0, 0, 0, 255, 255, 0, 0, 0, 255, 255, 255, 255, 0, 255,
    255, 255, 255, 255, 255, 255, 255, 255, 0, 0, 255, 255, 0, 0, 0, 255, 255, 0, 255, 0, 0,
    0, 0, 0, 0, 0, 0, 0, 255, 255, 255, 255, 255, 0, 0, 255, 255, 255, 0, 255, 0, 255,
    0, 255, 255, 255, 255, 255, 0, 255, 0, 0, 255, 0, 0, 255, 255, 0, 255, 255, 255, 0, 255,
    0, 255, 0, 0, 0, 255, 0, 255, 0, 255, 0, 0, 255, 255, 0, 0, 0, 255, 255, 255, 0,
    0, 255, 0, 0, 0, 255, 0, 255, 255, 255, 0, 0, 0, 255, 255, 255, 255, 0, 255, 0, 0,
    0, 255, 0, 0, 0, 255, 0, 255, 255, 255, 0, 0, 255, 255, 0, 0, 0, 0, 255, 255, 255,
    0, 255, 255, 255, 255, 255, 0, 255, 0, 255, 0, 255, 255, 0, 0, 255, 255, 255, 255, 255, 255,
    0, 0, 0, 0, 0, 0, 0, 255, 0, 255, 0, 255, 0, 0, 0, 0, 0, 255, 255, 255, 0]
  version := 1
  side := 21

/-- The modules as a number. -/
def lowerBits : Nat :=
  0x11F57F032A08F3177438BB1CD5D44DA0A8C1FF4E600873DD0B0D7A72FE5D3A55E8A7300F007F55FE096837505DBA7AEDD05760AA83FDF7F

theorem lowerModules_bits : Bitmap lowerModules lowerBits := by unfold Bitmap; decide +kernel

/-- "Hello", in byte mode. -/
def lowerSegments : List Segment := [.byte [0x48, 0x65, 0x6C, 0x6C, 0x6F]]

theorem lowerSegments_text : SegmentsText lowerSegments "Hello".toList := .cons (.latin1 _ (by decide)) .nil

/-- The finder patterns, in scan order. -/
def twoFinders : List (Nat × Nat) := symbolFinders 1 1 2 2 ++ symbolFinders 1 1 2 29

theorem twoSmall_rows : RowsOf twoSmall twoRows twoCols :=
  rowsOf_of rfl (by decide +kernel) (pixels_toNat (by decide +kernel)) (by decide +kernel)

theorem twoSmall_valid : twoSmall.Valid := ⟨by decide +kernel, by decide, by decide⟩

theorem twoSmall_bits : rowsBits twoBits 25 twoRows 0 = true := by decide +kernel

theorem twoSmall_steady : ∀ y < twoSmall.height, SteadyRow twoSmall twoSmall.width y :=
  steadyRow_of twoSmall_rows (by decide +kernel)

theorem twoSmall_others : NeverOthersNear twoSmall twoFinders :=
  neverOthersNear_of twoSmall_rows (by decide +kernel)

theorem lower_blocks : (List.range (numBlocks 1 .low)).map (blockData 1 .low) = [19] := by
  have hb : blockData 1 .low 0 = (specRow 1 .low 0).2 := by rw [specRow_eq 1 (by decide) (by decide)]
  rw [show numBlocks 1 .low = 1 by decide, show List.range 1 = [0] from rfl, List.map_cons, List.map_nil, hb]
  decide +kernel

theorem lower_family : symbolFamily 1 .low lowerSegments = [(helloBlock.take 19, helloBlock.drop 19)] := by
  have hd : dataCodewords 1 .low lowerSegments = helloBlock.take 19 := by
    unfold dataCodewords dataCapacity
    rw [lower_blocks]
    decide +kernel
  have hec : ecCodewords (eccPerBlock 1 .low) (helloBlock.take 19) = helloBlock.drop 19 :=
    ecCodewords_unique (by decide) (by decide) (by rw [List.take_append_drop]; exact helloBlock_codeword)
  unfold symbolFamily
  rw [lower_blocks, hd]
  simp only [splitLens, List.map_cons, List.map_nil, List.take_take]
  rw [show min 19 19 = 19 by decide, hec]

theorem lowerModules_eq : encode 1 .low 4 lowerSegments (functionPatterns 1) = lowerModules :=
  encode_eq_of lower_family (by decide +kernel) rfl rfl lowerModules_bits

theorem lowerModules_isSymbol : IsSymbol lowerModules 1 .low 4 lowerSegments := by
  rw [← lowerModules_eq]
  refine encode_isSymbol 1 (by decide) (by decide) .low 4 lowerSegments ?_ _
  unfold dataCapacity
  rw [lower_blocks]
  decide +kernel

theorem twoSmall_lower : Drawn twoSmall lowerModules 1 2 29 :=
  drawn_of_bits twoSmall_valid twoSmall_rows twoSmall_bits lowerModules_bits (by decide) (by decide) (by decide +kernel)

theorem twoSmall_upper : Drawn twoSmall helloModules 1 2 2 :=
  drawn_of_bits twoSmall_valid twoSmall_rows twoSmall_bits helloModules_bits (by decide) (by decide) (by decide +kernel)

theorem twoSmall_near : ∀ f ∈ twoFinders, f.1 + 7 < 25 ∧ f.2 + 7 < 52 ∧ ∀ x < 25, ∀ y < 52,
    ¬ (f.1 ≤ x + 1 ∧ x < f.1 + 8 ∧ f.2 ≤ y + 1 ∧ y < f.2 + 8) ∨
      (twoRows.getD y []).getD x 0 = if f.1 ≤ x ∧ f.2 ≤ y ∧ finderModule (x - f.1) (y - f.2) then 0 else 255 := by
  decide +kernel

theorem twoSmall_finders : ∀ f ∈ twoFinders, CleanFinder twoSmall 1 f.1 f.2 := by
  intro f hf
  obtain ⟨h1, h2, h3⟩ := twoSmall_near f hf
  refine ⟨h1, h2, ?_⟩
  intro x hx y hy a1 a2 a3 a4
  rw [twoSmall_rows.2.2.2.2.1 x hx y hy, Nat.div_one, Nat.div_one]
  exact (h3 x hx y hy).resolve_left fun hn => hn ⟨a1, a2, a3, a4⟩

theorem twoSmall_end : WhiteEnd twoSmall := by
  have : ∀ x < 25, ∀ y < 52, 25 ≤ x + 2 ∨ 52 ≤ y + 2 → (twoRows.getD y []).getD x 0 = 255 := by decide +kernel
  refine ⟨by decide, by decide, ?_⟩
  intro x hx y hy h
  rw [twoSmall_rows.2.2.2.2.1 x hx y hy]
  exact this x hx y hy h

theorem twoSmall_legible (m : Nat) (hm : 2 ≤ m) : Legible twoSmall m :=
  legible_of_bits twoSmall_rows twoSmall_end twoSmall_bits (by decide +kernel) (by decide +kernel) m hm

theorem twoFinders_order : twoFinders.Pairwise (ScanOrder 1) := by
  unfold twoFinders symbolFinders ScanOrder
  decide

/-- Every crisp image of the two symbols that fits: whenever decoding returns, both texts are among the results. -/
theorem two_at_every_size (m : Nat) (hm : 2 ≤ m) (hsize : 52 * m ≤ 2 ^ 18) (src : GrayImage) (hsrc : src.Valid)
    (hc : CrispEnlargement src twoSmall m) :
    ∃ d : Decoder Unit GrayImage GrayImage QRLocation QRData (List Char), defaultDecoder id = .ret d ∧
      ∀ s rs s', d.decode src s = .ret (rs, s') → .ok "HELLO WORLD".toList ∈ rs ∧ .ok "Hello".toList ∈ rs := by
  have hw : twoSmall.width * m ≤ 2 ^ 18 := by show 25 * m ≤ _; omega
  have hh : twoSmall.height * m ≤ 2 ^ 18 := hsize
  have hpx : twoSmall.width * m * (twoSmall.height * m) ≤ 2 ^ 36 := by
    calc _ ≤ 2 ^ 18 * 2 ^ 18 := Nat.mul_le_mul hw hh
      _ = _ := by norm_num
  have hg := twoSmall_valid
  have hst : ∀ f ∈ twoFinders, ∀ y ≤ f.2 + 2, SteadyRow twoSmall twoSmall.width y := by
    intro f hf y hy
    have := (twoSmall_finders f hf).2.1
    exact twoSmall_steady y (by omega)
  obtain ⟨d1, e1, k1⟩ := (default_decoder_finds_enlarged (σ := Unit) id src hsrc twoSmall hg m (twoSmall_legible m hm) hc hpx
    (by omega) (by omega) twoFinders twoSmall_finders twoFinders_order hst twoSmall_others helloModules 1 (by decide)
    (by decide) .medium 3 (by decide) helloSegments (by unfold Segment.fits; decide) _ helloSegments_text
    helloModules_isSymbol (by omega) 2 2 twoSmall_upper (List.sublist_append_left _ _)).1
  obtain ⟨d2, e2, k2⟩ := (default_decoder_finds_enlarged (σ := Unit) id src hsrc twoSmall hg m (twoSmall_legible m hm) hc hpx
    (by omega) (by omega) twoFinders twoSmall_finders twoFinders_order hst twoSmall_others lowerModules 1 (by decide)
    (by decide) .low 4 (by decide) lowerSegments (by unfold Segment.fits; decide) _ lowerSegments_text
    lowerModules_isSymbol (by omega) 2 29 twoSmall_lower (List.sublist_append_right _ _)).1
  rw [e1] at e2
  have := Run.ret.inj e2
  subst this
  exact ⟨d1, e1, fun s rs s' h => ⟨k1 s rs s' h, k2 s rs s' h⟩⟩

end Verif.Props
