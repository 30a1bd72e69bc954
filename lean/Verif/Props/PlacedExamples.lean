import Verif.Lemmas.PlacedCheck
import Verif.Lemmas.Bitmap
import Verif.Props.Placed

/-! # "LEANING", read in perspective -/
namespace Verif.Props
open Verif Verif.Spec LineScan

/-- A version 2-Q symbol with mask 1 for "LEANING", with modules of two pixels. The alignment pattern is one module
to the right of its place, and the other modules follow it. -/
def leaningRows : List (List Nat) := [
    [255, 255, 255, 255, 255, 255, 255, 255, 255, 255, 255, 255, 255, 255, 255, 255, 255, 255, 255, 255, 255, 255, 255,
      255, 255, 255, 255, 255, 255, 255, 255, 255, 255, 255, 255, 255, 255, 255, 255, 255, 255, 255, 255, 255, 255, 255,
      255, 255, 255, 255, 255, 255, 255, 255, 255, 255, 255, 255],
    [255, 255, 255, 255, 255, 255, 255, 255, 255, 255, 255, 255, 255, 255, 255, 255, 255, 255, 255, 255, 255, 255, 255,
      255, 255, 255, 255, 255, 255, 255, 255, 255, 255, 255, 255, 255, 255, 255, 255, 255, 255, 255, 255, 255, 255, 255,
      255, 255, 255, 255, 255, 255, 255, 255, 255, 255, 255, 255],
    [255, 255, 255, 255, 255, 255, 255, 255, 255, 255, 255, 255, 255, 255, 255, 255, 255, 255, 255, 255, 255, 255, 255,
      255, 255, 255, 255, 255, 255, 255, 255, 255, 255, 255, 255, 255, 255, 255, 255, 255, 255, 255, 255, 255, 255, 255,
      255, 255, 255, 255, 255, 255, 255, 255, 255, 255, 255, 255],
    [255, 255, 255, 255, 255, 255, 255, 255, 255, 255, 255, 255, 255, 255, 255, 255, 255, 255, 255, 255, 255, 255, 255,
      255, 0, 255, 255, 255, 0, 255, 255, 255, 255, 255, 0, 255, 0, 255, 255, 255, 255, 255, 255, 255, 255, 255, 255,
      255, 255, 255, 255, 255, 255, 255, 255, 255, 255, 255],
    [255, 255, 255, 255, 0, 0, 0, 0, 0, 0, 0, 0, 0, 0, 0, 0, 0, 0, 255, 255, 255, 255, 0, 0, 0, 0, 255, 255, 0, 0, 255,
      255, 255, 255, 0, 0, 0, 0, 255, 255, 0, 0, 0, 0, 0, 0, 0, 0, 0, 0, 0, 0, 0, 0, 255, 255, 255, 255],
    [255, 255, 255, 255, 0, 0, 0, 0, 0, 0, 0, 0, 0, 0, 0, 0, 0, 0, 255, 255, 255, 255, 0, 0, 0, 0, 255, 255, 0, 0, 255,
      255, 255, 255, 0, 0, 0, 0, 255, 255, 0, 0, 0, 0, 0, 0, 0, 0, 0, 0, 0, 0, 0, 0, 255, 255, 255, 255],
    [255, 255, 255, 255, 0, 0, 255, 255, 255, 255, 255, 255, 255, 255, 255, 255, 0, 0, 255, 255, 255, 255, 255, 255, 0,
      0, 255, 255, 0, 0, 0, 0, 0, 0, 255, 255, 0, 0, 255, 255, 0, 0, 255, 255, 255, 255, 255, 255, 255, 255, 255, 255, 0,
      0, 255, 255, 255, 255],
    [255, 255, 255, 255, 0, 0, 255, 255, 255, 255, 255, 255, 255, 255, 255, 255, 0, 0, 255, 255, 255, 255, 255, 255, 0,
      0, 255, 255, 0, 0, 0, 0, 0, 0, 255, 255, 0, 0, 255, 255, 0, 0, 255, 255, 255, 255, 255, 255, 255, 255, 255, 255, 0,
      0, 255, 255, 255, 255],
    [255, 255, 255, 255, 0, 0, 255, 255, 0, 0, 0, 0, 0, 0, 255, 255, 0, 0, 255, 255, 255, 255, 0, 0, 255, 255, 0, 0,
      255, 255, 255, 255, 0, 0, 0, 0, 0, 0, 255, 255, 0, 0, 255, 255, 0, 0, 0, 0, 0, 0, 255, 255, 0, 0, 255, 255, 255,
      255],
    [255, 255, 255, 255, 0, 0, 255, 255, 0, 0, 0, 0, 0, 0, 255, 255, 0, 0, 255, 255, 255, 255, 0, 0, 255, 255, 0, 0,
      255, 255, 255, 255, 0, 0, 0, 0, 0, 0, 255, 255, 0, 0, 255, 255, 0, 0, 0, 0, 0, 0, 255, 255, 0, 0, 255, 255, 255,
      255],
    [255, 255, 255, 255, 0, 0, 255, 255, 0, 0, 0, 0, 0, 0, 255, 255, 0, 0, 255, 255, 0, 0, 255, 255, 0, 0, 0, 0, 0, 0,
      255, 255, 0, 0, 255, 255, 255, 255, 255, 255, 0, 0, 255, 255, 0, 0, 0, 0, 0, 0, 255, 255, 0, 0, 255, 255, 255, 255],
    [255, 255, 255, 255, 0, 0, 255, 255, 0, 0, 0, 0, 0, 0, 255, 255, 0, 0, 255, 255, 0, 0, 255, 255, 0, 0, 0, 0, 0, 0,
      255, 255, 0, 0, 255, 255, 255, 255, 255, 255, 0, 0, 255, 255, 0, 0, 0, 0, 0, 0, 255, 255, 0, 0, 255, 255, 255, 255],
    [255, 255, 255, 255, 0, 0, 255, 255, 0, 0, 0, 0, 0, 0, 255, 255, 0, 0, 255, 255, 255, 255, 0, 0, 0, 0, 0, 0, 255,
      255, 0, 0, 0, 0, 0, 0, 255, 255, 255, 255, 0, 0, 255, 255, 0, 0, 0, 0, 0, 0, 255, 255, 0, 0, 255, 255, 255, 255],
    [255, 255, 255, 255, 0, 0, 255, 255, 0, 0, 0, 0, 0, 0, 255, 255, 0, 0, 255, 255, 255, 255, 0, 0, 0, 0, 0, 0, 255,
      255, 0, 0, 0, 0, 0, 0, 255, 255, 255, 255, 0, 0, 255, 255, 0, 0, 0, 0, 0, 0, 255, 255, 0, 0, 255, 255, 255, 255],
    [255, 255, 255, 255, 0, 0, 255, 255, 255, 255, 255, 255, 255, 255, 255, 255, 0, 0, 255, 255, 0, 0, 0, 0, 255, 255,
      0, 0, 0, 0, 255, 255, 255, 255, 0, 0, 255, 255, 255, 255, 0, 0, 255, 255, 255, 255, 255, 255, 255, 255, 255, 255,
      0, 0, 255, 255, 255, 255],
    [255, 255, 255, 255, 0, 0, 255, 255, 255, 255, 255, 255, 255, 255, 255, 255, 0, 0, 255, 255, 0, 0, 0, 0, 255, 255,
      0, 0, 0, 0, 255, 255, 255, 255, 0, 0, 255, 255, 255, 255, 0, 0, 255, 255, 255, 255, 255, 255, 255, 255, 255, 255,
      0, 0, 255, 255, 255, 255],
    [255, 255, 255, 255, 0, 0, 0, 0, 0, 0, 0, 0, 0, 0, 0, 0, 0, 0, 255, 255, 0, 0, 255, 255, 0, 0, 255, 255, 0, 0, 255,
      255, 0, 0, 255, 255, 0, 0, 255, 255, 0, 0, 0, 0, 0, 0, 0, 0, 0, 0, 0, 0, 0, 0, 255, 255, 255, 255],
    [255, 255, 255, 255, 0, 0, 0, 0, 0, 0, 0, 0, 0, 0, 0, 0, 0, 0, 255, 255, 0, 0, 255, 255, 0, 0, 255, 255, 0, 0, 255,
      255, 0, 0, 255, 255, 0, 0, 255, 255, 0, 0, 0, 0, 0, 0, 0, 0, 0, 0, 0, 0, 0, 0, 255, 255, 255, 255],
    [255, 255, 255, 255, 255, 255, 255, 255, 255, 255, 255, 255, 255, 255, 255, 255, 255, 255, 255, 255, 0, 0, 0, 0, 0,
      0, 255, 255, 255, 255, 255, 255, 0, 0, 0, 0, 0, 0, 255, 255, 255, 255, 255, 255, 255, 255, 255, 255, 255, 255, 255,
      255, 255, 255, 255, 255, 255, 255],
    [255, 255, 255, 255, 255, 255, 255, 255, 255, 255, 255, 255, 255, 255, 255, 255, 255, 255, 255, 255, 0, 0, 0, 0, 0,
      0, 255, 255, 255, 255, 255, 255, 0, 0, 0, 0, 0, 0, 255, 255, 255, 255, 255, 255, 255, 255, 255, 255, 255, 255, 255,
      255, 255, 255, 255, 255, 255, 255],
    [255, 255, 255, 255, 255, 255, 0, 0, 0, 0, 255, 255, 255, 255, 255, 255, 0, 0, 255, 255, 255, 255, 255, 255, 255,
      255, 0, 0, 0, 0, 0, 0, 0, 0, 255, 255, 255, 255, 255, 255, 0, 0, 0, 0, 0, 255, 255, 0, 0, 255, 255, 255, 255, 255,
      255, 255, 255, 255],
    [255, 255, 255, 255, 255, 255, 0, 0, 0, 0, 255, 255, 255, 255, 255, 255, 0, 0, 255, 255, 255, 255, 255, 255, 255,
      255, 0, 0, 0, 0, 0, 0, 0, 0, 255, 255, 255, 255, 255, 255, 0, 0, 0, 0, 0, 255, 255, 0, 0, 255, 255, 255, 255, 255,
      255, 255, 255, 255],
    [255, 255, 255, 0, 0, 0, 0, 0, 255, 255, 0, 0, 255, 255, 0, 0, 255, 255, 0, 0, 0, 0, 0, 0, 255, 255, 255, 255, 0,
      0, 0, 0, 0, 0, 255, 255, 255, 255, 255, 0, 0, 255, 255, 255, 255, 255, 255, 255, 255, 255, 255, 0, 0, 0, 0, 255,
      255, 255],
    [255, 255, 255, 0, 0, 0, 0, 0, 255, 255, 0, 0, 255, 255, 0, 0, 255, 255, 0, 0, 0, 0, 0, 0, 255, 255, 255, 255, 0,
      0, 0, 0, 0, 0, 255, 255, 255, 255, 255, 0, 0, 255, 255, 255, 255, 255, 255, 255, 255, 255, 255, 0, 0, 0, 0, 255,
      255, 255],
    [255, 255, 255, 0, 0, 0, 255, 255, 255, 255, 255, 255, 255, 255, 0, 0, 0, 0, 0, 0, 0, 0, 0, 0, 0, 0, 0, 0, 0, 0,
      255, 255, 255, 255, 255, 0, 0, 255, 255, 255, 255, 255, 255, 255, 255, 0, 0, 0, 0, 255, 255, 0, 0, 255, 255, 255,
      255, 255],
    [255, 255, 255, 0, 0, 0, 255, 255, 255, 255, 255, 255, 255, 255, 0, 0, 0, 0, 0, 0, 0, 0, 0, 0, 0, 0, 0, 0, 0, 0,
      255, 255, 255, 255, 255, 0, 0, 255, 255, 255, 255, 255, 255, 255, 255, 0, 0, 0, 0, 255, 255, 0, 0, 255, 255, 255,
      255, 255],
    [255, 255, 255, 0, 0, 0, 0, 0, 255, 255, 0, 0, 255, 255, 255, 255, 255, 255, 255, 255, 0, 0, 0, 0, 0, 0, 0, 0, 0,
      0, 0, 0, 0, 255, 255, 255, 255, 255, 255, 255, 255, 0, 0, 255, 255, 255, 255, 0, 0, 0, 0, 0, 0, 0, 0, 255, 255,
      255],
    [255, 255, 255, 0, 0, 0, 0, 0, 255, 255, 0, 0, 255, 255, 255, 255, 255, 255, 255, 255, 0, 0, 0, 0, 0, 0, 0, 0, 0,
      0, 0, 0, 0, 255, 255, 255, 255, 255, 255, 255, 255, 0, 0, 255, 255, 255, 255, 0, 0, 0, 0, 0, 0, 0, 0, 0, 255, 255],
    [255, 255, 255, 0, 0, 0, 0, 0, 0, 0, 255, 255, 255, 255, 255, 255, 0, 0, 0, 0, 255, 255, 0, 0, 255, 255, 0, 0, 0,
      255, 255, 0, 0, 255, 255, 0, 0, 0, 0, 255, 255, 255, 255, 0, 0, 0, 0, 255, 255, 0, 0, 0, 0, 0, 0, 255, 255, 255],
    [255, 255, 255, 0, 0, 0, 0, 0, 0, 0, 255, 255, 255, 255, 255, 255, 0, 0, 0, 0, 255, 255, 0, 0, 255, 255, 0, 0, 0,
      255, 255, 0, 0, 255, 255, 0, 0, 0, 0, 255, 255, 255, 255, 0, 0, 0, 0, 255, 255, 0, 0, 0, 0, 0, 0, 0, 255, 255],
    [255, 255, 255, 255, 255, 255, 255, 255, 255, 255, 255, 255, 0, 0, 255, 255, 255, 255, 0, 0, 255, 255, 0, 0, 255,
      255, 255, 255, 255, 255, 255, 255, 255, 255, 255, 255, 255, 0, 0, 255, 255, 255, 255, 0, 0, 0, 0, 255, 255, 255,
      255, 0, 0, 0, 0, 0, 255, 255],
    [255, 255, 255, 255, 255, 255, 255, 255, 255, 255, 255, 255, 0, 0, 255, 255, 255, 255, 0, 0, 255, 255, 0, 0, 255,
      255, 255, 255, 255, 255, 255, 255, 255, 255, 255, 255, 255, 0, 0, 255, 255, 255, 255, 0, 0, 0, 0, 255, 255, 255,
      255, 0, 0, 0, 0, 0, 255, 255],
    [255, 255, 255, 0, 0, 0, 0, 0, 255, 255, 255, 255, 255, 255, 0, 0, 0, 0, 255, 255, 255, 255, 0, 0, 0, 0, 0, 255,
      255, 0, 0, 0, 0, 255, 255, 255, 255, 0, 0, 0, 0, 0, 0, 0, 0, 255, 255, 0, 0, 0, 0, 0, 255, 0, 255, 255, 255, 255],
    [255, 255, 255, 0, 0, 0, 0, 0, 255, 255, 255, 255, 255, 255, 0, 0, 0, 0, 255, 255, 255, 255, 0, 0, 0, 0, 0, 255,
      255, 0, 0, 0, 0, 255, 255, 255, 255, 0, 0, 0, 0, 0, 0, 0, 0, 255, 255, 0, 0, 0, 0, 255, 255, 255, 255, 255, 255,
      255],
    [255, 255, 255, 255, 255, 255, 255, 255, 0, 0, 0, 0, 0, 0, 0, 0, 255, 255, 255, 255, 0, 0, 255, 255, 255, 0, 0, 0,
      0, 255, 255, 255, 255, 255, 255, 0, 0, 0, 0, 0, 0, 255, 255, 0, 0, 0, 0, 0, 0, 0, 255, 255, 255, 0, 255, 0, 255,
      255],
    [255, 255, 255, 255, 255, 255, 255, 255, 0, 0, 0, 0, 0, 0, 0, 0, 255, 255, 255, 255, 0, 0, 255, 255, 255, 0, 0, 0,
      0, 255, 255, 255, 255, 255, 255, 0, 0, 0, 0, 0, 0, 255, 255, 0, 0, 0, 0, 0, 0, 255, 255, 255, 0, 0, 0, 0, 255, 255],
    [255, 255, 255, 0, 0, 0, 0, 0, 0, 0, 0, 0, 255, 255, 0, 0, 0, 0, 255, 255, 0, 0, 255, 255, 255, 255, 255, 255, 255,
      255, 255, 255, 255, 255, 255, 255, 255, 0, 0, 0, 0, 0, 0, 0, 0, 0, 0, 0, 255, 255, 255, 0, 0, 0, 0, 0, 255, 255],
    [255, 255, 255, 0, 0, 0, 0, 0, 0, 0, 0, 0, 255, 255, 0, 0, 0, 0, 255, 255, 0, 0, 255, 255, 255, 255, 255, 255, 255,
      255, 255, 255, 255, 255, 255, 255, 255, 0, 0, 0, 0, 0, 0, 0, 0, 0, 0, 0, 255, 255, 0, 0, 0, 0, 255, 255, 255, 255],
    [255, 255, 255, 255, 255, 255, 255, 255, 255, 255, 255, 255, 255, 255, 255, 255, 255, 255, 255, 255, 0, 0, 0, 255,
      255, 0, 0, 255, 255, 0, 0, 255, 255, 255, 255, 0, 0, 0, 0, 0, 255, 255, 255, 255, 255, 255, 0, 0, 255, 255, 0, 0,
      0, 0, 255, 255, 255, 255],
    [255, 255, 255, 255, 255, 255, 255, 255, 255, 255, 255, 255, 255, 255, 255, 255, 255, 255, 255, 255, 0, 0, 0, 255,
      255, 0, 0, 255, 255, 0, 0, 255, 255, 255, 255, 0, 0, 0, 0, 0, 255, 255, 255, 255, 255, 255, 0, 0, 255, 255, 255,
      255, 0, 0, 0, 0, 255, 255],
    [255, 255, 255, 255, 0, 0, 0, 0, 0, 0, 0, 0, 0, 0, 0, 0, 0, 0, 255, 255, 255, 255, 255, 0, 0, 255, 255, 0, 0, 0, 0,
      255, 255, 255, 255, 0, 0, 0, 0, 0, 255, 255, 0, 0, 255, 255, 0, 0, 255, 255, 255, 255, 0, 0, 0, 0, 255, 255],
    [255, 255, 255, 255, 0, 0, 0, 0, 0, 0, 0, 0, 0, 0, 0, 0, 0, 0, 255, 255, 255, 255, 255, 0, 0, 255, 255, 0, 0, 0, 0,
      255, 255, 255, 255, 0, 0, 0, 0, 0, 255, 255, 0, 0, 255, 255, 0, 0, 0, 0, 0, 0, 0, 0, 255, 255, 255, 255],
    [255, 255, 255, 255, 0, 0, 255, 255, 255, 255, 255, 255, 255, 255, 255, 255, 0, 0, 255, 255, 255, 255, 255, 255,
      255, 255, 255, 255, 255, 0, 0, 255, 255, 255, 255, 255, 255, 0, 0, 0, 255, 255, 255, 255, 255, 255, 0, 0, 0, 0, 0,
      0, 0, 0, 255, 255, 255, 255],
    [255, 255, 255, 255, 0, 0, 255, 255, 255, 255, 255, 255, 255, 255, 255, 255, 0, 0, 255, 255, 255, 255, 255, 255,
      255, 255, 255, 255, 255, 0, 0, 255, 255, 255, 255, 255, 255, 0, 0, 0, 255, 255, 255, 255, 255, 255, 0, 0, 255, 255,
      255, 255, 0, 0, 0, 0, 0, 255],
    [255, 255, 255, 255, 0, 0, 255, 255, 0, 0, 0, 0, 0, 0, 255, 255, 0, 0, 255, 255, 255, 255, 255, 0, 0, 255, 255, 0,
      0, 255, 255, 0, 0, 255, 255, 0, 0, 0, 0, 0, 0, 0, 0, 0, 0, 0, 0, 0, 255, 255, 255, 255, 0, 0, 0, 0, 0, 255],
    [255, 255, 255, 255, 0, 0, 255, 255, 0, 0, 0, 0, 0, 0, 255, 255, 0, 0, 255, 255, 255, 255, 255, 0, 0, 255, 255, 0,
      0, 255, 255, 0, 0, 255, 255, 0, 0, 0, 0, 0, 0, 0, 0, 0, 0, 0, 0, 0, 0, 0, 0, 0, 0, 0, 0, 0, 0, 255],
    [255, 255, 255, 255, 0, 0, 255, 255, 0, 0, 0, 0, 0, 0, 255, 255, 0, 0, 255, 255, 255, 255, 255, 255, 255, 0, 0, 0,
      0, 0, 0, 255, 255, 0, 0, 0, 0, 0, 0, 255, 0, 0, 0, 0, 0, 0, 0, 0, 0, 0, 0, 0, 0, 0, 0, 0, 0, 255],
    [255, 255, 255, 255, 0, 0, 255, 255, 0, 0, 0, 0, 0, 0, 255, 255, 0, 0, 255, 255, 255, 255, 255, 255, 255, 0, 0, 0,
      0, 0, 0, 255, 255, 0, 0, 0, 0, 255, 255, 255, 255, 255, 255, 255, 0, 0, 255, 255, 0, 0, 0, 0, 255, 255, 255, 255,
      255, 255],
    [255, 255, 255, 255, 0, 0, 255, 255, 0, 0, 0, 0, 0, 0, 255, 255, 0, 0, 255, 255, 255, 0, 0, 0, 0, 255, 255, 0, 0,
      255, 255, 255, 255, 255, 255, 0, 0, 0, 255, 0, 255, 255, 255, 255, 0, 0, 255, 255, 0, 0, 0, 0, 255, 255, 255, 255,
      255, 255],
    [255, 255, 255, 255, 0, 0, 255, 255, 0, 0, 0, 0, 0, 0, 255, 255, 0, 0, 255, 255, 255, 0, 0, 0, 0, 255, 255, 0, 0,
      255, 255, 255, 255, 255, 255, 0, 0, 0, 0, 0, 255, 255, 0, 0, 0, 0, 0, 0, 0, 0, 255, 255, 0, 0, 0, 0, 0, 255],
    [255, 255, 255, 255, 0, 0, 255, 255, 255, 255, 255, 255, 255, 255, 255, 255, 0, 0, 255, 255, 255, 0, 0, 0, 0, 0, 0,
      0, 0, 255, 255, 255, 255, 255, 0, 0, 0, 255, 0, 0, 255, 255, 0, 0, 0, 0, 0, 0, 0, 0, 255, 255, 0, 0, 0, 0, 0, 255],
    [255, 255, 255, 255, 0, 0, 255, 255, 255, 255, 255, 255, 255, 255, 255, 255, 0, 0, 255, 255, 255, 0, 0, 0, 0, 0, 0,
      0, 0, 255, 255, 255, 255, 0, 0, 0, 255, 255, 255, 255, 0, 0, 0, 0, 0, 0, 255, 255, 0, 0, 0, 0, 0, 255, 255, 0, 0,
      255],
    [255, 255, 255, 255, 0, 0, 0, 0, 0, 0, 0, 0, 0, 0, 0, 0, 0, 0, 255, 255, 255, 255, 255, 255, 255, 0, 0, 0, 0, 255,
      255, 255, 255, 0, 0, 255, 255, 255, 255, 255, 0, 0, 0, 0, 0, 0, 255, 255, 0, 0, 0, 0, 0, 255, 255, 0, 0, 255],
    [255, 255, 255, 255, 0, 0, 0, 0, 0, 0, 0, 0, 0, 0, 0, 0, 0, 0, 255, 255, 255, 255, 255, 255, 255, 0, 0, 0, 0, 255,
      255, 255, 255, 255, 255, 255, 255, 255, 255, 255, 0, 0, 255, 255, 0, 0, 0, 0, 0, 0, 0, 0, 0, 0, 0, 0, 0, 255],
    [255, 255, 255, 255, 255, 255, 255, 255, 255, 255, 255, 255, 255, 255, 255, 255, 255, 255, 255, 255, 255, 255, 255,
      255, 255, 0, 0, 0, 0, 255, 255, 255, 255, 255, 255, 255, 255, 255, 255, 255, 0, 0, 255, 255, 0, 0, 0, 0, 0, 0, 0,
      0, 0, 0, 0, 0, 0, 255],
    [255, 255, 255, 255, 255, 255, 255, 255, 255, 255, 255, 255, 255, 255, 255, 255, 255, 255, 255, 255, 255, 255, 255,
      255, 255, 255, 255, 255, 255, 255, 255, 255, 255, 255, 255, 255, 255, 255, 255, 255, 255, 255, 255, 255, 255, 255,
      255, 255, 255, 255, 255, 255, 255, 255, 255, 255, 255, 255],
    [255, 255, 255, 255, 255, 255, 255, 255, 255, 255, 255, 255, 255, 255, 255, 255, 255, 255, 255, 255, 255, 255, 255,
      255, 255, 255, 255, 255, 255, 255, 255, 255, 255, 255, 255, 255, 255, 255, 255, 255, 255, 255, 255, 255, 255, 255,
      255, 255, 255, 255, 255, 255, 255, 255, 255, 255, 255, 255],
    [255, 255, 255, 255, 255, 255, 255, 255, 255, 255, 255, 255, 255, 255, 255, 255, 255, 255, 255, 255, 255, 255, 255,
      255, 255, 255, 255, 255, 255, 255, 255, 255, 255, 255, 255, 255, 255, 255, 255, 255, 255, 255, 255, 255, 255, 255,
      255, 255, 255, 255, 255, 255, 255, 255, 255, 255, 255, 255]]

/-- Its columns. -/
def leaningCols : List (List Nat) := [
    [255, 255, 255, 255, 255, 255, 255, 255, 255, 255, 255, 255, 255, 255, 255, 255, 255, 255, 255, 255, 255, 255, 255,
      255, 255, 255, 255, 255, 255, 255, 255, 255, 255, 255, 255, 255, 255, 255, 255, 255, 255, 255, 255, 255, 255, 255,
      255, 255, 255, 255, 255, 255, 255, 255, 255, 255, 255, 255],
    [255, 255, 255, 255, 255, 255, 255, 255, 255, 255, 255, 255, 255, 255, 255, 255, 255, 255, 255, 255, 255, 255, 255,
      255, 255, 255, 255, 255, 255, 255, 255, 255, 255, 255, 255, 255, 255, 255, 255, 255, 255, 255, 255, 255, 255, 255,
      255, 255, 255, 255, 255, 255, 255, 255, 255, 255, 255, 255],
    [255, 255, 255, 255, 255, 255, 255, 255, 255, 255, 255, 255, 255, 255, 255, 255, 255, 255, 255, 255, 255, 255, 255,
      255, 255, 255, 255, 255, 255, 255, 255, 255, 255, 255, 255, 255, 255, 255, 255, 255, 255, 255, 255, 255, 255, 255,
      255, 255, 255, 255, 255, 255, 255, 255, 255, 255, 255, 255],
    [255, 255, 255, 255, 255, 255, 255, 255, 255, 255, 255, 255, 255, 255, 255, 255, 255, 255, 255, 255, 255, 255, 0,
      0, 0, 0, 0, 0, 0, 0, 255, 255, 0, 0, 255, 255, 0, 0, 255, 255, 255, 255, 255, 255, 255, 255, 255, 255, 255, 255,
      255, 255, 255, 255, 255, 255, 255, 255],
    [255, 255, 255, 255, 0, 0, 0, 0, 0, 0, 0, 0, 0, 0, 0, 0, 0, 0, 255, 255, 255, 255, 0, 0, 0, 0, 0, 0, 0, 0, 255,
      255, 0, 0, 255, 255, 0, 0, 255, 255, 0, 0, 0, 0, 0, 0, 0, 0, 0, 0, 0, 0, 0, 0, 255, 255, 255, 255],
    [255, 255, 255, 255, 0, 0, 0, 0, 0, 0, 0, 0, 0, 0, 0, 0, 0, 0, 255, 255, 255, 255, 0, 0, 0, 0, 0, 0, 0, 0, 255,
      255, 0, 0, 255, 255, 0, 0, 255, 255, 0, 0, 0, 0, 0, 0, 0, 0, 0, 0, 0, 0, 0, 0, 255, 255, 255, 255],
    [255, 255, 255, 255, 0, 0, 255, 255, 255, 255, 255, 255, 255, 255, 255, 255, 0, 0, 255, 255, 0, 0, 0, 0, 255, 255,
      0, 0, 0, 0, 255, 255, 0, 0, 255, 255, 0, 0, 255, 255, 0, 0, 255, 255, 255, 255, 255, 255, 255, 255, 255, 255, 0, 0,
      255, 255, 255, 255],
    [255, 255, 255, 255, 0, 0, 255, 255, 255, 255, 255, 255, 255, 255, 255, 255, 0, 0, 255, 255, 0, 0, 0, 0, 255, 255,
      0, 0, 0, 0, 255, 255, 0, 0, 255, 255, 0, 0, 255, 255, 0, 0, 255, 255, 255, 255, 255, 255, 255, 255, 255, 255, 0, 0,
      255, 255, 255, 255],
    [255, 255, 255, 255, 0, 0, 255, 255, 0, 0, 0, 0, 0, 0, 255, 255, 0, 0, 255, 255, 0, 0, 255, 255, 255, 255, 255,
      255, 0, 0, 255, 255, 255, 255, 0, 0, 0, 0, 255, 255, 0, 0, 255, 255, 0, 0, 0, 0, 0, 0, 255, 255, 0, 0, 255, 255,
      255, 255],
    [255, 255, 255, 255, 0, 0, 255, 255, 0, 0, 0, 0, 0, 0, 255, 255, 0, 0, 255, 255, 0, 0, 255, 255, 255, 255, 255,
      255, 0, 0, 255, 255, 255, 255, 0, 0, 0, 0, 255, 255, 0, 0, 255, 255, 0, 0, 0, 0, 0, 0, 255, 255, 0, 0, 255, 255,
      255, 255],
    [255, 255, 255, 255, 0, 0, 255, 255, 0, 0, 0, 0, 0, 0, 255, 255, 0, 0, 255, 255, 255, 255, 0, 0, 255, 255, 0, 0,
      255, 255, 255, 255, 255, 255, 0, 0, 0, 0, 255, 255, 0, 0, 255, 255, 0, 0, 0, 0, 0, 0, 255, 255, 0, 0, 255, 255,
      255, 255],
    [255, 255, 255, 255, 0, 0, 255, 255, 0, 0, 0, 0, 0, 0, 255, 255, 0, 0, 255, 255, 255, 255, 0, 0, 255, 255, 0, 0,
      255, 255, 255, 255, 255, 255, 0, 0, 0, 0, 255, 255, 0, 0, 255, 255, 0, 0, 0, 0, 0, 0, 255, 255, 0, 0, 255, 255,
      255, 255],
    [255, 255, 255, 255, 0, 0, 255, 255, 0, 0, 0, 0, 0, 0, 255, 255, 0, 0, 255, 255, 255, 255, 255, 255, 255, 255, 255,
      255, 255, 255, 0, 0, 255, 255, 0, 0, 255, 255, 255, 255, 0, 0, 255, 255, 0, 0, 0, 0, 0, 0, 255, 255, 0, 0, 255,
      255, 255, 255],
    [255, 255, 255, 255, 0, 0, 255, 255, 0, 0, 0, 0, 0, 0, 255, 255, 0, 0, 255, 255, 255, 255, 255, 255, 255, 255, 255,
      255, 255, 255, 0, 0, 255, 255, 0, 0, 255, 255, 255, 255, 0, 0, 255, 255, 0, 0, 0, 0, 0, 0, 255, 255, 0, 0, 255,
      255, 255, 255],
    [255, 255, 255, 255, 0, 0, 255, 255, 255, 255, 255, 255, 255, 255, 255, 255, 0, 0, 255, 255, 255, 255, 0, 0, 0, 0,
      255, 255, 255, 255, 255, 255, 0, 0, 0, 0, 0, 0, 255, 255, 0, 0, 255, 255, 255, 255, 255, 255, 255, 255, 255, 255,
      0, 0, 255, 255, 255, 255],
    [255, 255, 255, 255, 0, 0, 255, 255, 255, 255, 255, 255, 255, 255, 255, 255, 0, 0, 255, 255, 255, 255, 0, 0, 0, 0,
      255, 255, 255, 255, 255, 255, 0, 0, 0, 0, 0, 0, 255, 255, 0, 0, 255, 255, 255, 255, 255, 255, 255, 255, 255, 255,
      0, 0, 255, 255, 255, 255],
    [255, 255, 255, 255, 0, 0, 0, 0, 0, 0, 0, 0, 0, 0, 0, 0, 0, 0, 255, 255, 0, 0, 255, 255, 0, 0, 255, 255, 0, 0, 255,
      255, 0, 0, 255, 255, 0, 0, 255, 255, 0, 0, 0, 0, 0, 0, 0, 0, 0, 0, 0, 0, 0, 0, 255, 255, 255, 255],
    [255, 255, 255, 255, 0, 0, 0, 0, 0, 0, 0, 0, 0, 0, 0, 0, 0, 0, 255, 255, 0, 0, 255, 255, 0, 0, 255, 255, 0, 0, 255,
      255, 0, 0, 255, 255, 0, 0, 255, 255, 0, 0, 0, 0, 0, 0, 0, 0, 0, 0, 0, 0, 0, 0, 255, 255, 255, 255],
    [255, 255, 255, 255, 255, 255, 255, 255, 255, 255, 255, 255, 255, 255, 255, 255, 255, 255, 255, 255, 255, 255, 0,
      0, 0, 0, 255, 255, 0, 0, 0, 0, 255, 255, 255, 255, 255, 255, 255, 255, 255, 255, 255, 255, 255, 255, 255, 255, 255,
      255, 255, 255, 255, 255, 255, 255, 255, 255],
    [255, 255, 255, 255, 255, 255, 255, 255, 255, 255, 255, 255, 255, 255, 255, 255, 255, 255, 255, 255, 255, 255, 0,
      0, 0, 0, 255, 255, 0, 0, 0, 0, 255, 255, 255, 255, 255, 255, 255, 255, 255, 255, 255, 255, 255, 255, 255, 255, 255,
      255, 255, 255, 255, 255, 255, 255, 255, 255],
    [255, 255, 255, 255, 255, 255, 255, 255, 255, 255, 0, 0, 255, 255, 0, 0, 0, 0, 0, 0, 255, 255, 0, 0, 0, 0, 0, 0,
      255, 255, 255, 255, 255, 255, 0, 0, 0, 0, 0, 0, 255, 255, 255, 255, 255, 255, 255, 255, 255, 255, 255, 255, 255,
      255, 255, 255, 255, 255],
    [255, 255, 255, 255, 255, 255, 255, 255, 255, 255, 0, 0, 255, 255, 0, 0, 0, 0, 0, 0, 255, 255, 0, 0, 0, 0, 0, 0,
      255, 255, 255, 255, 255, 255, 0, 0, 0, 0, 0, 0, 255, 255, 255, 255, 255, 255, 255, 255, 0, 0, 0, 0, 255, 255, 255,
      255, 255, 255],
    [255, 255, 255, 255, 0, 0, 255, 255, 0, 0, 255, 255, 0, 0, 0, 0, 255, 255, 0, 0, 255, 255, 0, 0, 0, 0, 0, 0, 0, 0,
      0, 0, 0, 0, 255, 255, 255, 255, 0, 0, 255, 255, 255, 255, 255, 255, 255, 255, 0, 0, 0, 0, 255, 255, 255, 255, 255,
      255],
    [255, 255, 255, 255, 0, 0, 255, 255, 0, 0, 255, 255, 0, 0, 0, 0, 255, 255, 0, 0, 255, 255, 0, 0, 0, 0, 0, 0, 0, 0,
      0, 0, 0, 0, 255, 255, 255, 255, 255, 255, 0, 0, 255, 255, 0, 0, 255, 255, 0, 0, 0, 0, 255, 255, 255, 255, 255, 255],
    [255, 255, 255, 0, 0, 0, 0, 0, 255, 255, 0, 0, 0, 0, 255, 255, 0, 0, 0, 0, 255, 255, 255, 255, 0, 0, 0, 0, 255,
      255, 255, 255, 0, 0, 255, 255, 255, 255, 255, 255, 0, 0, 255, 255, 0, 0, 255, 255, 0, 0, 0, 0, 255, 255, 255, 255,
      255, 255],
    [255, 255, 255, 255, 0, 0, 0, 0, 255, 255, 0, 0, 0, 0, 255, 255, 0, 0, 0, 0, 255, 255, 255, 255, 0, 0, 0, 0, 255,
      255, 255, 255, 0, 0, 0, 0, 255, 255, 0, 0, 255, 255, 255, 255, 255, 255, 0, 0, 255, 255, 0, 0, 0, 0, 0, 255, 255,
      255],
    [255, 255, 255, 255, 255, 255, 255, 255, 0, 0, 0, 0, 0, 0, 0, 0, 255, 255, 255, 255, 0, 0, 255, 255, 0, 0, 0, 0, 0,
      0, 255, 255, 0, 0, 0, 0, 255, 255, 0, 0, 255, 255, 255, 255, 255, 255, 0, 0, 255, 255, 0, 0, 0, 0, 0, 255, 255,
      255],
    [255, 255, 255, 255, 255, 255, 255, 255, 0, 0, 0, 0, 0, 0, 0, 0, 255, 255, 255, 255, 0, 0, 255, 255, 0, 0, 0, 0, 0,
      0, 255, 255, 255, 255, 0, 0, 255, 255, 255, 255, 0, 0, 255, 255, 0, 0, 0, 0, 0, 0, 0, 0, 0, 0, 0, 255, 255, 255],
    [255, 255, 255, 0, 0, 0, 0, 0, 255, 255, 0, 0, 255, 255, 0, 0, 0, 0, 255, 255, 0, 0, 0, 0, 0, 0, 0, 0, 0, 0, 255,
      255, 255, 255, 0, 0, 255, 255, 255, 255, 0, 0, 255, 255, 0, 0, 0, 0, 0, 0, 0, 0, 0, 0, 0, 255, 255, 255],
    [255, 255, 255, 255, 0, 0, 0, 0, 255, 255, 0, 0, 255, 255, 0, 0, 0, 0, 255, 255, 0, 0, 0, 0, 0, 0, 0, 0, 255, 255,
      255, 255, 0, 0, 255, 255, 255, 255, 0, 0, 0, 0, 0, 0, 255, 255, 0, 0, 255, 255, 255, 255, 255, 255, 255, 255, 255,
      255],
    [255, 255, 255, 255, 255, 255, 0, 0, 255, 255, 255, 255, 0, 0, 255, 255, 255, 255, 255, 255, 0, 0, 0, 0, 255, 255,
      0, 0, 255, 255, 255, 255, 0, 0, 255, 255, 255, 255, 0, 0, 0, 0, 0, 0, 255, 255, 0, 0, 255, 255, 255, 255, 255, 255,
      255, 255, 255, 255],
    [255, 255, 255, 255, 255, 255, 0, 0, 255, 255, 255, 255, 0, 0, 255, 255, 255, 255, 255, 255, 0, 0, 0, 0, 255, 255,
      0, 0, 0, 0, 255, 255, 0, 0, 255, 255, 255, 255, 255, 255, 255, 255, 255, 255, 0, 0, 255, 255, 255, 255, 255, 255,
      255, 255, 255, 255, 255, 255],
    [255, 255, 255, 255, 255, 255, 0, 0, 0, 0, 0, 0, 0, 0, 255, 255, 0, 0, 0, 0, 0, 0, 0, 0, 255, 255, 0, 0, 0, 0, 255,
      255, 0, 0, 255, 255, 255, 255, 255, 255, 255, 255, 255, 255, 0, 0, 255, 255, 255, 255, 255, 255, 255, 255, 255,
      255, 255, 255],
    [255, 255, 255, 255, 255, 255, 0, 0, 0, 0, 0, 0, 0, 0, 255, 255, 0, 0, 0, 0, 0, 0, 0, 0, 255, 255, 255, 255, 255,
      255, 255, 255, 255, 255, 255, 255, 255, 255, 255, 255, 255, 255, 255, 255, 255, 255, 0, 0, 255, 255, 255, 0, 0,
      255, 255, 255, 255, 255],
    [255, 255, 255, 0, 0, 0, 255, 255, 0, 0, 255, 255, 0, 0, 0, 0, 255, 255, 0, 0, 255, 255, 255, 255, 255, 255, 255,
      255, 255, 255, 255, 255, 255, 255, 255, 255, 255, 255, 255, 255, 255, 255, 255, 255, 255, 255, 0, 0, 255, 255, 0,
      0, 0, 255, 255, 255, 255, 255],
    [255, 255, 255, 255, 0, 0, 255, 255, 0, 0, 255, 255, 0, 0, 0, 0, 255, 255, 0, 0, 255, 255, 255, 255, 0, 0, 255,
      255, 0, 0, 255, 255, 255, 255, 0, 0, 255, 255, 0, 0, 0, 0, 255, 255, 0, 0, 0, 0, 0, 0, 0, 0, 255, 255, 255, 255,
      255, 255],
    [255, 255, 255, 0, 0, 0, 0, 0, 0, 0, 255, 255, 255, 255, 255, 255, 0, 0, 0, 0, 255, 255, 255, 255, 0, 0, 255, 255,
      0, 0, 255, 255, 255, 255, 0, 0, 255, 255, 0, 0, 0, 0, 255, 255, 0, 0, 0, 0, 0, 0, 0, 255, 255, 255, 255, 255, 255,
      255],
    [255, 255, 255, 255, 0, 0, 0, 0, 0, 0, 255, 255, 255, 255, 255, 255, 0, 0, 0, 0, 255, 255, 255, 255, 255, 255, 255,
      255, 0, 0, 0, 0, 0, 0, 0, 0, 0, 0, 0, 0, 0, 0, 0, 0, 0, 0, 0, 255, 0, 0, 255, 255, 255, 255, 255, 255, 255, 255],
    [255, 255, 255, 255, 255, 255, 255, 255, 255, 255, 255, 255, 255, 255, 255, 255, 255, 255, 255, 255, 255, 255, 255,
      255, 255, 255, 255, 255, 0, 0, 0, 0, 0, 0, 0, 0, 0, 0, 0, 0, 0, 0, 0, 0, 0, 0, 0, 255, 255, 0, 0, 255, 255, 255,
      255, 255, 255, 255],
    [255, 255, 255, 255, 255, 255, 255, 255, 255, 255, 255, 255, 255, 255, 255, 255, 255, 255, 255, 255, 255, 255, 0,
      0, 255, 255, 255, 255, 255, 255, 255, 255, 0, 0, 0, 0, 0, 0, 0, 0, 0, 0, 0, 0, 0, 0, 255, 255, 0, 0, 0, 255, 255,
      255, 255, 255, 255, 255],
    [255, 255, 255, 255, 0, 0, 0, 0, 0, 0, 0, 0, 0, 0, 0, 0, 0, 0, 255, 255, 0, 0, 0, 0, 255, 255, 255, 255, 255, 255,
      255, 255, 0, 0, 0, 0, 0, 0, 255, 255, 255, 255, 255, 255, 0, 0, 0, 255, 255, 255, 255, 0, 0, 0, 0, 255, 255, 255],
    [255, 255, 255, 255, 0, 0, 0, 0, 0, 0, 0, 0, 0, 0, 0, 0, 0, 0, 255, 255, 0, 0, 255, 255, 255, 255, 0, 0, 255, 255,
      255, 255, 0, 0, 255, 255, 0, 0, 255, 255, 255, 255, 255, 255, 0, 0, 0, 255, 255, 255, 255, 0, 0, 0, 0, 255, 255,
      255],
    [255, 255, 255, 255, 0, 0, 255, 255, 255, 255, 255, 255, 255, 255, 255, 255, 0, 0, 255, 255, 0, 0, 255, 255, 255,
      255, 0, 0, 255, 255, 255, 255, 0, 0, 255, 255, 0, 0, 255, 255, 0, 0, 255, 255, 0, 0, 0, 255, 255, 0, 0, 0, 0, 255,
      255, 255, 255, 255],
    [255, 255, 255, 255, 0, 0, 255, 255, 255, 255, 255, 255, 255, 255, 255, 255, 0, 0, 255, 255, 0, 0, 255, 255, 255,
      255, 255, 255, 0, 0, 0, 0, 0, 0, 0, 0, 0, 0, 255, 255, 0, 0, 255, 255, 0, 0, 0, 255, 255, 0, 0, 0, 0, 255, 255,
      255, 255, 255],
    [255, 255, 255, 255, 0, 0, 255, 255, 0, 0, 0, 0, 0, 0, 255, 255, 0, 0, 255, 255, 0, 0, 255, 255, 255, 255, 255,
      255, 0, 0, 0, 0, 0, 0, 0, 0, 0, 0, 255, 255, 255, 255, 255, 255, 0, 0, 0, 0, 0, 0, 0, 0, 0, 0, 0, 255, 255, 255],
    [255, 255, 255, 255, 0, 0, 255, 255, 0, 0, 0, 0, 0, 0, 255, 255, 0, 0, 255, 255, 255, 255, 255, 255, 0, 0, 255,
      255, 0, 0, 0, 0, 255, 255, 0, 0, 0, 0, 255, 255, 255, 255, 255, 255, 0, 0, 0, 0, 0, 0, 0, 0, 0, 0, 0, 255, 255,
      255],
    [255, 255, 255, 255, 0, 0, 255, 255, 0, 0, 0, 0, 0, 0, 255, 255, 0, 0, 255, 255, 255, 255, 255, 255, 0, 0, 255,
      255, 0, 0, 0, 0, 255, 255, 0, 0, 0, 0, 0, 0, 0, 0, 0, 0, 0, 0, 0, 255, 255, 0, 0, 255, 255, 0, 0, 255, 255, 255],
    [255, 255, 255, 255, 0, 0, 255, 255, 0, 0, 0, 0, 0, 0, 255, 255, 0, 0, 255, 255, 0, 0, 255, 255, 0, 0, 0, 0, 255,
      255, 255, 255, 0, 0, 0, 0, 0, 0, 0, 0, 0, 0, 0, 0, 0, 0, 0, 255, 255, 0, 0, 255, 255, 0, 0, 255, 255, 255],
    [255, 255, 255, 255, 0, 0, 255, 255, 0, 0, 0, 0, 0, 0, 255, 255, 0, 0, 255, 255, 0, 0, 255, 255, 0, 0, 0, 0, 255,
      255, 255, 255, 0, 0, 0, 0, 255, 255, 255, 255, 255, 0, 0, 255, 255, 0, 0, 0, 0, 0, 0, 0, 0, 0, 0, 255, 255, 255],
    [255, 255, 255, 255, 0, 0, 255, 255, 0, 0, 0, 0, 0, 0, 255, 255, 0, 0, 255, 255, 255, 255, 255, 255, 255, 255, 0,
      0, 0, 0, 255, 255, 0, 0, 0, 255, 255, 255, 255, 255, 255, 0, 0, 255, 255, 0, 0, 0, 0, 0, 0, 0, 0, 0, 0, 255, 255,
      255],
    [255, 255, 255, 255, 0, 0, 255, 255, 255, 255, 255, 255, 255, 255, 255, 255, 0, 0, 255, 255, 255, 255, 255, 255,
      255, 255, 0, 0, 0, 0, 255, 255, 0, 0, 255, 255, 255, 0, 0, 255, 255, 0, 0, 255, 255, 0, 0, 0, 0, 255, 255, 0, 0, 0,
      0, 255, 255, 255],
    [255, 255, 255, 255, 0, 0, 255, 255, 255, 255, 255, 255, 255, 255, 255, 255, 0, 0, 255, 255, 255, 255, 0, 0, 0, 0,
      0, 0, 0, 0, 0, 0, 0, 255, 255, 255, 0, 0, 0, 255, 255, 0, 0, 255, 255, 0, 0, 0, 0, 255, 255, 0, 0, 0, 0, 255, 255,
      255],
    [255, 255, 255, 255, 0, 0, 0, 0, 0, 0, 0, 0, 0, 0, 0, 0, 0, 0, 255, 255, 255, 255, 0, 0, 0, 0, 0, 0, 0, 0, 0, 0,
      255, 255, 255, 0, 0, 0, 0, 0, 0, 0, 0, 0, 0, 0, 0, 255, 255, 0, 0, 0, 0, 0, 0, 255, 255, 255],
    [255, 255, 255, 255, 0, 0, 0, 0, 0, 0, 0, 0, 0, 0, 0, 0, 0, 0, 255, 255, 255, 255, 0, 0, 255, 255, 0, 0, 0, 0, 0,
      0, 0, 255, 0, 0, 0, 0, 0, 0, 0, 0, 0, 0, 0, 0, 0, 255, 255, 0, 0, 255, 255, 0, 0, 255, 255, 255],
    [255, 255, 255, 255, 255, 255, 255, 255, 255, 255, 255, 255, 255, 255, 255, 255, 255, 255, 255, 255, 255, 255, 0,
      0, 255, 255, 0, 0, 0, 0, 0, 0, 255, 255, 255, 0, 0, 255, 255, 0, 0, 255, 255, 0, 0, 0, 0, 255, 255, 0, 0, 255, 255,
      0, 0, 255, 255, 255],
    [255, 255, 255, 255, 255, 255, 255, 255, 255, 255, 255, 255, 255, 255, 255, 255, 255, 255, 255, 255, 255, 255, 255,
      255, 255, 255, 255, 0, 255, 0, 0, 0, 255, 255, 0, 0, 0, 255, 255, 0, 0, 255, 255, 0, 0, 0, 0, 255, 255, 0, 0, 0, 0,
      0, 0, 255, 255, 255],
    [255, 255, 255, 255, 255, 255, 255, 255, 255, 255, 255, 255, 255, 255, 255, 255, 255, 255, 255, 255, 255, 255, 255,
      255, 255, 255, 255, 255, 255, 255, 255, 255, 255, 255, 255, 255, 255, 255, 255, 255, 255, 255, 255, 0, 0, 0, 0,
      255, 255, 0, 0, 0, 0, 0, 0, 255, 255, 255],
    [255, 255, 255, 255, 255, 255, 255, 255, 255, 255, 255, 255, 255, 255, 255, 255, 255, 255, 255, 255, 255, 255, 255,
      255, 255, 255, 255, 255, 255, 255, 255, 255, 255, 255, 255, 255, 255, 255, 255, 255, 255, 255, 255, 255, 255, 255,
      255, 255, 255, 255, 255, 255, 255, 255, 255, 255, 255, 255]]

/-- The modules of the symbol. -/
def leaningModules : QRData where
  data := [0, 0, 0, 0, 0, 0, 0, 255, 255, 0, 0, 255, 0, 255, 255, 0, 0, 255, 0, 0, 0, 0, 0, 0, 0,
    0, 255, 255, 255, 255, 255, 0, 255, 255, 255, 0, 255, 0, 0, 0, 255, 0, 255, 0, 255, 255, 255, 255, 255, 0,
    0, 255, 0, 0, 0, 255, 0, 255, 255, 0, 255, 0, 255, 255, 0, 0, 0, 255, 0, 255, 0, 0, 0, 255, 0,
    0, 255, 0, 0, 0, 255, 0, 255, 0, 255, 0, 0, 0, 255, 0, 255, 255, 255, 0, 255, 0, 0, 0, 255, 0,
    0, 255, 0, 0, 0, 255, 0, 255, 255, 0, 0, 0, 255, 0, 0, 0, 255, 255, 0, 255, 0, 0, 0, 255, 0,
    0, 255, 255, 255, 255, 255, 0, 255, 0, 0, 255, 0, 0, 255, 255, 0, 255, 255, 0, 255, 255, 255, 255, 255, 0,
    0, 0, 0, 0, 0, 0, 0, 255, 0, 255, 0, 255, 0, 255, 0, 255, 0, 255, 0, 0, 0, 0, 0, 0, 0,
    255, 255, 255, 255, 255, 255, 255, 255, 0, 0, 0, 255, 255, 255, 0, 0, 0, 255, 255, 255, 255, 255, 255, 255, 255,
    255, 0, 0, 255, 255, 255, 0, 255, 255, 255, 255, 0, 0, 0, 0, 255, 255, 255, 0, 0, 255, 0, 255, 255, 255,
    0, 0, 255, 0, 255, 0, 255, 0, 0, 0, 255, 255, 0, 0, 0, 255, 255, 0, 255, 255, 255, 255, 255, 0, 0,
    0, 255, 255, 255, 255, 0, 0, 0, 0, 0, 0, 0, 0, 255, 255, 0, 255, 255, 255, 255, 0, 0, 255, 0, 255,
    0, 0, 255, 0, 255, 255, 255, 255, 0, 0, 0, 0, 0, 0, 255, 255, 255, 255, 0, 255, 255, 0, 0, 0, 0,
    0, 0, 0, 255, 255, 255, 0, 0, 255, 0, 255, 0, 255, 0, 255, 0, 0, 255, 255, 0, 0, 255, 0, 0, 0,
    255, 255, 255, 255, 0, 255, 255, 0, 255, 0, 255, 255, 255, 255, 255, 255, 0, 255, 255, 0, 0, 255, 255, 0, 0,
    0, 0, 255, 255, 255, 0, 0, 255, 255, 0, 0, 255, 0, 0, 255, 255, 0, 0, 0, 0, 255, 0, 0, 255, 255,
    255, 255, 0, 0, 0, 0, 255, 255, 0, 255, 0, 0, 255, 255, 255, 0, 0, 0, 255, 0, 0, 0, 255, 0, 0,
    0, 0, 0, 0, 255, 0, 0, 255, 0, 255, 255, 255, 255, 255, 255, 255, 0, 0, 0, 0, 0, 255, 0, 0, 255,
    255, 255, 255, 255, 255, 255, 255, 255, 0, 255, 0, 255, 0, 255, 255, 0, 0, 255, 255, 255, 0, 255, 255, 0, 0,
    0, 0, 0, 0, 0, 0, 0, 255, 255, 0, 255, 0, 0, 255, 255, 0, 0, 255, 0, 255, 0, 0, 0, 0, 255,
    0, 255, 255, 255, 255, 255, 0, 255, 255, 255, 255, 255, 0, 255, 255, 255, 0, 255, 255, 255, 0, 255, 255, 0, 0,
    0, 255, 0, 0, 0, 255, 0, 255, 255, 0, 255, 0, 255, 0, 255, 0, 0, 0, 0, 0, 0, 0, 0, 0, 0,
    0, 255, 0, 0, 0, 255, 0, 255, 255, 255, 0, 0, 0, 255, 0, 0, 255, 255, 255, 0, 255, 0, 0, 255, 255,
    0, 255, 0, 0, 0, 255, 0, 255, 0, 0, 255, 0, 255, 255, 255, 0, 0, 255, 0, 0, 0, 0, 255, 0, 0,
    0, 255, 255, 255, 255, 255, 0, 255, 0, 0, 0, 0, 255, 255, 0, 255, 255, 0, 0, 0, 255, 0, 0, 255, 0,
    0, 0, 0, 0, 0, 0, 0, 255, 255, 255, 0, 0, 255, 255, 255, 255, 255, 0, 255, 0, 0, 0, 0, 0, 0]
  version := 2
  side := 25

/-- Its only block: 22 data codewords and 22 error correction codewords. -/
def leaningBlock : List U8 :=
  [32, 59, 191, 59, 45, 5, 0, 236, 17, 236, 17, 236, 17, 236, 17, 236, 17, 236, 17, 236, 17, 236, 70, 101, 119,
    55, 69, 169, 100, 29, 210, 84, 62, 156, 151, 69, 90, 219, 71, 38, 186, 121, 93, 216]

/-- For every row and every window, the number of black pixels. -/
def leaningBlack : List (List Nat) := [
    [0, 0, 0, 0, 0, 0, 0, 0, 0, 0, 0, 0],
    [0, 0, 0, 0, 0, 0, 0, 0, 0, 0, 0, 0],
    [0, 0, 0, 0, 0, 0, 0, 0, 0, 0, 0, 0],
    [0, 0, 1, 2, 3, 4, 4, 4, 3, 2, 1, 0],
    [11, 14, 17, 20, 20, 18, 18, 20, 21, 18, 17, 14],
    [11, 14, 17, 20, 20, 18, 18, 20, 21, 18, 17, 14],
    [2, 4, 5, 8, 11, 12, 14, 12, 13, 10, 6, 4],
    [2, 4, 5, 8, 11, 12, 14, 12, 13, 10, 6, 4],
    [8, 10, 12, 14, 16, 16, 15, 18, 18, 16, 13, 10],
    [8, 10, 12, 14, 16, 16, 15, 18, 18, 16, 13, 10],
    [8, 10, 13, 18, 19, 16, 15, 18, 17, 12, 10, 10],
    [8, 10, 13, 18, 19, 16, 15, 18, 17, 12, 10, 10],
    [8, 10, 13, 16, 20, 18, 17, 20, 19, 16, 11, 10],
    [8, 10, 13, 16, 20, 18, 17, 20, 19, 16, 11, 10],
    [2, 4, 8, 12, 12, 12, 14, 12, 10, 6, 5, 4],
    [2, 4, 8, 12, 12, 12, 14, 12, 10, 6, 5, 4],
    [11, 14, 17, 20, 21, 18, 18, 20, 21, 18, 16, 14],
    [11, 14, 17, 20, 21, 18, 18, 20, 21, 18, 16, 14],
    [0, 0, 5, 6, 9, 12, 12, 12, 7, 6, 3, 0],
    [0, 0, 5, 6, 9, 12, 12, 12, 7, 6, 3, 0],
    [4, 6, 6, 10, 14, 10, 15, 15, 15, 11, 7, 7],
    [4, 6, 6, 10, 14, 10, 15, 15, 15, 11, 7, 7],
    [8, 11, 15, 17, 19, 17, 15, 12, 12, 10, 6, 5],
    [8, 11, 15, 17, 19, 17, 15, 12, 12, 10, 6, 5],
    [4, 9, 14, 19, 17, 18, 17, 16, 13, 8, 8, 6],
    [4, 9, 14, 19, 17, 18, 17, 16, 13, 8, 8, 6],
    [7, 7, 12, 17, 18, 15, 15, 18, 18, 13, 10, 10],
    [7, 7, 12, 17, 18, 15, 15, 18, 18, 13, 10, 10],
    [7, 11, 13, 16, 16, 15, 17, 16, 19, 16, 14, 10],
    [7, 11, 13, 16, 16, 15, 17, 16, 19, 16, 14, 10],
    [2, 4, 6, 6, 6, 8, 8, 8, 10, 10, 10, 8],
    [2, 4, 6, 6, 6, 8, 8, 8, 10, 10, 10, 8],
    [6, 9, 12, 15, 16, 16, 20, 20, 20, 17, 14, 11],
    [6, 9, 12, 15, 16, 16, 20, 20, 18, 15, 12, 9],
    [7, 8, 10, 14, 14, 17, 15, 19, 18, 14, 14, 9],
    [7, 8, 10, 14, 14, 17, 15, 18, 19, 15, 15, 10],
    [10, 13, 15, 15, 13, 11, 13, 13, 15, 15, 15, 12],
    [10, 13, 15, 15, 13, 11, 13, 13, 15, 15, 15, 12],
    [0, 0, 3, 6, 7, 12, 12, 14, 15, 12, 11, 6],
    [0, 0, 3, 6, 7, 12, 12, 14, 14, 11, 10, 5],
    [11, 14, 16, 19, 19, 19, 16, 15, 16, 13, 12, 7],
    [11, 14, 16, 19, 19, 19, 16, 17, 19, 16, 15, 10],
    [2, 4, 4, 5, 5, 7, 7, 9, 13, 12, 11, 8],
    [2, 4, 4, 5, 5, 7, 7, 7, 10, 9, 8, 5],
    [8, 10, 12, 14, 15, 17, 18, 19, 20, 18, 16, 11],
    [8, 10, 12, 14, 15, 17, 18, 21, 24, 22, 20, 15],
    [8, 10, 10, 15, 17, 18, 19, 22, 27, 22, 19, 15],
    [8, 10, 10, 15, 17, 16, 13, 14, 16, 11, 8, 6],
    [8, 10, 14, 16, 15, 16, 13, 14, 12, 10, 10, 6],
    [8, 10, 14, 16, 15, 17, 16, 19, 18, 16, 16, 11],
    [2, 4, 8, 12, 12, 15, 18, 21, 20, 16, 15, 11],
    [2, 4, 8, 12, 13, 13, 18, 19, 18, 14, 12, 11],
    [11, 14, 14, 18, 19, 14, 14, 14, 17, 13, 11, 11],
    [11, 14, 14, 18, 17, 12, 10, 12, 17, 13, 13, 13],
    [0, 0, 0, 4, 4, 4, 7, 12, 17, 13, 13, 13],
    [0, 0, 0, 0, 0, 0, 0, 0, 0, 0, 0, 0],
    [0, 0, 0, 0, 0, 0, 0, 0, 0, 0, 0, 0],
    [0, 0, 0, 0, 0, 0, 0, 0, 0, 0, 0, 0]]

/-- The modules as a number. -/
def leaningBits : Nat :=
  0x1FA0C7FB727A0EF62D74D1B8BBFFAA5DC88820BD669FF232A00DF016FDDC69E1BCD98F320521D9AAC7F21F85AC27F8704E7562C784600E3807F555FE09368374EE5DBA2EAEDD729760AE883FD967F

theorem leaningModules_bits : Bitmap leaningModules leaningBits := by unfold Bitmap; decide +kernel

/-- The image as a number. -/
def leaningImageBits : Nat :=
  0xFFFFFFFFFFFFFFFFFFFFFFFFFFFFFFFFFFFFFFFFFFFE000CFFE1FFFFFF80033FF87F0003E60C0F9E1FC000F98303C78073FF3E0C0323E01CFFCF8300C1F9873033FF0CF47E61CC0CFFC33F8607F3033E00008181FCC0CF800001999F3033E0F0006667CC0CF83CFC7E7FF3FF3FC03F1F9FFCFFCFF00CC1E19F0003F0F3307867C000FC3CFC1E663FFFFFC33F07998FFFFFF0C007FFF30C01F07001FFFCC3007C38181F873C03FF5C0607E1CF00FFFE1807860F0FC1FD0601E183C3F07C1E1E7FFCCF3FFF07879FFF33CFFFC061E198CC3F01F8187866330FC07C01E7F8003FCC1F8079FE000FF307F987F9F0000FF1FE61FE7C0003FC7E1FF9F03C0CCC1F87FE7C0F033307FF983F00FF3F0FFFE60FC03FCFC3FFFFFF03F03FFFFFFFFFC0FC0FFFFFF0003333330003FC000CCCCCC000FF3FF3CF0C33FF3FCFFCF3C30CFFCFF3033C0C0F3033FCC0CF0303CC0CFF3033F30333033FCC0CFCC0CCC0CFF303303CCF3033FCC0CC0F33CC0CFF3FF33033F3FF3FCFFCCC0CFCFFCFF00030F30F0003FC000C3CC3C000FFFFFFAFBBFFFFFFFFFFFFFFFFFFFFFFFFFFFFFFFFFFFFFFFFFFFFFFFFF

/-- "LEANING", in alphanumeric mode. -/
def leaningSegments : List Segment := [.alphanumeric [21, 14, 10, 23, 18, 23, 16]]

theorem leaningSegments_text : SegmentsText leaningSegments "LEANING".toList := .cons (.alphanumeric _) .nil

theorem leaningBlock_codeword : IsCodeword (eccPerBlock 2 .quartile) leaningBlock :=
  isCodeword_of_syndromes 22 (by decide) _ (by decide +kernel)

theorem leaning_blocks : (List.range (numBlocks 2 .quartile)).map (blockData 2 .quartile) = [22] := by
  have hb : blockData 2 .quartile 0 = (specRow 2 .quartile 0).2 := by rw [specRow_eq 2 (by decide) (by decide)]
  rw [show numBlocks 2 .quartile = 1 by decide, show List.range 1 = [0] from rfl, List.map_cons, List.map_nil, hb]
  decide +kernel

theorem leaning_family : symbolFamily 2 .quartile leaningSegments = [(leaningBlock.take 22, leaningBlock.drop 22)] := by
  have hd : dataCodewords 2 .quartile leaningSegments = leaningBlock.take 22 := by
    unfold dataCodewords dataCapacity
    rw [leaning_blocks]
    decide +kernel
  have hec : ecCodewords (eccPerBlock 2 .quartile) (leaningBlock.take 22) = leaningBlock.drop 22 :=
    ecCodewords_unique (by decide) (by decide) (by rw [List.take_append_drop]; exact leaningBlock_codeword)
  unfold symbolFamily
  rw [leaning_blocks, hd]
  simp only [splitLens, List.map_cons, List.map_nil, List.take_take]
  rw [show min 22 22 = 22 by decide, hec]

theorem leaningModules_eq : encode 2 .quartile 1 leaningSegments (functionPatterns 2) = leaningModules :=
  encode_eq_of leaning_family (by decide +kernel) rfl rfl leaningModules_bits

/-- The image. -/
def leaning : GrayImage where
  width := 58
  height := 58
  pixels := leaningRows.flatten.map (BitVec.ofNat 8)

theorem leaning_rows : RowsOf leaning leaningRows leaningCols :=
  rowsOf_of rfl (by decide +kernel) (pixels_toNat (by decide +kernel)) (by decide +kernel)

theorem leaning_valid : leaning.Valid := ⟨by decide +kernel, by decide, by decide⟩

theorem leaning_black_or_white : leaningRows.all fun r => r.all fun v => v == 0 || v == 255 := by decide +kernel

theorem leaning_mixed : WellMixed leaning 1 :=
  wellMixed_of (table := leaningBlack) leaning_rows (by decide) leaning_black_or_white (by decide +kernel)
    (by decide +kernel)

theorem leaning_steady : ∀ y < leaning.height, SteadyRow leaning leaning.width y :=
  steadyRow_of leaning_rows (by decide +kernel)

theorem leaning_finders : ∀ f ∈ turnedFinders .upright 2 2 4 4, CleanFinder leaning 2 f.1 f.2 := by
  intro f hf
  have hf : f ∈ [(4, 4), (40, 4), (4, 40)] := hf
  simp only [List.mem_cons, List.not_mem_nil, or_false] at hf
  rcases hf with rfl | rfl | rfl <;> exact cleanFinder_of leaning_rows (by decide +kernel)

theorem leaning_no_others : NoOtherFinders leaning 2 (turnedFinders .upright 2 2 4 4) :=
  noOtherFinders_of leaning_rows (by decide +kernel)

/-- The reported finder centres. -/
def leaningTl : Pt := (11, 10)
def leaningTr : Pt := (47, 10)
def leaningBl : Pt := (11, 46)

theorem leaning_spot : oneSpot leaningRows leaningCols 58 25 41 44 39 42 leaningTl leaningTr leaningBl = true := by
  decide +kernel

theorem leaning_bits : rowsBits leaningImageBits 58 leaningRows 0 = true := by decide +kernel

theorem leaning_modules : modulesShownBits leaningImageBits leaningBits 58 58 25 leaningTl leaningTr leaningBl
    (some (85 / 2, 81 / 2)) = true := by
  decide +kernel

theorem leaning_aligned : mustBeAlignment leaningRows 58 25 leaningTl leaningTr leaningBl 2 0 0 = true := by
  decide +kernel

theorem leaning_shows : ShowsGrid leaning leaningModules 2 leaningTl leaningTr leaningBl := by
  have hx : ∀ a b : ℚ, (besideAlignment 25 leaningTl leaningTr leaningBl a b).1 = 41 + 2 * a := by
    intro a b
    unfold besideAlignment leaningTl leaningTr leaningBl
    simp only
    push_cast
    ring
  have hy : ∀ a b : ℚ, (besideAlignment 25 leaningTl leaningTr leaningBl a b).2 = 40 + 2 * b := by
    intro a b
    unfold besideAlignment leaningTl leaningTr leaningBl
    simp only
    push_cast
    ring
  have hw : (leaning.width : ℚ) = 58 := by norm_num [leaning]
  have hh : (leaning.height : ℚ) = 58 := by norm_num [leaning]
  refine ⟨?_, ?_, ?_⟩
  · intro _ a b ha hb
    rw [abs_le] at ha hb
    change ¬ Beyond leaning (besideAlignment 25 leaningTl leaningTr leaningBl a b)
    unfold Beyond
    rw [hx, hy, hw, hh]
    rintro (h | h) <;> linarith [ha.2, hb.2]
  · intro _
    refine ⟨2, 0, 0, ⟨by decide, by decide, by decide, by decide⟩, ?_⟩
    refine mustBeAlignment_of leaning_rows ?_ leaning_aligned
    intro a b ha hb
    rw [abs_le] at ha hb
    have a1 : (-2 : ℚ) ≤ a := by exact_mod_cast ha.1
    have a2 : (a : ℚ) ≤ 2 := by exact_mod_cast ha.2
    have b1 : (-2 : ℚ) ≤ b := by exact_mod_cast hb.1
    have b2 : (b : ℚ) ≤ 2 := by exact_mod_cast hb.2
    change Spec.Inside leaning (triedModule 25 leaningTl leaningTr leaningBl 2 0 0 (a, b))
    unfold Spec.Inside Beyond triedModule
    rw [hx, hy, hw, hh]
    push_cast
    refine ⟨by linarith, by linarith, ?_⟩
    rintro (h | h) <;> linarith
  · intro al h1 h2
    cases al with
    | none => exact absurd (h1.mp rfl) (by decide)
    | some a =>
      have ha := oneSpot_of leaning_rows leaning_valid leaning_spot (h2 a rfl)
      have ha' : a = (85 / 2, 81 / 2) := by rw [ha]; norm_num
      rw [ha']
      exact modulesShownBits_of leaning_rows leaning_bits leaningModules_bits rfl leaning_modules

/-- The image in light that falls from the lower right: black is shown by 60 on the left and above, and by 74 on the right
and below, white by 140 more. -/
def leaningInLight : GrayImage where
  width := 58
  height := 58
  pixels := (List.range (58 * 58)).map fun n =>
    BitVec.ofNat 8 ((n % 58 + n / 58) / 8 + 60 + if grey leaning (n % 58) (n / 58) = 0 then 0 else 140)

theorem leaningInLight_grey {x y : Nat} (hx : x < 58) (hy : y < 58) : grey leaningInLight x y =
    (x + y) / 8 + 60 + if grey leaning x y = 0 then 0 else 140 := by
  rw [grey.eq_def leaningInLight]
  have e1 : leaningInLight.width = 58 := rfl
  have hlt : y * 58 + x < 58 * 58 := by omega
  rw [e1, List.getD_eq_getElem?_getD]
  unfold leaningInLight
  simp only
  rw [List.getElem?_map, List.getElem?_range hlt]
  have e2 : (y * 58 + x) % 58 = x := by omega
  have e3 : (y * 58 + x) / 58 = y := by omega
  simp only [Option.map_some, Option.getD_some, e2, e3]
  rw [BitVec.toNat_ofNat]
  generalize grey leaning x y = k
  by_cases hk : k = 0
  · rw [if_pos hk]; omega
  · rw [if_neg hk]; omega

theorem leaningInLight_lit : LitEnlargement leaningInLight leaning 1 := by
  refine ⟨rfl, rfl, ?_⟩
  intro x hx y hy
  have hx' : x < 58 := hx
  have hy' : y < 58 := hy
  refine ⟨60 + ((x / 5 - 3) * 5 + (y / 5 - 3) * 5) / 8 + 8, 200 + ((x / 5 - 3) * 5 + (y / 5 - 3) * 5) / 8, 8, by omega,
    by omega, by omega, ?_⟩
  intro p hp
  have hp' : p.1 < 58 ∧ p.2 < 58 ∧ x / 5 - 3 ≤ p.1 / 5 ∧ p.1 / 5 ≤ x / 5 - 3 + 5 ∧ y / 5 - 3 ≤ p.2 / 5 ∧
      p.2 / 5 ≤ y / 5 - 3 + 5 := by
    rcases List.mem_cons.mp hp with rfl | hp
    · exact ⟨hx', hy', by omega, by omega, by omega, by omega⟩
    · unfold window nearBlock at hp
      have h1 := (List.mem_filter.mp hp).1
      have h2 := (List.mem_filter.mp hp).2
      rw [BlockedMean.mem_positions] at h1
      simp only [Bool.and_eq_true, decide_eq_true_eq] at h2
      have h3 : p.1 < 58 := h1.1
      have h4 : p.2 < 58 := h1.2
      omega
  have hb : grey leaning p.1 p.2 = 0 ∨ grey leaning p.1 p.2 = 255 :=
    black_or_white leaning_rows leaning_black_or_white (show _ < 58 by omega) (show _ < 58 by omega)
  rw [leaningInLight_grey hp'.1 hp'.2.1, Nat.div_one, Nat.div_one]
  rcases hb with hb | hb
  · rw [if_pos hb]
    exact Or.inl ⟨hb, by omega, by omega⟩
  · rw [if_neg (by omega)]
    exact Or.inr ⟨hb, by omega, by omega⟩

theorem leaning_is_symbol : IsSymbol leaningModules 2 .quartile 1 leaningSegments := by
  rw [← leaningModules_eq]
  refine encode_isSymbol 2 (by decide) (by decide) .quartile 1 leaningSegments ?_ _
  unfold dataCapacity
  rw [leaning_blocks]
  decide +kernel

/-- C72: it is read. -/
example : ∃ d : Decoder Unit GrayImage GrayImage QRLocation QRData (List Char), defaultDecoder id = .ret d ∧
      ∀ s, d.decode leaningInLight s = .ret ([.ok "LEANING".toList], s) := by
  have e1 : finderCentre 2 (tlFinder .upright 2 2 4 4) = leaningTl := by
    norm_num [finderCentre, tlFinder, cornerFinder, Orientation.upright, leaningTl]
  have e2 : finderCentre 2 (trFinder .upright 2 2 4 4) = leaningTr := by
    norm_num [finderCentre, trFinder, cornerFinder, Orientation.upright, leaningTr]
  have e3 : finderCentre 2 (blFinder .upright 2 2 4 4) = leaningBl := by
    norm_num [finderCentre, blFinder, cornerFinder, Orientation.upright, leaningBl]
  refine (default_decoder_reads_placed (σ := Unit) id leaningInLight ⟨by simp [leaningInLight], by decide, by decide⟩ leaning
    leaning_mixed leaningInLight_lit leaning_valid (by decide) (by decide) (by decide) leaningModules 2 (by decide)
    (by decide) .quartile 1 (by decide) leaningSegments (by unfold Segment.fits; decide) _ leaningSegments_text
    leaning_is_symbol .upright (by unfold Orientation.Mirrored; decide) 2 4 4 (by decide) leaning_finders leaning_steady leaning_no_others ?_).1
  rw [e1, e2, e3]
  exact leaning_shows

/-- C73: it meets the conditions of finding it among other things. -/
example : ∃ d : Decoder Unit GrayImage GrayImage QRLocation QRData (List Char), defaultDecoder id = .ret d ∧
      ∀ s rs s', d.decode leaningInLight s = .ret (rs, s') → .ok "LEANING".toList ∈ rs := by
  have e1 : finderCentre 2 (tlFinder .upright 2 2 4 4) = leaningTl := by
    norm_num [finderCentre, tlFinder, cornerFinder, Orientation.upright, leaningTl]
  have e2 : finderCentre 2 (trFinder .upright 2 2 4 4) = leaningTr := by
    norm_num [finderCentre, trFinder, cornerFinder, Orientation.upright, leaningTr]
  have e3 : finderCentre 2 (blFinder .upright 2 2 4 4) = leaningBl := by
    norm_num [finderCentre, blFinder, cornerFinder, Orientation.upright, leaningBl]
  refine (default_decoder_finds_in_perspective (σ := Unit) id leaningInLight ⟨by simp [leaningInLight], by decide, by decide⟩
    leaning leaning_mixed leaningInLight_lit leaning_valid (by decide) (by decide) (by decide) 2 (by decide)
    (turnedFinders .upright 2 2 4 4) leaning_finders (by unfold ScanOrder; decide) ?_ ?_ leaningModules 2 (by decide)
    (by decide) .quartile 1 (by decide) leaningSegments (by unfold Segment.fits; decide) _ leaningSegments_text
    leaning_is_symbol .upright (by unfold Orientation.Mirrored; decide) 4 4 (List.Sublist.refl _) ?_).1
  · intro f hf y hy
    refine leaning_steady y ?_
    have := (leaning_finders f hf).2.1
    omega
  · intro y hy x hx t ht
    rcases leaning_no_others y hy x hx t ht with h | h
    · exact Or.inl h
    · exact Or.inr (Or.inl h)
  · rw [e1, e2, e3]
    exact leaning_shows

end Verif.Props
