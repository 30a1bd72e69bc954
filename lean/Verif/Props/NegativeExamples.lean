import Verif.Props.NegativeLarge
import Verif.Props.LightingExamples
import Verif.Props.PlacedExamples

/-! # Negatives -/
namespace Verif.Props
open Verif Verif.Spec LineScan

/-- "READ", which is 1-H with mask 4, is taken for 1-L with mask 3 in the negative. -/
example : ReadsAs readModules .high 4 ∧ ReadsAs (negativeGrid readModules) .low 3 := by
  obtain ⟨h1, h2, -⟩ := negative_format readModules (by decide +kernel) .high 4 (by decide) (by decide +kernel)
  exact ⟨h1, h2⟩

/-- Correction then fails. -/
theorem read_negative_fails : qrDecode (.ok (negativeGrid readModules)) = .err ⟨"Could not calculate error distances"⟩ := by
  decide +kernel

theorem readPicture_valid : (readPicture 0).Valid := by
  refine ⟨?_, by decide, by decide⟩
  simp [readPicture, picture]

/-- C80: the negative of the image that reads "READ" in uneven light gives an error and nothing else. -/
example : ∃ d : Decoder Unit GrayImage GrayImage QRLocation QRData (List Char), defaultDecoder id = .ret d ∧
      ∀ s, d.decode (negative readInLight) s = .ret ([.error ⟨"Could not calculate error distances"⟩], s) := by
  obtain ⟨⟨d, e, h⟩, -⟩ := default_decoder_decodes_lit_negative (σ := Unit) id (negative readInLight)
    ⟨by simp [readInLight, negative, recoloured], by decide, by decide⟩ (readPicture 0) readPicture_valid 2 (by decide)
    readPicture_mixed (by rw [id, negative_negative]; exact readInLight_lit) (by decide) (by decide) (by decide)
    readModules (by unfold WellFormed; decide +kernel) (by rw [← readModules_eq]; exact encode_finders _ _ _ _) (.quarterTurns 0)
    ((not_mirrored_iff _).mpr ⟨0, rfl⟩) 4 4
    (drawn_turned (by decide +kernel) (picture_drawn (by simp only [turned, List.length_map, List.length_range]) (by omega)))
    (picture_quiet (by omega)) readPicture0.1 readPicture0.2.1
  exact ⟨d, e, h _ (Or.inr ⟨_, read_negative_fails, rfl⟩)⟩

/-- In the light image and in its negative the same is found. -/
example : detect (negative (readPicture 0)) = detect (readPicture 0) :=
  negative_is_found_alike _ (by unfold BlackWhite; decide +kernel)

/-! ### A larger symbol -/

/-- The rows of the picture of the version 2-Q symbol with mask 3 for "LIGHT ON DARK", one pixel per module, with a
border of four modules. -/
def uprightRows : List (List Nat) := [
    [255, 255, 255, 255, 255, 255, 255, 255, 255, 255, 255, 255, 255, 255, 255, 255, 255, 255, 255, 255, 255, 255, 255, 255, 255, 255, 255, 255, 255, 255, 255, 255, 255],
    [255, 255, 255, 255, 255, 255, 255, 255, 255, 255, 255, 255, 255, 255, 255, 255, 255, 255, 255, 255, 255, 255, 255, 255, 255, 255, 255, 255, 255, 255, 255, 255, 255],
    [255, 255, 255, 255, 255, 255, 255, 255, 255, 255, 255, 255, 255, 255, 255, 255, 255, 255, 255, 255, 255, 255, 255, 255, 255, 255, 255, 255, 255, 255, 255, 255, 255],
    [255, 255, 255, 255, 255, 255, 255, 255, 255, 255, 255, 255, 255, 255, 255, 255, 255, 255, 255, 255, 255, 255, 255, 255, 255, 255, 255, 255, 255, 255, 255, 255, 255],
    [255, 255, 255, 255, 0, 0, 0, 0, 0, 0, 0, 255, 255, 0, 0, 255, 0, 255, 255, 0, 0, 255, 0, 0, 0, 0, 0, 0, 0, 255, 255, 255, 255],
    [255, 255, 255, 255, 0, 255, 255, 255, 255, 255, 0, 255, 0, 0, 0, 0, 255, 255, 0, 0, 255, 255, 0, 255, 255, 255, 255, 255, 0, 255, 255, 255, 255],
    [255, 255, 255, 255, 0, 255, 0, 0, 0, 255, 0, 255, 0, 0, 0, 255, 255, 0, 0, 0, 255, 255, 0, 255, 0, 0, 0, 255, 0, 255, 255, 255, 255],
    [255, 255, 255, 255, 0, 255, 0, 0, 0, 255, 0, 255, 255, 255, 255, 0, 255, 255, 255, 255, 0, 255, 0, 255, 0, 0, 0, 255, 0, 255, 255, 255, 255],
    [255, 255, 255, 255, 0, 255, 0, 0, 0, 255, 0, 255, 255, 0, 0, 0, 255, 0, 255, 255, 255, 255, 0, 255, 0, 0, 0, 255, 0, 255, 255, 255, 255],
    [255, 255, 255, 255, 0, 255, 255, 255, 255, 255, 0, 255, 255, 255, 255, 0, 255, 255, 0, 255, 255, 255, 0, 255, 255, 255, 255, 255, 0, 255, 255, 255, 255],
    [255, 255, 255, 255, 0, 0, 0, 0, 0, 0, 0, 255, 0, 255, 0, 255, 0, 255, 0, 255, 0, 255, 0, 0, 0, 0, 0, 0, 0, 255, 255, 255, 255],
    [255, 255, 255, 255, 255, 255, 255, 255, 255, 255, 255, 255, 255, 0, 255, 0, 255, 0, 0, 255, 255, 255, 255, 255, 255, 255, 255, 255, 255, 255, 255, 255, 255],
    [255, 255, 255, 255, 255, 0, 0, 0, 255, 0, 0, 255, 255, 255, 0, 255, 0, 0, 0, 255, 0, 255, 255, 255, 255, 255, 0, 0, 255, 255, 255, 255, 255],
    [255, 255, 255, 255, 255, 255, 0, 0, 0, 255, 255, 0, 255, 0, 255, 255, 255, 255, 255, 0, 0, 255, 0, 255, 255, 0, 255, 255, 0, 255, 255, 255, 255],
    [255, 255, 255, 255, 0, 255, 0, 0, 255, 255, 0, 255, 0, 255, 255, 255, 255, 255, 0, 0, 255, 0, 255, 255, 255, 0, 0, 255, 0, 255, 255, 255, 255],
    [255, 255, 255, 255, 255, 255, 255, 0, 0, 0, 255, 0, 255, 0, 0, 255, 0, 0, 0, 0, 255, 255, 255, 0, 0, 0, 0, 0, 255, 255, 255, 255, 255],
    [255, 255, 255, 255, 255, 255, 255, 0, 255, 0, 0, 255, 255, 0, 0, 0, 0, 255, 255, 255, 0, 255, 0, 255, 0, 0, 255, 0, 0, 255, 255, 255, 255],
    [255, 255, 255, 255, 255, 255, 0, 255, 255, 0, 255, 0, 255, 0, 255, 255, 0, 255, 255, 255, 255, 0, 255, 255, 255, 0, 0, 255, 0, 255, 255, 255, 255],
    [255, 255, 255, 255, 255, 0, 255, 255, 255, 0, 0, 255, 255, 255, 255, 255, 255, 255, 0, 255, 255, 0, 0, 255, 0, 0, 255, 255, 255, 255, 255, 255, 255],
    [255, 255, 255, 255, 0, 255, 255, 255, 255, 255, 255, 255, 0, 0, 255, 255, 255, 0, 0, 0, 255, 255, 255, 255, 0, 255, 255, 255, 0, 255, 255, 255, 255],
    [255, 255, 255, 255, 255, 255, 0, 255, 0, 0, 0, 0, 0, 255, 0, 255, 255, 255, 255, 255, 0, 0, 0, 0, 0, 255, 0, 255, 0, 255, 255, 255, 255],
    [255, 255, 255, 255, 255, 255, 255, 255, 255, 255, 255, 255, 0, 255, 0, 255, 0, 0, 255, 255, 0, 255, 255, 255, 0, 255, 0, 0, 0, 255, 255, 255, 255],
    [255, 255, 255, 255, 0, 0, 0, 0, 0, 0, 0, 255, 255, 0, 0, 255, 0, 255, 0, 0, 0, 255, 0, 255, 0, 0, 0, 255, 255, 255, 255, 255, 255],
    [255, 255, 255, 255, 0, 255, 255, 255, 255, 255, 0, 255, 0, 0, 255, 0, 0, 255, 255, 0, 0, 255, 255, 255, 0, 0, 255, 0, 0, 255, 255, 255, 255],
    [255, 255, 255, 255, 0, 255, 0, 0, 0, 255, 0, 255, 255, 255, 0, 0, 255, 255, 0, 0, 0, 0, 0, 0, 0, 0, 255, 0, 255, 255, 255, 255, 255],
    [255, 255, 255, 255, 0, 255, 0, 0, 0, 255, 0, 255, 0, 255, 255, 255, 0, 0, 0, 0, 0, 0, 255, 0, 0, 255, 0, 255, 0, 255, 255, 255, 255],
    [255, 255, 255, 255, 0, 255, 0, 0, 0, 255, 0, 255, 0, 255, 255, 255, 255, 255, 0, 0, 0, 0, 255, 255, 0, 255, 0, 0, 255, 255, 255, 255, 255],
    [255, 255, 255, 255, 0, 255, 255, 255, 255, 255, 0, 255, 0, 255, 0, 0, 255, 255, 0, 0, 0, 255, 255, 255, 255, 0, 0, 255, 0, 255, 255, 255, 255],
    [255, 255, 255, 255, 0, 0, 0, 0, 0, 0, 0, 255, 255, 255, 0, 0, 0, 255, 255, 0, 255, 0, 0, 255, 255, 0, 0, 255, 0, 255, 255, 255, 255],
    [255, 255, 255, 255, 255, 255, 255, 255, 255, 255, 255, 255, 255, 255, 255, 255, 255, 255, 255, 255, 255, 255, 255, 255, 255, 255, 255, 255, 255, 255, 255, 255, 255],
    [255, 255, 255, 255, 255, 255, 255, 255, 255, 255, 255, 255, 255, 255, 255, 255, 255, 255, 255, 255, 255, 255, 255, 255, 255, 255, 255, 255, 255, 255, 255, 255, 255],
    [255, 255, 255, 255, 255, 255, 255, 255, 255, 255, 255, 255, 255, 255, 255, 255, 255, 255, 255, 255, 255, 255, 255, 255, 255, 255, 255, 255, 255, 255, 255, 255, 255],
    [255, 255, 255, 255, 255, 255, 255, 255, 255, 255, 255, 255, 255, 255, 255, 255, 255, 255, 255, 255, 255, 255, 255, 255, 255, 255, 255, 255, 255, 255, 255, 255, 255]]

/-- Its columns. -/
def uprightCols : List (List Nat) := [
    [255, 255, 255, 255, 255, 255, 255, 255, 255, 255, 255, 255, 255, 255, 255, 255, 255, 255, 255, 255, 255, 255, 255, 255, 255, 255, 255, 255, 255, 255, 255, 255, 255],
    [255, 255, 255, 255, 255, 255, 255, 255, 255, 255, 255, 255, 255, 255, 255, 255, 255, 255, 255, 255, 255, 255, 255, 255, 255, 255, 255, 255, 255, 255, 255, 255, 255],
    [255, 255, 255, 255, 255, 255, 255, 255, 255, 255, 255, 255, 255, 255, 255, 255, 255, 255, 255, 255, 255, 255, 255, 255, 255, 255, 255, 255, 255, 255, 255, 255, 255],
    [255, 255, 255, 255, 255, 255, 255, 255, 255, 255, 255, 255, 255, 255, 255, 255, 255, 255, 255, 255, 255, 255, 255, 255, 255, 255, 255, 255, 255, 255, 255, 255, 255],
    [255, 255, 255, 255, 0, 0, 0, 0, 0, 0, 0, 255, 255, 255, 0, 255, 255, 255, 255, 0, 255, 255, 0, 0, 0, 0, 0, 0, 0, 255, 255, 255, 255],
    [255, 255, 255, 255, 0, 255, 255, 255, 255, 255, 0, 255, 0, 255, 255, 255, 255, 255, 0, 255, 255, 255, 0, 255, 255, 255, 255, 255, 0, 255, 255, 255, 255],
    [255, 255, 255, 255, 0, 255, 0, 0, 0, 255, 0, 255, 0, 0, 0, 255, 255, 0, 255, 255, 0, 255, 0, 255, 0, 0, 0, 255, 0, 255, 255, 255, 255],
    [255, 255, 255, 255, 0, 255, 0, 0, 0, 255, 0, 255, 0, 0, 0, 0, 0, 255, 255, 255, 255, 255, 0, 255, 0, 0, 0, 255, 0, 255, 255, 255, 255],
    [255, 255, 255, 255, 0, 255, 0, 0, 0, 255, 0, 255, 255, 0, 255, 0, 255, 255, 255, 255, 0, 255, 0, 255, 0, 0, 0, 255, 0, 255, 255, 255, 255],
    [255, 255, 255, 255, 0, 255, 255, 255, 255, 255, 0, 255, 0, 255, 255, 0, 0, 0, 0, 255, 0, 255, 0, 255, 255, 255, 255, 255, 0, 255, 255, 255, 255],
    [255, 255, 255, 255, 0, 0, 0, 0, 0, 0, 0, 255, 0, 255, 0, 255, 0, 255, 0, 255, 0, 255, 0, 0, 0, 0, 0, 0, 0, 255, 255, 255, 255],
    [255, 255, 255, 255, 255, 255, 255, 255, 255, 255, 255, 255, 255, 0, 255, 0, 255, 0, 255, 255, 0, 255, 255, 255, 255, 255, 255, 255, 255, 255, 255, 255, 255],
    [255, 255, 255, 255, 255, 0, 0, 255, 255, 255, 0, 255, 255, 255, 0, 255, 255, 255, 255, 0, 0, 0, 255, 0, 255, 0, 0, 0, 255, 255, 255, 255, 255],
    [255, 255, 255, 255, 0, 0, 0, 255, 0, 255, 255, 0, 255, 0, 255, 0, 0, 0, 255, 0, 255, 255, 0, 0, 255, 255, 255, 255, 255, 255, 255, 255, 255],
    [255, 255, 255, 255, 0, 0, 0, 255, 0, 255, 0, 255, 0, 255, 255, 0, 0, 255, 255, 255, 0, 0, 0, 255, 0, 255, 255, 0, 0, 255, 255, 255, 255],
    [255, 255, 255, 255, 255, 0, 255, 0, 0, 0, 255, 0, 255, 255, 255, 255, 0, 255, 255, 255, 255, 255, 255, 0, 0, 255, 255, 0, 0, 255, 255, 255, 255],
    [255, 255, 255, 255, 0, 255, 255, 255, 255, 255, 0, 255, 0, 255, 255, 0, 0, 0, 255, 255, 255, 0, 0, 0, 255, 0, 255, 255, 0, 255, 255, 255, 255],
    [255, 255, 255, 255, 255, 255, 0, 255, 0, 255, 255, 0, 0, 255, 255, 0, 255, 255, 255, 0, 255, 0, 255, 255, 255, 0, 255, 255, 255, 255, 255, 255, 255],
    [255, 255, 255, 255, 255, 0, 0, 255, 255, 0, 0, 0, 0, 255, 0, 0, 255, 255, 0, 0, 255, 255, 0, 255, 0, 0, 0, 0, 255, 255, 255, 255, 255],
    [255, 255, 255, 255, 0, 0, 0, 255, 255, 255, 255, 255, 255, 0, 0, 0, 255, 255, 255, 0, 255, 255, 0, 0, 0, 0, 0, 0, 0, 255, 255, 255, 255],
    [255, 255, 255, 255, 0, 255, 255, 0, 255, 255, 0, 255, 0, 0, 255, 255, 0, 255, 255, 255, 0, 0, 0, 0, 0, 0, 0, 0, 255, 255, 255, 255, 255],
    [255, 255, 255, 255, 255, 255, 255, 255, 255, 255, 255, 255, 255, 255, 0, 255, 255, 0, 0, 255, 0, 255, 255, 255, 0, 0, 0, 255, 0, 255, 255, 255, 255],
    [255, 255, 255, 255, 0, 0, 0, 0, 0, 0, 0, 255, 255, 0, 255, 255, 0, 255, 0, 255, 0, 255, 0, 255, 0, 255, 255, 255, 0, 255, 255, 255, 255],
    [255, 255, 255, 255, 0, 255, 255, 255, 255, 255, 0, 255, 255, 255, 255, 0, 255, 255, 255, 255, 0, 255, 255, 255, 0, 0, 255, 255, 255, 255, 255, 255, 255],
    [255, 255, 255, 255, 0, 255, 0, 0, 0, 255, 0, 255, 255, 255, 255, 0, 0, 255, 0, 0, 0, 0, 0, 0, 0, 0, 0, 255, 255, 255, 255, 255, 255],
    [255, 255, 255, 255, 0, 255, 0, 0, 0, 255, 0, 255, 255, 0, 0, 0, 0, 0, 0, 255, 255, 255, 0, 0, 0, 255, 255, 0, 0, 255, 255, 255, 255],
    [255, 255, 255, 255, 0, 255, 0, 0, 0, 255, 0, 255, 0, 255, 0, 0, 255, 0, 255, 255, 0, 0, 0, 255, 255, 0, 0, 0, 0, 255, 255, 255, 255],
    [255, 255, 255, 255, 0, 255, 255, 255, 255, 255, 0, 255, 0, 255, 255, 0, 0, 255, 255, 255, 255, 0, 255, 0, 0, 255, 0, 255, 255, 255, 255, 255, 255],
    [255, 255, 255, 255, 0, 0, 0, 0, 0, 0, 0, 255, 255, 0, 0, 255, 0, 0, 255, 0, 0, 0, 255, 0, 255, 0, 255, 0, 0, 255, 255, 255, 255],
    [255, 255, 255, 255, 255, 255, 255, 255, 255, 255, 255, 255, 255, 255, 255, 255, 255, 255, 255, 255, 255, 255, 255, 255, 255, 255, 255, 255, 255, 255, 255, 255, 255],
    [255, 255, 255, 255, 255, 255, 255, 255, 255, 255, 255, 255, 255, 255, 255, 255, 255, 255, 255, 255, 255, 255, 255, 255, 255, 255, 255, 255, 255, 255, 255, 255, 255],
    [255, 255, 255, 255, 255, 255, 255, 255, 255, 255, 255, 255, 255, 255, 255, 255, 255, 255, 255, 255, 255, 255, 255, 255, 255, 255, 255, 255, 255, 255, 255, 255, 255],
    [255, 255, 255, 255, 255, 255, 255, 255, 255, 255, 255, 255, 255, 255, 255, 255, 255, 255, 255, 255, 255, 255, 255, 255, 255, 255, 255, 255, 255, 255, 255, 255, 255]]

/-- For every row of the picture and every window, the number of black pixels with modules of two pixels. -/
def uprightBlack : List (List Nat) := [
    [0, 0, 0, 0, 0, 0, 0, 0, 0, 0, 0, 0, 0, 0],
    [0, 0, 0, 0, 0, 0, 0, 0, 0, 0, 0, 0, 0, 0],
    [0, 0, 0, 0, 0, 0, 0, 0, 0, 0, 0, 0, 0, 0],
    [0, 0, 0, 0, 0, 0, 0, 0, 0, 0, 0, 0, 0, 0],
    [7, 12, 14, 18, 20, 20, 18, 18, 21, 20, 18, 16, 13, 8],
    [2, 2, 5, 10, 12, 14, 15, 16, 13, 10, 8, 4, 3, 2],
    [5, 8, 11, 16, 17, 20, 18, 18, 19, 16, 15, 10, 9, 6],
    [5, 8, 10, 10, 12, 10, 10, 10, 12, 14, 12, 12, 9, 6],
    [5, 8, 10, 14, 17, 16, 14, 14, 16, 14, 11, 10, 9, 6],
    [2, 2, 4, 4, 6, 6, 7, 8, 6, 8, 6, 4, 3, 2],
    [7, 12, 15, 18, 20, 20, 18, 18, 20, 20, 18, 16, 13, 8],
    [0, 0, 0, 2, 5, 8, 8, 8, 8, 6, 3, 0, 0, 0],
    [5, 8, 10, 12, 15, 18, 15, 12, 13, 12, 9, 6, 4, 4],
    [3, 6, 8, 10, 10, 12, 12, 10, 10, 10, 10, 8, 5, 4],
    [5, 6, 9, 10, 10, 12, 11, 10, 11, 12, 12, 8, 6, 6],
    [1, 6, 8, 12, 15, 20, 19, 18, 21, 18, 15, 10, 10, 6],
    [1, 4, 6, 10, 14, 14, 16, 16, 17, 16, 12, 12, 9, 6],
    [2, 4, 6, 8, 10, 10, 10, 8, 10, 10, 8, 8, 6, 6],
    [2, 4, 6, 6, 6, 8, 9, 10, 10, 10, 10, 8, 5, 2],
    [2, 2, 3, 6, 7, 10, 10, 12, 11, 10, 9, 4, 4, 2],
    [2, 6, 11, 14, 14, 14, 17, 18, 15, 14, 14, 14, 9, 4],
    [0, 0, 1, 4, 7, 8, 10, 12, 14, 14, 11, 10, 8, 6],
    [7, 12, 14, 18, 20, 22, 20, 18, 20, 16, 14, 10, 7, 4],
    [2, 2, 5, 8, 12, 12, 14, 16, 16, 16, 12, 10, 8, 6],
    [5, 8, 10, 12, 14, 16, 18, 20, 21, 20, 18, 14, 9, 4],
    [5, 8, 11, 12, 15, 18, 19, 20, 19, 20, 17, 12, 8, 4],
    [5, 8, 11, 12, 12, 14, 15, 14, 14, 14, 14, 10, 6, 4],
    [2, 2, 5, 8, 10, 12, 14, 14, 15, 14, 12, 8, 6, 6],
    [7, 12, 14, 16, 20, 20, 18, 14, 16, 16, 12, 10, 7, 6],
    [0, 0, 0, 0, 0, 0, 0, 0, 0, 0, 0, 0, 0, 0],
    [0, 0, 0, 0, 0, 0, 0, 0, 0, 0, 0, 0, 0, 0],
    [0, 0, 0, 0, 0, 0, 0, 0, 0, 0, 0, 0, 0, 0],
    [0, 0, 0, 0, 0, 0, 0, 0, 0, 0, 0, 0, 0, 0]]

/-- The modules of the symbol. -/
def uprightModules : QRData where
  data := [0, 0, 0, 0, 0, 0, 0, 255, 255, 0, 0, 255, 0, 255, 255, 0, 0, 255, 0, 0, 0, 0, 0, 0, 0,
    0, 255, 255, 255, 255, 255, 0, 255, 0, 0, 0, 0, 255, 255, 0, 0, 255, 255, 0, 255, 255, 255, 255, 255, 0,
    0, 255, 0, 0, 0, 255, 0, 255, 0, 0, 0, 255, 255, 0, 0, 0, 255, 255, 0, 255, 0, 0, 0, 255, 0,
    0, 255, 0, 0, 0, 255, 0, 255, 255, 255, 255, 0, 255, 255, 255, 255, 0, 255, 0, 255, 0, 0, 0, 255, 0,
    0, 255, 0, 0, 0, 255, 0, 255, 255, 0, 0, 0, 255, 0, 255, 255, 255, 255, 0, 255, 0, 0, 0, 255, 0,
    0, 255, 255, 255, 255, 255, 0, 255, 255, 255, 255, 0, 255, 255, 0, 255, 255, 255, 0, 255, 255, 255, 255, 255, 0,
    0, 0, 0, 0, 0, 0, 0, 255, 0, 255, 0, 255, 0, 255, 0, 255, 0, 255, 0, 0, 0, 0, 0, 0, 0,
    255, 255, 255, 255, 255, 255, 255, 255, 255, 0, 255, 0, 255, 0, 0, 255, 255, 255, 255, 255, 255, 255, 255, 255, 255,
    255, 0, 0, 0, 255, 0, 0, 255, 255, 255, 0, 255, 0, 0, 0, 255, 0, 255, 255, 255, 255, 255, 0, 0, 255,
    255, 255, 0, 0, 0, 255, 255, 0, 255, 0, 255, 255, 255, 255, 255, 0, 0, 255, 0, 255, 255, 0, 255, 255, 0,
    0, 255, 0, 0, 255, 255, 0, 255, 0, 255, 255, 255, 255, 255, 0, 0, 255, 0, 255, 255, 255, 0, 0, 255, 0,
    255, 255, 255, 0, 0, 0, 255, 0, 255, 0, 0, 255, 0, 0, 0, 0, 255, 255, 255, 0, 0, 0, 0, 0, 255,
    255, 255, 255, 0, 255, 0, 0, 255, 255, 0, 0, 0, 0, 255, 255, 255, 0, 255, 0, 255, 0, 0, 255, 0, 0,
    255, 255, 0, 255, 255, 0, 255, 0, 255, 0, 255, 255, 0, 255, 255, 255, 255, 0, 255, 255, 255, 0, 0, 255, 0,
    255, 0, 255, 255, 255, 0, 0, 255, 255, 255, 255, 255, 255, 255, 0, 255, 255, 0, 0, 255, 0, 0, 255, 255, 255,
    0, 255, 255, 255, 255, 255, 255, 255, 0, 0, 255, 255, 255, 0, 0, 0, 255, 255, 255, 255, 0, 255, 255, 255, 0,
    255, 255, 0, 255, 0, 0, 0, 0, 0, 255, 0, 255, 255, 255, 255, 255, 0, 0, 0, 0, 0, 255, 0, 255, 0,
    255, 255, 255, 255, 255, 255, 255, 255, 0, 255, 0, 255, 0, 0, 255, 255, 0, 255, 255, 255, 0, 255, 0, 0, 0,
    0, 0, 0, 0, 0, 0, 0, 255, 255, 0, 0, 255, 0, 255, 0, 0, 0, 255, 0, 255, 0, 0, 0, 255, 255,
    0, 255, 255, 255, 255, 255, 0, 255, 0, 0, 255, 0, 0, 255, 255, 0, 0, 255, 255, 255, 0, 0, 255, 0, 0,
    0, 255, 0, 0, 0, 255, 0, 255, 255, 255, 0, 0, 255, 255, 0, 0, 0, 0, 0, 0, 0, 0, 255, 0, 255,
    0, 255, 0, 0, 0, 255, 0, 255, 0, 255, 255, 255, 0, 0, 0, 0, 0, 0, 255, 0, 0, 255, 0, 255, 0,
    0, 255, 0, 0, 0, 255, 0, 255, 0, 255, 255, 255, 255, 255, 0, 0, 0, 0, 255, 255, 0, 255, 0, 0, 255,
    0, 255, 255, 255, 255, 255, 0, 255, 0, 255, 0, 0, 255, 255, 0, 0, 0, 255, 255, 255, 255, 0, 0, 255, 0,
    0, 0, 0, 0, 0, 0, 0, 255, 255, 255, 0, 0, 0, 255, 255, 0, 255, 0, 0, 255, 255, 0, 0, 255, 0]
  version := 2
  side := 25

/-- The modules as a number. -/
def uprightBits : Nat :=
  0x1669C7FB0E6A0B4F0576B7E2BABFCC5DD8CDA09D759FFA26A015F05F48871808D9018AC42549B51E687C7B5C58B05364B0538C1746E0035007F555FE089083742E5DBA842EDD39D76099E83FD967F

theorem uprightModules_bits : Bitmap uprightModules uprightBits := by unfold Bitmap; decide +kernel

/-- Its only block. -/
def uprightBlock : List U8 :=
  [32, 107, 195, 92, 52, 246, 39, 230, 19, 186, 160, 0, 236, 17, 236, 17, 236, 17, 236, 17, 236, 17, 124, 87,
    152, 168, 196, 198, 205, 9, 129, 107, 200, 12, 196, 72, 134, 206, 2, 212, 98, 64, 82, 178]

/-- "LIGHT ON DARK", in alphanumeric mode. -/
def uprightSegments : List Segment := [.alphanumeric [21, 18, 16, 17, 29, 36, 24, 23, 36, 13, 10, 27, 20]]

example : SegmentsText uprightSegments "LIGHT ON DARK".toList := .cons (.alphanumeric _) .nil

theorem uprightBlock_codeword : IsCodeword (eccPerBlock 2 .quartile) uprightBlock :=
  isCodeword_of_syndromes 22 (by decide) _ (by decide +kernel)

theorem upright_family : symbolFamily 2 .quartile uprightSegments = [(uprightBlock.take 22, uprightBlock.drop 22)] := by
  have hd : dataCodewords 2 .quartile uprightSegments = uprightBlock.take 22 := by
    unfold dataCodewords dataCapacity
    rw [leaning_blocks]
    decide +kernel
  have hec : ecCodewords (eccPerBlock 2 .quartile) (uprightBlock.take 22) = uprightBlock.drop 22 :=
    ecCodewords_unique (by decide) (by decide) (by rw [List.take_append_drop]; exact uprightBlock_codeword)
  unfold symbolFamily
  rw [leaning_blocks, hd]
  simp only [splitLens, List.map_cons, List.map_nil, List.take_take]
  rw [show min 22 22 = 22 by decide, hec]

theorem uprightModules_eq : encode 2 .quartile 3 uprightSegments (functionPatterns 2) = uprightModules :=
  encode_eq_of upright_family (by decide +kernel) rfl rfl uprightModules_bits

/-- The picture. -/
def uprightPicture : GrayImage := picture uprightModules 1 4

theorem upright_rows : RowsOf uprightPicture uprightRows uprightCols :=
  rowsOf_picture uprightModules_bits (by decide +kernel) (by decide +kernel)

theorem upright_black_or_white : uprightRows.all fun r => r.all fun v => v == 0 || v == 255 := by decide +kernel

theorem upright_mixed : WellMixed uprightPicture 2 :=
  wellMixed_of (table := uprightBlack) upright_rows (by decide) upright_black_or_white (by decide +kernel)
    (by decide +kernel)

/-- "LIGHT ON DARK" in light grey on dark grey, with modules of two pixels. -/
def lightOnDark : GrayImage where
  width := 66
  height := 66
  pixels := (List.range (66 * 66)).map fun n =>
    if grey uprightPicture (n % 66 / 2) (n / 66 / 2) = 0 then 200#8 else 40#8

theorem lightOnDark_negative {x y : Nat} (hx : x < 66) (hy : y < 66) : grey (negative lightOnDark) x y =
    if grey uprightPicture (x / 2) (y / 2) = 0 then 55 else 215 := by
  have hlt : y * 66 + x < 66 * 66 := by omega
  rw [grey.eq_def (negative lightOnDark)]
  have e1 : (negative lightOnDark).width = 66 := rfl
  rw [e1, List.getD_eq_getElem?_getD]
  unfold negative recoloured lightOnDark
  simp only
  rw [List.getElem?_map, List.getElem?_map, List.getElem?_range hlt]
  have e2 : (y * 66 + x) % 66 = x := by omega
  have e3 : (y * 66 + x) / 66 = y := by omega
  simp only [Option.map_some, Option.getD_some, e2, e3]
  split <;> rfl

theorem lightOnDark_lit : LitEnlargement (negative lightOnDark) uprightPicture 2 := by
  refine ⟨rfl, rfl, ?_⟩
  intro x hx y hy
  refine ⟨55, 215, 0, by omega, by omega, by omega, ?_⟩
  intro p hp
  have hp' : p.1 < 66 ∧ p.2 < 66 := by
    rcases List.mem_cons.mp hp with rfl | hp
    · exact ⟨hx, hy⟩
    · unfold window at hp
      have h1 := (List.mem_filter.mp hp).1
      rw [BlockedMean.mem_positions] at h1
      exact h1
  have hb : grey uprightPicture (p.1 / 2) (p.2 / 2) = 0 ∨ grey uprightPicture (p.1 / 2) (p.2 / 2) = 255 :=
    black_or_white upright_rows upright_black_or_white (show _ < 33 by omega) (show _ < 33 by omega)
  rw [lightOnDark_negative hp'.1 hp'.2]
  rcases hb with hb | hb
  · rw [if_pos hb]
    exact Or.inl ⟨hb, by omega, by omega⟩
  · rw [if_neg (by omega)]
    exact Or.inr ⟨hb, by omega, by omega⟩

theorem upright_has_alignment : HasAlignment uprightModules := by
  rw [← uprightModules_eq]
  exact encode_alignment (by decide) (by decide) _ _ _ (functionPatterns_alignment 2 (by decide) (by decide))

/-- C80 (larger versions): light on dark it is located, and reported as having no alignment pattern. -/
example : ∃ d : Decoder Unit GrayImage GrayImage QRLocation QRData (List Char), defaultDecoder id = .ret d ∧
      ∀ s, d.decode lightOnDark s = .ret ([.error ⟨"Unable to find alignment pattern"⟩], s) :=
  (default_decoder_refuses_lit_negative (σ := Unit) id lightOnDark ⟨by simp [lightOnDark], by decide, by decide⟩
    uprightPicture (picture_valid (by decide)) 2 (by decide) upright_mixed lightOnDark_lit (by decide) (by decide) (by decide)
    uprightModules 2 (by decide) (by decide) (by unfold WellFormed; decide +kernel)
    (by rw [← uprightModules_eq]; exact encode_finders _ _ _ _) upright_has_alignment .upright
    ((not_mirrored_iff _).mpr ⟨0, rfl⟩) (Or.inl rfl) 4 4 (picture_drawn (by decide +kernel) (by omega))
    (picture_quiet (by omega)) (steadyRow_of upright_rows (by decide +kernel))
    (neverOthers_of upright_rows (by decide +kernel))).1

end Verif.Props
