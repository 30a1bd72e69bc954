import Verif.Props.Rendering
import Verif.Props.ExtractPanics
import Verif.Props.DecoderExamples

/-!
# Examples for C52-C55 and C60
-/
namespace Verif.Props
open Verif Verif.Spec F64 Extractor

/-- C54 for a concrete grid: 3 pixels per module, a border of 12 pixels. -/
theorem hello_extracted : extract (picture helloGrid 3 12) (exactLocation helloGrid 3 12) = .ok helloGrid :=
  picture_is_extracted helloGrid 1 (by decide) (by decide) (by unfold WellFormed; decide +kernel)
    (by omega) 3 12 (by decide) (by decide)

/-- C52 and C53 apply to it. -/
example : helloGrid.data.length = 441 :=
  (extracted_grid_is_well_formed _ _ _ hello_extracted).2.2.1

example : ∃ al : Option Pt, (al = none ↔ (exactLocation helloGrid 3 12).version = 1) ∧
    ∀ i < 21, ∀ j < 21, ∃ c, helloGrid.data[i * 21 + j]? = some c ∧
      PixelNear (picture helloGrid 3 12) (bilinear 21 (exactCentres 21 3 12).1 (exactCentres 21 3 12).2.1
        (exactCentres 21 3 12).2.2 al i j) (1 / 100) c := by
  obtain ⟨al, h1, -, h3⟩ := samples_are_bilinear _ (picture_valid (by decide)) (by decide) (by decide) _ _ _ _
    (exactLocation_located (q := helloGrid) (m := 3) (b := 12) (by decide) (by decide) (by decide)) (by decide) (by decide) _
    hello_extracted
  exact ⟨al, h1, h3⟩

/-- The centres may be off by half a pixel, as they are if pixel edges are taken for pixel centres. -/
example : 13 / 10 * |(1 / 2 : ℚ)| + 5 * 0 + 1 / 20 ≤ (2 : Nat) / 2 := by norm_num

/-- C60 for a concrete text, in a version with an alignment pattern. -/
example : ∃ grid, extract (picture (encode 7 .quartile 5 helloSegments (functionPatterns 7)) 4 16)
      (exactLocation (encode 7 .quartile 5 helloSegments (functionPatterns 7)) 4 16) = .ok grid ∧
    qrDecode (.ok grid) = .ok "HELLO WORLD".toList :=
  picture_of_text_decodes 7 (by decide) (by decide) .quartile 5 (by decide) _ (by unfold Segment.fits; decide) _
    helloSegments_text (by
      have hr : dataCapacity 7 .quartile = ((List.range 6).map (fun i => (specRow 7 .quartile i).2)).sum := by
        unfold dataCapacity
        rw [show numBlocks 7 .quartile = 6 by decide]
        exact congrArg List.sum (List.map_congr_left fun i _ => by
          rw [specRow_eq 7 (by decide) (by decide)])
      rw [hr]
      decide +kernel) 4 16 (by decide) (by decide)

/-- The same location with pixel edges taken for pixel centres: half a pixel further right. -/
def edgeLocation (q : QRData) (m b : Nat) : QRLocation :=
  let c := exactCentres q.side m b
  ⟨⟨.fin (c.1.1 + 1 / 2), .fin c.1.2⟩, ⟨.fin (c.2.1.1 + 1 / 2), .fin c.2.1.2⟩,
    ⟨.fin (c.2.2.1 + 1 / 2), .fin c.2.2.2⟩, .fin m, q.version⟩

set_option maxRecDepth 100000 in
/-- The tolerance matters: with modules of one pixel and centres half a pixel to the right, every module is
taken from its right neighbour. -/
theorem one_pixel_modules_are_misread :
    ∃ q, extract (picture helloGrid 1 4) (edgeLocation helloGrid 1 4) = .ok q ∧ q.data ≠ helloGrid.data ∧
      q.data[0]? = helloGrid.data[1]? := by
  have h : (match extract (picture helloGrid 1 4) (edgeLocation helloGrid 1 4) with
    | .ok q => decide (q.data ≠ helloGrid.data ∧ q.data[0]? = helloGrid.data[1]?)
    | _ => false) = true := by decide +kernel
  cases he : extract (picture helloGrid 1 4) (edgeLocation helloGrid 1 4) with
  | panic => rw [he] at h; cases h
  | err e => rw [he] at h; cases h
  | ok q =>
    rw [he] at h
    exact ⟨q, rfl, of_decide_eq_true h⟩

/-- C55: the hypotheses of `version_one_inside_is_extracted_partial` hold of the first example, those of
`version_one_outside_panics` of the image that is too small by a few pixels. -/
example : ∀ i < 21, ∀ j < 21, (bilinear 21 (exactCentres 21 3 12).1 (exactCentres 21 3 12).2.1
    (exactCentres 21 3 12).2.2 none i j).1 ≤ ((picture helloGrid 3 12).width : ℚ) - 1 / 2 - 1 / 50 := by
  decide +kernel

example : ((20 : Nat) : ℚ) - 1 / 2 + 1 / 50 ≤ (bilinear 21 (11 / 2, 6) (35 / 2, 7) (13 / 2, 18) none 20 20).1 := by
  decide +kernel

end Verif.Props
