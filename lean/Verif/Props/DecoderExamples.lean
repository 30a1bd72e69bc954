import Verif.Props.Decoder
import Verif.Lemmas.Bitmap
/-! # Concrete cases for the theorems of `Verif.Props.Decoder` -/
namespace Verif.Props
open Spec

/-- "HELLO WORLD", in alphanumeric mode. -/
def helloSegments : List Segment := [.alphanumeric [17, 14, 21, 21, 24, 36, 32, 24, 27, 21, 13]]

theorem helloSegments_text : SegmentsText helloSegments "HELLO WORLD".toList :=
  .cons (.alphanumeric _) .nil

/-- A version 1-M symbol with mask 2 for `helloSegments`; its modules are pixels 0 and 255, and the
function patterns are left blank. -/
def helloGrid : QRData :=
  { data := (List.range 441).map fun i =>
      if placeModule 1 .medium 2 (streamOf isoBlock) (fun _ _ => false) (i % 21) (i / 21) then 0 else 255
    version := 1
    side := 21 }

/-- Its modules as a number. -/
def helloGridBits : Nat :=
  0x12D00A00000CA400D2A00E150067F805D58034F80040DAE040864A3293E637A7D43D00C8000000002E0001B0000680004C0003C0001200

theorem helloGrid_bits : Bitmap helloGrid helloGridBits := by
  unfold Bitmap helloGrid
  simp only
  apply List.map_congr_left
  intro i hi
  have hi := List.mem_range.mp hi
  have h : placed 1 .medium 2 (streamOf isoBlock) (fun _ _ => false) helloGridBits = true := by decide +kernel
  rw [placeModule_eq_bit h (show i % 21 < 21 by omega) (show i / 21 < 21 by omega),
    show i / 21 * sideOf 1 + i % 21 = i by show i / 21 * 21 + i % 21 = i; omega]
  cases bit helloGridBits i <;> rfl

/-- The hypotheses of `symbol_decodes` hold of `helloGrid`. -/
theorem helloGrid_isSymbol : IsSymbol helloGrid 1 .medium 2 helloSegments := by
  refine ⟨bitmap_wellFormed helloGrid_bits rfl rfl, shows_bit helloGrid_bits (by decide) (by decide +kernel),
    shows_bit helloGrid_bits (by decide) (by decide +kernel),
    [(isoBlock.take 16, isoBlock.drop 16)], [], (streamOf (isoBlock.take 16)).drop 74,
    ⟨?_, by simp [eccPerBlock]; decide +kernel⟩, ?_, by decide, ?_, by decide +kernel, ?_⟩
  · have hr : (List.range 1).map (blockData 1 .medium) = (List.range 1).map (fun i => (specRow 1 .medium i).2) := by
      apply List.map_congr_left
      intro i _
      rw [specRow_eq 1 (by decide) (by decide)]
    rw [show numBlocks 1 .medium = 1 by decide, hr]
    decide +kernel
  · intro b hb
    simp only [List.mem_singleton] at hb
    rw [hb, List.take_append_drop]
    exact isoBlock_codeword
  · rw [symbolBits_bit helloGrid_bits rfl]
    decide +kernel
  · exact .inr (by decide +kernel)

example : ∃ info, qrDecodeWithInfo (.ok helloGrid) = .ok ("HELLO WORLD".toList, info) ∧ info.errors = 0 := by
  obtain ⟨-, info, h, -, -, he⟩ := symbol_decodes helloGrid 1 (by decide) (by decide) .medium 2 (by decide) helloSegments
    (by unfold Segment.fits; decide) _ helloSegments_text helloGrid_isSymbol
  exact ⟨info, h, he⟩

/-- The encoder theorem applies to a larger symbol: 7-Q has six blocks of two sizes. -/
example (other : Nat → Nat → Bool) :
    qrDecode (.ok (encode 7 .quartile 5 (helloSegments ++ [.numeric [0, 1, 2, 3], .byte [0x41, 0xE9]]) other)) =
      .ok ("HELLO WORLD0123Aé".toList) :=
  encode_decode 7 (by decide) (by decide) .quartile 5 (by decide) _ (by unfold Segment.fits; decide) _
    (.cons (.alphanumeric _) (.cons (.numeric _) (.cons (.latin1 _ (by decide)) .nil)))
    (by
      have hr : dataCapacity 7 .quartile = ((List.range 6).map (fun i => (specRow 7 .quartile i).2)).sum := by
        unfold dataCapacity
        rw [show numBlocks 7 .quartile = 6 by decide]
        exact congrArg List.sum (List.map_congr_left fun i _ => by
          rw [specRow_eq 7 (by decide) (by decide)])
      rw [hr]
      decide +kernel) other

/-- C29: a complete grid of version 41. -/
example : WellFormed { data := List.replicate (sideOf 41 * sideOf 41) 0, version := 41, side := sideOf 41 } 41 :=
  ⟨rfl, rfl, List.length_replicate⟩

/-- C36: two different grids that meet the hypotheses (all function patterns but the first format copy are
dark in the second one). -/
def helloGridDark : QRData :=
  { helloGrid with data := (List.range 441).map fun i =>
      if isFunction 1 (i % 21) (i / 21) ∧ (i % 21, i / 21) ∉ formatCopy1 then 0 else helloGrid.data.getD i 0 }

/-- Its modules as a number. -/
def helloGridDarkBits : Nat :=
  0x12DFFA00FF8CA7FCD2BFEE15FF67FFFDD5FFF4FBFE40DEE040A64A3393E63FBFF47DFFCFFFFFFFFFEFFFFFBFFFF6FFFFCFFFFFDFFFF2FF

theorem helloGridDark_bits : Bitmap helloGridDark helloGridDarkBits := by
  unfold Bitmap helloGridDark
  simp only
  apply List.map_congr_left
  intro i hi
  have hi : i < 21 * 21 := List.mem_range.mp hi
  have h : ((List.range 441).all fun i => bit helloGridDarkBits i ==
      (decide (isFunction 1 (i % 21) (i / 21) ∧ (i % 21, i / 21) ∉ formatCopy1) || bit helloGridBits i)) = true := by
    decide +kernel
  have h := (List.all_eq_true.mp h) i (List.mem_range.mpr hi)
  rw [beq_iff_eq] at h
  rw [h, List.getD_eq_getElem?_getD, helloGrid_bits.get hi, Option.getD_some]
  by_cases hf : isFunction 1 (i % 21) (i / 21) ∧ (i % 21, i / 21) ∉ formatCopy1
  · rw [if_pos hf, decide_eq_true hf]; rfl
  · rw [if_neg hf, decide_eq_false hf, Bool.false_or]

theorem helloGridDark_hypotheses : helloGrid.data ≠ helloGridDark.data ∧ WellFormed helloGridDark 1 ∧
    Shows helloGridDark formatCopy1 (formatWord .medium 2) ∧
    (∀ x < 21, ∀ y < 21, ¬ isFunction 1 x y → moduleAt helloGrid x y = moduleAt helloGridDark x y) := by
  refine ⟨?_, bitmap_wellFormed helloGridDark_bits rfl rfl, shows_bit helloGridDark_bits (by decide) (by decide +kernel), ?_⟩
  · intro h
    have h0 := helloGrid_bits.get (i := 0) (by decide)
    rw [h, helloGridDark_bits.get (i := 0) (by decide)] at h0
    exact absurd (Option.some.inj h0) (by decide +kernel)
  · have h : ((List.range 21).all fun x => (List.range 21).all fun y => decide (isFunction 1 x y) ||
        bit helloGridBits (y * 21 + x) == bit helloGridDarkBits (y * 21 + x)) = true := by decide +kernel
    intro x hx y hy hf
    have h := (List.all_eq_true.mp ((List.all_eq_true.mp h) x (List.mem_range.mpr hx))) y (List.mem_range.mpr hy)
    rw [decide_eq_false hf, Bool.false_or, beq_iff_eq] at h
    rw [moduleAt_bit helloGrid_bits hx hy, moduleAt_bit helloGridDark_bits hx hy]
    exact congrArg some h

example : qrDecode (.ok helloGridDark) = .ok "HELLO WORLD".toList := by
  have h := (only_data_and_first_format_matter 1 helloGrid helloGridDark helloGrid_isSymbol.1
    helloGridDark_hypotheses.2.1 (fun x y hx hy => helloGridDark_hypotheses.2.2.2 x hx y hy)
    (formatWord .medium 2) helloGrid_isSymbol.2.1 helloGridDark_hypotheses.2.2.1 (by
      obtain ⟨m, hm, -⟩ := clean_format_first_copy helloGrid .medium 2 (by decide) helloGrid_isSymbol.2.1
      exact ⟨helloGrid, _, by decide, helloGrid_isSymbol.2.1, helloGrid_isSymbol.2.2.1, hm⟩)).1
  rw [← h]
  exact (symbol_decodes helloGrid 1 (by decide) (by decide) .medium 2 (by decide) helloSegments
    (by unfold Segment.fits; decide) _ helloSegments_text helloGrid_isSymbol).1

/-- C37, C39: the decoders on a grid with two damaged codewords. -/
def helloGridTwo : QRData :=
  { helloGrid with data := (List.range 441).map fun i =>
      if placeModule 1 .medium 2 (streamOf (damage isoBlock twoErrors)) (fun _ _ => false) (i % 21) (i / 21)
        then 0 else 255 }

example : qrDecodeWithInfo (.ok helloGridTwo) = .ok ("HELLO WORLD".toList,
    { version := 1, ecLevel := .medium, totalData := 128, errors := 6 }) := by decide +kernel

example : QRData.new [0, 255, 3] 1 = .ret ⟨[0, 255, 3], 1, 21⟩ ∧
    (⟨[0, 255, 3], 1, 21⟩ : QRData).index 0 0 = .ret true ∧
    (⟨[0, 255, 3], 1, 21⟩ : QRData).index 2 0 = .ret false ∧
    (⟨[0, 255, 3], 1, 21⟩ : QRData).index 3 0 = .panic := ⟨rfl, rfl, rfl, rfl⟩

end Verif.Props
