import Verif.Lemmas.Bitmap
import Verif.Props.Scales
import Verif.Lemmas.EnlargeCheck
import Verif.Lemmas.EncodeUnique
import Verif.Props.DecoderExamples

/-! # "HELLO WORLD", read at every size -/
namespace Verif.Props
open Verif Verif.Spec LineScan

/-- The rows of the picture of a version 1-M symbol with mask 3 for "HELLO WORLD", one pixel per module, with a border
of four modules. -/
def helloRows : List (List Nat) := [
    [255, 255, 255, 255, 255, 255, 255, 255, 255, 255, 255, 255, 255, 255, 255, 255, 255, 255, 255, 255, 255, 255, 255, 255, 255, 255, 255, 255, 255],
    [255, 255, 255, 255, 255, 255, 255, 255, 255, 255, 255, 255, 255, 255, 255, 255, 255, 255, 255, 255, 255, 255, 255, 255, 255, 255, 255, 255, 255],
    [255, 255, 255, 255, 255, 255, 255, 255, 255, 255, 255, 255, 255, 255, 255, 255, 255, 255, 255, 255, 255, 255, 255, 255, 255, 255, 255, 255, 255],
    [255, 255, 255, 255, 255, 255, 255, 255, 255, 255, 255, 255, 255, 255, 255, 255, 255, 255, 255, 255, 255, 255, 255, 255, 255, 255, 255, 255, 255],
    [255, 255, 255, 255, 0, 0, 0, 0, 0, 0, 0, 255, 0, 0, 255, 255, 0, 255, 0, 0, 0, 0, 0, 0, 0, 255, 255, 255, 255],
    [255, 255, 255, 255, 0, 255, 255, 255, 255, 255, 0, 255, 0, 255, 0, 255, 255, 255, 0, 255, 255, 255, 255, 255, 0, 255, 255, 255, 255],
    [255, 255, 255, 255, 0, 255, 0, 0, 0, 255, 0, 255, 255, 255, 0, 255, 255, 255, 0, 255, 0, 0, 0, 255, 0, 255, 255, 255, 255],
    [255, 255, 255, 255, 0, 255, 0, 0, 0, 255, 0, 255, 0, 255, 0, 0, 255, 255, 0, 255, 0, 0, 0, 255, 0, 255, 255, 255, 255],
    [255, 255, 255, 255, 0, 255, 0, 0, 0, 255, 0, 255, 255, 255, 255, 255, 255, 255, 0, 255, 0, 0, 0, 255, 0, 255, 255, 255, 255],
    [255, 255, 255, 255, 0, 255, 255, 255, 255, 255, 0, 255, 255, 255, 255, 255, 255, 255, 0, 255, 255, 255, 255, 255, 0, 255, 255, 255, 255],
    [255, 255, 255, 255, 0, 0, 0, 0, 0, 0, 0, 255, 0, 255, 0, 255, 0, 255, 0, 0, 0, 0, 0, 0, 0, 255, 255, 255, 255],
    [255, 255, 255, 255, 255, 255, 255, 255, 255, 255, 255, 255, 0, 0, 255, 255, 255, 255, 255, 255, 255, 255, 255, 255, 255, 255, 255, 255, 255],
    [255, 255, 255, 255, 0, 255, 0, 0, 255, 0, 0, 0, 255, 0, 255, 255, 255, 255, 0, 255, 255, 0, 255, 0, 0, 255, 255, 255, 255],
    [255, 255, 255, 255, 0, 255, 0, 0, 0, 0, 255, 0, 0, 255, 255, 255, 0, 0, 255, 255, 0, 0, 0, 0, 0, 255, 255, 255, 255],
    [255, 255, 255, 255, 0, 255, 255, 0, 255, 255, 0, 0, 0, 0, 0, 255, 0, 255, 0, 255, 255, 255, 0, 255, 255, 255, 255, 255, 255],
    [255, 255, 255, 255, 0, 0, 0, 255, 0, 255, 255, 0, 0, 0, 0, 255, 0, 0, 255, 255, 0, 255, 0, 0, 255, 255, 255, 255, 255],
    [255, 255, 255, 255, 255, 0, 0, 0, 255, 0, 0, 0, 0, 255, 0, 0, 255, 255, 255, 255, 255, 255, 0, 255, 255, 255, 255, 255, 255],
    [255, 255, 255, 255, 255, 255, 255, 255, 255, 255, 255, 255, 0, 0, 0, 255, 255, 0, 255, 0, 255, 255, 0, 0, 255, 255, 255, 255, 255],
    [255, 255, 255, 255, 0, 0, 0, 0, 0, 0, 0, 255, 0, 255, 255, 255, 255, 0, 0, 0, 255, 0, 255, 0, 0, 255, 255, 255, 255],
    [255, 255, 255, 255, 0, 255, 255, 255, 255, 255, 0, 255, 0, 0, 0, 0, 0, 0, 0, 0, 255, 255, 0, 0, 255, 255, 255, 255, 255],
    [255, 255, 255, 255, 0, 255, 0, 0, 0, 255, 0, 255, 255, 0, 0, 0, 255, 255, 0, 0, 255, 255, 255, 0, 0, 255, 255, 255, 255],
    [255, 255, 255, 255, 0, 255, 0, 0, 0, 255, 0, 255, 0, 0, 255, 255, 255, 0, 255, 255, 0, 0, 255, 0, 255, 255, 255, 255, 255],
    [255, 255, 255, 255, 0, 255, 0, 0, 0, 255, 0, 255, 0, 255, 255, 0, 255, 0, 255, 255, 0, 0, 255, 255, 255, 255, 255, 255, 255],
    [255, 255, 255, 255, 0, 255, 255, 255, 255, 255, 0, 255, 255, 0, 255, 0, 0, 255, 0, 0, 255, 0, 255, 255, 255, 255, 255, 255, 255],
    [255, 255, 255, 255, 0, 0, 0, 0, 0, 0, 0, 255, 0, 0, 255, 0, 0, 255, 255, 0, 255, 255, 0, 0, 255, 255, 255, 255, 255],
    [255, 255, 255, 255, 255, 255, 255, 255, 255, 255, 255, 255, 255, 255, 255, 255, 255, 255, 255, 255, 255, 255, 255, 255, 255, 255, 255, 255, 255],
    [255, 255, 255, 255, 255, 255, 255, 255, 255, 255, 255, 255, 255, 255, 255, 255, 255, 255, 255, 255, 255, 255, 255, 255, 255, 255, 255, 255, 255],
    [255, 255, 255, 255, 255, 255, 255, 255, 255, 255, 255, 255, 255, 255, 255, 255, 255, 255, 255, 255, 255, 255, 255, 255, 255, 255, 255, 255, 255],
    [255, 255, 255, 255, 255, 255, 255, 255, 255, 255, 255, 255, 255, 255, 255, 255, 255, 255, 255, 255, 255, 255, 255, 255, 255, 255, 255, 255, 255]]

/-- Its columns. -/
def helloCols : List (List Nat) := [
    [255, 255, 255, 255, 255, 255, 255, 255, 255, 255, 255, 255, 255, 255, 255, 255, 255, 255, 255, 255, 255, 255, 255, 255, 255, 255, 255, 255, 255],
    [255, 255, 255, 255, 255, 255, 255, 255, 255, 255, 255, 255, 255, 255, 255, 255, 255, 255, 255, 255, 255, 255, 255, 255, 255, 255, 255, 255, 255],
    [255, 255, 255, 255, 255, 255, 255, 255, 255, 255, 255, 255, 255, 255, 255, 255, 255, 255, 255, 255, 255, 255, 255, 255, 255, 255, 255, 255, 255],
    [255, 255, 255, 255, 255, 255, 255, 255, 255, 255, 255, 255, 255, 255, 255, 255, 255, 255, 255, 255, 255, 255, 255, 255, 255, 255, 255, 255, 255],
    [255, 255, 255, 255, 0, 0, 0, 0, 0, 0, 0, 255, 0, 0, 0, 0, 255, 255, 0, 0, 0, 0, 0, 0, 0, 255, 255, 255, 255],
    [255, 255, 255, 255, 0, 255, 255, 255, 255, 255, 0, 255, 255, 255, 255, 0, 0, 255, 0, 255, 255, 255, 255, 255, 0, 255, 255, 255, 255],
    [255, 255, 255, 255, 0, 255, 0, 0, 0, 255, 0, 255, 0, 0, 255, 0, 0, 255, 0, 255, 0, 0, 0, 255, 0, 255, 255, 255, 255],
    [255, 255, 255, 255, 0, 255, 0, 0, 0, 255, 0, 255, 0, 0, 0, 255, 0, 255, 0, 255, 0, 0, 0, 255, 0, 255, 255, 255, 255],
    [255, 255, 255, 255, 0, 255, 0, 0, 0, 255, 0, 255, 255, 0, 255, 0, 255, 255, 0, 255, 0, 0, 0, 255, 0, 255, 255, 255, 255],
    [255, 255, 255, 255, 0, 255, 255, 255, 255, 255, 0, 255, 0, 0, 255, 255, 0, 255, 0, 255, 255, 255, 255, 255, 0, 255, 255, 255, 255],
    [255, 255, 255, 255, 0, 0, 0, 0, 0, 0, 0, 255, 0, 255, 0, 255, 0, 255, 0, 0, 0, 0, 0, 0, 0, 255, 255, 255, 255],
    [255, 255, 255, 255, 255, 255, 255, 255, 255, 255, 255, 255, 0, 0, 0, 0, 0, 255, 255, 255, 255, 255, 255, 255, 255, 255, 255, 255, 255],
    [255, 255, 255, 255, 0, 0, 255, 0, 255, 255, 0, 0, 255, 0, 0, 0, 0, 0, 0, 0, 255, 0, 0, 255, 0, 255, 255, 255, 255],
    [255, 255, 255, 255, 0, 255, 255, 255, 255, 255, 255, 0, 0, 255, 0, 0, 255, 0, 255, 0, 0, 0, 255, 0, 0, 255, 255, 255, 255],
    [255, 255, 255, 255, 255, 0, 0, 0, 255, 255, 0, 255, 255, 255, 0, 0, 0, 0, 255, 0, 0, 255, 255, 255, 255, 255, 255, 255, 255],
    [255, 255, 255, 255, 255, 255, 255, 0, 255, 255, 255, 255, 255, 255, 255, 255, 0, 255, 255, 0, 0, 255, 0, 0, 0, 255, 255, 255, 255],
    [255, 255, 255, 255, 0, 255, 255, 255, 255, 255, 0, 255, 255, 0, 0, 0, 255, 255, 255, 0, 255, 255, 255, 0, 0, 255, 255, 255, 255],
    [255, 255, 255, 255, 255, 255, 255, 255, 255, 255, 255, 255, 255, 0, 255, 0, 255, 0, 0, 0, 255, 0, 0, 255, 255, 255, 255, 255, 255],
    [255, 255, 255, 255, 0, 0, 0, 0, 0, 0, 0, 255, 0, 255, 0, 255, 255, 255, 0, 0, 0, 255, 255, 0, 255, 255, 255, 255, 255],
    [255, 255, 255, 255, 0, 255, 255, 255, 255, 255, 0, 255, 255, 255, 255, 255, 255, 0, 0, 0, 0, 255, 255, 0, 0, 255, 255, 255, 255],
    [255, 255, 255, 255, 0, 255, 0, 0, 0, 255, 0, 255, 255, 0, 255, 0, 255, 255, 255, 255, 255, 0, 0, 255, 255, 255, 255, 255, 255],
    [255, 255, 255, 255, 0, 255, 0, 0, 0, 255, 0, 255, 0, 0, 255, 255, 255, 255, 0, 255, 255, 0, 0, 0, 255, 255, 255, 255, 255],
    [255, 255, 255, 255, 0, 255, 0, 0, 0, 255, 0, 255, 255, 0, 0, 0, 0, 0, 255, 0, 255, 255, 255, 255, 0, 255, 255, 255, 255],
    [255, 255, 255, 255, 0, 255, 255, 255, 255, 255, 0, 255, 0, 0, 255, 0, 255, 0, 0, 0, 0, 0, 255, 255, 0, 255, 255, 255, 255],
    [255, 255, 255, 255, 0, 0, 0, 0, 0, 0, 0, 255, 0, 0, 255, 255, 255, 255, 0, 255, 0, 255, 255, 255, 255, 255, 255, 255, 255],
    [255, 255, 255, 255, 255, 255, 255, 255, 255, 255, 255, 255, 255, 255, 255, 255, 255, 255, 255, 255, 255, 255, 255, 255, 255, 255, 255, 255, 255],
    [255, 255, 255, 255, 255, 255, 255, 255, 255, 255, 255, 255, 255, 255, 255, 255, 255, 255, 255, 255, 255, 255, 255, 255, 255, 255, 255, 255, 255],
    [255, 255, 255, 255, 255, 255, 255, 255, 255, 255, 255, 255, 255, 255, 255, 255, 255, 255, 255, 255, 255, 255, 255, 255, 255, 255, 255, 255, 255],
    [255, 255, 255, 255, 255, 255, 255, 255, 255, 255, 255, 255, 255, 255, 255, 255, 255, 255, 255, 255, 255, 255, 255, 255, 255, 255, 255, 255, 255]]

/-- The modules of the symbol. -/
def helloModules : QRData where
  data := [0, 0, 0, 0, 0, 0, 0, 255, 0, 0, 255, 255, 0, 255, 0, 0, 0, 0, 0, 0, 0,
    0, 255, 255, 255, 255, 255, 0, 255, 0, 255, 0, 255, 255, 255, 0, 255, 255, 255, 255, 255, 0,
    0, 255, 0, 0, 0, 255, 0, 255, 255, 255, 0, 255, 255, 255, 0, 255, 0, 0, 0, 255, 0,
    0, 255, 0, 0, 0, 255, 0, 255, 0, 255, 0, 0, 255, 255, 0, 255, 0, 0, 0, 255, 0,
    0, 255, 0, 0, 0, 255, 0, 255, 255, 255, 255, 255, 255, 255, 0, 255, 0, 0, 0, 255, 0,
    0, 255, 255, 255, 255, 255, 0, 255, 255, 255, 255, 255, 255, 255, 0, 255, 255, 255, 255, 255, 0,
    0, 0, 0, 0, 0, 0, 0, 255, 0, 255, 0, 255, 0, 255, 0, 0, 0, 0, 0, 0, 0,
    255, 255, 255, 255, 255, 255, 255, 255, 0, 0, 255, 255, 255, 255, 255, 255, 255, 255, 255, 255, 255,
    0, 255, 0, 0, 255, 0, 0, 0, 255, 0, 255, 255, 255, 255, 0, 255, 255, 0, 255, 0, 0,
    0, 255, 0, 0, 0, 0, 255, 0, 0, 255, 255, 255, 0, 0, 255, 255, 0, 0, 0, 0, 0,
    0, 255, 255, 0, 255, 255, 0, 0, 0, 0, 0, 255, 0, 255, 0, 255, 255, 255, 0, 255, 255,
    0, 0, 0, 255, 0, 255, 255, 0, 0, 0, 0, 255, 0, 0, 255, 255, 0, 255, 0, 0, 255,
    255, 0, 0, 0, 255, 0, 0, 0, 0, 255, 0, 0, 255, 255, 255, 255, 255, 255, 0, 255, 255,
    255, 255, 255, 255, 255, 255, 255, 255, 0, 0, 0, 255, 255, 0, 255, 0, 255, 255, 0, 0, 255,
    0, 0, 0, 0, 0, 0, 0, 255, 0, 255, 255, 255, 255, 0, 0, 0, 255, 0, 255, 0, 0,
    0, 255, 255, 255, 255, 255, 0, 255, 0, 0, 0, 0, 0, 0, 0, 0, 255, 255, 0, 0, 255,
    0, 255, 0, 0, 0, 255, 0, 255, 255, 0, 0, 0, 255, 255, 0, 0, 255, 255, 255, 0, 0,
    0, 255, 0, 0, 0, 255, 0, 255, 0, 0, 255, 255, 255, 0, 255, 255, 0, 0, 255, 0, 255,
    0, 255, 0, 0, 0, 255, 0, 255, 0, 255, 255, 0, 255, 0, 255, 255, 0, 0, 255, 255, 255,
    0, 255, 255, 255, 255, 255, 0, 255, 255, 0, 255, 0, 0, 255, 0, 0, 255, 0, 255, 255, 255,
    0, 0, 0, 0, 0, 0, 0, 255, 0, 0, 255, 0, 0, 255, 255, 0, 255, 255, 0, 0, 255]
  version := 1
  side := 21

/-- The modules as a number. -/
def helloBits : Nat :=
  0xC9B7F16D208CA575646BB8CE5D67FA0EB85FD94E0040DEE69BCB915F27E637BA42ED001807F55FE080837405DBA6AEDD117608A83FD37F

/-- The picture as a number. -/
def helloSmallBits : Nat :=
  0x1FFFFFFFFFFFFFFFFFFFFFFFFFFFFFF36480FFE92DF7FF35A8BFE9B945FE731A2FF9805F7F947A03FE6B1FFFFBF211FF964347FEEA0DBFC19C85FE5BD12FFFFE7FFF80AA03FDF7F7DFE8BFA2FF459517FA2EE8BFDF757DFE02C80FFFFFFFFFFFFFFFFFFFFFFFFFFFFFF

theorem helloModules_bits : Bitmap helloModules helloBits := by unfold Bitmap; decide +kernel

/-- The picture. -/
def helloSmall : GrayImage := picture helloModules 1 4

theorem helloSmall_eq : helloSmall = picture helloModules 1 4 := rfl

theorem helloSmall_rows : RowsOf helloSmall helloRows helloCols :=
  rowsOf_picture helloModules_bits (by decide +kernel) (by decide +kernel)

theorem helloSmall_black_or_white : helloRows.all fun r => r.all fun v => v == 0 || v == 255 := by decide +kernel

theorem helloSmall_steady : ∀ y < helloSmall.height, SteadyRow helloSmall helloSmall.width y :=
  steadyRow_of helloSmall_rows (by decide +kernel)

theorem helloSmall_others : NeverOthers helloSmall (symbolFinders 1 1 4 4) :=
  neverOthers_of helloSmall_rows (by decide +kernel)

theorem hello_blocks : (List.range (numBlocks 1 .medium)).map (blockData 1 .medium) = [16] := by
  have hb : blockData 1 .medium 0 = (specRow 1 .medium 0).2 := by rw [specRow_eq 1 (by decide) (by decide)]
  rw [show numBlocks 1 .medium = 1 by decide, show List.range 1 = [0] from rfl, List.map_cons, List.map_nil, hb]
  decide +kernel

theorem hello_family : symbolFamily 1 .medium helloSegments = [(isoBlock.take 16, isoBlock.drop 16)] := by
  have hd : dataCodewords 1 .medium helloSegments = isoBlock.take 16 := by
    unfold dataCodewords dataCapacity
    rw [hello_blocks]
    decide +kernel
  have hec : ecCodewords (eccPerBlock 1 .medium) (isoBlock.take 16) = isoBlock.drop 16 :=
    ecCodewords_unique (by decide) (by decide) (by rw [List.take_append_drop]; exact isoBlock_codeword)
  unfold symbolFamily
  rw [hello_blocks, hd]
  simp only [splitLens, List.map_cons, List.map_nil, List.take_take]
  rw [show min 16 16 = 16 by decide, hec]

theorem helloModules_eq : encode 1 .medium 3 helloSegments (functionPatterns 1) = helloModules :=
  encode_eq_of hello_family (by decide +kernel) rfl rfl helloModules_bits

theorem helloModules_isSymbol : IsSymbol helloModules 1 .medium 3 helloSegments := by
  rw [← helloModules_eq]
  refine encode_isSymbol 1 (by decide) (by decide) .medium 3 helloSegments ?_ _
  unfold dataCapacity
  rw [hello_blocks]
  decide +kernel

/-- C63, and with it C61 and C62, at every size from 2: the symbol is detected, alone and exactly. -/
theorem hello_detected (m : Nat) (hm : 2 ≤ m) (hsize : 29 * m < 2 ^ 32) :
    detect (enlarge helloSmall m) = .ret [⟨reportedCentre m (4 * m) (4 * m), reportedCentre m (4 * m + 14 * m) (4 * m),
      reportedCentre m (4 * m) (4 * m + 14 * m), .fin m, 1⟩] := by
  have he := enlarge_enlarged helloSmall m
  have hm0 : 0 < m := by omega
  have hv : (enlarge helloSmall m).Valid := enlarge_valid hsize hsize
  have hq := helloModules_isSymbol
  have hf : HasFinders helloModules := by rw [← helloModules_eq]; exact encode_finders _ _ _ _
  have hd : Drawn helloSmall helloModules 1 4 4 := by
    rw [helloSmall_eq]; exact picture_drawn (by rw [hq.1.2.2, hq.1.2.1]) (by omega)
  have hz : QuietZone helloSmall helloModules.side 1 4 4 := by rw [helloSmall_eq]; exact picture_quiet (by omega)
  have hclean := drawn_clean (m := 1) (by omega) hq.1.2.1 hd hf hz
  refine symbol_is_detected _ hv 1 m (4 * m) (4 * m) hm (by decide) ?_ ?_ ?_
  · rw [← scaled_symbol]
    intro f hf'
    obtain ⟨F, hF, rfl⟩ := mem_scaled.mp hf'
    exact enlarged_clean he hm0 (hclean F hF)
  · intro y hy
    exact enlarged_steady he hm0 hy (helloSmall_steady _ ((Nat.div_lt_iff_lt_mul hm0).mpr (by rw [← he.2.1]; exact hy)))
  · rw [← scaled_symbol]
    refine enlarged_no_others he hm ?_ helloSmall_others
    intro f hf'
    have := (hclean f hf').1
    omega

theorem helloSmall_legible (m : Nat) (hm : 2 ≤ m) : Legible helloSmall m :=
  legible_of_bits (n := helloSmallBits) helloSmall_rows (picture_white_end (by decide)) (by decide +kernel) (by decide +kernel)
    (by decide +kernel) m hm

/-- A crisp image of the symbol, of any size that fits, reads "HELLO WORLD". -/
theorem hello_at_every_size (m : Nat) (hm : 2 ≤ m) (hsize : 29 * m ≤ 2 ^ 18) (src : GrayImage) (hsrc : src.Valid)
    (hc : CrispEnlargement src helloSmall m) :
    ∃ d : Decoder Unit GrayImage GrayImage QRLocation QRData (List Char), defaultDecoder id = .ret d ∧
      ∀ s, d.decode src s = .ret ([.ok "HELLO WORLD".toList], s) := by
  refine (picture_reads_at_every_size (σ := Unit) 1 (by decide) (by decide) .medium 3 (by decide) helloSegments
    (by unfold Segment.fits; decide) _ helloSegments_text ?_ 4 (by decide) helloSmall
    (by rw [helloModules_eq]; exact helloSmall_eq) helloSmall_steady helloSmall_others m (helloSmall_legible m hm) hsize id src hsrc hc).1
  unfold dataCapacity
  rw [hello_blocks]
  decide +kernel

/-- There are such images. -/
example (m : Nat) (hm : 2 ≤ m) (hsize : 29 * m ≤ 2 ^ 18) : (enlarge helloSmall m).Valid ∧
    CrispEnlargement (enlarge helloSmall m) helloSmall m := by
  have he := enlarge_enlarged helloSmall m
  have e : helloSmall.width = 29 ∧ helloSmall.height = 29 := ⟨rfl, rfl⟩
  refine ⟨enlarge_valid (by rw [e.1]; omega) (by rw [e.2]; omega), he.1, he.2.1, ?_⟩
  intro x hx y hy
  have hxw : x / m < 29 := (Nat.div_lt_iff_lt_mul (by omega)).mpr (by rw [he.1, e.1] at hx; exact hx)
  have hyh : y / m < 29 := (Nat.div_lt_iff_lt_mul (by omega)).mpr (by rw [he.2.1, e.2] at hy; exact hy)
  have hpix : grey helloSmall (x / m) (y / m) = 0 ∨ grey helloSmall (x / m) (y / m) = 255 :=
    black_or_white helloSmall_rows helloSmall_black_or_white hxw hyh
  rw [he.2.2 x hx y hy]
  omega

end Verif.Props
