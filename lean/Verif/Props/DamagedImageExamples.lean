import Verif.Lemmas.Bitmap
import Verif.Props.DamagedImage
import Verif.Props.ScalesExamples

/-! # A damaged "HELLO WORLD", read at every size

The symbol of `Verif.Props.ScalesExamples` with all eight modules of codeword 3 and two format modules inverted.
-/
namespace Verif.Props
open Verif Verif.Spec LineScan

/-- Its rows, one pixel per module, with a border of four modules. -/
def hitRows : List (List Nat) := [
    [255, 255, 255, 255, 255, 255, 255, 255, 255, 255, 255, 255, 255, 255, 255, 255, 255, 255, 255, 255, 255, 255, 255, 255, 255, 255, 255, 255, 255],
    [255, 255, 255, 255, 255, 255, 255, 255, 255, 255, 255, 255, 255, 255, 255, 255, 255, 255, 255, 255, 255, 255, 255, 255, 255, 255, 255, 255, 255],
    [255, 255, 255, 255, 255, 255, 255, 255, 255, 255, 255, 255, 255, 255, 255, 255, 255, 255, 255, 255, 255, 255, 255, 255, 255, 255, 255, 255, 255],
    [255, 255, 255, 255, 255, 255, 255, 255, 255, 255, 255, 255, 255, 255, 255, 255, 255, 255, 255, 255, 255, 255, 255, 255, 255, 255, 255, 255, 255],
    [255, 255, 255, 255, 0, 0, 0, 0, 0, 0, 0, 255, 0, 0, 255, 255, 0, 255, 0, 0, 0, 0, 0, 0, 0, 255, 255, 255, 255],
    [255, 255, 255, 255, 0, 255, 255, 255, 255, 255, 0, 255, 0, 255, 0, 255, 255, 255, 0, 255, 255, 255, 255, 255, 0, 255, 255, 255, 255],
    [255, 255, 255, 255, 0, 255, 0, 0, 0, 255, 0, 255, 255, 255, 0, 255, 255, 255, 0, 255, 0, 0, 0, 255, 0, 255, 255, 255, 255],
    [255, 255, 255, 255, 0, 255, 0, 0, 0, 255, 0, 255, 0, 255, 0, 0, 255, 255, 0, 255, 0, 0, 0, 255, 0, 255, 255, 255, 255],
    [255, 255, 255, 255, 0, 255, 0, 0, 0, 255, 0, 255, 255, 255, 255, 255, 255, 255, 0, 255, 0, 0, 0, 255, 0, 255, 255, 255, 255],
    [255, 255, 255, 255, 0, 255, 255, 255, 255, 255, 0, 255, 255, 255, 255, 255, 255, 255, 0, 255, 255, 255, 255, 255, 0, 255, 255, 255, 255],
    [255, 255, 255, 255, 0, 0, 0, 0, 0, 0, 0, 255, 0, 255, 0, 255, 0, 255, 0, 0, 0, 0, 0, 0, 0, 255, 255, 255, 255],
    [255, 255, 255, 255, 255, 255, 255, 255, 255, 255, 255, 255, 255, 0, 255, 255, 255, 255, 255, 255, 255, 255, 255, 255, 255, 255, 255, 255, 255],
    [255, 255, 255, 255, 255, 255, 0, 0, 255, 0, 0, 0, 255, 0, 255, 255, 255, 255, 0, 255, 255, 0, 255, 0, 0, 255, 255, 255, 255],
    [255, 255, 255, 255, 0, 255, 0, 0, 0, 0, 255, 0, 0, 255, 255, 255, 0, 0, 255, 255, 0, 255, 255, 0, 0, 255, 255, 255, 255],
    [255, 255, 255, 255, 0, 255, 255, 0, 255, 255, 0, 0, 0, 0, 0, 255, 0, 255, 0, 255, 255, 0, 255, 255, 255, 255, 255, 255, 255],
    [255, 255, 255, 255, 0, 0, 0, 255, 0, 255, 255, 0, 0, 0, 0, 255, 0, 0, 255, 255, 0, 0, 255, 0, 255, 255, 255, 255, 255],
    [255, 255, 255, 255, 255, 0, 0, 0, 255, 0, 0, 0, 0, 255, 0, 0, 255, 255, 255, 255, 255, 0, 255, 255, 255, 255, 255, 255, 255],
    [255, 255, 255, 255, 255, 255, 255, 255, 255, 255, 255, 255, 0, 0, 0, 255, 255, 0, 255, 0, 255, 255, 0, 0, 255, 255, 255, 255, 255],
    [255, 255, 255, 255, 0, 0, 0, 0, 0, 0, 0, 255, 0, 255, 255, 255, 255, 0, 0, 0, 255, 0, 255, 0, 0, 255, 255, 255, 255],
    [255, 255, 255, 255, 0, 255, 255, 255, 255, 255, 0, 255, 0, 0, 0, 0, 0, 0, 0, 0, 255, 255, 0, 0, 255, 255, 255, 255, 255],
    [255, 255, 255, 255, 0, 255, 0, 0, 0, 255, 0, 255, 255, 0, 0, 0, 255, 255, 0, 0, 255, 255, 255, 0, 0, 255, 255, 255, 255],
    [255, 255, 255, 255, 0, 255, 0, 0, 0, 255, 0, 255, 0, 0, 255, 255, 255, 0, 255, 255, 0, 0, 255, 0, 255, 255, 255, 255, 255],
    [255, 255, 255, 255, 0, 255, 0, 0, 0, 255, 0, 255, 0, 255, 255, 0, 255, 0, 255, 255, 0, 0, 255, 255, 255, 255, 255, 255, 255],
    [255, 255, 255, 255, 0, 255, 255, 255, 255, 255, 0, 255, 255, 0, 255, 0, 0, 255, 0, 0, 255, 0, 255, 255, 255, 255, 255, 255, 255],
    [255, 255, 255, 255, 0, 0, 0, 0, 0, 0, 0, 255, 0, 0, 255, 0, 0, 255, 255, 0, 255, 255, 0, 0, 255, 255, 255, 255, 255],
    [255, 255, 255, 255, 255, 255, 255, 255, 255, 255, 255, 255, 255, 255, 255, 255, 255, 255, 255, 255, 255, 255, 255, 255, 255, 255, 255, 255, 255],
    [255, 255, 255, 255, 255, 255, 255, 255, 255, 255, 255, 255, 255, 255, 255, 255, 255, 255, 255, 255, 255, 255, 255, 255, 255, 255, 255, 255, 255],
    [255, 255, 255, 255, 255, 255, 255, 255, 255, 255, 255, 255, 255, 255, 255, 255, 255, 255, 255, 255, 255, 255, 255, 255, 255, 255, 255, 255, 255],
    [255, 255, 255, 255, 255, 255, 255, 255, 255, 255, 255, 255, 255, 255, 255, 255, 255, 255, 255, 255, 255, 255, 255, 255, 255, 255, 255, 255, 255]]

/-- Its columns. -/
def hitCols : List (List Nat) := [
    [255, 255, 255, 255, 255, 255, 255, 255, 255, 255, 255, 255, 255, 255, 255, 255, 255, 255, 255, 255, 255, 255, 255, 255, 255, 255, 255, 255, 255],
    [255, 255, 255, 255, 255, 255, 255, 255, 255, 255, 255, 255, 255, 255, 255, 255, 255, 255, 255, 255, 255, 255, 255, 255, 255, 255, 255, 255, 255],
    [255, 255, 255, 255, 255, 255, 255, 255, 255, 255, 255, 255, 255, 255, 255, 255, 255, 255, 255, 255, 255, 255, 255, 255, 255, 255, 255, 255, 255],
    [255, 255, 255, 255, 255, 255, 255, 255, 255, 255, 255, 255, 255, 255, 255, 255, 255, 255, 255, 255, 255, 255, 255, 255, 255, 255, 255, 255, 255],
    [255, 255, 255, 255, 0, 0, 0, 0, 0, 0, 0, 255, 255, 0, 0, 0, 255, 255, 0, 0, 0, 0, 0, 0, 0, 255, 255, 255, 255],
    [255, 255, 255, 255, 0, 255, 255, 255, 255, 255, 0, 255, 255, 255, 255, 0, 0, 255, 0, 255, 255, 255, 255, 255, 0, 255, 255, 255, 255],
    [255, 255, 255, 255, 0, 255, 0, 0, 0, 255, 0, 255, 0, 0, 255, 0, 0, 255, 0, 255, 0, 0, 0, 255, 0, 255, 255, 255, 255],
    [255, 255, 255, 255, 0, 255, 0, 0, 0, 255, 0, 255, 0, 0, 0, 255, 0, 255, 0, 255, 0, 0, 0, 255, 0, 255, 255, 255, 255],
    [255, 255, 255, 255, 0, 255, 0, 0, 0, 255, 0, 255, 255, 0, 255, 0, 255, 255, 0, 255, 0, 0, 0, 255, 0, 255, 255, 255, 255],
    [255, 255, 255, 255, 0, 255, 255, 255, 255, 255, 0, 255, 0, 0, 255, 255, 0, 255, 0, 255, 255, 255, 255, 255, 0, 255, 255, 255, 255],
    [255, 255, 255, 255, 0, 0, 0, 0, 0, 0, 0, 255, 0, 255, 0, 255, 0, 255, 0, 0, 0, 0, 0, 0, 0, 255, 255, 255, 255],
    [255, 255, 255, 255, 255, 255, 255, 255, 255, 255, 255, 255, 0, 0, 0, 0, 0, 255, 255, 255, 255, 255, 255, 255, 255, 255, 255, 255, 255],
    [255, 255, 255, 255, 0, 0, 255, 0, 255, 255, 0, 255, 255, 0, 0, 0, 0, 0, 0, 0, 255, 0, 0, 255, 0, 255, 255, 255, 255],
    [255, 255, 255, 255, 0, 255, 255, 255, 255, 255, 255, 0, 0, 255, 0, 0, 255, 0, 255, 0, 0, 0, 255, 0, 0, 255, 255, 255, 255],
    [255, 255, 255, 255, 255, 0, 0, 0, 255, 255, 0, 255, 255, 255, 0, 0, 0, 0, 255, 0, 0, 255, 255, 255, 255, 255, 255, 255, 255],
    [255, 255, 255, 255, 255, 255, 255, 0, 255, 255, 255, 255, 255, 255, 255, 255, 0, 255, 255, 0, 0, 255, 0, 0, 0, 255, 255, 255, 255],
    [255, 255, 255, 255, 0, 255, 255, 255, 255, 255, 0, 255, 255, 0, 0, 0, 255, 255, 255, 0, 255, 255, 255, 0, 0, 255, 255, 255, 255],
    [255, 255, 255, 255, 255, 255, 255, 255, 255, 255, 255, 255, 255, 0, 255, 0, 255, 0, 0, 0, 255, 0, 0, 255, 255, 255, 255, 255, 255],
    [255, 255, 255, 255, 0, 0, 0, 0, 0, 0, 0, 255, 0, 255, 0, 255, 255, 255, 0, 0, 0, 255, 255, 0, 255, 255, 255, 255, 255],
    [255, 255, 255, 255, 0, 255, 255, 255, 255, 255, 0, 255, 255, 255, 255, 255, 255, 0, 0, 0, 0, 255, 255, 0, 0, 255, 255, 255, 255],
    [255, 255, 255, 255, 0, 255, 0, 0, 0, 255, 0, 255, 255, 0, 255, 0, 255, 255, 255, 255, 255, 0, 0, 255, 255, 255, 255, 255, 255],
    [255, 255, 255, 255, 0, 255, 0, 0, 0, 255, 0, 255, 0, 255, 0, 0, 0, 255, 0, 255, 255, 0, 0, 0, 255, 255, 255, 255, 255],
    [255, 255, 255, 255, 0, 255, 0, 0, 0, 255, 0, 255, 255, 255, 255, 255, 255, 0, 255, 0, 255, 255, 255, 255, 0, 255, 255, 255, 255],
    [255, 255, 255, 255, 0, 255, 255, 255, 255, 255, 0, 255, 0, 0, 255, 0, 255, 0, 0, 0, 0, 0, 255, 255, 0, 255, 255, 255, 255],
    [255, 255, 255, 255, 0, 0, 0, 0, 0, 0, 0, 255, 0, 0, 255, 255, 255, 255, 0, 255, 0, 255, 255, 255, 255, 255, 255, 255, 255],
    [255, 255, 255, 255, 255, 255, 255, 255, 255, 255, 255, 255, 255, 255, 255, 255, 255, 255, 255, 255, 255, 255, 255, 255, 255, 255, 255, 255, 255],
    [255, 255, 255, 255, 255, 255, 255, 255, 255, 255, 255, 255, 255, 255, 255, 255, 255, 255, 255, 255, 255, 255, 255, 255, 255, 255, 255, 255, 255],
    [255, 255, 255, 255, 255, 255, 255, 255, 255, 255, 255, 255, 255, 255, 255, 255, 255, 255, 255, 255, 255, 255, 255, 255, 255, 255, 255, 255, 255],
    [255, 255, 255, 255, 255, 255, 255, 255, 255, 255, 255, 255, 255, 255, 255, 255, 255, 255, 255, 255, 255, 255, 255, 255, 255, 255, 255, 255, 255]]

/-- The modules. -/
def hitModules : QRData where
  data := [0, 0, 0, 0, 0, 0, 0, 255, 0, 0, 255, 255, 0, 255, 0, 0, 0, 0, 0, 0, 0,
    0, 255, 255, 255, 255, 255, 0, 255, 0, 255, 0, 255, 255, 255, 0, 255, 255, 255, 255, 255, 0,
    0, 255, 0, 0, 0, 255, 0, 255, 255, 255, 0, 255, 255, 255, 0, 255, 0, 0, 0, 255, 0,
    0, 255, 0, 0, 0, 255, 0, 255, 0, 255, 0, 0, 255, 255, 0, 255, 0, 0, 0, 255, 0,
    0, 255, 0, 0, 0, 255, 0, 255, 255, 255, 255, 255, 255, 255, 0, 255, 0, 0, 0, 255, 0,
    0, 255, 255, 255, 255, 255, 0, 255, 255, 255, 255, 255, 255, 255, 0, 255, 255, 255, 255, 255, 0,
    0, 0, 0, 0, 0, 0, 0, 255, 0, 255, 0, 255, 0, 255, 0, 0, 0, 0, 0, 0, 0,
    255, 255, 255, 255, 255, 255, 255, 255, 255, 0, 255, 255, 255, 255, 255, 255, 255, 255, 255, 255, 255,
    255, 255, 0, 0, 255, 0, 0, 0, 255, 0, 255, 255, 255, 255, 0, 255, 255, 0, 255, 0, 0,
    0, 255, 0, 0, 0, 0, 255, 0, 0, 255, 255, 255, 0, 0, 255, 255, 0, 255, 255, 0, 0,
    0, 255, 255, 0, 255, 255, 0, 0, 0, 0, 0, 255, 0, 255, 0, 255, 255, 0, 255, 255, 255,
    0, 0, 0, 255, 0, 255, 255, 0, 0, 0, 0, 255, 0, 0, 255, 255, 0, 0, 255, 0, 255,
    255, 0, 0, 0, 255, 0, 0, 0, 0, 255, 0, 0, 255, 255, 255, 255, 255, 0, 255, 255, 255,
    255, 255, 255, 255, 255, 255, 255, 255, 0, 0, 0, 255, 255, 0, 255, 0, 255, 255, 0, 0, 255,
    0, 0, 0, 0, 0, 0, 0, 255, 0, 255, 255, 255, 255, 0, 0, 0, 255, 0, 255, 0, 0,
    0, 255, 255, 255, 255, 255, 0, 255, 0, 0, 0, 0, 0, 0, 0, 0, 255, 255, 0, 0, 255,
    0, 255, 0, 0, 0, 255, 0, 255, 255, 0, 0, 0, 255, 255, 0, 0, 255, 255, 255, 0, 0,
    0, 255, 0, 0, 0, 255, 0, 255, 0, 0, 255, 255, 255, 0, 255, 255, 0, 0, 255, 0, 255,
    0, 255, 0, 0, 0, 255, 0, 255, 0, 255, 255, 0, 255, 0, 255, 255, 0, 0, 255, 255, 255,
    0, 255, 255, 255, 255, 255, 0, 255, 255, 0, 255, 0, 0, 255, 0, 0, 255, 0, 255, 255, 255,
    0, 0, 0, 0, 0, 0, 0, 255, 0, 0, 255, 0, 0, 255, 255, 0, 255, 255, 0, 0, 255]
  version := 1
  side := 21

/-- The modules as a number. -/
def hitBits : Nat :=
  0xC9B7F16D208CA575646BB8CE5D67FA0EB85FD94E0020DEE59BCB895F272637BA42EC001007F55FE080837405DBA6AEDD117608A83FD37F

/-- The picture as a number. -/
def hitSmallBits : Nat :=
  0x1FFFFFFFFFFFFFFFFFFFFFFFFFFFFFF36480FFE92DF7FF35A8BFE9B945FE731A2FF9805F7F947A03FE6B1FFFFDF211FFA64347FF6A0DBFCD9C85FE5BD13FFFFEFFFF80AA03FDF7F7DFE8BFA2FF459517FA2EE8BFDF757DFE02C80FFFFFFFFFFFFFFFFFFFFFFFFFFFFFF

theorem hitModules_bits : Bitmap hitModules hitBits := by unfold Bitmap; decide +kernel

/-- The picture. -/
def hitSmall : GrayImage := picture hitModules 1 4

theorem hitSmall_eq : hitSmall = picture hitModules 1 4 := rfl

theorem hitSmall_rows : RowsOf hitSmall hitRows hitCols :=
  rowsOf_picture hitModules_bits (by decide +kernel) (by decide +kernel)

theorem hitSmall_black_or_white : hitRows.all fun r => r.all fun v => v == 0 || v == 255 := by decide +kernel

theorem hitSmall_steady : ∀ y < hitSmall.height, SteadyRow hitSmall hitSmall.width y :=
  steadyRow_of hitSmall_rows (by decide +kernel)

theorem hitSmall_others : NeverOthers hitSmall (symbolFinders 1 1 4 4) :=
  neverOthers_of hitSmall_rows (by decide +kernel)

theorem hitModules_finders : HasFinders hitModules := by
  unfold HasFinders
  decide +kernel

theorem hitSmall_legible (m : Nat) (hm : 2 ≤ m) : Legible hitSmall m :=
  legible_of_bits (n := hitSmallBits) hitSmall_rows (picture_white_end (by decide)) (by decide +kernel) (by decide +kernel)
    (by decide +kernel) m hm

/-- A crisp image of the damaged symbol, of any size that fits, still reads "HELLO WORLD"; eight errors are
reported. -/
theorem hit_at_every_size (m : Nat) (hm : 2 ≤ m) (hsize : 29 * m ≤ 2 ^ 18) (src : GrayImage) (hsrc : src.Valid)
    (hc : CrispEnlargement src hitSmall m) :
    ∃ info, info.version = 1 ∧ info.ecLevel = .medium ∧ info.errors = 8 ∧
      ∃ d : Decoder Unit GrayImage GrayImage QRLocation QRData (List Char × QRInfo), defaultDecoderWithInfo id = .ret d ∧
        ∀ s, d.decode src s = .ret ([.ok ("HELLO WORLD".toList, info)], s) := by
  have hdiff : ((dataModules 1).zipIdx.all fun p => p.2 / 8 == 3 ||
      bit hitBits (p.1.2 * 21 + p.1.1) == bit helloBits (p.1.2 * 21 + p.1.1)) = true := by decide +kernel
  obtain ⟨-, info, i1, i2, i3, h⟩ := damaged_reads_at_every_size (σ := Unit) hitModules helloModules 1 (by decide) (by decide)
    .medium 3 (by decide) (by decide) helloSegments (by unfold Segment.fits; decide) _ helloSegments_text
    helloModules_isSymbol (bitmap_wellFormed hitModules_bits rfl rfl)
    [true, false, false, false, false, false, false, false, true, false, false, false, false, false, false]
    (by decide) (by decide) (by decide) (shows_bit hitModules_bits (by decide) (by decide +kernel)) (· = 3)
    (fun i j _ hi hj _ _ => hi.trans hj.symm) (by
      intro i p hp hne
      have h := (List.all_eq_true.mp hdiff) (p, i) (List.mem_zipIdx_iff_getElem?.mpr hp)
      have hz := mem_zigzag.mp (show (p.1, p.2) ∈ zigzag 1 from (List.mem_filter.mp (List.mem_of_getElem? hp)).1)
      simp only [Bool.or_eq_true, beq_iff_eq] at h
      rw [moduleAt_bit hitModules_bits hz.1 hz.2.1, moduleAt_bit helloModules_bits hz.1 hz.2.1]
      exact congrArg some (h.resolve_left hne)) hitModules_finders (fun h => absurd h (by decide)) 4 (by decide) hitSmall hitSmall_eq hitSmall_steady
    hitSmall_others m (hitSmall_legible m hm) hsize id src hsrc hc
  refine ⟨info, i1, i2, i3.trans ?_, h⟩
  decide +kernel

/-- There are such images. -/
example (m : Nat) (hm : 2 ≤ m) (hsize : 29 * m ≤ 2 ^ 18) : (enlarge hitSmall m).Valid ∧
    CrispEnlargement (enlarge hitSmall m) hitSmall m := by
  have he := enlarge_enlarged hitSmall m
  have e : hitSmall.width = 29 ∧ hitSmall.height = 29 := ⟨rfl, rfl⟩
  refine ⟨enlarge_valid (by rw [e.1]; omega) (by rw [e.2]; omega), he.1, he.2.1, ?_⟩
  intro x hx y hy
  have hxw : x / m < 29 := (Nat.div_lt_iff_lt_mul (by omega)).mpr (by rw [he.1, e.1] at hx; exact hx)
  have hyh : y / m < 29 := (Nat.div_lt_iff_lt_mul (by omega)).mpr (by rw [he.2.1, e.2] at hy; exact hy)
  have hpix : grey hitSmall (x / m) (y / m) = 0 ∨ grey hitSmall (x / m) (y / m) = 255 :=
    black_or_white hitSmall_rows hitSmall_black_or_white hxw hyh
  rw [he.2.2 x hx y hy]
  omega

end Verif.Props
