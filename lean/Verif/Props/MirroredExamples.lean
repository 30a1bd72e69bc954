import Verif.Lemmas.Bitmap
import Verif.Props.TurnedExamples
import Verif.Props.Mirrored

/-! # A mirrored symbol -/
namespace Verif.Props
open Verif Verif.Spec LineScan

/-- The rows of the picture of a version 1-H symbol with mask 1 for "READ", mirrored at its main diagonal. -/
def mirroredRows : List (List Nat) := [
    [255, 255, 255, 255, 255, 255, 255, 255, 255, 255, 255, 255, 255, 255, 255, 255, 255, 255, 255, 255, 255, 255, 255, 255, 255, 255, 255, 255, 255],
    [255, 255, 255, 255, 255, 255, 255, 255, 255, 255, 255, 255, 255, 255, 255, 255, 255, 255, 255, 255, 255, 255, 255, 255, 255, 255, 255, 255, 255],
    [255, 255, 255, 255, 255, 255, 255, 255, 255, 255, 255, 255, 255, 255, 255, 255, 255, 255, 255, 255, 255, 255, 255, 255, 255, 255, 255, 255, 255],
    [255, 255, 255, 255, 255, 255, 255, 255, 255, 255, 255, 255, 255, 255, 255, 255, 255, 255, 255, 255, 255, 255, 255, 255, 255, 255, 255, 255, 255],
    [255, 255, 255, 255, 0, 0, 0, 0, 0, 0, 0, 255, 255, 0, 255, 255, 0, 255, 0, 0, 0, 0, 0, 0, 0, 255, 255, 255, 255],
    [255, 255, 255, 255, 0, 255, 255, 255, 255, 255, 0, 255, 255, 0, 255, 255, 255, 255, 0, 255, 255, 255, 255, 255, 0, 255, 255, 255, 255],
    [255, 255, 255, 255, 0, 255, 0, 0, 0, 255, 0, 255, 0, 0, 255, 0, 255, 255, 0, 255, 0, 0, 0, 255, 0, 255, 255, 255, 255],
    [255, 255, 255, 255, 0, 255, 0, 0, 0, 255, 0, 255, 255, 0, 0, 0, 255, 255, 0, 255, 0, 0, 0, 255, 0, 255, 255, 255, 255],
    [255, 255, 255, 255, 0, 255, 0, 0, 0, 255, 0, 255, 255, 255, 255, 0, 255, 255, 0, 255, 0, 0, 0, 255, 0, 255, 255, 255, 255],
    [255, 255, 255, 255, 0, 255, 255, 255, 255, 255, 0, 255, 0, 255, 255, 0, 0, 255, 0, 255, 255, 255, 255, 255, 0, 255, 255, 255, 255],
    [255, 255, 255, 255, 0, 0, 0, 0, 0, 0, 0, 255, 0, 255, 0, 255, 0, 255, 0, 0, 0, 0, 0, 0, 0, 255, 255, 255, 255],
    [255, 255, 255, 255, 255, 255, 255, 255, 255, 255, 255, 255, 0, 0, 255, 255, 0, 255, 255, 255, 255, 255, 255, 255, 255, 255, 255, 255, 255],
    [255, 255, 255, 255, 255, 0, 0, 0, 0, 0, 0, 255, 0, 0, 0, 0, 255, 0, 0, 0, 255, 255, 0, 255, 255, 255, 255, 255, 255],
    [255, 255, 255, 255, 0, 0, 255, 0, 255, 255, 255, 255, 0, 255, 255, 0, 0, 255, 0, 255, 255, 0, 0, 0, 0, 255, 255, 255, 255],
    [255, 255, 255, 255, 255, 255, 255, 0, 255, 0, 0, 0, 0, 0, 0, 255, 0, 0, 255, 255, 0, 0, 0, 0, 0, 255, 255, 255, 255],
    [255, 255, 255, 255, 255, 255, 0, 0, 0, 0, 255, 255, 255, 255, 0, 255, 255, 0, 0, 255, 255, 255, 255, 0, 0, 255, 255, 255, 255],
    [255, 255, 255, 255, 255, 0, 0, 255, 0, 0, 0, 255, 0, 0, 255, 255, 0, 0, 0, 0, 255, 0, 255, 255, 255, 255, 255, 255, 255],
    [255, 255, 255, 255, 255, 255, 255, 255, 255, 255, 255, 255, 0, 0, 255, 0, 255, 255, 0, 0, 0, 0, 0, 255, 0, 255, 255, 255, 255],
    [255, 255, 255, 255, 0, 0, 0, 0, 0, 0, 0, 255, 255, 255, 255, 255, 0, 255, 0, 255, 255, 255, 0, 255, 255, 255, 255, 255, 255],
    [255, 255, 255, 255, 0, 255, 255, 255, 255, 255, 0, 255, 0, 0, 0, 0, 0, 255, 255, 255, 255, 0, 0, 0, 0, 255, 255, 255, 255],
    [255, 255, 255, 255, 0, 255, 0, 0, 0, 255, 0, 255, 0, 255, 0, 255, 0, 255, 255, 0, 255, 255, 0, 255, 0, 255, 255, 255, 255],
    [255, 255, 255, 255, 0, 255, 0, 0, 0, 255, 0, 255, 0, 255, 255, 255, 255, 0, 0, 255, 0, 0, 0, 0, 0, 255, 255, 255, 255],
    [255, 255, 255, 255, 0, 255, 0, 0, 0, 255, 0, 255, 0, 255, 255, 0, 0, 0, 255, 255, 0, 0, 255, 0, 0, 255, 255, 255, 255],
    [255, 255, 255, 255, 0, 255, 255, 255, 255, 255, 0, 255, 0, 0, 255, 255, 255, 255, 255, 255, 0, 255, 0, 255, 0, 255, 255, 255, 255],
    [255, 255, 255, 255, 0, 0, 0, 0, 0, 0, 0, 255, 255, 255, 255, 255, 255, 255, 0, 0, 0, 255, 0, 0, 0, 255, 255, 255, 255],
    [255, 255, 255, 255, 255, 255, 255, 255, 255, 255, 255, 255, 255, 255, 255, 255, 255, 255, 255, 255, 255, 255, 255, 255, 255, 255, 255, 255, 255],
    [255, 255, 255, 255, 255, 255, 255, 255, 255, 255, 255, 255, 255, 255, 255, 255, 255, 255, 255, 255, 255, 255, 255, 255, 255, 255, 255, 255, 255],
    [255, 255, 255, 255, 255, 255, 255, 255, 255, 255, 255, 255, 255, 255, 255, 255, 255, 255, 255, 255, 255, 255, 255, 255, 255, 255, 255, 255, 255],
    [255, 255, 255, 255, 255, 255, 255, 255, 255, 255, 255, 255, 255, 255, 255, 255, 255, 255, 255, 255, 255, 255, 255, 255, 255, 255, 255, 255, 255]]

/-- Its columns. -/
def mirroredCols : List (List Nat) := [
    [255, 255, 255, 255, 255, 255, 255, 255, 255, 255, 255, 255, 255, 255, 255, 255, 255, 255, 255, 255, 255, 255, 255, 255, 255, 255, 255, 255, 255],
    [255, 255, 255, 255, 255, 255, 255, 255, 255, 255, 255, 255, 255, 255, 255, 255, 255, 255, 255, 255, 255, 255, 255, 255, 255, 255, 255, 255, 255],
    [255, 255, 255, 255, 255, 255, 255, 255, 255, 255, 255, 255, 255, 255, 255, 255, 255, 255, 255, 255, 255, 255, 255, 255, 255, 255, 255, 255, 255],
    [255, 255, 255, 255, 255, 255, 255, 255, 255, 255, 255, 255, 255, 255, 255, 255, 255, 255, 255, 255, 255, 255, 255, 255, 255, 255, 255, 255, 255],
    [255, 255, 255, 255, 0, 0, 0, 0, 0, 0, 0, 255, 255, 0, 255, 255, 255, 255, 0, 0, 0, 0, 0, 0, 0, 255, 255, 255, 255],
    [255, 255, 255, 255, 0, 255, 255, 255, 255, 255, 0, 255, 0, 0, 255, 255, 0, 255, 0, 255, 255, 255, 255, 255, 0, 255, 255, 255, 255],
    [255, 255, 255, 255, 0, 255, 0, 0, 0, 255, 0, 255, 0, 255, 255, 0, 0, 255, 0, 255, 0, 0, 0, 255, 0, 255, 255, 255, 255],
    [255, 255, 255, 255, 0, 255, 0, 0, 0, 255, 0, 255, 0, 0, 0, 0, 255, 255, 0, 255, 0, 0, 0, 255, 0, 255, 255, 255, 255],
    [255, 255, 255, 255, 0, 255, 0, 0, 0, 255, 0, 255, 0, 255, 255, 0, 0, 255, 0, 255, 0, 0, 0, 255, 0, 255, 255, 255, 255],
    [255, 255, 255, 255, 0, 255, 255, 255, 255, 255, 0, 255, 0, 255, 0, 0, 0, 255, 0, 255, 255, 255, 255, 255, 0, 255, 255, 255, 255],
    [255, 255, 255, 255, 0, 0, 0, 0, 0, 0, 0, 255, 0, 255, 0, 255, 0, 255, 0, 0, 0, 0, 0, 0, 0, 255, 255, 255, 255],
    [255, 255, 255, 255, 255, 255, 255, 255, 255, 255, 255, 255, 255, 255, 0, 255, 255, 255, 255, 255, 255, 255, 255, 255, 255, 255, 255, 255, 255],
    [255, 255, 255, 255, 255, 255, 0, 255, 255, 0, 0, 0, 0, 0, 0, 255, 0, 0, 255, 0, 0, 0, 0, 0, 255, 255, 255, 255, 255],
    [255, 255, 255, 255, 0, 0, 0, 0, 255, 255, 255, 0, 0, 255, 0, 255, 0, 0, 255, 0, 255, 255, 255, 0, 255, 255, 255, 255, 255],
    [255, 255, 255, 255, 255, 255, 255, 0, 255, 255, 0, 255, 0, 255, 0, 0, 255, 255, 255, 0, 0, 255, 255, 255, 255, 255, 255, 255, 255],
    [255, 255, 255, 255, 255, 255, 0, 0, 0, 0, 255, 255, 0, 0, 255, 255, 255, 0, 255, 0, 255, 255, 0, 255, 255, 255, 255, 255, 255],
    [255, 255, 255, 255, 0, 255, 255, 255, 255, 0, 0, 0, 255, 0, 0, 255, 0, 255, 0, 0, 0, 255, 0, 255, 255, 255, 255, 255, 255],
    [255, 255, 255, 255, 255, 255, 255, 255, 255, 255, 255, 255, 0, 255, 0, 0, 0, 255, 255, 255, 255, 0, 0, 255, 255, 255, 255, 255, 255],
    [255, 255, 255, 255, 0, 0, 0, 0, 0, 0, 0, 255, 0, 0, 255, 0, 0, 0, 0, 255, 255, 0, 255, 255, 0, 255, 255, 255, 255],
    [255, 255, 255, 255, 0, 255, 255, 255, 255, 255, 0, 255, 0, 255, 255, 255, 0, 0, 255, 255, 0, 255, 255, 255, 0, 255, 255, 255, 255],
    [255, 255, 255, 255, 0, 255, 0, 0, 0, 255, 0, 255, 255, 255, 0, 255, 255, 0, 255, 255, 255, 0, 0, 0, 0, 255, 255, 255, 255],
    [255, 255, 255, 255, 0, 255, 0, 0, 0, 255, 0, 255, 255, 0, 0, 255, 0, 0, 255, 0, 255, 0, 0, 255, 255, 255, 255, 255, 255],
    [255, 255, 255, 255, 0, 255, 0, 0, 0, 255, 0, 255, 0, 0, 0, 255, 255, 0, 0, 0, 0, 0, 255, 0, 0, 255, 255, 255, 255],
    [255, 255, 255, 255, 0, 255, 255, 255, 255, 255, 0, 255, 255, 0, 0, 0, 255, 255, 255, 0, 255, 0, 0, 255, 0, 255, 255, 255, 255],
    [255, 255, 255, 255, 0, 0, 0, 0, 0, 0, 0, 255, 255, 0, 0, 0, 255, 0, 255, 0, 0, 0, 0, 0, 0, 255, 255, 255, 255],
    [255, 255, 255, 255, 255, 255, 255, 255, 255, 255, 255, 255, 255, 255, 255, 255, 255, 255, 255, 255, 255, 255, 255, 255, 255, 255, 255, 255, 255],
    [255, 255, 255, 255, 255, 255, 255, 255, 255, 255, 255, 255, 255, 255, 255, 255, 255, 255, 255, 255, 255, 255, 255, 255, 255, 255, 255, 255, 255],
    [255, 255, 255, 255, 255, 255, 255, 255, 255, 255, 255, 255, 255, 255, 255, 255, 255, 255, 255, 255, 255, 255, 255, 255, 255, 255, 255, 255, 255],
    [255, 255, 255, 255, 255, 255, 255, 255, 255, 255, 255, 255, 255, 255, 255, 255, 255, 255, 255, 255, 255, 255, 255, 255, 255, 255, 255, 255, 255]]

/-- The modules of the symbol. -/
def mirroredModules : QRData where
  data := [0, 0, 0, 0, 0, 0, 0, 255, 255, 0, 255, 255, 255, 255, 0, 0, 0, 0, 0, 0, 0,
    0, 255, 255, 255, 255, 255, 0, 255, 0, 0, 255, 255, 0, 255, 0, 255, 255, 255, 255, 255, 0,
    0, 255, 0, 0, 0, 255, 0, 255, 0, 255, 255, 0, 0, 255, 0, 255, 0, 0, 0, 255, 0,
    0, 255, 0, 0, 0, 255, 0, 255, 0, 0, 0, 0, 255, 255, 0, 255, 0, 0, 0, 255, 0,
    0, 255, 0, 0, 0, 255, 0, 255, 0, 255, 255, 0, 0, 255, 0, 255, 0, 0, 0, 255, 0,
    0, 255, 255, 255, 255, 255, 0, 255, 0, 255, 0, 0, 0, 255, 0, 255, 255, 255, 255, 255, 0,
    0, 0, 0, 0, 0, 0, 0, 255, 0, 255, 0, 255, 0, 255, 0, 0, 0, 0, 0, 0, 0,
    255, 255, 255, 255, 255, 255, 255, 255, 255, 255, 0, 255, 255, 255, 255, 255, 255, 255, 255, 255, 255,
    255, 255, 0, 255, 255, 0, 0, 0, 0, 0, 0, 255, 0, 0, 255, 0, 0, 0, 0, 0, 255,
    0, 0, 0, 0, 255, 255, 255, 0, 0, 255, 0, 255, 0, 0, 255, 0, 255, 255, 255, 0, 255,
    255, 255, 255, 0, 255, 255, 0, 255, 0, 255, 0, 0, 255, 255, 255, 0, 0, 255, 255, 255, 255,
    255, 255, 0, 0, 0, 0, 255, 255, 0, 0, 255, 255, 255, 0, 255, 0, 255, 255, 0, 255, 255,
    0, 255, 255, 255, 255, 0, 0, 0, 255, 0, 0, 255, 0, 255, 0, 0, 0, 255, 0, 255, 255,
    255, 255, 255, 255, 255, 255, 255, 255, 0, 255, 0, 0, 0, 255, 255, 255, 255, 0, 0, 255, 255,
    0, 0, 0, 0, 0, 0, 0, 255, 0, 0, 255, 0, 0, 0, 0, 255, 255, 0, 255, 255, 0,
    0, 255, 255, 255, 255, 255, 0, 255, 0, 255, 255, 255, 0, 0, 255, 255, 0, 255, 255, 255, 0,
    0, 255, 0, 0, 0, 255, 0, 255, 255, 255, 0, 255, 255, 0, 255, 255, 255, 0, 0, 0, 0,
    0, 255, 0, 0, 0, 255, 0, 255, 255, 0, 0, 255, 0, 0, 255, 0, 255, 0, 0, 255, 255,
    0, 255, 0, 0, 0, 255, 0, 255, 0, 0, 0, 255, 255, 0, 0, 0, 0, 0, 255, 0, 0,
    0, 255, 255, 255, 255, 255, 0, 255, 255, 0, 0, 0, 255, 255, 255, 0, 255, 0, 0, 255, 0,
    0, 0, 0, 0, 0, 0, 0, 255, 255, 0, 0, 0, 255, 0, 255, 0, 0, 0, 0, 0, 0]
  version := 1
  side := 21

/-- The modules as a number. -/
def mirroredBits : Nat :=
  0x1FAE7FB4720EF9D74D6CBBE245D898A0C9EDFCC3A005D6E12519E06352116B1EFB7E4002007F55FE0BA837595DBA7AEDD65760A683FC27F

/-- The modules, mirrored, as a number. -/
def transposedBits : Nat :=
  0x1DC07FA81A0ECE577EC2BB4955DF0FA09141FEF96002F376C321E7CDFA3CB2164EF7E009807F55FE0B2837485DBA72EDD2D7608483FD27F

/-- The mirrored picture as a number. -/
def mirroredPictureBits : Nat :=
  0x1FFFFFFFFFFFFFFFFFFFFFFFFFFFFFE23F80FF57E5F7F931A8BFC13D45FEB6AA2FF0F05F7FEEBE03FD069FFFFD0C89FF3CDE1FF83205FFC34DE9FFB1081FFFF67FFF80AA03FDF4D7DFE8B7A2FF458D17FA2D28BFDF7B7DFE02D80FFFFFFFFFFFFFFFFFFFFFFFFFFFFFF

theorem mirroredModules_bits : Bitmap mirroredModules mirroredBits := by unfold Bitmap; decide +kernel

/-- The mirrored picture. -/
def mirroredPicture : GrayImage := picture (turned ⟨false, false, true⟩ mirroredModules) 1 4

theorem mirroredModules_eq : encode 1 .high 1 readSegments (functionPatterns 1) = mirroredModules :=
  encode_eq_of read_family (by decide +kernel) rfl rfl mirroredModules_bits

theorem mirroredModules_isSymbol : IsSymbol mirroredModules 1 .high 1 readSegments := by
  rw [← mirroredModules_eq]
  refine encode_isSymbol 1 (by decide) (by decide) .high 1 readSegments ?_ _
  unfold dataCapacity
  rw [read_blocks]
  decide +kernel

theorem mirroredPicture_rows : RowsOf mirroredPicture mirroredRows mirroredCols :=
  rowsOf_picture (bitmap_turned (n' := transposedBits) mirroredModules_bits (by decide +kernel)) (by decide +kernel)
    (by decide +kernel)

/-- The symbol is flawless and decodes to "READ". -/
theorem mirroredModules_decodes : qrDecode (.ok mirroredModules) = .ok "READ".toList :=
  (symbol_decodes mirroredModules 1 (by decide) (by decide) .high 1 (by decide) readSegments (by unfold Segment.fits; decide) _
    readSegments_text mirroredModules_isSymbol).1

theorem mirroredPicture_legible (m : Nat) (hm : 2 ≤ m) : Legible mirroredPicture m :=
  legible_of_bits (n := mirroredPictureBits) mirroredPicture_rows (picture_white_end (by decide)) (by decide +kernel)
    (by decide +kernel) (by decide +kernel) m hm

/-- C70 at every size: its mirrored picture gives an error. -/
theorem mirrored_at_every_size (m : Nat) (hm : 2 ≤ m) (hsize : 29 * m ≤ 2 ^ 18) (src : GrayImage)
    (hsrc : src.Valid) (hc : CrispEnlargement src mirroredPicture m) :
    ∃ d : Decoder Unit GrayImage GrayImage QRLocation QRData (List Char), defaultDecoder id = .ret d ∧
      ∀ s, d.decode src s = .ret ([.error ⟨"Format information corrupted"⟩], s) := by
  have hq := mirroredModules_isSymbol
  have hW : mirroredPicture.width = 29 := rfl
  have hH : mirroredPicture.height = 29 := rfl
  have hfmt := mirrored_format mirroredModules 1 hq.1 .high 1 (by decide) hq.2.1 hq.2.2.1 (by decide +kernel)
  have hdrawn : Drawn mirroredPicture (turned ⟨false, false, true⟩ mirroredModules) 1 4 4 :=
    picture_drawn (by simp only [turned, List.length_map, List.length_range]) (by omega)
  have hquiet : QuietZone mirroredPicture mirroredModules.side 1 4 4 :=
    picture_quiet (q := turned ⟨false, false, true⟩ mirroredModules) (by omega)
  obtain ⟨⟨d, e, h⟩, -⟩ := default_decoder_decodes_enlarged_mirrored (σ := Unit) id src hsrc mirroredPicture
    (picture_valid (by decide)) m (mirroredPicture_legible m hm) hc (by
      rw [hW, hH]
      calc _ ≤ 2 ^ 18 * 2 ^ 18 := Nat.mul_le_mul hsize hsize
        _ = _ := by norm_num) (by rw [hW]; omega) (by rw [hH]; omega) mirroredModules 1 (by decide) (by decide) hq.1
    (by rw [← mirroredModules_eq]; exact encode_finders _ _ _ _) (by omega) ⟨false, false, true⟩
    (by unfold Orientation.Mirrored; decide) 4 4 (drawn_turned (by rw [hq.1.2.2, hq.1.2.1]) hdrawn) hquiet
    (steadyRow_of mirroredPicture_rows (by decide +kernel)) (neverOthers_of mirroredPicture_rows (by decide +kernel))
  refine ⟨d, e, h _ (Or.inr ⟨_, ?_, rfl⟩)⟩
  unfold qrDecode
  simp only
  have hfmt' : format (transposed mirroredModules) = .err ⟨"Format information corrupted"⟩ := hfmt
  rw [hfmt']
  rfl

end Verif.Props
