import Verif.Props.Panics
import Verif.Lemmas.Bitmap
import Verif.Lemmas.EnlargeCheck
import Verif.Lemmas.EnlargeDraw

/-! # An image that makes the default decoders panic, at every size -/
namespace Verif.Props
open Verif Verif.Spec LineScan

/-- The modules of a version 1-M symbol with mask 0, as a number. It carries one alphanumeric segment of three
characters: 'O', 'K', and the number 63, which is no character. Everything else is as in any symbol. -/
def badBits : Nat :=
  0x15517FE2120C45575880BB4ED5D1DC20B3A1FD55E01D50C362285AC453988D5E90C5500D007F55FE0AC837535DBA92EDD117609683FCC7F

/-- Its modules. -/
def badModules : QRData where
  data := (List.range 441).map fun i => tone (bit badBits i)
  version := 1
  side := 21

theorem badModules_bits : Bitmap badModules badBits := rfl

/-- The picture with one pixel per module and a border of four modules. -/
def badSmall : GrayImage := picture badModules 1 4

/-- The picture as a number. -/
def badSmallBits : Nat :=
  0x1FFFFFFFFFFFFFFFFFFFFFFFFFFFFFEAAE80FF1DEDF7FBBAA8BFE77F45FEB12A2FFE23DF7FCC5E03FEAA1FFFE2AF3CFF9DD7A7FD3BAC7FE772A1FF6F3AAFFFF2FFFF80AA03FDF537DFE8ACA2FF456D17FA2EE8BFDF697DFE03380FFFFFFFFFFFFFFFFFFFFFFFFFFFFFF

/-- Its rows. -/
def badRows : List (List Nat) := [
    [255, 255, 255, 255, 255, 255, 255, 255, 255, 255, 255, 255, 255, 255, 255, 255, 255, 255, 255, 255, 255, 255, 255, 255, 255, 255, 255, 255, 255],
    [255, 255, 255, 255, 255, 255, 255, 255, 255, 255, 255, 255, 255, 255, 255, 255, 255, 255, 255, 255, 255, 255, 255, 255, 255, 255, 255, 255, 255],
    [255, 255, 255, 255, 255, 255, 255, 255, 255, 255, 255, 255, 255, 255, 255, 255, 255, 255, 255, 255, 255, 255, 255, 255, 255, 255, 255, 255, 255],
    [255, 255, 255, 255, 255, 255, 255, 255, 255, 255, 255, 255, 255, 255, 255, 255, 255, 255, 255, 255, 255, 255, 255, 255, 255, 255, 255, 255, 255],
    [255, 255, 255, 255, 0, 0, 0, 0, 0, 0, 0, 255, 255, 255, 0, 0, 255, 255, 0, 0, 0, 0, 0, 0, 0, 255, 255, 255, 255],
    [255, 255, 255, 255, 0, 255, 255, 255, 255, 255, 0, 255, 0, 0, 255, 0, 255, 255, 0, 255, 255, 255, 255, 255, 0, 255, 255, 255, 255],
    [255, 255, 255, 255, 0, 255, 0, 0, 0, 255, 0, 255, 255, 255, 0, 255, 255, 255, 0, 255, 0, 0, 0, 255, 0, 255, 255, 255, 255],
    [255, 255, 255, 255, 0, 255, 0, 0, 0, 255, 0, 255, 255, 0, 255, 255, 0, 255, 0, 255, 0, 0, 0, 255, 0, 255, 255, 255, 255],
    [255, 255, 255, 255, 0, 255, 0, 0, 0, 255, 0, 255, 0, 0, 255, 255, 0, 255, 0, 255, 0, 0, 0, 255, 0, 255, 255, 255, 255],
    [255, 255, 255, 255, 0, 255, 255, 255, 255, 255, 0, 255, 255, 0, 0, 255, 0, 255, 0, 255, 255, 255, 255, 255, 0, 255, 255, 255, 255],
    [255, 255, 255, 255, 0, 0, 0, 0, 0, 0, 0, 255, 0, 255, 0, 255, 0, 255, 0, 0, 0, 0, 0, 0, 0, 255, 255, 255, 255],
    [255, 255, 255, 255, 255, 255, 255, 255, 255, 255, 255, 255, 255, 0, 255, 0, 0, 255, 255, 255, 255, 255, 255, 255, 255, 255, 255, 255, 255],
    [255, 255, 255, 255, 0, 255, 0, 255, 0, 255, 0, 255, 255, 255, 0, 0, 255, 255, 255, 255, 0, 255, 255, 0, 255, 255, 255, 255, 255],
    [255, 255, 255, 255, 0, 0, 0, 0, 255, 0, 255, 0, 255, 0, 0, 255, 255, 255, 0, 255, 255, 255, 0, 0, 255, 255, 255, 255, 255],
    [255, 255, 255, 255, 255, 0, 0, 0, 255, 255, 0, 255, 0, 255, 255, 255, 0, 255, 255, 255, 0, 0, 255, 0, 255, 255, 255, 255, 255],
    [255, 255, 255, 255, 0, 0, 255, 0, 255, 255, 255, 255, 0, 255, 0, 255, 255, 255, 0, 255, 255, 255, 0, 0, 255, 255, 255, 255, 255],
    [255, 255, 255, 255, 0, 0, 255, 255, 255, 255, 0, 0, 255, 255, 255, 255, 0, 255, 0, 255, 0, 255, 0, 0, 0, 255, 255, 255, 255],
    [255, 255, 255, 255, 255, 255, 255, 255, 255, 255, 255, 255, 0, 0, 0, 0, 255, 0, 255, 0, 255, 0, 255, 0, 255, 255, 255, 255, 255],
    [255, 255, 255, 255, 0, 0, 0, 0, 0, 0, 0, 255, 255, 255, 255, 0, 255, 0, 0, 0, 255, 255, 0, 0, 255, 255, 255, 255, 255],
    [255, 255, 255, 255, 0, 255, 255, 255, 255, 255, 0, 255, 255, 255, 255, 0, 0, 0, 255, 0, 0, 0, 255, 255, 255, 255, 255, 255, 255],
    [255, 255, 255, 255, 0, 255, 0, 0, 0, 255, 0, 255, 0, 255, 0, 0, 255, 0, 0, 0, 255, 255, 0, 255, 0, 255, 255, 255, 255],
    [255, 255, 255, 255, 0, 255, 0, 0, 0, 255, 0, 255, 255, 255, 255, 255, 255, 255, 0, 255, 255, 255, 0, 0, 255, 255, 255, 255, 255],
    [255, 255, 255, 255, 0, 255, 0, 0, 0, 255, 0, 255, 0, 255, 0, 255, 0, 255, 255, 255, 0, 255, 255, 255, 0, 255, 255, 255, 255],
    [255, 255, 255, 255, 0, 255, 255, 255, 255, 255, 0, 255, 255, 0, 255, 255, 255, 255, 0, 255, 255, 255, 0, 0, 0, 255, 255, 255, 255],
    [255, 255, 255, 255, 0, 0, 0, 0, 0, 0, 0, 255, 0, 255, 255, 255, 0, 255, 0, 255, 0, 255, 0, 255, 0, 255, 255, 255, 255],
    [255, 255, 255, 255, 255, 255, 255, 255, 255, 255, 255, 255, 255, 255, 255, 255, 255, 255, 255, 255, 255, 255, 255, 255, 255, 255, 255, 255, 255],
    [255, 255, 255, 255, 255, 255, 255, 255, 255, 255, 255, 255, 255, 255, 255, 255, 255, 255, 255, 255, 255, 255, 255, 255, 255, 255, 255, 255, 255],
    [255, 255, 255, 255, 255, 255, 255, 255, 255, 255, 255, 255, 255, 255, 255, 255, 255, 255, 255, 255, 255, 255, 255, 255, 255, 255, 255, 255, 255],
    [255, 255, 255, 255, 255, 255, 255, 255, 255, 255, 255, 255, 255, 255, 255, 255, 255, 255, 255, 255, 255, 255, 255, 255, 255, 255, 255, 255, 255]]

/-- Its columns. -/
def badCols : List (List Nat) := [
    [255, 255, 255, 255, 255, 255, 255, 255, 255, 255, 255, 255, 255, 255, 255, 255, 255, 255, 255, 255, 255, 255, 255, 255, 255, 255, 255, 255, 255],
    [255, 255, 255, 255, 255, 255, 255, 255, 255, 255, 255, 255, 255, 255, 255, 255, 255, 255, 255, 255, 255, 255, 255, 255, 255, 255, 255, 255, 255],
    [255, 255, 255, 255, 255, 255, 255, 255, 255, 255, 255, 255, 255, 255, 255, 255, 255, 255, 255, 255, 255, 255, 255, 255, 255, 255, 255, 255, 255],
    [255, 255, 255, 255, 255, 255, 255, 255, 255, 255, 255, 255, 255, 255, 255, 255, 255, 255, 255, 255, 255, 255, 255, 255, 255, 255, 255, 255, 255],
    [255, 255, 255, 255, 0, 0, 0, 0, 0, 0, 0, 255, 0, 0, 255, 0, 0, 255, 0, 0, 0, 0, 0, 0, 0, 255, 255, 255, 255],
    [255, 255, 255, 255, 0, 255, 255, 255, 255, 255, 0, 255, 255, 0, 0, 0, 0, 255, 0, 255, 255, 255, 255, 255, 0, 255, 255, 255, 255],
    [255, 255, 255, 255, 0, 255, 0, 0, 0, 255, 0, 255, 0, 0, 0, 255, 255, 255, 0, 255, 0, 0, 0, 255, 0, 255, 255, 255, 255],
    [255, 255, 255, 255, 0, 255, 0, 0, 0, 255, 0, 255, 255, 0, 0, 0, 255, 255, 0, 255, 0, 0, 0, 255, 0, 255, 255, 255, 255],
    [255, 255, 255, 255, 0, 255, 0, 0, 0, 255, 0, 255, 0, 255, 255, 255, 255, 255, 0, 255, 0, 0, 0, 255, 0, 255, 255, 255, 255],
    [255, 255, 255, 255, 0, 255, 255, 255, 255, 255, 0, 255, 255, 0, 255, 255, 255, 255, 0, 255, 255, 255, 255, 255, 0, 255, 255, 255, 255],
    [255, 255, 255, 255, 0, 0, 0, 0, 0, 0, 0, 255, 0, 255, 0, 255, 0, 255, 0, 0, 0, 0, 0, 0, 0, 255, 255, 255, 255],
    [255, 255, 255, 255, 255, 255, 255, 255, 255, 255, 255, 255, 255, 0, 255, 255, 0, 255, 255, 255, 255, 255, 255, 255, 255, 255, 255, 255, 255],
    [255, 255, 255, 255, 255, 0, 255, 255, 0, 255, 0, 255, 255, 255, 0, 0, 255, 0, 255, 255, 0, 255, 0, 255, 0, 255, 255, 255, 255],
    [255, 255, 255, 255, 255, 0, 255, 0, 0, 0, 255, 0, 255, 0, 255, 255, 255, 0, 255, 255, 255, 255, 255, 0, 255, 255, 255, 255, 255],
    [255, 255, 255, 255, 0, 255, 0, 255, 255, 0, 0, 255, 0, 0, 255, 0, 255, 0, 255, 255, 0, 255, 0, 255, 255, 255, 255, 255, 255],
    [255, 255, 255, 255, 0, 0, 255, 255, 255, 255, 255, 0, 0, 255, 255, 255, 255, 0, 0, 0, 0, 255, 255, 255, 255, 255, 255, 255, 255],
    [255, 255, 255, 255, 255, 255, 255, 0, 0, 0, 0, 0, 255, 255, 0, 255, 0, 255, 255, 0, 255, 255, 0, 255, 0, 255, 255, 255, 255],
    [255, 255, 255, 255, 255, 255, 255, 255, 255, 255, 255, 255, 255, 255, 255, 255, 255, 0, 0, 0, 0, 255, 255, 255, 255, 255, 255, 255, 255],
    [255, 255, 255, 255, 0, 0, 0, 0, 0, 0, 0, 255, 255, 0, 255, 0, 0, 255, 0, 255, 0, 0, 255, 0, 0, 255, 255, 255, 255],
    [255, 255, 255, 255, 0, 255, 255, 255, 255, 255, 0, 255, 255, 255, 255, 255, 255, 0, 0, 0, 0, 255, 255, 255, 255, 255, 255, 255, 255],
    [255, 255, 255, 255, 0, 255, 0, 0, 0, 255, 0, 255, 0, 255, 0, 255, 0, 255, 255, 0, 255, 255, 0, 255, 0, 255, 255, 255, 255],
    [255, 255, 255, 255, 0, 255, 0, 0, 0, 255, 0, 255, 255, 255, 0, 255, 255, 0, 255, 0, 255, 255, 255, 255, 255, 255, 255, 255, 255],
    [255, 255, 255, 255, 0, 255, 0, 0, 0, 255, 0, 255, 255, 0, 255, 0, 0, 255, 0, 255, 0, 0, 255, 0, 0, 255, 255, 255, 255],
    [255, 255, 255, 255, 0, 255, 255, 255, 255, 255, 0, 255, 0, 0, 0, 0, 0, 0, 0, 255, 255, 0, 255, 0, 255, 255, 255, 255, 255],
    [255, 255, 255, 255, 0, 0, 0, 0, 0, 0, 0, 255, 255, 255, 255, 255, 0, 255, 255, 255, 0, 255, 0, 0, 0, 255, 255, 255, 255],
    [255, 255, 255, 255, 255, 255, 255, 255, 255, 255, 255, 255, 255, 255, 255, 255, 255, 255, 255, 255, 255, 255, 255, 255, 255, 255, 255, 255, 255],
    [255, 255, 255, 255, 255, 255, 255, 255, 255, 255, 255, 255, 255, 255, 255, 255, 255, 255, 255, 255, 255, 255, 255, 255, 255, 255, 255, 255, 255],
    [255, 255, 255, 255, 255, 255, 255, 255, 255, 255, 255, 255, 255, 255, 255, 255, 255, 255, 255, 255, 255, 255, 255, 255, 255, 255, 255, 255, 255],
    [255, 255, 255, 255, 255, 255, 255, 255, 255, 255, 255, 255, 255, 255, 255, 255, 255, 255, 255, 255, 255, 255, 255, 255, 255, 255, 255, 255, 255]]

theorem badSmall_rows : RowsOf badSmall badRows badCols :=
  rowsOf_picture badModules_bits (by decide +kernel) (by decide +kernel)

theorem badSmall_steady : ∀ y < badSmall.height, SteadyRow badSmall badSmall.width y :=
  steadyRow_of badSmall_rows (by decide +kernel)

theorem badSmall_others : NeverOthers badSmall (symbolFinders 1 1 4 4) :=
  neverOthers_of badSmall_rows (by decide +kernel)

theorem badSmall_legible (m : Nat) (hm : 2 ≤ m) : Legible badSmall m :=
  legible_of_bits (n := badSmallBits) badSmall_rows (picture_white_end (by decide)) (by decide +kernel) (by decide +kernel)
    (by decide +kernel) m hm

theorem badModules_wellFormed : WellFormed badModules 1 := bitmap_wellFormed badModules_bits rfl rfl

set_option maxRecDepth 1000000 in
theorem badModules_panics : qrDecode (.ok badModules) = .panic := by
  have h : (match qrDecode (.ok badModules) with
    | .panic => true
    | _ => false) = true := by decide +kernel
  cases he : qrDecode (.ok badModules) with
  | panic => rfl
  | err e => rw [he] at h; cases h
  | ok q => rw [he] at h; cases h

theorem badModules_finders : HasFinders badModules := by
  intro i hi j hj p hp
  have h : ∀ i < 8, ∀ j < 8, ∀ p ∈ [i * 21 + j, i * 21 + (21 - 1 - j), (21 - 1 - i) * 21 + j],
      (p < 441) ∧ tone (bit badBits p) = if finderModule j i then 0#8 else 255#8 := by decide +kernel
  obtain ⟨h1, h2⟩ := h i hi j hj p hp
  rw [badModules_bits.get h1, h2]

/-- Every crisp image of the symbol, of any size that fits, makes both default decoders panic. -/
theorem bad_symbol_panics_at_every_size (m : Nat) (hm : 2 ≤ m) (hsize : 29 * m ≤ 2 ^ 18) (src : GrayImage)
    (hsrc : src.Valid) (hc : CrispEnlargement src badSmall m) :
    (∃ d : Decoder Unit GrayImage GrayImage QRLocation QRData (List Char), defaultDecoder id = .ret d ∧
      ∀ s, d.decode src s = .panic) ∧
    ∃ d : Decoder Unit GrayImage GrayImage QRLocation QRData (List Char × QRInfo), defaultDecoderWithInfo id = .ret d ∧
      ∀ s, d.decode src s = .panic := by
  obtain ⟨-, -, payload, hpay, hbad⟩ := (decode_panics_iff badModules 1 badModules_wellFormed).mp badModules_panics
  obtain ⟨he, hv⟩ := crisp_enlargement hc hsrc (badSmall_legible m hm)
  have hm0 : 0 < m := by omega
  have hgv : badSmall.Valid := picture_valid (by decide)
  have hd : Drawn badSmall badModules 1 4 4 := picture_drawn (by
    rw [badModules_wellFormed.2.2, badModules_wellFormed.2.1]) (by omega)
  have hz : QuietZone badSmall badModules.side 1 4 4 := picture_quiet (by omega)
  have hclean := drawn_clean (m := 1) (by omega) badModules_wellFormed.2.1 hd badModules_finders hz
  have e1 : badSmall.width = 29 := rfl
  have e2 : badSmall.height = 29 := rfl
  refine shown_grid_panics (σ := Unit) id src hsrc _ rfl ?_ ?_ ?_ m hm (scaled m (symbolFinders 1 1 4 4)) ?_
    (scaled_order hm0 (by unfold ScanOrder; decide)) ?_ ?_ badModules 1 (by decide) (by decide) badModules_wellFormed
    (by omega) (4 * m) (4 * m) (enlarged_drawn he hm0 hv hgv hd) (by rw [scaled_symbol]) payload hpay hbad
  · rw [id, he.1, he.2.1, e1, e2]
    calc _ ≤ 2 ^ 18 * 2 ^ 18 := Nat.mul_le_mul hsize hsize
      _ = _ := by norm_num
  · rw [id, he.1, e1]; omega
  · rw [id, he.2.1, e2]; omega
  · intro f hf
    obtain ⟨F, hF, rfl⟩ := mem_scaled.mp hf
    exact enlarged_clean he hm0 (hclean F hF)
  · intro f hf y hy
    obtain ⟨F, hF, rfl⟩ := mem_scaled.mp hf
    have c2 := (enlarged_clean he hm0 (hclean F hF)).2.1
    simp only at hy c2
    refine enlarged_steady he hm0 (by omega) (badSmall_steady _ ?_)
    rw [← Nat.add_mul] at hy
    have := Nat.div_le_div_right (c := m) hy
    rw [Nat.mul_div_cancel _ hm0] at this
    have hF2 := (hclean F hF).2.1
    omega
  · refine enlarged_no_others_near he hm ?_ ?_
    · intro f hf
      have := (hclean f hf).1
      omega
    · intro y hy x hx hr t ht
      rcases badSmall_others y hy x hx hr t ht with h | h
      · exact .inl h
      · exact .inr (.inl h)

/-- There are such images. -/
example (m : Nat) (hm : 2 ≤ m) (hsize : 29 * m ≤ 2 ^ 18) : (enlarge badSmall m).Valid ∧
    CrispEnlargement (enlarge badSmall m) badSmall m := by
  have he := enlarge_enlarged badSmall m
  have e : badSmall.width = 29 ∧ badSmall.height = 29 := ⟨rfl, rfl⟩
  refine ⟨enlarge_valid (by rw [e.1]; omega) (by rw [e.2]; omega), he.1, he.2.1, ?_⟩
  intro x hx y hy
  have hxw : x / m < 29 := (Nat.div_lt_iff_lt_mul (by omega)).mpr (by rw [he.1, e.1] at hx; exact hx)
  have hyh : y / m < 29 := (Nat.div_lt_iff_lt_mul (by omega)).mpr (by rw [he.2.1, e.2] at hy; exact hy)
  have hpix : grey badSmall (x / m) (y / m) = 0 ∨ grey badSmall (x / m) (y / m) = 255 :=
    black_or_white badSmall_rows (by decide +kernel) hxw hyh
  rw [he.2.2 x hx y hy]
  omega

end Verif.Props
