import Verif.Props.Scales
import Verif.Props.Damage

/-!
# C68: the image of a damaged symbol

Pictures of a grid whose data and format modules may be anything lead to the result of decoding the grid
(`default_decoder_decodes_grid`, `default_decoder_finds_grid`, `default_decoder_decodes_enlarged`); with C56 a
damaged symbol is read from its image.
-/
namespace Verif.Props
open Verif Verif.Spec F64 LineScan

variable {σ IMG : Type}

/-- **C68.** Take any symbol `s` with one of the versions and levels in `singlesRepaired`, and damage it to `q`:
arbitrarily within a set `J` of codewords of which no two belong to the same block, and in at most two modules of
the first format copy other than the last one; the second format copy, version information and timing may be damaged
at will, finder and alignment patterns must be intact. From an image that shows `q` as in C65 the default decoders
read the text of `s`, and the errors reported are the number of damaged codeword modules. -/
theorem default_decoder_reads_damaged (q s : QRData) (v : Nat) (h1 : 1 ≤ v) (h40 : v ≤ 40) (l : ECLevel) (k : Nat)
    (hk : k < 8) (hvl : (v, l) ∈ singlesRepaired) (segments : List Segment)
    (hfit : ∀ s ∈ segments, s.fits v) (text : List Char) (htext : SegmentsText segments text)
    (hs : IsSymbol s v l k segments) (hwf : WellFormed q v)
    (e : List Bool) (he : e.length = 15) (hwe : weight e ≤ 2) (hlast : e.getD 14 false = false)
    (hfmt : Shows q formatCopy1 (flipBits (formatWord l k) e))
    (J : Nat → Prop)
    (hJ : ∀ i j b : Nat, J i → J j → (blockNumbers v l)[i]? = some b → (blockNumbers v l)[j]? = some b → i = j)
    (hsame : ∀ (i : Nat) p, (dataModules v)[i]? = some p → ¬ J (i / 8) →
      moduleAt q p.1 p.2 = moduleAt s p.1 p.2)
    (hf : HasFinders q) (hal : 2 ≤ v → HasAlignment q)
    (grayscale : IMG → GrayImage) (source : IMG) (hg : (grayscale source).Valid)
    (img : GrayImage) (himg : img = thresholded 5 7 (grayscale source)) (hpx : img.width * img.height ≤ 2 ^ 36)
    (hw : img.width ≤ 2 ^ 20) (hh : img.height ≤ 2 ^ 20) (m ox oy : Nat) (hm : 2 ≤ m) (hd : Drawn img q m ox oy)
    (hz : QuietZone img q.side m ox oy) (hst : ∀ y < img.height, SteadyRow img img.width y)
    (hn : NoOtherFinders img m (symbolFinders v m ox oy)) :
    (∃ d : Decoder σ IMG GrayImage QRLocation QRData (List Char), defaultDecoder grayscale = .ret d ∧
      ∀ s, d.decode source s = .ret ([.ok text], s)) ∧
    ∃ info, info.version = v ∧ info.ecLevel = l ∧
      info.errors = (((dataModules v).take (8 * totalCodewords v)).countP
        fun p => moduleAt q p.1 p.2 ≠ moduleAt s p.1 p.2) ∧
      ∃ d : Decoder σ IMG GrayImage QRLocation QRData (List Char × QRInfo), defaultDecoderWithInfo grayscale = .ret d ∧
        ∀ s, d.decode source s = .ret ([.ok (text, info)], s) := by
  obtain ⟨t1, info, t2, i1, i2, i3⟩ := damaged_symbol_decodes q s v h1 h40 l k hk hvl segments hfit text htext hs hwf e he
    hwe hlast hfmt J hJ hsame
  obtain ⟨⟨d, e, h⟩, d', e', h'⟩ := default_decoder_decodes_grid (σ := σ) grayscale source hg img himg hpx hw hh q v h1 h40
    hwf hf hal m ox oy hm hd hz hst hn
  exact ⟨⟨d, e, h _ (Or.inl ⟨text, t1, rfl⟩)⟩, info, i1, i2, i3, d', e', h' _ (Or.inl ⟨(text, info), t2, rfl⟩)⟩

/-- C68 for the picture of the damaged symbol at any size: modules of `m` by `m` pixels, `m` at least 5 and a border of two
modules, or smaller modules if the colours are mixed. -/
theorem damaged_reads_at_every_size (q s : QRData) (v : Nat) (h1 : 1 ≤ v) (h40 : v ≤ 40) (l : ECLevel) (k : Nat)
    (hk : k < 8) (hvl : (v, l) ∈ singlesRepaired) (segments : List Segment)
    (hfit : ∀ s ∈ segments, s.fits v) (text : List Char) (htext : SegmentsText segments text)
    (hs : IsSymbol s v l k segments) (hwf : WellFormed q v)
    (e : List Bool) (he : e.length = 15) (hwe : weight e ≤ 2) (hlast : e.getD 14 false = false)
    (hfmt : Shows q formatCopy1 (flipBits (formatWord l k) e))
    (J : Nat → Prop)
    (hJ : ∀ i j b : Nat, J i → J j → (blockNumbers v l)[i]? = some b → (blockNumbers v l)[j]? = some b → i = j)
    (hsame : ∀ (i : Nat) p, (dataModules v)[i]? = some p → ¬ J (i / 8) →
      moduleAt q p.1 p.2 = moduleAt s p.1 p.2)
    (hf : HasFinders q) (hal : 2 ≤ v → HasAlignment q) (b : Nat) (hb : 1 ≤ b)
    (g : GrayImage) (hg : g = picture q 1 b)
    (hst : ∀ y < g.height, SteadyRow g g.width y) (hn : NeverOthers g (symbolFinders v 1 b b))
    (m : Nat) (hm : Legible g m) (hsize : (sideOf v + 2 * b) * m ≤ 2 ^ 18) (grayscale : IMG → GrayImage) (source : IMG)
    (hsrc : (grayscale source).Valid) (hc : CrispEnlargement (grayscale source) g m) :
    (∃ d : Decoder σ IMG GrayImage QRLocation QRData (List Char), defaultDecoder grayscale = .ret d ∧
      ∀ s, d.decode source s = .ret ([.ok text], s)) ∧
    ∃ info, info.version = v ∧ info.ecLevel = l ∧
      info.errors = (((dataModules v).take (8 * totalCodewords v)).countP
        fun p => moduleAt q p.1 p.2 ≠ moduleAt s p.1 p.2) ∧
      ∃ d : Decoder σ IMG GrayImage QRLocation QRData (List Char × QRInfo), defaultDecoderWithInfo grayscale = .ret d ∧
        ∀ s, d.decode source s = .ret ([.ok (text, info)], s) := by
  obtain ⟨t1, info, t2, i1, i2, i3⟩ := damaged_symbol_decodes q s v h1 h40 l k hk hvl segments hfit text htext hs hwf e he
    hwe hlast hfmt J hJ hsame
  have hside : q.side = sideOf v := hwf.2.1
  have hW : g.width = sideOf v + 2 * b := by rw [hg]; simp only [picture, hside, Nat.mul_one]
  have hH : g.height = sideOf v + 2 * b := by rw [hg]; simp only [picture, hside, Nat.mul_one]
  have hlt : sideOf v + 2 * b ≤ (sideOf v + 2 * b) * m := Nat.le_mul_of_pos_right _ (by have := hm.le; omega)
  have hgv : g.Valid := by rw [hg]; exact picture_valid (by rw [hside]; omega)
  obtain ⟨⟨d, e, h⟩, d', e', h'⟩ := default_decoder_decodes_enlarged (σ := σ) grayscale source hsrc g hgv m hm hc
    (by
      rw [hW, hH]
      calc _ ≤ 2 ^ 18 * 2 ^ 18 := Nat.mul_le_mul hsize hsize
        _ = _ := by norm_num)
    (by rw [hW]; omega) (by rw [hH]; omega) q v h1 h40 hwf hf hal b b
    (by rw [hg]; exact picture_drawn (by rw [hwf.2.2, hwf.2.1]) (by omega))
    (by rw [hg]; exact picture_quiet (by omega)) hst hn
  exact ⟨⟨d, e, h _ (Or.inl ⟨text, t1, rfl⟩)⟩, info, i1, i2, i3, d', e', h' _ (Or.inl ⟨(text, info), t2, rfl⟩)⟩

end Verif.Props
