import Verif.Lemmas.EnlargeDraw
import Verif.Props.Among

/-!
# C67: a symbol drawn at any size

The conditions are about the symbol drawn with one pixel per module, so that they can be checked once for all sizes.
-/
namespace Verif.Props
open Verif Verif.Spec F64 LineScan

variable {σ IMG : Type}

/-- **C68 (at every size).** As C67, for a grid with any data modules: the result of decoding it is the only result. -/
theorem default_decoder_decodes_enlarged (grayscale : IMG → GrayImage) (source : IMG) (hsrc : (grayscale source).Valid)
    (g : GrayImage) (hg : g.Valid) (m : Nat) (hm : Legible g m) (hc : CrispEnlargement (grayscale source) g m)
    (hpx : g.width * m * (g.height * m) ≤ 2 ^ 36) (hw : g.width * m ≤ 2 ^ 20)
    (hh : g.height * m ≤ 2 ^ 20) (q : QRData) (v : Nat) (h1 : 1 ≤ v) (h40 : v ≤ 40) (hq : WellFormed q v) (hf : HasFinders q)
    (hal : 2 ≤ v → HasAlignment q) (ox oy : Nat) (hd : Drawn g q 1 ox oy) (hz : QuietZone g q.side 1 ox oy)
    (hs : ∀ y < g.height, SteadyRow g g.width y) (hn : NeverOthers g (symbolFinders v 1 ox oy)) :
    (∃ d : Decoder σ IMG GrayImage QRLocation QRData (List Char), defaultDecoder grayscale = .ret d ∧
      ∀ r, Gives (qrDecode (.ok q)) r → ∀ s, d.decode source s = .ret ([r], s)) ∧
    ∃ d : Decoder σ IMG GrayImage QRLocation QRData (List Char × QRInfo), defaultDecoderWithInfo grayscale = .ret d ∧
      ∀ r, Gives (qrDecodeWithInfo (.ok q)) r → ∀ s, d.decode source s = .ret ([r], s) := by
  obtain ⟨he, hv⟩ := crisp_enlargement hc hsrc hm
  have hm2 := hm.le
  have hm0 : 0 < m := by omega
  have hclean := drawn_clean (m := 1) (by omega) hq.2.1 hd hf hz
  refine default_decoder_decodes_grid grayscale source hsrc _ rfl (by rw [he.1, he.2.1]; exact hpx)
    (by rw [he.1]; exact hw) (by rw [he.2.1]; exact hh) q v h1 h40 hq hf hal m (ox * m)
    (oy * m) (by omega) (enlarged_drawn he hm0 hv hg hd) (enlarged_quiet he hm0 hz) ?_ ?_
  · intro y hy
    exact enlarged_steady he hm0 hy (hs _ ((Nat.div_lt_iff_lt_mul hm0).mpr (by rw [← he.2.1]; exact hy)))
  · rw [← scaled_symbol]
    refine enlarged_no_others he (by omega) ?_ hn
    intro f hf'
    have := (hclean f hf').1
    omega

/-- **C67.** A black and white image `g` shows a symbol, one pixel per module, with its border; it has no row with a
run shorter than a tenth of the one before, and nothing but the finder patterns that a row and the column
through its middle could both take for one. Then the default decoders read every crisp enlargement of `g` by five or
more, or by two to four if black and white are mixed well enough: the result is the text of the symbol and nothing
else. -/
theorem default_decoder_reads_enlarged (grayscale : IMG → GrayImage) (source : IMG) (hsrc : (grayscale source).Valid)
    (g : GrayImage) (hg : g.Valid) (m : Nat) (hm : Legible g m) (hc : CrispEnlargement (grayscale source) g m)
    (hpx : g.width * m * (g.height * m) ≤ 2 ^ 36) (hw : g.width * m ≤ 2 ^ 20)
    (hh : g.height * m ≤ 2 ^ 20) (q : QRData) (v : Nat) (h1 : 1 ≤ v) (h40 : v ≤ 40) (l : ECLevel) (k : Nat)
    (hk : k < 8) (segments : List Segment) (hfit : ∀ s ∈ segments, s.fits v) (text : List Char)
    (htext : SegmentsText segments text) (hq : IsSymbol q v l k segments) (hf : HasFinders q)
    (hal : 2 ≤ v → HasAlignment q) (ox oy : Nat) (hd : Drawn g q 1 ox oy) (hz : QuietZone g q.side 1 ox oy)
    (hs : ∀ y < g.height, SteadyRow g g.width y) (hn : NeverOthers g (symbolFinders v 1 ox oy)) :
    (∃ d : Decoder σ IMG GrayImage QRLocation QRData (List Char), defaultDecoder grayscale = .ret d ∧
      ∀ s, d.decode source s = .ret ([.ok text], s)) ∧
    ∃ info, info.version = v ∧ info.ecLevel = l ∧ info.errors = 0 ∧
      ∃ d : Decoder σ IMG GrayImage QRLocation QRData (List Char × QRInfo), defaultDecoderWithInfo grayscale = .ret d ∧
        ∀ s, d.decode source s = .ret ([.ok (text, info)], s) := by
  obtain ⟨t1, info, t2, i1, i2, i3⟩ := symbol_decodes q v h1 h40 l k hk segments hfit text htext hq
  obtain ⟨⟨d, e, h⟩, d', e', h'⟩ := default_decoder_decodes_enlarged (σ := σ) grayscale source hsrc g hg m hm hc hpx
    hw hh q v h1 h40 hq.1 hf hal ox oy hd hz hs hn
  exact ⟨⟨d, e, h _ (Or.inl ⟨text, t1, rfl⟩)⟩, info, i1, i2, i3, d', e', h' _ (Or.inl ⟨(text, info), t2, rfl⟩)⟩

/-- C68 for one of several grids at every size: the result of decoding it is among the results. -/
theorem default_decoder_finds_enlarged_grid (grayscale : IMG → GrayImage) (source : IMG) (hsrc : (grayscale source).Valid)
    (g : GrayImage) (hg : g.Valid) (m : Nat) (hm : Legible g m) (hc : CrispEnlargement (grayscale source) g m)
    (hpx : g.width * m * (g.height * m) ≤ 2 ^ 36) (hw : g.width * m ≤ 2 ^ 20)
    (hh : g.height * m ≤ 2 ^ 20) (fs : List (Nat × Nat)) (hcl : ∀ f ∈ fs, CleanFinder g 1 f.1 f.2)
    (ho : fs.Pairwise (ScanOrder 1)) (hs : ∀ f ∈ fs, ∀ y ≤ f.2 + 2, SteadyRow g g.width y)
    (hn : NeverOthersNear g fs) (q : QRData) (v : Nat) (h1 : 1 ≤ v) (h40 : v ≤ 40) (hq : WellFormed q v) (hal : 2 ≤ v → HasAlignment q)
    (ox oy : Nat) (hd : Drawn g q 1 ox oy) (hsym : (symbolFinders v 1 ox oy).Sublist fs) :
    (∃ d : Decoder σ IMG GrayImage QRLocation QRData (List Char), defaultDecoder grayscale = .ret d ∧
      ∀ r, Gives (qrDecode (.ok q)) r → ∀ s rs s', d.decode source s = .ret (rs, s') → r ∈ rs) ∧
    ∃ d : Decoder σ IMG GrayImage QRLocation QRData (List Char × QRInfo), defaultDecoderWithInfo grayscale = .ret d ∧
      ∀ r, Gives (qrDecodeWithInfo (.ok q)) r → ∀ s rs s', d.decode source s = .ret (rs, s') → r ∈ rs := by
  obtain ⟨he, hv⟩ := crisp_enlargement hc hsrc hm
  have hm2 := hm.le
  have hm0 : 0 < m := by omega
  refine default_decoder_finds_grid grayscale source hsrc _ rfl (by rw [he.1, he.2.1]; exact hpx)
    (by rw [he.1]; exact hw) (by rw [he.2.1]; exact hh) m (by omega) (scaled m fs) ?_ (scaled_order hm0 ho) ?_ ?_
    q v h1 h40 hq hal (ox * m) (oy * m) (enlarged_drawn he hm0 hv hg hd) ?_
  · intro f hf
    obtain ⟨F, hF, rfl⟩ := mem_scaled.mp hf
    exact enlarged_clean he hm0 (hcl F hF)
  · intro f hf y hy
    obtain ⟨F, hF, rfl⟩ := mem_scaled.mp hf
    have c2 := (enlarged_clean he hm0 (hcl F hF)).2.1
    simp only at hy c2
    refine enlarged_steady he hm0 (by omega) (hs F hF _ ?_)
    rw [← Nat.add_mul] at hy
    have := Nat.div_le_div_right (c := m) hy
    rwa [Nat.mul_div_cancel _ hm0] at this
  · refine enlarged_no_others_near he (by omega) ?_ hn
    intro f hf
    have := (hcl f hf).1
    omega
  · rw [← scaled_symbol]
    exact scaled_sublist hsym

/-- C67 for an image of several symbols, or of one among other things: wherever such finder patterns come close to
others before the scan has reached those, the column has to rule them out. The text of every symbol is among the
results whenever decoding returns. -/
theorem default_decoder_finds_enlarged (grayscale : IMG → GrayImage) (source : IMG) (hsrc : (grayscale source).Valid)
    (g : GrayImage) (hg : g.Valid) (m : Nat) (hm : Legible g m) (hc : CrispEnlargement (grayscale source) g m)
    (hpx : g.width * m * (g.height * m) ≤ 2 ^ 36) (hw : g.width * m ≤ 2 ^ 20)
    (hh : g.height * m ≤ 2 ^ 20) (fs : List (Nat × Nat)) (hcl : ∀ f ∈ fs, CleanFinder g 1 f.1 f.2)
    (ho : fs.Pairwise (ScanOrder 1)) (hs : ∀ f ∈ fs, ∀ y ≤ f.2 + 2, SteadyRow g g.width y)
    (hn : NeverOthersNear g fs) (q : QRData) (v : Nat) (h1 : 1 ≤ v) (h40 : v ≤ 40) (l : ECLevel) (k : Nat)
    (hk : k < 8) (segments : List Segment) (hfit : ∀ s ∈ segments, s.fits v) (text : List Char)
    (htext : SegmentsText segments text) (hq : IsSymbol q v l k segments) (hal : 2 ≤ v → HasAlignment q)
    (ox oy : Nat) (hd : Drawn g q 1 ox oy) (hsym : (symbolFinders v 1 ox oy).Sublist fs) :
    (∃ d : Decoder σ IMG GrayImage QRLocation QRData (List Char), defaultDecoder grayscale = .ret d ∧
      ∀ s rs s', d.decode source s = .ret (rs, s') → .ok text ∈ rs) ∧
    ∃ info, info.version = v ∧ info.ecLevel = l ∧ info.errors = 0 ∧
      ∃ d : Decoder σ IMG GrayImage QRLocation QRData (List Char × QRInfo), defaultDecoderWithInfo grayscale = .ret d ∧
        ∀ s rs s', d.decode source s = .ret (rs, s') → .ok (text, info) ∈ rs := by
  obtain ⟨t1, info, t2, i1, i2, i3⟩ := symbol_decodes q v h1 h40 l k hk segments hfit text htext hq
  obtain ⟨⟨d, e, h⟩, d', e', h'⟩ := default_decoder_finds_enlarged_grid (σ := σ) grayscale source hsrc g hg m hm hc hpx
    hw hh fs hcl ho hs hn q v h1 h40 hq.1 hal ox oy hd hsym
  exact ⟨⟨d, e, h _ (Or.inl ⟨text, t1, rfl⟩)⟩, info, i1, i2, i3, d', e', h' _ (Or.inl ⟨(text, info), t2, rfl⟩)⟩

/-- C67: modules of five pixels are large enough, whatever the image shows, if it ends with white. -/
theorem large_modules_are_legible (g : GrayImage) (hend : WhiteEnd g) (m : Nat) (hm : 5 ≤ m) : Legible g m :=
  legible_large hm hend

/-- C67 for the picture of an encoded text, at any size: modules of `m` by `m` pixels, `m` at least 5 and a border of two
modules, or smaller modules if the colours are mixed. -/
theorem picture_reads_at_every_size (v : Nat) (h1 : 1 ≤ v) (h40 : v ≤ 40) (l : ECLevel) (k : Nat) (hk : k < 8)
    (segments : List Segment) (hfit : ∀ s ∈ segments, s.fits v) (text : List Char) (htext : SegmentsText segments text)
    (hcap : (segments.flatMap (·.bits v)).length ≤ 8 * dataCapacity v l) (b : Nat) (hb : 1 ≤ b)
    (g : GrayImage) (hg : g = picture (encode v l k segments (functionPatterns v)) 1 b)
    (hs : ∀ y < g.height, SteadyRow g g.width y) (hn : NeverOthers g (symbolFinders v 1 b b))
    (m : Nat) (hm : Legible g m) (hsize : (sideOf v + 2 * b) * m ≤ 2 ^ 18) (grayscale : IMG → GrayImage) (source : IMG)
    (hsrc : (grayscale source).Valid) (hc : CrispEnlargement (grayscale source) g m) :
    (∃ d : Decoder σ IMG GrayImage QRLocation QRData (List Char), defaultDecoder grayscale = .ret d ∧
      ∀ s, d.decode source s = .ret ([.ok text], s)) ∧
    ∃ info, info.version = v ∧ info.ecLevel = l ∧ info.errors = 0 ∧
      ∃ d : Decoder σ IMG GrayImage QRLocation QRData (List Char × QRInfo), defaultDecoderWithInfo grayscale = .ret d ∧
        ∀ s, d.decode source s = .ret ([.ok (text, info)], s) := by
  have hside : (encode v l k segments (functionPatterns v)).side = sideOf v := rfl
  have hW : g.width = sideOf v + 2 * b := by rw [hg]; simp only [picture, hside, Nat.mul_one]
  have hH : g.height = sideOf v + 2 * b := by rw [hg]; simp only [picture, hside, Nat.mul_one]
  have hlt : sideOf v + 2 * b ≤ (sideOf v + 2 * b) * m := Nat.le_mul_of_pos_right _ (by have := hm.le; omega)
  have hq := encode_isSymbol v h1 h40 l k segments hcap (functionPatterns v)
  have hgv : g.Valid := by rw [hg]; exact picture_valid (by rw [hside]; omega)
  refine default_decoder_reads_enlarged grayscale source hsrc g hgv m hm hc
    ?_ (by rw [hW]; omega) (by rw [hH]; omega) _ v h1 h40 l k hk segments hfit text htext hq (encode_finders _ _ _ _)
    (fun h2 => encode_alignment h2 h40 l k segments (functionPatterns_alignment v h2 h40)) b b (by rw [hg]; exact picture_drawn (by rw [hq.1.2.2, hq.1.2.1]) (by omega))
    (by rw [hg]; exact picture_quiet (by omega)) hs hn
  rw [hW, hH]
  calc _ ≤ 2 ^ 18 * 2 ^ 18 := Nat.mul_le_mul hsize hsize
    _ = _ := by norm_num

end Verif.Props
