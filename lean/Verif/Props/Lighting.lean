import Verif.Lemmas.Lit
import Verif.Props.TurnedPicture

/-!
# C71: a symbol in uneven light

The levels of grey that show black and white may change over the image, and need not be near 0 and 255.
-/
namespace Verif.Props
open Verif Verif.Spec F64 LineScan

variable {σ IMG : Type}

/-- **C71.** Where black and white are mixed, the thresholding with default settings removes all effects of light: a grey
image that shows an enlarged black and white image, with levels that vary from place to place by less than a seventh of
the contrast, becomes exactly the enlarged image. -/
theorem thresholding_ignores_lighting (src : GrayImage) (hsrc : src.Valid) (hpx : src.width * src.height ≤ 2 ^ 36)
    (hw : src.width ≤ 2 ^ 20) (hh : src.height ≤ 2 ^ 20) (hw5 : 5 ≤ src.width) (hh5 : 5 ≤ src.height)
    (g : GrayImage) (m : Nat) (hm : WellMixed g m) (hlit : LitEnlargement src g m) :
    ∃ img, (BlockedMean.mk 5 7).prepare src = .ret img ∧ Enlarged img g m :=
  ⟨_, (prepares src hsrc _ rfl hpx hw hh hw5 hh5).1, (lit_threshold hlit hsrc hm).1⟩

/-- **C71.** As C69, for a grid shown in any light: the result of decoding the grid is the only result. -/
theorem default_decoder_decodes_lit (grayscale : IMG → GrayImage) (source : IMG) (hsrc : (grayscale source).Valid)
    (g : GrayImage) (hg : g.Valid) (m : Nat) (hm2 : 2 ≤ m) (hm : WellMixed g m) (hlit : LitEnlargement (grayscale source) g m)
    (hpx : g.width * m * (g.height * m) ≤ 2 ^ 36) (hw : g.width * m ≤ 2 ^ 20)
    (hh : g.height * m ≤ 2 ^ 20) (q : QRData) (v : Nat) (h1 : 1 ≤ v) (h40 : v ≤ 40) (hq : WellFormed q v) (hf : HasFinders q)
    (hal : 2 ≤ v → HasAlignment q) (ρ : Orientation) (hρ : ¬ ρ.Mirrored) (ox oy : Nat) (hd : DrawnAs g q ρ 1 ox oy)
    (hz : QuietZone g q.side 1 ox oy)
    (hs : ∀ y < g.height, SteadyRow g g.width y) (hn : NeverOthers g (turnedFinders ρ v 1 ox oy)) :
    (∃ d : Decoder σ IMG GrayImage QRLocation QRData (List Char), defaultDecoder grayscale = .ret d ∧
      ∀ r, Gives (qrDecode (.ok q)) r → ∀ s, d.decode source s = .ret ([r], s)) ∧
    ∃ d : Decoder σ IMG GrayImage QRLocation QRData (List Char × QRInfo), defaultDecoderWithInfo grayscale = .ret d ∧
      ∀ r, Gives (qrDecodeWithInfo (.ok q)) r → ∀ s, d.decode source s = .ret ([r], s) := by
  obtain ⟨he, hv⟩ := lit_threshold hlit hsrc hm
  exact default_decoder_decodes_shown_turned grayscale source hsrc g hg m hm2 he hv hpx hw hh q v h1 h40 hq hf hal ρ hρ
    ox oy hd hz hs hn

/-- **C71.** The picture of an encoded text is read in any light, in any of the four turns. -/
theorem picture_reads_in_any_light (v : Nat) (h1 : 1 ≤ v) (h40 : v ≤ 40) (l : ECLevel) (k : Nat) (hk : k < 8)
    (segments : List Segment) (hfit : ∀ s ∈ segments, s.fits v) (text : List Char) (htext : SegmentsText segments text)
    (hcap : (segments.flatMap (·.bits v)).length ≤ 8 * dataCapacity v l) (b : Nat) (hb : 1 ≤ b) (t : Nat)
    (g : GrayImage) (hg : g = picture (turned (.quarterTurns t) (encode v l k segments (functionPatterns v))) 1 b)
    (hs : ∀ y < g.height, SteadyRow g g.width y) (hn : NeverOthers g (turnedFinders (.quarterTurns t) v 1 b b))
    (m : Nat) (hm2 : 2 ≤ m) (hm : WellMixed g m) (hsize : (sideOf v + 2 * b) * m ≤ 2 ^ 18) (grayscale : IMG → GrayImage) (source : IMG)
    (hsrc : (grayscale source).Valid) (hlit : LitEnlargement (grayscale source) g m) :
    (∃ d : Decoder σ IMG GrayImage QRLocation QRData (List Char), defaultDecoder grayscale = .ret d ∧
      ∀ s, d.decode source s = .ret ([.ok text], s)) ∧
    ∃ info, info.version = v ∧ info.ecLevel = l ∧ info.errors = 0 ∧
      ∃ d : Decoder σ IMG GrayImage QRLocation QRData (List Char × QRInfo), defaultDecoderWithInfo grayscale = .ret d ∧
        ∀ s, d.decode source s = .ret ([.ok (text, info)], s) := by
  obtain ⟨he, hv⟩ := lit_threshold hlit hsrc hm
  exact shown_picture_reads v h1 h40 l k hk segments hfit text htext hcap b hb t g hg hs hn m hm2 hsize grayscale source
    hsrc he hv

end Verif.Props
