import Verif.Spec.Segments
import Verif.Spec.Symbol
import Verif.Spec.Sampling
import Verif.Spec.Threshold
import Verif.Model.LineScan
import Verif.Model.Extract
import Verif.Model.Decoder

/-!
# What makes a decoder panic

The stages are the public functions of the crate: thresholding, detection, extraction, and, within decoding, reading
the format information, reading the blocks, correcting a block.
-/
namespace Verif.Spec
open Verif

/-- The data codewords of a grid after correction, in the order in which they are read as segments: the format
information and the blocks can be read, every block can be corrected, and the data codewords of the corrected blocks
follow each other. -/
def CarriesData (q : QRData) (payload : List U8) : Prop :=
  ∃ (l : ECLevel) (m : QRMask) (bs : List (List U8)) (rows : List BlockInfo) (corrected : List (List U8)),
    format q = .ok (l, m) ∧ blocks q l m = .ok bs ∧ blockInfo q.version l = .ok rows ∧
    List.Forall₂ (fun p b => correct p.1 p.2 = .ok b) (bs.zip rows) corrected ∧
    payload = (corrected.zip rows).flatMap fun p => p.1.take p.2.data_per

/-- After some segments that can be read there is an alphanumeric segment of an odd number of characters, all legal but
the last: its 6 bits are a number above 44, which is no character. -/
def LastCharacterIllegal (version : Nat) (payload : List U8) : Prop :=
  ∃ (pre rest : List Bool) (cs : List (Fin 45)) (x : Nat),
    Readable version pre ∧ cs.length % 2 = 0 ∧ cs.length + 1 < 2 ^ Mode.alphanumeric.countBits version ∧
    45 ≤ x ∧ x < 64 ∧
    streamOf payload = pre ++ (natToBits 4 Mode.alphanumeric.indicator ++
      (natToBits (Mode.alphanumeric.countBits version) (cs.length + 1) ++
        (alnumPayload cs ++ (natToBits 6 x ++ rest))))

/-- The symbol of version 1 to 40 at this location reaches, or might reach by rounding, beyond the right or lower edge:
the search for the alignment pattern looks there, or a module lies there. -/
def ReachesBeyond (img : GrayImage) (version : Nat) (tl tr bl : Pt) : Prop :=
  (2 ≤ version ∧ ∃ u v : ℚ, |u| ≤ 21 / 5 ∧ |v| ≤ 21 / 5 ∧
    Beyond img (besideAlignment (sideOf version) tl tr bl u v)) ∨
  ∃ al : Option Pt, (al = none ↔ version = 1) ∧
    (∀ a ∈ al, 0 ≤ a.1 ∧ a.1 ≤ img.width ∧ 0 ≤ a.2 ∧ a.2 ≤ img.height ∧
      AlignmentAt img (sideOf version) tl tr bl a) ∧
    ∃ i < sideOf version, ∃ j < sideOf version, Beyond img (bilinear (sideOf version) tl tr bl al i j)

end Verif.Spec
