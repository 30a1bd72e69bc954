import Verif.Spec.Segments
import Verif.Spec.Format
import Verif.Spec.Symbol
import Verif.Spec.ReedSolomon
/-!
# Specification: building a symbol (ISO/IEC 18004:2015, clause 7)

`IsSymbol` says that a grid is a symbol for a list of segments; `encode` builds one. Both leave the
function patterns (finder, timing, alignment patterns, version information, dark module) open: they
carry no data.
-/
namespace Verif.Spec
open Polynomial

/-- 7.5.2: the error correction codewords are the remainder of `D(x)·x^n` modulo the generator
polynomial, highest power first. -/
noncomputable def ecCodewords (n : Nat) (d : List U8) : List U8 :=
  (List.range n).map fun i => ((blockPoly d * X ^ n %ₘ generator n).coeff (n - 1 - i)).val

/-- Number of data codewords of a symbol. -/
def dataCapacity (v : Nat) (l : ECLevel) : Nat := ((List.range (numBlocks v l)).map (blockData v l)).sum

/-- A grid is a symbol of version `v`, level `l`, mask `k` for the given segments: it shows the format
information twice, and its unmasked data modules in placement order show the interleaving of blocks that
are Reed–Solomon code words, and whose data codewords hold the segments, followed by a terminator and
any padding, or by fewer than four bits. -/
def IsSymbol (q : QRData) (v : Nat) (l : ECLevel) (k : Nat) (segments : List Segment) : Prop :=
  WellFormed q v ∧ Shows q formatCopy1 (formatWord l k) ∧
  Shows q (formatCopy2 (sideOf v)) (formatWord l k) ∧
  ∃ (fam : List (List U8 × List U8)) (rest tail : List Bool),
    HasShape v l fam ∧ (∀ b ∈ fam, IsCodeword (eccPerBlock v l) (b.1 ++ b.2)) ∧
    rest.length < 8 ∧ symbolBits q v k = streamOf (finalSequence fam) ++ rest ∧
    streamOf (fam.flatMap (·.1)) = segments.flatMap (·.bits v) ++ tail ∧ Terminated tail

/-- 7.4.10: pad codewords, alternately `11101100` and `00010001`. -/
def padBytes : Nat → List U8
  | 0 => []
  | 1 => [0xEC]
  | n + 2 => 0xEC :: 0x11 :: padBytes n

/-- Eight bits at a time. -/
def bitsToBytes : List Bool → List U8
  | a :: b :: c :: d :: e :: f :: g :: h :: rest =>
    BitVec.ofNat 8 (bitsToNat [a, b, c, d, e, f, g, h]) :: bitsToBytes rest
  | _ => []

/-- 7.4.9, 7.4.10: terminator of four zero bits, or fewer if the capacity is reached, then zero bits up
to a codeword boundary. -/
def terminate (capacity : Nat) (bits : List Bool) : List Bool :=
  let t := bits ++ List.replicate (min 4 (capacity - bits.length)) false
  t ++ List.replicate ((8 - t.length % 8) % 8) false

/-- The data codewords of a symbol. -/
def dataCodewords (v : Nat) (l : ECLevel) (segments : List Segment) : List U8 :=
  let head := bitsToBytes (terminate (8 * dataCapacity v l) (segments.flatMap (·.bits v)))
  head ++ padBytes (dataCapacity v l - head.length)

/-- Cut a list into pieces of the given lengths. -/
def splitLens {α : Type} : List Nat → List α → List (List α)
  | [], _ => []
  | n :: ns, xs => xs.take n :: splitLens ns (xs.drop n)

/-- The blocks of a symbol with their error correction codewords. -/
noncomputable def symbolFamily (v : Nat) (l : ECLevel) (segments : List Segment) :
    List (List U8 × List U8) :=
  (splitLens ((List.range (numBlocks v l)).map (blockData v l)) (dataCodewords v l segments)).map
    fun d => (d, ecCodewords (eccPerBlock v l) d)

/-- The value of a module: data bits (0 after the last codeword) are masked, format bits are shown at
their places, and all other modules are given by `other`. -/
def placeModule (v : Nat) (l : ECLevel) (k : Nat) (bits : List Bool) (other : Nat → Nat → Bool)
    (x y : Nat) : Bool :=
  if (x, y) ∈ dataModules v then
    xor (bits.getD ((dataModules v).idxOf (x, y)) false) (isoMask k y x)
  else if (x, y) ∈ formatCopy1 then (formatWord l k).getD (formatCopy1.idxOf (x, y)) false
  else if (x, y) ∈ formatCopy2 (sideOf v) then
    (formatWord l k).getD ((formatCopy2 (sideOf v)).idxOf (x, y)) false
  else other x y

/-- The symbol for a list of segments; dark modules are pixels 0, light ones 255. -/
noncomputable def encode (v : Nat) (l : ECLevel) (k : Nat) (segments : List Segment)
    (other : Nat → Nat → Bool) : QRData :=
  { data := (List.range (sideOf v * sideOf v)).map fun i =>
      if placeModule v l k (streamOf (finalSequence (symbolFamily v l segments))) other
        (i % sideOf v) (i / sideOf v) then 0 else 255
    version := v
    side := sideOf v }

end Verif.Spec
