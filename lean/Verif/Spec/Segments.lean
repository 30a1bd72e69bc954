import Verif.Spec.Bits
/-!
# Specification: data segments of ISO/IEC 18004:2015, section 7.4

A segment is a 4-bit mode indicator, a character count whose width depends on mode and version
(Table 3), and the encoded characters.
-/
namespace Verif.Spec

/-- The modes considered here. -/
inductive Mode where
  | numeric
  | alphanumeric
  | byte
deriving DecidableEq, Repr

/-- Table 2: mode indicators. -/
def Mode.indicator : Mode → Nat
  | .numeric => 0b0001
  | .alphanumeric => 0b0010
  | .byte => 0b0100

/-- Table 3: number of bits in the character count indicator, for versions 1 to 40. -/
def Mode.countBits (m : Mode) (version : Nat) : Nat :=
  match m with
  | .numeric => if version ≤ 9 then 10 else if version ≤ 26 then 12 else 14
  | .alphanumeric => if version ≤ 9 then 9 else if version ≤ 26 then 11 else 13
  | .byte => if version ≤ 9 then 8 else 16

/-- Number of payload bits of a segment of `n` characters (7.4.3 to 7.4.5). -/
def Mode.payloadBits (m : Mode) (n : Nat) : Nat :=
  match m with
  | .numeric => 10 * (n / 3) + (if n % 3 = 0 then 0 else 1 + 3 * (n % 3))
  | .alphanumeric => 11 * (n / 2) + 6 * (n % 2)
  | .byte => 8 * n

/-- 7.4.3: digits in groups of three (10 bits), a final pair (7 bits) or single digit (4 bits). -/
def numericPayload : List (Fin 10) → List Bool
  | a :: b :: c :: ds => natToBits 10 (100 * a.val + 10 * b.val + c.val) ++ numericPayload ds
  | [a, b] => natToBits 7 (10 * a.val + b.val)
  | [a] => natToBits 4 a.val
  | [] => []

/-- 7.4.4: characters in pairs (11 bits), a final single one in 6 bits. -/
def alnumPayload : List (Fin 45) → List Bool
  | a :: b :: cs => natToBits 11 (45 * a.val + b.val) ++ alnumPayload cs
  | [a] => natToBits 6 a.val
  | [] => []

/-- Table 5: the 45 characters, in the order of their values. -/
def alnumAlphabet : List Char := "0123456789ABCDEFGHIJKLMNOPQRSTUVWXYZ $%*+-./:".toList

/-- A segment to be encoded. -/
inductive Segment where
  | numeric (digits : List (Fin 10))
  | alphanumeric (chars : List (Fin 45))
  | byte (bytes : List U8)
deriving DecidableEq, Repr

def Segment.mode : Segment → Mode
  | .numeric _ => .numeric
  | .alphanumeric _ => .alphanumeric
  | .byte _ => .byte

/-- Number of characters. -/
def Segment.count : Segment → Nat
  | .numeric ds => ds.length
  | .alphanumeric cs => cs.length
  | .byte bs => bs.length

def Segment.payload : Segment → List Bool
  | .numeric ds => numericPayload ds
  | .alphanumeric cs => alnumPayload cs
  | .byte bs => streamOf bs

/-- The count must fit its field. -/
def Segment.fits (s : Segment) (version : Nat) : Prop := s.count < 2 ^ s.mode.countBits version

/-- Mode indicator, character count indicator, payload. -/
def Segment.bits (s : Segment) (version : Nat) : List Bool :=
  natToBits 4 s.mode.indicator ++ natToBits (s.mode.countBits version) s.count ++ s.payload

/-- The ISO 8859-1 reading of a byte. -/
def latin1 (b : U8) : Char := Char.ofNat b.toNat

/-- The UTF-8 encoding of a text. -/
def utf8 (text : List Char) : List U8 := text.flatMap fun ch => (String.utf8EncodeChar ch).map UInt8.toBitVec

/-- The text carried by a segment, for byte segments under the reading rule of this library: UTF-8 if
some byte is `0xC3`, ISO 8859-1 otherwise. -/
inductive Segment.HasText : Segment → List Char → Prop where
  | numeric (ds : List (Fin 10)) : HasText (.numeric ds) (ds.map fun d => Char.ofNat (48 + d.val))
  | alphanumeric (cs : List (Fin 45)) :
      HasText (.alphanumeric cs) (cs.map fun i => alnumAlphabet.getD i.val '?')
  | latin1 (bs : List U8) : 0xC3#8 ∉ bs → HasText (.byte bs) (bs.map latin1)
  | utf8 (text : List Char) : 0xC3#8 ∈ utf8 text → HasText (.byte (utf8 text)) text

/-- Texts of a list of segments, concatenated. -/
inductive SegmentsText : List Segment → List Char → Prop where
  | nil : SegmentsText [] []
  | cons {s ss t ts} : s.HasText t → SegmentsText ss ts → SegmentsText (s :: ss) (t ++ ts)

/-- What may follow the last segment (7.4.9): the terminator `0000` and anything, or fewer than four
bits of any value when the symbol's capacity is exhausted. -/
def Terminated (tail : List Bool) : Prop :=
  tail.length < 4 ∨ [false, false, false, false] <+: tail

/-- Bit streams that consist of complete segments whose contents can be read: numeric segments with any
group values, alphanumeric segments with legal characters, byte segments that are not required to be UTF-8
or that are valid UTF-8. (The standard's segments are a special case.) -/
inductive Readable (version : Nat) : List Bool → Prop where
  | nil : Readable version []
  | numeric {rest : List Bool} (n : Nat) (payload : List Bool) :
      n < 2 ^ Mode.numeric.countBits version → payload.length = Mode.numeric.payloadBits n →
      Readable version rest →
      Readable version (natToBits 4 Mode.numeric.indicator ++
        (natToBits (Mode.numeric.countBits version) n ++ (payload ++ rest)))
  | alphanumeric {rest : List Bool} (cs : List (Fin 45)) :
      cs.length < 2 ^ Mode.alphanumeric.countBits version →
      Readable version rest →
      Readable version (natToBits 4 Mode.alphanumeric.indicator ++
        (natToBits (Mode.alphanumeric.countBits version) cs.length ++ (alnumPayload cs ++ rest)))
  | byte {rest : List Bool} (bs : List U8) :
      bs.length < 2 ^ Mode.byte.countBits version →
      (0xC3#8 ∉ bs ∨ ∃ text, utf8 text = bs) →
      Readable version rest →
      Readable version (natToBits 4 Mode.byte.indicator ++
        (natToBits (Mode.byte.countBits version) bs.length ++ (streamOf bs ++ rest)))

end Verif.Spec
