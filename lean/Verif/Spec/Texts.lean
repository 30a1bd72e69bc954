import Verif.Spec.Segments

/-!
# What the bits of a symbol say

The text that a bit stream stands for, and the streams that do not stand for any. The only difference to the standard
(`Segment`, `SegmentsText`) is that the groups of numeric segments may have values that the standard does not use (1000
to 1023, 100 to 127, 10 to 15): they stand for their decimal digits.
-/
namespace Verif.Spec

/-- The last `k` decimal digits of `x`. -/
def decimals : Nat → Nat → List Char
  | 0, _ => []
  | k + 1, x => decimals k (x / 10) ++ [Char.ofNat (48 + x % 10)]

/-- A group of `w` digits with the value `x`: these digits, or one more if the value is too large for the group. -/
def groupText (w x : Nat) : List Char := if x < 10 ^ w then decimals w x else decimals (w + 1) x

/-- The text of a numeric payload of `n` digits. -/
def numericText : Nat → List Bool → List Char
  | n + 3, p => groupText 3 (bitsToNat (p.take 10)) ++ numericText n (p.drop 10)
  | 2, p => groupText 2 (bitsToNat p)
  | 1, p => groupText 1 (bitsToNat p)
  | 0, _ => []

/-- A complete segment and its text. -/
inductive SegmentSays (version : Nat) : List Bool → List Char → Prop where
  | numeric (n : Nat) (payload : List Bool) :
      n < 2 ^ Mode.numeric.countBits version → payload.length = Mode.numeric.payloadBits n →
      SegmentSays version (natToBits 4 Mode.numeric.indicator ++
        (natToBits (Mode.numeric.countBits version) n ++ payload)) (numericText n payload)
  | alphanumeric (cs : List (Fin 45)) :
      cs.length < 2 ^ Mode.alphanumeric.countBits version →
      SegmentSays version (natToBits 4 Mode.alphanumeric.indicator ++
        (natToBits (Mode.alphanumeric.countBits version) cs.length ++ alnumPayload cs))
        (cs.map fun i => alnumAlphabet.getD i.val '?')
  | latin1 (bs : List U8) :
      bs.length < 2 ^ Mode.byte.countBits version → 0xC3#8 ∉ bs →
      SegmentSays version (natToBits 4 Mode.byte.indicator ++
        (natToBits (Mode.byte.countBits version) bs.length ++ streamOf bs)) (bs.map latin1)
  | utf8 (text : List Char) :
      (utf8 text).length < 2 ^ Mode.byte.countBits version → 0xC3#8 ∈ utf8 text →
      SegmentSays version (natToBits 4 Mode.byte.indicator ++
        (natToBits (Mode.byte.countBits version) (utf8 text).length ++ streamOf (utf8 text))) text

/-- A stream of segments, terminated or exhausted, and its text. -/
inductive Says (version : Nat) : List Bool → List Char → Prop where
  | done {tail : List Bool} : Terminated tail → Says version tail []
  | segment {bits rest : List Bool} {t u : List Char} :
      SegmentSays version bits t → Says version rest u → Says version (bits ++ rest) (t ++ u)

/-- Bits that begin like a segment but are none. -/
inductive NoSegment (version : Nat) : List Bool → Prop where
  /-- A mode that is not supported, or none at all. -/
  | mode {rest : List Bool} (m : Nat) : m < 16 → m ≠ 0 → m ≠ 1 → m ≠ 2 → m ≠ 4 →
      NoSegment version (natToBits 4 m ++ rest)
  /-- The stream ends within the character count. -/
  | count {rest : List Bool} (m : Mode) : rest.length < m.countBits version →
      NoSegment version (natToBits 4 m.indicator ++ rest)
  /-- The stream ends before the last character. -/
  | payload {rest : List Bool} (m : Mode) (n : Nat) : n < 2 ^ m.countBits version →
      rest.length < m.payloadBits n →
      NoSegment version (natToBits 4 m.indicator ++ (natToBits (m.countBits version) n ++ rest))
  /-- After an even number of legal characters, a pair with a value above 44 * 45 + 44. -/
  | pair {rest : List Bool} (n : Nat) (cs : List (Fin 45)) (x : Nat) :
      n < 2 ^ Mode.alphanumeric.countBits version → cs.length % 2 = 0 → cs.length + 2 ≤ n → 2025 ≤ x → x < 2048 →
      NoSegment version (natToBits 4 Mode.alphanumeric.indicator ++
        (natToBits (Mode.alphanumeric.countBits version) n ++ (alnumPayload cs ++ (natToBits 11 x ++ rest))))
  /-- Bytes that must be UTF-8 and are not. -/
  | bytes {rest : List Bool} (bs : List U8) : bs.length < 2 ^ Mode.byte.countBits version → 0xC3#8 ∈ bs →
      (∀ text, utf8 text ≠ bs) →
      NoSegment version (natToBits 4 Mode.byte.indicator ++
        (natToBits (Mode.byte.countBits version) bs.length ++ (streamOf bs ++ rest)))

/-- After some complete segments the stream goes on with what is no segment. -/
def Garbled (version : Nat) (stream : List Bool) : Prop :=
  ∃ pre rest, Readable version pre ∧ NoSegment version rest ∧ stream = pre ++ rest

end Verif.Spec
