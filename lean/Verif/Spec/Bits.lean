import Verif.Model.Basic
/-!
# Specification: bit streams

Bits are `Bool`s, most significant first. Nothing here refers to the model of the reader.
-/
namespace Verif.Spec

/-- The number written by a list of bits, most significant bit first. -/
def bitsToNat (bs : List Bool) : Nat := bs.foldl (fun acc b => 2 * acc + b.toNat) 0

/-- The `n` low bits of `v`, most significant first. -/
def natToBits : (n : Nat) → (v : Nat) → List Bool
  | 0, _ => []
  | n + 1, v => v.testBit n :: natToBits n v

/-- The eight bits of a byte, most significant first. -/
def byteBits (b : U8) : List Bool := natToBits 8 b.toNat

/-- A byte vector seen as one bit stream. -/
def streamOf (bytes : List U8) : List Bool := bytes.flatMap byteBits

/-- The ideal bit reader: the state is the list of unread bits. A request for `n` bits is answered
iff `1 ≤ n ≤ 8` and that many bits are unread; a refused request changes nothing. -/
def readBits (s : List Bool) (n : Nat) : Option Nat × List Bool :=
  if 1 ≤ n ∧ n ≤ 8 ∧ n ≤ s.length then (some (bitsToNat (s.take n)), s.drop n) else (none, s)

/-- Answers of the ideal reader to a sequence of requests. -/
def readAll : List Bool → List Nat → List (Option Nat)
  | _, [] => []
  | s, n :: ns => (readBits s n).1 :: readAll (readBits s n).2 ns

/-- A request made to a reader: up to 8 bits (`chomp`) or up to 16 bits (`chomp_or_u16`). -/
inductive Req where
  | bits (n : Nat)
  | bits16 (n : Nat)
deriving DecidableEq, Repr

/-- Largest legal count of a request. -/
def Req.limit : Req → Nat
  | .bits _ => 8
  | .bits16 _ => 16

/-- The number of bits asked for. -/
def Req.count : Req → Nat
  | .bits n => n
  | .bits16 n => n

/-- Answers of the ideal reader to a mixed request sequence: a request is answered iff its count is
between 1 and its limit and that many bits are unread. -/
def serve : List Bool → List Req → List (Option Nat)
  | _, [] => []
  | s, r :: rs =>
    if 1 ≤ r.count ∧ r.count ≤ r.limit ∧ r.count ≤ s.length then
      some (bitsToNat (s.take r.count)) :: serve (s.drop r.count) rs
    else none :: serve s rs

/-- The answers up to and including the first refusal. -/
def upToRefusal : List (Option Nat) → List (Option Nat)
  | [] => []
  | none :: _ => [none]
  | some v :: as => some v :: upToRefusal as

/-- A sequence of answers is *sound* for a stream: every answered request returned exactly the next
unread bits (and was legal); refused requests consumed nothing. -/
inductive SoundAnswers : List Bool → List Nat → List (Option Nat) → Prop where
  | nil (s) : SoundAnswers s [] []
  | refused (s n ns as) : SoundAnswers s ns as → SoundAnswers s (n :: ns) (none :: as)
  | answered (s n ns as) : 1 ≤ n → n ≤ 8 → n ≤ s.length → SoundAnswers (s.drop n) ns as →
      SoundAnswers s (n :: ns) (some (bitsToNat (s.take n)) :: as)

end Verif.Spec
