import Verif.Model.Chomp
/-!
# Model of `src/decode/qr/data.rs` (payload decoding)

A Rust `String` is the list of its `char`s. `debug!` lines are not modelled.
-/
namespace Verif

/-- `?` applied to a reader result. -/
def liftRes {α : Type} : Run (Except QRError α × Chomp) → Outcome (α × Chomp)
  | .ret (.ok a, c) => .ok (a, c)
  | .ret (.error e, _) => .err e
  | .panic => .panic

/-- Rust `format!("{:0w}", n)` for an unsigned number: decimal digits, padded on the left with `0` to
at least `w` characters. -/
def fmtPad (w n : Nat) : List Char :=
  let s := Nat.toDigits 10 n
  List.replicate (w - s.length) '0' ++ s

/-- Rust `format!("{:04b}", n)`. -/
def fmtBin4 (n : Nat) : String :=
  let s := Nat.toDigits 2 n
  String.ofList (List.replicate (4 - s.length) '0' ++ s)

/-- Rust `format!("{:?}", bytes)` for a `Vec<u8>`. -/
def fmtBytes (bytes : List U8) : String :=
  "[" ++ ", ".intercalate (bytes.map fun b => toString b.toNat) ++ "]"

/-- src/decode/qr/data.rs:192-199 `read_bits`. -/
def readBits (c : Chomp) (bits : Nat) : Outcome (U8 × Chomp) :=
  liftRes (c.chompOr bits ⟨"Could not read " ++ toString bits ++ " bits"⟩)

/-- src/decode/qr/data.rs:201-208 `read_bits_u16`. -/
def readBitsU16 (c : Chomp) (bits : Nat) : Outcome (U16 × Chomp) :=
  liftRes (c.chompOrU16 bits ⟨"Could not read " ++ toString bits ++ " bits"⟩)

/-- The `match version { 1..=9 => a, 10..=26 => b, 27..=40 => c, _ => return Err }` at
src/decode/qr/data.rs:26-35, 82-91 and 138-147. -/
def lengthBits (version a b c : Nat) : Outcome Nat :=
  if 1 ≤ version ∧ version ≤ 9 then .ok a
  else if 10 ≤ version ∧ version ≤ 26 then .ok b
  else if 27 ≤ version ∧ version ≤ 40 then .ok c
  else .err ⟨"Unknown version " ++ toString version⟩

/-- src/decode/qr/data.rs:46-68, the loop of `numeric`. The argument is `length`; text is prepended on
return instead of appended to `result` (nothing else observes `result`, an error discards it). -/
def numericLoop : Nat → Chomp → Outcome (List Char × Chomp)
  | n + 3, c => do
    let (digits, c) ← readBitsU16 c 10
    let (rest, c) ← numericLoop n c
    return (fmtPad 3 digits.toNat ++ rest, c)
  | 2, c => do
    let (digits, c) ← readBitsU16 c 7
    return (fmtPad 2 digits.toNat, c)
  | 1, c => do
    let (digits, c) ← readBitsU16 c 4
    return (fmtPad 1 digits.toNat, c)
  | 0, c => return ([], c)

/-- src/decode/qr/data.rs:25-73 `numeric`. -/
def numeric (c : Chomp) (version : Nat) : Outcome (List Char × Chomp) := do
  let lb ← lengthBits version 10 12 14
  let (length, c) ← liftRes (c.chompOrU16 lb
    ⟨"Could not read " ++ toString lb ++ " bits for numeric length"⟩)
  numericLoop length.toNat c

/-- src/decode/qr/data.rs:75-79 `ALPHANUMERIC`. -/
def ALPHANUMERIC : List Char :=
  ['0', '1', '2', '3', '4', '5', '6', '7', '8', '9', 'A', 'B', 'C', 'D', 'E', 'F', 'G', 'H', 'I',
   'J', 'K', 'L', 'M', 'N', 'O', 'P', 'Q', 'R', 'S', 'T', 'U', 'V', 'W', 'X', 'Y', 'Z', ' ', '$',
   '%', '*', '+', '-', '.', '/', ':']

/-- `ALPHANUMERIC[i]`: an out-of-range index panics. -/
def alnumChar (i : Nat) : Outcome Char :=
  match ALPHANUMERIC[i]? with
  | some ch => .ok ch
  | none => .panic

/-- src/decode/qr/data.rs:105-130, the loop of `alphanumeric`. The argument is `length`. -/
def alnumLoop : Nat → Chomp → Outcome (List Char × Chomp)
  | n + 2, c => do
    let (chars, c) ← readBitsU16 c 11
    let char1 := chars.toNat / 45
    let char2 := chars.toNat % 45
    if char1 > 44 then
      .err ⟨"Invalid character in alphanumeric data " ++ toString char1⟩
    else do
      let a ← alnumChar char1
      let b ← alnumChar char2
      let (rest, c) ← alnumLoop n c
      return (a :: b :: rest, c)
  | 1, c => do
    let (chars, c) ← readBitsU16 c 6
    let a ← alnumChar chars.toNat
    return ([a], c)
  | 0, c => return ([], c)

/-- src/decode/qr/data.rs:81-135 `alphanumeric`. -/
def alphanumeric (c : Chomp) (version : Nat) : Outcome (List Char × Chomp) := do
  let lb ← lengthBits version 9 11 13
  let (length, c) ← liftRes (c.chompOrU16 lb
    ⟨"Could not read " ++ toString lb ++ " bits for alphanumeric length"⟩)
  alnumLoop length.toNat c

/-- `String::from_utf8`: Lean core's UTF-8 validator and decoder (standard library code, trusted to agree
with Rust's on what is well-formed UTF-8). -/
def fromUtf8 (bytes : List U8) : Option (List Char) :=
  (ByteArray.mk (bytes.map UInt8.ofBitVec).toArray).utf8Decode?.map Array.toList

/-- src/decode/qr/data.rs:161-163, the byte reading loop. -/
def bytesLoop : Nat → Chomp → Outcome (List U8 × Chomp)
  | n + 1, c => do
    let (b, c) ← readBits c 8
    let (rest, c) ← bytesLoop n c
    return (b :: rest, c)
  | 0, c => return ([], c)

/-- src/decode/qr/data.rs:167-188, conversion of the raw bytes; error conversion as in
src/util/qr.rs:17-26. -/
def bytesToText (bytes : List U8) : Outcome (List Char) :=
  if 0xC3#8 ∈ bytes then
    match fromUtf8 bytes with
    | some utf8 => .ok utf8
    | none => .err ⟨"Unable to convert result to UTF-8, raw bytes: " ++ fmtBytes bytes⟩
  else .ok (bytes.map fun b => Char.ofNat b.toNat)

/-- src/decode/qr/data.rs:137-190 `eight_bit` (the message says "alphanumeric", as in the code). -/
def eightBit (c : Chomp) (version : Nat) : Outcome (List Char × Chomp) := do
  let lb ← lengthBits version 8 16 16
  let (length, c) ← liftRes (c.chompOrU16 lb
    ⟨"Could not read " ++ toString lb ++ " bits for alphanumeric length"⟩)
  let (bytes, c) ← bytesLoop length.toNat c
  let text ← bytesToText bytes
  return (text, c)

/-- src/decode/qr/data.rs:8-20, the `while let` loop of `data`. The first argument bounds the number of
iterations; running out of it is modelled as a panic, so that "never panics" includes termination. -/
def dataLoop (version : Nat) : Nat → Chomp → Outcome (List Char)
  | 0, _ => .panic
  | fuel + 1, c =>
    match c.chomp 4 with
    | .panic => .panic
    | .ret (none, _) => .ok []
    | .ret (some mode, c) =>
      if mode = 0b0001#8 then do
        let (s, c) ← numeric c version
        let rest ← dataLoop version fuel c
        return s ++ rest
      else if mode = 0b0010#8 then do
        let (s, c) ← alphanumeric c version
        let rest ← dataLoop version fuel c
        return s ++ rest
      else if mode = 0b0100#8 then do
        let (s, c) ← eightBit c version
        let rest ← dataLoop version fuel c
        return s ++ rest
      else if mode = 0b0000#8 then .ok []
      else .err ⟨"Mode " ++ fmtBin4 mode.toNat ++ " not yet implemented."⟩

/-- src/decode/qr/data.rs:4-23 `data`. Every iteration reads at least 4 bits, so `8 * len + 1`
iterations suffice. -/
def data (input : List U8) (version : Nat) : Outcome (List Char) :=
  dataLoop version (8 * input.length + 1) (Chomp.new input)

end Verif
