import Verif.Model.QRData
import Verif.Model.Galois
/-!
# Model of `src/decode/qr/format.rs`

The `u8` bits of the code are 0 or 1 throughout (`QRData::index` returns 0 or 1 and they are only
combined by `^`); they are `Bool`s here.
-/
namespace Verif

/-- src/decode/qr/mod.rs:10 `QRMask`. The returned `u8` is 0 or 1. -/
abbrev QRMask := QRData → Nat → Nat → Run Bool

/-- src/decode/qr/format.rs:6 `MASK`. -/
def MASK : List Bool :=
  [true, false, true, false, true, false, false, false, false, false, true, false, false, true, false]

/-- The `GF4(bit)` conversions of src/decode/qr/format.rs:71,86,87. -/
def gf4OfBit (b : Bool) : GF4 := ⟨if b then 1 else 0⟩

/-- src/decode/qr/format.rs:70-72, 85-88, 113-115: the loop
`s = s + GF4(format[format.len() - i - 1]) * EXP4[(k * i) % 15]`, for `k = 1, 3, 5`. -/
def formatSyndrome (k : Nat) (format : List Bool) : GF4 :=
  (List.range format.length).foldl
    (fun s i => s.add ((gf4OfBit (format.getD (format.length - i - 1) false)).mul
      (exp4 ((k * i) % 15)))) ⟨0⟩

/-- src/decode/qr/format.rs:79-92: `(sigma1, sigma2, sigma3)`. -/
def formatSigma (s1 s3 s5 : GF4) : GF4 × GF4 × GF4 :=
  let s2 := s1.mul s1
  let s4 := s2.mul s2
  let sigma1 := s1
  let sigma2 :=
    ((s5.add (s4.mul sigma1)).sub (s2.mul (s3.add (s2.mul sigma1)))).div (s3.sub (s1.mul s2))
  let sigma3 := (s3.add (s2.mul sigma1)).add (s1.mul sigma2)
  (sigma1, sigma2, sigma3)

/-- src/decode/qr/format.rs:94-104: the error positions; `0..16` are the field elements. -/
def formatErrorPos (s1 s3 s5 : GF4) : List Nat :=
  let (sigma1, sigma2, sigma3) := formatSigma s1 s3 s5
  (List.range 16).filterMap fun i =>
    let x : GF4 := ⟨BitVec.ofNat 4 i⟩
    if ((sigma3.add (sigma2.mul x)).add ((sigma1.mul x).mul x)).add ((x.mul x).mul x) = ⟨0⟩ then
      let log := log4 x
      if log ≠ 0 then some log else none
    else none

/-- src/decode/qr/format.rs:106-109: flip the bits at the error positions (counted from the end). -/
def flipAll : List Nat → List Bool → Run (List Bool)
  | [], format => .ret format
  | error :: rest, format =>
    if error + 1 ≤ format.length then
      flipAll rest (format.modify (format.length - error - 1) (fun b => !b))
    else .panic

/-- src/decode/qr/format.rs:67-125 `correct`. -/
def formatCorrect (format : List Bool) : Outcome (List Bool) :=
  let s1 := formatSyndrome 1 format
  if s1 = ⟨0⟩ then .ok format
  else
    let s3 := formatSyndrome 3 format
    let s5 := formatSyndrome 5 format
    match flipAll (formatErrorPos s1 s3 s5) format with
    | .panic => .panic
    | .ret format =>
      if formatSyndrome 1 format = ⟨0⟩ then .ok format
      else .err ⟨"Format information corrupted"⟩

/-- The `for` loops pushing `data[[x, y]]` in src/decode/qr/format.rs:26-40 and 52-58. -/
def readBitsAt (q : QRData) : List (Nat × Nat) → Run (List Bool)
  | [] => .ret []
  | (x, y) :: rest =>
    match q.index x y with
    | .panic => .panic
    | .ret b =>
      match readBitsAt q rest with
      | .panic => .panic
      | .ret bs => .ret (b :: bs)

/-- src/decode/qr/format.rs:26-40: positions read by `format1`, in order. -/
def format1Positions : List (Nat × Nat) :=
  ((List.range 9).filter (· ≠ 6)).map (fun x => (x, 8)) ++
  ((List.range 8).reverse.filter (· ≠ 6)).map (fun y => (8, y))

/-- src/decode/qr/format.rs:23-47 `format1`. The loop at 42-44 (`format1[i] ^= MASK[i]`) never indexes
past `MASK` since exactly 15 bits are read; it is a `zipWith` here. -/
def format1 (q : QRData) : Outcome (List Bool) :=
  match readBitsAt q format1Positions with
  | .panic => .panic
  | .ret bits => formatCorrect (bits.zipWith xor MASK)

/-- src/decode/qr/format.rs:52-58: positions read by `format2`, in order. -/
def format2Positions (side : Nat) : List (Nat × Nat) :=
  ((List.range 7).reverse.map fun d => (8, side - 7 + d)) ++
  ((List.range 8).map fun d => (side - 8 + d, 8))

/-- src/decode/qr/format.rs:49-65 `format2`. `side - 7` and `side - 8` underflow (panic) below 8. -/
def format2 (q : QRData) : Outcome (List Bool) :=
  if q.side < 8 then .panic
  else
    match readBitsAt q (format2Positions q.side) with
    | .panic => .panic
    | .ret bits => formatCorrect (bits.zipWith xor MASK)

/-- src/decode/qr/format.rs:127-135 `error_correction`, on the value `2 * format[0] + format[1]`. -/
def errorCorrection : Nat → Option ECLevel
  | 0b01 => some .low
  | 0b00 => some .medium
  | 0b11 => some .quartile
  | 0b10 => some .high
  | _ => none

/-- Checked `u32` addition in the mask closures. -/
def addU32 (a b : Nat) : Run Nat := if a + b < 2 ^ 32 then .ret (a + b) else .panic

/-- Checked `u32` multiplication in the mask closures. -/
def mulU32 (a b : Nat) : Run Nat := if a * b < 2 ^ 32 then .ret (a * b) else .panic

/-- src/decode/qr/format.rs:137-150 `mask`: the closures `|j, i|`. -/
def maskClosure : Nat → Option (Nat → Nat → Run Bool)
  | 0b000 => some fun j i => do return ((← addU32 i j) % 2 == 0)
  | 0b001 => some fun _ i => .ret (i % 2 == 0)
  | 0b010 => some fun j _ => .ret (j % 3 == 0)
  | 0b011 => some fun j i => do return ((← addU32 i j) % 3 == 0)
  | 0b100 => some fun j i => do return ((← addU32 (i / 2) (j / 3)) % 2 == 0)
  | 0b101 => some fun j i => do
      let p ← mulU32 i j
      return (p % 2 + p % 3 == 0)
  | 0b110 => some fun j i => do
      let p ← mulU32 i j
      return ((p % 2 + p % 3) % 2 == 0)
  | 0b111 => some fun j i => do
      let p ← mulU32 i j
      let s ← addU32 i j
      return ((p % 3 + s % 2) % 2 == 0)
  | _ => none

/-- src/decode/qr/format.rs:154-158 `qrmask`. -/
def qrmask (mask : Nat → Nat → Run Bool) : QRMask := fun q i j => do
  let v ← q.index i j
  let m ← mask i j
  return (xor v m)

/-- src/decode/qr/format.rs:137-150 `mask`. -/
def mask (bytes : Nat) : Option QRMask := (maskClosure bytes).map qrmask

/-- The value of a bit in `2 * format[0] + format[1]` etc. -/
def bitVal (b : Bool) : Nat := if b then 1 else 0

/-- src/decode/qr/format.rs:8-21 `format`. `format[0]`..`format[4]` panic on shorter lists; the two
`unwrap`s panic on `None`. -/
def format (q : QRData) : Outcome (ECLevel × QRMask) :=
  let fmt := match format1 q with
    | .err _ => format2 q
    | r => r
  match fmt with
  | .panic => .panic
  | .err e => .err e
  | .ok (f0 :: f1 :: f2 :: f3 :: f4 :: _) =>
    match errorCorrection (2 * bitVal f0 + bitVal f1),
        mask (4 * bitVal f2 + 2 * bitVal f3 + bitVal f4) with
    | some correction, some mask => .ok (correction, mask)
    | _, _ => .panic
  | .ok _ => .panic

end Verif
