import Verif.Model.BlockInfo
import Verif.Model.Format
/-!
# Model of `src/decode/qr/blocks.rs`

Bits are `Bool`s (the code's `u8` bits are 0 or 1, see `Verif.Model.Format`).
-/
namespace Verif

/-- src/decode/qr/blocks.rs:190-200 `AlignmentLocation`. -/
structure AlignmentLocation where
  start : Nat
  step : Nat
deriving DecidableEq, Repr

/-- src/decode/qr/blocks.rs:137-183: the rows of `alignment_location`, verbatim. -/
def alignmentTable : Nat → Option AlignmentLocation
  | 1 => some ⟨1000, 1000⟩
  | 2 => some ⟨18, 1000⟩
  | 3 => some ⟨22, 1000⟩
  | 4 => some ⟨26, 1000⟩
  | 5 => some ⟨30, 1000⟩
  | 6 => some ⟨34, 1000⟩
  | 7 => some ⟨22, 16⟩
  | 8 => some ⟨24, 18⟩
  | 9 => some ⟨26, 20⟩
  | 10 => some ⟨28, 22⟩
  | 11 => some ⟨30, 24⟩
  | 12 => some ⟨32, 26⟩
  | 13 => some ⟨34, 28⟩
  | 14 => some ⟨26, 20⟩
  | 15 => some ⟨26, 22⟩
  | 16 => some ⟨26, 24⟩
  | 17 => some ⟨30, 24⟩
  | 18 => some ⟨30, 26⟩
  | 19 => some ⟨30, 28⟩
  | 20 => some ⟨34, 28⟩
  | 21 => some ⟨28, 22⟩
  | 22 => some ⟨26, 24⟩
  | 23 => some ⟨30, 24⟩
  | 24 => some ⟨28, 26⟩
  | 25 => some ⟨32, 26⟩
  | 26 => some ⟨30, 28⟩
  | 27 => some ⟨34, 28⟩
  | 28 => some ⟨26, 24⟩
  | 29 => some ⟨30, 24⟩
  | 30 => some ⟨26, 26⟩
  | 31 => some ⟨30, 26⟩
  | 32 => some ⟨34, 26⟩
  | 33 => some ⟨30, 28⟩
  | 34 => some ⟨34, 28⟩
  | 35 => some ⟨30, 24⟩
  | 36 => some ⟨24, 26⟩
  | 37 => some ⟨28, 26⟩
  | 38 => some ⟨32, 26⟩
  | 39 => some ⟨26, 28⟩
  | 40 => some ⟨30, 28⟩
  | _ => none

/-- src/decode/qr/blocks.rs:137-188 `alignment_location`. -/
def alignmentLocation (version : Nat) : Outcome AlignmentLocation :=
  match alignmentTable version with
  | some loc => .ok loc
  | none => .err ⟨"No alignment information for version " ++ toString version⟩

/-- src/decode/qr/blocks.rs:121-135 `is_alignment_coord`. `loc` always is a row of `alignmentTable`, so
`start - 2` does not underflow and `step` is not zero. -/
def isAlignmentCoord (loc : AlignmentLocation) (coord : Nat) : Bool :=
  if coord ≥ 4 ∧ coord - 4 ≤ 4 then true
  else if coord < loc.start - 2 then false
  else if (coord - (loc.start - 2)) % loc.step ≤ 4 then true
  else false

/-- src/decode/qr/blocks.rs:75-119 `is_data`. The `u32` subtractions `side - 9` and `side - 12` panic on
underflow (`side` is a public field), at the point where the code first evaluates them. -/
def isData (q : QRData) (loc : AlignmentLocation) (x y : Nat) : Run Bool :=
  if x = 6 ∨ y = 6 then .ret false
  else if x < 9 ∧ y < 9 then .ret false
  else if q.side < 9 then .panic
  else if x > q.side - 9 ∧ y < 9 then .ret false
  else if x < 9 ∧ y > q.side - 9 then .ret false
  else if q.version ≥ 7 ∧ q.side < 12 then .panic
  else if q.version ≥ 7 ∧ x > q.side - 12 ∧ y < 6 then .ret false
  else if q.version ≥ 7 ∧ y > q.side - 12 ∧ x < 6 then .ret false
  else if x = q.side - 9 ∧ y < 9 then .ret true
  else if y = q.side - 9 ∧ x < 9 then .ret true
  else if isAlignmentCoord loc x ∧ isAlignmentCoord loc y then .ret false
  else .ret true

/-- src/decode/qr/blocks.rs:66-73 `y_range`. -/
def yRange (x side : Nat) : List Nat :=
  let x := if x < 6 then x + 1 else x
  if ((x : Int) - (side : Int) + 1).tmod 4 = 0 then (List.range side).reverse
  else List.range side

/-- src/decode/qr/blocks.rs:202-210 `Blocks`. -/
structure Blocks where
  block_info : List BlockInfo
  blocks : List (List U8)
  round : Nat
  max_data_round : Nat
  block : Nat
  data_blocks : Bool
deriving DecidableEq, Repr

/-- src/decode/qr/blocks.rs:217-221: the maximum of `data_per`. -/
def maxDataRound : List BlockInfo → Nat → Nat
  | [], m => m
  | bi :: rest, m => maxDataRound rest (if bi.data_per > m then bi.data_per else m)

/-- src/decode/qr/blocks.rs:213-233 `Blocks::new`. -/
def Blocks.new (block_info : List BlockInfo) : Blocks :=
  { block_info
    blocks := block_info.map fun _ => []
    round := 0
    max_data_round := maxDataRound block_info 0
    block := 0
    data_blocks := true }

/-- src/decode/qr/blocks.rs:246-257 `inc_count`; `len() - 1` panics if there is no block. -/
def Blocks.incCount (s : Blocks) : Run Blocks :=
  if s.block_info.length = 0 then .panic
  else if s.block = s.block_info.length - 1 then
    .ret { s with
      block := 0
      round := s.round + 1
      data_blocks := if s.round + 1 = s.max_data_round then false else s.data_blocks }
  else .ret { s with block := s.block + 1 }

/-- src/decode/qr/blocks.rs:236-238: the `while` loop of `push`. The fuel bounds the iterations; running
out of it counts as a panic, so a theorem excluding panics also proves termination. -/
def Blocks.skip : Nat → Blocks → Run Blocks
  | 0, _ => .panic
  | fuel + 1, s =>
    if s.data_blocks then
      match s.block_info[s.block]? with
      | none => .panic
      | some bi =>
        if bi.data_per = 0 then .panic
        else if s.round > bi.data_per - 1 then
          match s.incCount with
          | .panic => .panic
          | .ret s => skip fuel s
        else .ret s
    else .ret s

/-- src/decode/qr/blocks.rs:235-244 `push`. -/
def Blocks.push (s : Blocks) (byte : U8) : Run Blocks :=
  match Blocks.skip (s.block_info.length * s.max_data_round + 1) s with
  | .panic => .panic
  | .ret s =>
    if s.block < s.blocks.length then
      { s with blocks := s.blocks.modify s.block (· ++ [byte]) }.incCount
    else .panic

/-- src/decode/qr/blocks.rs:260-264 `Codewords`. -/
structure Codewords where
  current_byte : U8
  bit_count : Nat
  blocks : Blocks
deriving DecidableEq, Repr

/-- src/decode/qr/blocks.rs:267-273 `Codewords::new`. -/
def Codewords.new (block_info : List BlockInfo) : Codewords := ⟨0, 0, Blocks.new block_info⟩

/-- src/decode/qr/blocks.rs:275-285 `add_bit`; `*= 2`, `+= bit` and `+= 1` are checked `u8`
operations. -/
def Codewords.addBit (c : Codewords) (bit : Bool) : Run Codewords :=
  if c.current_byte.toNat * 2 ≥ 256 then .panic
  else
    let byte : U8 := c.current_byte * 2
    match checkedAdd8 byte (if bit then 1 else 0) with
    | .panic => .panic
    | .ret byte =>
      if c.bit_count + 1 ≥ 256 then .panic
      else if c.bit_count + 1 = 8 then
        match c.blocks.push byte with
        | .panic => .panic
        | .ret blocks => .ret ⟨0, 0, blocks⟩
      else .ret ⟨byte, c.bit_count + 1, c.blocks⟩

/-- src/decode/qr/blocks.rs:17-19 and 21-23: read one module if it is data. -/
def readModule (q : QRData) (loc : AlignmentLocation) (m : QRMask) (x y : Nat) (c : Codewords) :
    Run Codewords :=
  match isData q loc x y with
  | .panic => .panic
  | .ret false => .ret c
  | .ret true =>
    match m q x y with
    | .panic => .panic
    | .ret b => c.addBit b

/-- src/decode/qr/blocks.rs:16-24: the loop over the rows of a pair of columns; `x - 1` panics for
`x = 0`. -/
def readPair (q : QRData) (loc : AlignmentLocation) (m : QRMask) (x : Nat) :
    List Nat → Codewords → Run Codewords
  | [], c => .ret c
  | y :: ys, c =>
    match readModule q loc m x y c with
    | .panic => .panic
    | .ret c =>
      if x = 0 then .panic
      else
        match readModule q loc m (x - 1) y c with
        | .panic => .panic
        | .ret c => readPair q loc m x ys c

/-- src/decode/qr/blocks.rs:13-35: the loop over the pairs of columns. `x` decreases by at least two in
every iteration; the fuel bounds the iterations and running out of it counts as a panic. -/
def readColumns (q : QRData) (loc : AlignmentLocation) (m : QRMask) :
    Nat → Nat → Codewords → Run Codewords
  | 0, _, _ => .panic
  | fuel + 1, x, c =>
    match readPair q loc m x (yRange x q.side) c with
    | .panic => .panic
    | .ret c =>
      if x = 1 then .ret c
      else if x < 2 then .panic
      else
        let x := x - 2
        let x := if x = 6 then 5 else x
        readColumns q loc m fuel x c

/-- src/decode/qr/blocks.rs:50-61: the length check of the blocks from index `i` on. -/
def checkLengths : Nat → List BlockInfo → List (List U8) → Outcome Unit
  | i, bi :: bis, b :: bs =>
    if bi.total_per ≠ b.length then
      .err ⟨"Expected " ++ toString bi.total_per ++ " codewords in block " ++ toString i ++
        " but found " ++ toString b.length⟩
    else checkLengths (i + 1) bis bs
  | _, [], _ :: _ => .panic
  | _, _, [] => .ok ()

/-- src/decode/qr/blocks.rs:7-64 `blocks`. -/
def blocks (q : QRData) (level : ECLevel) (m : QRMask) : Outcome (List (List U8)) := do
  let bi ← blockInfo q.version level
  if q.side = 0 then .panic
  else
    let loc ← alignmentLocation q.version
    match readColumns q loc m q.side (q.side - 1) (Codewords.new bi) with
    | .panic => .panic
    | .ret c =>
      let bi ← blockInfo q.version level
      let blocks := c.blocks.blocks
      if blocks.length ≠ bi.length then
        .err ⟨"Expected " ++ toString bi.length ++ " blocks but found " ++ toString blocks.length⟩
      else do
        checkLengths 0 bi blocks
        return blocks

end Verif
