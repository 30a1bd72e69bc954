import Verif.Model.Format
import Verif.Model.Blocks
import Verif.Model.Correct
import Verif.Model.Data
/-!
# Model of `src/decode/qr/decoder.rs`

A returned `String` is the list of its characters. `debug!` output is not modelled.
-/
namespace Verif

/-- src/decode/qr/decoder.rs:36-42: the loop of `QRDecoder::decode` over the blocks paired with their
rows; `all_blocks` is the accumulator. -/
def correctBlocks : List (List U8 × BlockInfo) → List U8 → Outcome (List U8)
  | [], all_blocks => .ok all_blocks
  | (block, bi) :: rest, all_blocks => do
    let corrected ← correct block bi
    correctBlocks rest (all_blocks ++ corrected.take bi.data_per)

/-- src/decode/qr/decoder.rs:26-49 `QRDecoder::decode`. -/
def qrDecode (input : Except QRError QRData) : Outcome (List Char) :=
  match input with
  | .error e => .err e
  | .ok q => do
    let fmt ← format q
    let blocks ← blocks q fmt.1 fmt.2
    let block_info ← blockInfo q.version fmt.1
    let all_blocks ← correctBlocks (blocks.zip block_info) []
    data all_blocks q.version

/-- src/decode/qr/decoder.rs:74-82: the loop of `QRDecoderWithInfo::decode`; `total_errors` is a checked
`u32` sum. -/
def correctBlocksWithCount : List (List U8 × BlockInfo) → List U8 → Nat → Outcome (List U8 × Nat)
  | [], all_blocks, total_errors => .ok (all_blocks, total_errors)
  | (block, bi) :: rest, all_blocks, total_errors => do
    let (corrected, error_count) ← correctWithErrorCount block bi
    match addU32 total_errors error_count with
    | .panic => .panic
    | .ret total_errors =>
      correctBlocksWithCount rest (all_blocks ++ corrected.take bi.data_per) total_errors

/-- src/decode/qr/decoder.rs:63-98 `QRDecoderWithInfo::decode`. `(all_blocks.len() as u32) * 8` truncates
the length to 32 bits and is a checked product. -/
def qrDecodeWithInfo (input : Except QRError QRData) : Outcome (List Char × QRInfo) :=
  match input with
  | .error e => .err e
  | .ok q => do
    let fmt ← format q
    let blocks ← blocks q fmt.1 fmt.2
    let block_info ← blockInfo q.version fmt.1
    let (all_blocks, total_errors) ← correctBlocksWithCount (blocks.zip block_info) [] 0
    match mulU32 (all_blocks.length % 2 ^ 32) 8 with
    | .panic => .panic
    | .ret total_data => do
      let text ← data all_blocks q.version
      return (text, { version := q.version, ecLevel := fmt.1, totalData := total_data, errors := total_errors })

end Verif
