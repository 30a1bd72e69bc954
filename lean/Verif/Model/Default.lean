import Verif.Model.Pipeline
import Verif.Model.BlockedMean
import Verif.Model.LineScan
import Verif.Model.Extract
import Verif.Model.Decoder

/-!
# The default decoders of `src/decoder.rs`

The components have no state, so a call keeps the state `σ` of the world. The conversion of the source image to
grey, `image::imageops::grayscale` in src/prepare/blockedmean.rs:37, belongs to the image crate: it is a parameter
`grayscale`.
-/
namespace Verif

variable {σ IMG : Type}

/-- A call without effects. -/
def Run.lift {α : Type} : Run α → Eff σ α
  | .ret a => fun s => .ret (a, s)
  | .panic => fun _ => .panic

/-- A call without effects that returns a `Result`. -/
def Outcome.lift {α : Type} : Outcome α → Eff σ (Except QRError α)
  | .ok a => fun s => .ret (.ok a, s)
  | .err e => fun s => .ret (.error e, s)
  | .panic => fun _ => .panic

/-- src/prepare/blockedmean.rs:35-47: `BlockedMean` as a component. -/
def BlockedMean.component (self : BlockedMean) (grayscale : IMG → GrayImage) : Prepare σ IMG GrayImage :=
  fun input => Run.lift (self.prepare (grayscale input))

/-- src/detect/linescan.rs:35-207: `LineScan` as a component; line 200 wraps each location. -/
def LineScan.component : Detect σ GrayImage QRLocation :=
  fun prepared => Eff.bind (Run.lift (LineScan.detect prepared)) fun locations => Eff.pure (locations.map .qr)

/-- src/extract/qr/mod.rs:34-108: `QRExtractor` as a component. -/
def extractComponent : Extract σ GrayImage QRLocation QRData :=
  fun prepared loc => Outcome.lift (Extractor.extract prepared loc)

/-- src/decode/qr/decoder.rs:25-49: `QRDecoder` as a component. -/
def decodeComponent : Decode σ QRData (List Char) := fun data => Outcome.lift (qrDecode data)

/-- src/decode/qr/decoder.rs:62-98: `QRDecoderWithInfo` as a component. -/
def decodeWithInfoComponent : Decode σ QRData (List Char × QRInfo) := fun data => Outcome.lift (qrDecodeWithInfo data)

/-- src/decoder.rs:162-170 `default_builder`. -/
def defaultBuilder (grayscale : IMG → GrayImage) : DecoderBuilder σ IMG GrayImage QRLocation QRData (List Char) :=
  let db := DecoderBuilder.new
  let db := db.setPrepare ((BlockedMean.mk 5 7).component grayscale)
  let db := db.setDetect LineScan.component
  db.setQr extractComponent decodeComponent

/-- src/decoder.rs:182-193 `default_builder_with_info`. -/
def defaultBuilderWithInfo (grayscale : IMG → GrayImage) :
    DecoderBuilder σ IMG GrayImage QRLocation QRData (List Char × QRInfo) :=
  let db := DecoderBuilder.new
  let db := db.setPrepare ((BlockedMean.mk 5 7).component grayscale)
  let db := db.setDetect LineScan.component
  db.setQr extractComponent decodeWithInfoComponent

/-- src/decoder.rs:60-62 `default_decoder`. -/
def defaultDecoder (grayscale : IMG → GrayImage) : Run (Decoder σ IMG GrayImage QRLocation QRData (List Char)) :=
  (defaultBuilder grayscale).build

/-- src/decoder.rs:74-76 `default_decoder_with_info`. -/
def defaultDecoderWithInfo (grayscale : IMG → GrayImage) :
    Run (Decoder σ IMG GrayImage QRLocation QRData (List Char × QRInfo)) :=
  (defaultBuilderWithInfo grayscale).build

end Verif
