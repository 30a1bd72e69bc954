import Verif.Model.Basic
/-!
# Model of `src/decoder.rs`

Components are trait objects called through `&self`. A component may hold state of its own (interior
mutability) or do input and output, so a call is a function from a world state `σ` to a result and a new
state, or a panic. A pure component is one that ignores and keeps the state.

Simplifications: `LOC` stands for `QRLocation`; `anyhow::Error` is represented by the `QRError` it was
made from; the panic messages of `build` are not modelled.
-/
namespace Verif

/-- A call with side effects on the state `σ`. -/
def Eff (σ α : Type) : Type := σ → Run (α × σ)

namespace Eff
variable {σ α β : Type}

/-- No effect. -/
def pure (a : α) : Eff σ α := fun s => .ret (a, s)

/-- Sequencing; a panic ends the run. -/
def bind (x : Eff σ α) (f : α → Eff σ β) : Eff σ β := fun s =>
  match x s with
  | .panic => .panic
  | .ret (a, s') => f a s'

instance : Monad (Eff σ) where
  pure := pure
  bind := bind

end Eff

/-- src/detect/mod.rs:50-53 `Location`. -/
inductive Location (LOC : Type) where
  | qr (loc : LOC)

/-- src/prepare/mod.rs:37-40, src/detect/mod.rs:39-42, src/extract/mod.rs:42-45 and src/decode/mod.rs:39-42
`Prepare`, `Detect`, `Extract`, `Decode`: the method of each trait. -/
abbrev Prepare (σ IMG PREPD : Type) := IMG → Eff σ PREPD
/-- See `Prepare`. -/
abbrev Detect (σ PREPD LOC : Type) := PREPD → Eff σ (List (Location LOC))
/-- See `Prepare`. -/
abbrev Extract (σ PREPD LOC DATA : Type) := PREPD → LOC → Eff σ (Except QRError DATA)
/-- See `Prepare`. -/
abbrev Decode (σ DATA RESULT : Type) := Except QRError DATA → Eff σ (Except QRError RESULT)

/-- src/decoder.rs:195-198 `ExtractDecode`. -/
structure ExtractDecode (σ PREPD LOC DATA RESULT : Type) where
  extract : Extract σ PREPD LOC DATA
  decode : Decode σ DATA RESULT

/-- src/decoder.rs:12-16 `Decoder`. -/
structure Decoder (σ IMG PREPD LOC DATA RESULT : Type) where
  prepare : Prepare σ IMG PREPD
  detect : Detect σ PREPD LOC
  qr : ExtractDecode σ PREPD LOC DATA RESULT

variable {σ IMG PREPD LOC DATA RESULT : Type}

/-- src/decoder.rs:35-44: the loop of `Decoder::decode`; `all_decoded` is the accumulator. -/
def decodeAll (qr : ExtractDecode σ PREPD LOC DATA RESULT) (prepared : PREPD) :
    List (Location LOC) → List (Except QRError RESULT) → Eff σ (List (Except QRError RESULT))
  | [], all_decoded => Eff.pure all_decoded
  | .qr loc :: rest, all_decoded =>
    Eff.bind (qr.extract prepared loc) fun extracted =>
    Eff.bind (qr.decode extracted) fun decoded =>
    decodeAll qr prepared rest (all_decoded ++ [decoded])

/-- src/decoder.rs:25-47 `Decoder::decode`. -/
def Decoder.decode (d : Decoder σ IMG PREPD LOC DATA RESULT) (source : IMG) :
    Eff σ (List (Except QRError RESULT)) :=
  Eff.bind (d.prepare source) fun prepared =>
  Eff.bind (d.detect prepared) fun locations =>
  if locations.isEmpty then Eff.pure []
  else decodeAll d.qr prepared locations []

/-- src/decoder.rs:86-90 `DecoderBuilder`. -/
structure DecoderBuilder (σ IMG PREPD LOC DATA RESULT : Type) where
  prepare : Option (Prepare σ IMG PREPD)
  detect : Option (Detect σ PREPD LOC)
  qr : Option (ExtractDecode σ PREPD LOC DATA RESULT)

namespace DecoderBuilder

/-- src/decoder.rs:94-100 `DecoderBuilder::new`. -/
def new : DecoderBuilder σ IMG PREPD LOC DATA RESULT := ⟨none, none, none⟩

/-- src/decoder.rs:103-109 `DecoderBuilder::prepare`. -/
def setPrepare (b : DecoderBuilder σ IMG PREPD LOC DATA RESULT) (prepare : Prepare σ IMG PREPD) :
    DecoderBuilder σ IMG PREPD LOC DATA RESULT := { b with prepare := some prepare }

/-- src/decoder.rs:112-118 `DecoderBuilder::detect`. -/
def setDetect (b : DecoderBuilder σ IMG PREPD LOC DATA RESULT) (detect : Detect σ PREPD LOC) :
    DecoderBuilder σ IMG PREPD LOC DATA RESULT := { b with detect := some detect }

/-- src/decoder.rs:121-128 `DecoderBuilder::qr`. -/
def setQr (b : DecoderBuilder σ IMG PREPD LOC DATA RESULT) (extract : Extract σ PREPD LOC DATA)
    (decode : Decode σ DATA RESULT) : DecoderBuilder σ IMG PREPD LOC DATA RESULT :=
  { b with qr := some { extract, decode } }

/-- src/decoder.rs:135-149 `DecoderBuilder::build`; `unwrap` of a missing `qr` panics. -/
def build (b : DecoderBuilder σ IMG PREPD LOC DATA RESULT) : Run (Decoder σ IMG PREPD LOC DATA RESULT) :=
  if b.prepare.isNone then .panic
  else if b.detect.isNone then .panic
  else
    match b.prepare, b.detect, b.qr with
    | some prepare, some detect, some qr => .ret { prepare, detect, qr }
    | _, _, _ => .panic

end DecoderBuilder

end Verif
