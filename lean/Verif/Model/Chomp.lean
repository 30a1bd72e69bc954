import Verif.Model.Basic
/-!
# Model of `src/util/chomp.rs`
-/
namespace Verif

/-- src/util/chomp.rs:20-25 `struct Chomp`. The peekable iterator `bytes` is the list of bytes not
yet taken from it; `BitCount` is a `Nat`. -/
structure Chomp where
  bytes : List U8
  bitsLeft : Nat
  currentByte : Option U8
  bitsLeftInByte : Nat
deriving DecidableEq, Repr

namespace Chomp

/-- src/util/chomp.rs:35-51 `Chomp::new`. -/
def new (bytes : List U8) : Chomp :=
  let bitsLeft := bytes.length * 8
  match bytes with
  | [] => { bytes := [], bitsLeft, currentByte := none, bitsLeftInByte := 0 }
  | b :: rest => { bytes := rest, bitsLeft, currentByte := some b, bitsLeftInByte := 8 }

/-- src/util/chomp.rs:122-133 `Chomp::nibble`. Returns the answer and the updated reader. -/
def nibble (c : Chomp) (nrBits : Nat) : Run (Option U8 × Chomp) :=
  match c.currentByte with
  | some byte => do
    let sh ← checkedSub 8 nrBits
    let result ← checkedShr byte sh
    let byte' ← checkedShl byte nrBits
    let left ← checkedSub c.bitsLeftInByte nrBits
    return (some result, { c with currentByte := some byte', bitsLeftInByte := left })
  | none => return (none, c)

/-- src/util/chomp.rs:77-120 `Chomp::chomp`. `nrBits` is the `u8` argument. -/
def chomp (c : Chomp) (nrBits : Nat) : Run (Option U8 × Chomp) :=
  -- line 79: range check, and comparison with the counter `bits_left`
  if ¬ (1 ≤ nrBits ∧ nrBits ≤ 8) ∨ nrBits > c.bitsLeft then
    return (none, c)
  -- lines 83-84
  else if nrBits < c.bitsLeftInByte then
    c.nibble nrBits
  -- lines 85-100
  else if nrBits = c.bitsLeftInByte then do
    let result ← match c.currentByte with
      | some byte => do checkedShr byte (← checkedSub 8 c.bitsLeftInByte)
      | none => pure 0#8
    let bitsLeft ← checkedSub c.bitsLeft c.bitsLeftInByte
    match c.bytes with
    | [] => return (some result, { bytes := [], bitsLeft, currentByte := none, bitsLeftInByte := 0 })
    | b :: rest =>
      return (some result, { bytes := rest, bitsLeft, currentByte := some b, bitsLeftInByte := 8 })
  -- lines 101-119
  else do
    let bitsToGo ← checkedSub nrBits c.bitsLeftInByte
    let result ← match c.currentByte with
      | some byte => do
        let hi ← checkedShr byte (← checkedSub 8 c.bitsLeftInByte)
        checkedShl hi bitsToGo
      | none => pure 0#8
    let bitsLeft ← checkedSub c.bitsLeft c.bitsLeftInByte
    match c.bytes with
    -- line 111: `self.bytes.peek()?` returns `None`; `bits_left` has already been changed
    | [] => return (none, { c with bitsLeft })
    | b :: rest =>
      let c' : Chomp := { bytes := rest, bitsLeft, currentByte := some b, bitsLeftInByte := 8 }
      let (nib, c'') ← c'.nibble bitsToGo
      match nib with
      | some n => do
        let r ← checkedAdd8 result n
        return (some r, c'')
      | none => Run.panic -- line 116: `unwrap`

/-- src/util/chomp.rs:55-57 `Chomp::chomp_or`. -/
def chompOr {E : Type} (c : Chomp) (nrBits : Nat) (err : E) : Run (Except E U8 × Chomp) := do
  let (r, c') ← c.chomp nrBits
  match r with
  | some v => return (.ok v, c')
  | none => return (.error err, c')

/-- src/util/chomp.rs:65-72, the loop and the final addition. `result` is *overwritten* in every
iteration, as in the code (line 66). The pattern `n + 9` is the loop condition `bits > 8`. -/
def chompOrU16Go {E : Type} (err : E) : Nat → Chomp → U16 → Run (Except E U16 × Chomp)
  | n + 9, c, _ => do
    let (r, c') ← c.chomp 8
    match r with
    | none => return (.error err, c')
    | some v => do
      let result ← checkedShl16 (v.setWidth 16) (n + 1)
      chompOrU16Go err (n + 1) c' result
  | bits, c, result => do
    let (r, c') ← c.chomp bits
    match r with
    | none => return (.error err, c')
    | some v => do
      let s ← checkedAdd16 result (v.setWidth 16)
      return (.ok s, c')

/-- src/util/chomp.rs:61-73 `Chomp::chomp_or_u16`. -/
def chompOrU16 {E : Type} (c : Chomp) (nrBits : Nat) (err : E) : Run (Except E U16 × Chomp) :=
  chompOrU16Go err nrBits c 0#16

end Chomp
end Verif
