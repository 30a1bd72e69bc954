import Verif.Model.Basic
/-!
# Model of `src/util/qr.rs`
-/
namespace Verif

/-- src/util/qr.rs:46-56 `QRData`. `version` and `side` are `u32` in the code and `Nat` here. -/
structure QRData where
  data : List U8
  version : Nat
  side : Nat
deriving Repr

/-- src/util/qr.rs:58-67 `QRData::new`; `4 * version + 17` is a checked `u32` computation. -/
def QRData.new (data : List U8) (version : Nat) : Run QRData :=
  if 4 * version + 17 < 2 ^ 32 then .ret ⟨data, version, 4 * version + 17⟩ else .panic

/-- src/util/qr.rs:69-80 `Index<[u32; 2]>`: `q[[x, y]]`. The returned `u8` is 0 or 1, here a `Bool`
(`true` is 1, a dark module). An out-of-range position panics. -/
def QRData.index (q : QRData) (x y : Nat) : Run Bool :=
  match q.data[y * q.side + x]? with
  | some pixel => .ret (pixel == 0)
  | none => .panic

/-- src/util/qr.rs:117-125 `ECLevel`. -/
inductive ECLevel where
  | low | medium | quartile | high
deriving DecidableEq, Repr

/-- src/util/qr.rs:101-115 `QRInfo`. -/
structure QRInfo where
  version : Nat
  ecLevel : ECLevel
  totalData : Nat
  errors : Nat
deriving DecidableEq, Repr

end Verif
