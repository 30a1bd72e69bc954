/-!
# Rust `f64`

An executable model of IEEE 754 binary64 arithmetic with rounding to nearest, ties to even, over exact
rational values. It models the arithmetic the Rust language gives `f64`, not a file of /repo; it is used by the
models of src/prepare/blockedmean.rs, src/detect/linescan.rs, src/extract/qr/mod.rs and src/util/point.rs.

Simplification: `+0.0` and `-0.0` are one value. The code under study never distinguishes them: it does
not print floats or inspect sign bits, and every divisor that can be zero (`count`, a length, a module
size) is produced as `+0.0`.
-/
namespace Verif

/-- A value of type `f64`. A finite value is its exact rational value. -/
inductive F64 where
  | nan
  | inf (neg : Bool)
  | fin (q : Rat)
deriving DecidableEq

namespace F64

/-- `2 ^ e` for an integer exponent. -/
def pow2 : Int → Rat
  | .ofNat n => ((2 ^ n : Nat) : Rat)
  | .negSucc n => mkRat 1 (2 ^ (n + 1))

/-- The exponent `e` with `2 ^ e ≤ |q| < 2 ^ (e + 1)`, for `q ≠ 0`. -/
def expo (q : Rat) : Int :=
  let l : Int := (q.num.natAbs.log2 : Int) - (q.den.log2 : Int)
  if pow2 l ≤ q.abs then l else l - 1

/-- Unit in the last place of the binade of `q`; `2 ^ -1074` for subnormal numbers. -/
def ulp (q : Rat) : Rat := pow2 (max (expo q) (-1022) - 52)

/-- Round to the nearest integer, ties to even. -/
def nearestEven (q : Rat) : Int :=
  let f := q.floor
  let r := q - (f : Rat)
  if r < 1 / 2 then f
  else if 1 / 2 < r then f + 1
  else if f % 2 = 0 then f else f + 1

/-- Nearest binary64 number, ties to even, if the exponent range were unbounded above. -/
def roundQ (q : Rat) : Rat :=
  if q = 0 then 0 else (nearestEven (q / ulp q) : Rat) * ulp q

/-- Result of an operation with exact result `q`. -/
def ofExact (q : Rat) : F64 :=
  let r := roundQ q
  if pow2 1024 ≤ r then .inf false
  else if r ≤ -pow2 1024 then .inf true
  else .fin r

/-- `f64::from(u32)`, `u64 as f64`, `f64::from(u8)`: the nearest number. -/
def ofNat (n : Nat) : F64 := ofExact (n : Rat)

/-- `f64::from(i32)`. -/
def ofInt (n : Int) : F64 := ofExact (n : Rat)

/-- A decimal literal `n/d`. -/
def lit (n : Nat) (d : Nat := 1) : F64 := ofExact (mkRat n d)

/-- `-a`. -/
protected def neg : F64 → F64
  | nan => nan
  | inf s => inf !s
  | fin a => fin (-a)

/-- `a + b`. -/
protected def add : F64 → F64 → F64
  | nan, _ => nan
  | _, nan => nan
  | inf s, inf t => if s = t then inf s else nan
  | inf s, fin _ => inf s
  | fin _, inf t => inf t
  | fin a, fin b => ofExact (a + b)

/-- `a - b`. -/
protected def sub : F64 → F64 → F64
  | nan, _ => nan
  | _, nan => nan
  | inf s, inf t => if s = t then nan else inf s
  | inf s, fin _ => inf s
  | fin _, inf t => inf !t
  | fin a, fin b => ofExact (a - b)

/-- `a * b`. -/
protected def mul : F64 → F64 → F64
  | nan, _ => nan
  | _, nan => nan
  | inf s, inf t => inf (s != t)
  | inf s, fin b => if b = 0 then nan else inf (s != decide (b < 0))
  | fin a, inf t => if a = 0 then nan else inf (t != decide (a < 0))
  | fin a, fin b => ofExact (a * b)

/-- `a / b`; a zero divisor counts as `+0.0`. -/
protected def div : F64 → F64 → F64
  | nan, _ => nan
  | _, nan => nan
  | inf _, inf _ => nan
  | inf s, fin b => inf (s != decide (b < 0))
  | fin _, inf _ => fin 0
  | fin a, fin b =>
    if b = 0 then (if a = 0 then nan else inf (decide (a < 0))) else ofExact (a / b)

instance : Neg F64 := ⟨F64.neg⟩
instance : Add F64 := ⟨F64.add⟩
instance : Sub F64 := ⟨F64.sub⟩
instance : Mul F64 := ⟨F64.mul⟩
instance : Div F64 := ⟨F64.div⟩

/-- `a.abs()`. -/
protected def abs : F64 → F64
  | nan => nan
  | inf _ => inf false
  | fin a => fin a.abs

/-- `a < b`; false when an argument is NaN. -/
protected def lt : F64 → F64 → Bool
  | nan, _ => false
  | _, nan => false
  | inf s, inf t => s && !t
  | inf s, fin _ => s
  | fin _, inf t => !t
  | fin a, fin b => decide (a < b)

/-- `a <= b`; false when an argument is NaN. -/
protected def le : F64 → F64 → Bool
  | nan, _ => false
  | _, nan => false
  | inf s, inf t => s || !t
  | inf s, fin _ => s
  | fin _, inf t => !t
  | fin a, fin b => decide (a ≤ b)

/-- `a > b`. -/
protected def gt (a b : F64) : Bool := F64.lt b a

/-- `a >= b`. -/
protected def ge (a b : F64) : Bool := F64.le b a

/-- `f64::max`: the other argument if one is NaN. -/
protected def max (a b : F64) : F64 :=
  match a, b with
  | nan, b => b
  | a, nan => a
  | a, b => if F64.lt a b then b else a

/-- Round to the nearest integer, halves away from zero. -/
def roundAway (q : Rat) : Int :=
  if 0 ≤ q then (q + 1 / 2).floor else -((-q + 1 / 2).floor)

/-- `a.round()`. -/
protected def round : F64 → F64
  | nan => nan
  | inf s => inf s
  | fin a => ofExact (roundAway a : Rat)

/-- `a as u32`: truncates and saturates, NaN becomes 0. -/
def toU32 : F64 → Nat
  | nan => 0
  | inf s => if s then 0 else 2 ^ 32 - 1
  | fin a => min a.floor.toNat (2 ^ 32 - 1)

/-- Largest `r + s` with `(r + s)^2 ≤ n` and `s < 2 ^ k`. -/
def isqrtFrom (n : Nat) : Nat → Nat → Nat
  | 0, r => r
  | k + 1, r => if (r + 2 ^ k) * (r + 2 ^ k) ≤ n then isqrtFrom n k (r + 2 ^ k) else isqrtFrom n k r

/-- Integer square root of a number below `2 ^ 106`. -/
def isqrt (n : Nat) : Nat := isqrtFrom n 53 0

/-- Correctly rounded square root of a positive number. -/
def sqrtQ (q : Rat) : Rat :=
  let u := pow2 (expo q / 2 - 52)
  let s := q / (u * u)
  let n := isqrt s.floor.toNat
  let m := if ((2 * n + 1) * (2 * n + 1) : Nat) < 4 * s then n + 1 else n
  (m : Rat) * u

/-- `a.sqrt()`. -/
protected def sqrt : F64 → F64
  | nan => nan
  | inf s => if s then nan else inf false
  | fin a => if a < 0 then nan else if a = 0 then fin 0 else fin (sqrtQ a)

end F64
end Verif
