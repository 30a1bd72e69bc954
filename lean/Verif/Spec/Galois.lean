/-!
# Specification: polynomial arithmetic over GF(2) modulo a fixed polynomial

A polynomial of degree `< w` is a `BitVec w` (bit `i` is the coefficient of `x^i`). The modulus is
`x^w + p` with `p` of degree `< w`. Addition is `xor`.
-/
namespace Verif.Spec

/-- Multiplication by `x`: shift, and subtract the modulus if degree `w` is reached. -/
def mulX {w : Nat} (p a : BitVec w) : BitVec w :=
  if a.msb then (a <<< 1) ^^^ p else a <<< 1

/-- Multiplication by `x^i`. -/
def mulXPow {w : Nat} (p : BitVec w) : Nat → BitVec w → BitVec w
  | 0, a => a
  | i + 1, a => mulX p (mulXPow p i a)

/-- Sum over `i < n` of `b_i * x^i * a`. -/
def polyMulUpTo {w : Nat} (p : BitVec w) : Nat → BitVec w → BitVec w → BitVec w
  | 0, _, _ => 0
  | n + 1, a, b => polyMulUpTo p n a b ^^^ (if b.getLsbD n then mulXPow p n a else 0)

/-- The product of `a` and `b` modulo `x^w + p`. -/
def polyMul {w : Nat} (p a b : BitVec w) : BitVec w := polyMulUpTo p w a b

/-- `x^8 + x^4 + x^3 + x^2 + 1` (0x11D), the modulus of ISO/IEC 18004 for GF(256). -/
def p8 : BitVec 8 := 0x1D#8

/-- `x^4 + x + 1` (0x13), the modulus for the format information's GF(16). -/
def p4 : BitVec 4 := 0x3#4

end Verif.Spec
