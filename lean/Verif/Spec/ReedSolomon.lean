import Verif.Model.Basic
import Verif.Lemmas.Galois
import Mathlib.Algebra.Polynomial.Div
import Mathlib.Algebra.Polynomial.BigOperators
/-!
# Specification: Reed–Solomon codes (ISO/IEC 18004:2015, 7.5 and Annex A)

Over the field `GF8` (polynomial arithmetic modulo 0x11D: property C16) with primitive element `α = 2`.
`U8` values are field elements through the constructor `GF8.mk`.
-/
namespace Verif.Spec
open Polynomial

/-- The polynomial of a block: the first codeword is the coefficient of the highest power. -/
noncomputable def blockPoly : List U8 → GF8[X]
  | [] => 0
  | c :: rest => C (GF8.mk c) * X ^ rest.length + blockPoly rest

/-- The generator polynomial with `n` error correction codewords. -/
noncomputable def generator (n : Nat) : GF8[X] := ∏ i ∈ Finset.range n, (X - C (GF8.α ^ i))

/-- A block is a code word iff its polynomial is divisible by the generator polynomial. -/
def IsCodeword (n : Nat) (b : List U8) : Prop := generator n ∣ blockPoly b

/-- A block damaged by an error pattern. -/
def damage (b e : List U8) : List U8 := b.zipWith (· ^^^ ·) e

/-- Entry of an error pattern at the codeword with power `l`, i.e. the `l`-th codeword from the end. -/
def errAt (e : List U8) (l : Nat) : GF8 := ⟨(e.reverse).getD l 0⟩

/-- The damaged places, as powers. -/
def errPlaces (e : List U8) : Finset Nat := (Finset.range e.length).filter fun l => errAt e l ≠ 0

/-- Power sums of the error pattern. -/
def powerSum (e : List U8) (i : Nat) : GF8 :=
  ∑ l ∈ errPlaces e, errAt e l * (GF8.α ^ l) ^ i

/-- The true error locator polynomial. -/
noncomputable def locator (e : List U8) : GF8[X] := ∏ l ∈ errPlaces e, (X - C (GF8.α ^ l))

/-- One step of exact Gaussian elimination on an infinite matrix. -/
def schur (M : Nat → Nat → GF8) : Nat → Nat → GF8 :=
  fun r c => M (r + 1) (c + 1) - M (r + 1) 0 * (M 0 (c + 1) / M 0 0)

/-- Exact Gaussian elimination without row exchanges meets no zero entry in its first `k` pivot rows
(columns up to `cols`). -/
def Regular : Nat → Nat → (Nat → Nat → GF8) → Prop
  | 0, _, _ => True
  | k + 1, cols, M => (∀ c ≤ cols, M 0 c ≠ 0) ∧ Regular k (cols - 1) (schur M)

instance decidableRegular : ∀ k cols M, Decidable (Regular k cols M)
  | 0, _, _ => .isTrue trivial
  | k + 1, cols, M =>
    have := decidableRegular k (cols - 1) (schur M)
    inferInstanceAs (Decidable (_ ∧ _))

/-- The polynomial the program uses in place of the error locator when `t` of at most `z` codewords are
damaged: the multiple of the locator nearest to `X^z + X^(z-1)` (to `X^z` if `t = z`, which gives the
locator itself). -/
noncomputable def usedLocator (z : Nat) (e : List U8) : GF8[X] :=
  locator e * ((if (errPlaces e).card < z then X ^ z + X ^ (z - 1) else X ^ z) /ₘ locator e)

/-- The powers among the first `N` that are roots of `p`, in increasing order. -/
noncomputable def rootList (p : GF8[X]) (N : Nat) : List Nat :=
  (List.range N).filter fun l => decide (p.eval (GF8.α ^ l) = 0)

/-- Newton's divided-difference numerators of the error pattern with respect to the places `L`. -/
def newton (e : List U8) (L : List Nat) (i : Nat) : GF8 :=
  ∑ l ∈ errPlaces e, errAt e l * ∏ m ∈ Finset.range i, (GF8.α ^ l - GF8.α ^ (L.getD m 0))

/-- Number of differing bits of two bytes. -/
def bitDiff (a b : U8) : Nat := ((List.range 8).filter fun i => a.getLsbD i != b.getLsbD i).length

/-- Number of differing bits of two blocks. -/
def bitDistance (a b : List U8) : Nat := (a.zipWith bitDiff b).sum

end Verif.Spec
