import Verif.Lemmas.Galois
/-!
# Properties C16–C18: the finite-field arithmetic of `galois.rs`

Specification: `Verif.Spec.Galois` (`mulX`, `polyMul`: polynomials over GF(2) modulo `x^w + p`).
-/
namespace Verif.Props
open Spec

/-- C16. GF(256): addition is xor, multiplication is polynomial multiplication modulo `0x11D`. -/
theorem gf8_is_polynomial_arithmetic (a b : GF8) :
    (a.add b).val = a.val ^^^ b.val ∧ (a.sub b).val = a.val ^^^ b.val ∧
    (a.mul b).val = polyMul p8 a.val b.val :=
  ⟨rfl, rfl, mul_eq_polyMul a b⟩

/-- C16. The model's operations satisfy the field laws. -/
theorem gf8_field_laws (a b c : GF8) :
    a.add b = b.add a ∧ (a.add b).add c = a.add (b.add c) ∧ a.add ⟨0⟩ = a ∧ a.add a = ⟨0⟩ ∧
    (a.add b).sub b = a ∧
    a.mul b = b.mul a ∧ (a.mul b).mul c = a.mul (b.mul c) ∧ a.mul ⟨1⟩ = a ∧
    a.mul (b.add c) = (a.mul b).add (a.mul c) ∧
    (a.mul b = ⟨0⟩ → a = ⟨0⟩ ∨ b = ⟨0⟩) ∧ (a ≠ ⟨0⟩ → ∃ i, a.mul i = ⟨1⟩) := by
  refine ⟨add_comm (G := GF8) a b, add_assoc (G := GF8) a b c, add_zero (M := GF8) a,
    GF8.xor_self' a, add_sub_cancel_right (G := GF8) a b, mul_comm (G := GF8) a b,
    mul_assoc (G := GF8) a b c, mul_one (M := GF8) a, GF8.left_distrib' a b c, ?_, ?_⟩
  · intro h
    exact (mul_eq_zero (M₀ := GF8)).mp h
  · intro h
    exact ⟨a⁻¹, GF8.mul_inv' a h⟩

/-- C16. `EXP8[i]` is `2^i`, the powers of 2 below 255 are distinct and are all nonzero elements, and
`LOG8` is the inverse of `EXP8`. -/
theorem gf8_tables (i : Nat) (hi : i < 255) (x : GF8) (hx : x ≠ ⟨0⟩) :
    (exp8 i).val = mulXPow p8 i 1 ∧ log8 (exp8 i) = i ∧
    log8 x < 255 ∧ exp8 (log8 x) = x :=
  ⟨exp8_eq ⟨i, hi⟩, log8_exp8 ⟨i, hi⟩, (GF8.log8_lt' hx).1, (GF8.log8_lt' hx).2⟩

example : (GF8.mul ⟨0x53⟩ ⟨0xCA⟩).val = 0x8F#8 ∧ (⟨0x53⟩ : GF8) ≠ ⟨0⟩ := by decide +kernel

/-- C17, restricted to nonzero numerators: division inverts multiplication. Missing: `a = 0`, where
the claim is false (`gf8_div_zero_numerator`). -/
theorem gf8_div_mul_partial (a b : GF8) (ha : a ≠ ⟨0⟩) (hb : b ≠ ⟨0⟩) :
    (a.mul b).div b = a ∧ (a.div b).mul b = a := by
  constructor
  · have h : a.mul b ≠ 0 := mul_ne_zero (M₀ := GF8) ha hb
    rw [GF8.div_eq h hb]
    exact mul_div_cancel_right₀ (M₀ := GF8) a hb
  · rw [GF8.div_eq ha hb]
    exact div_mul_cancel₀ (G₀ := GF8) a hb

example : (⟨0x8F⟩ : GF8).div ⟨0xCA⟩ = ⟨0x53⟩ := by decide +kernel

/-- C17 fails for the numerator 0, for every divisor: `0 / b` is the inverse of `b`, so neither
`(0*b)/b = 0` nor `(0/b)*b = 0`. -/
theorem gf8_div_zero_numerator (b : GF8) (hb : b ≠ ⟨0⟩) :
    ((⟨0⟩ : GF8).div b).mul b = ⟨1⟩ ∧ ((⟨0⟩ : GF8).mul b).div b ≠ ⟨0⟩ ∧
    ((⟨0⟩ : GF8).div b).mul b ≠ ⟨0⟩ := by
  have h : (⟨0⟩ : GF8).div b = b⁻¹ := GF8.zero_div_eq hb
  have h0 : (⟨0⟩ : GF8).mul b = ⟨0⟩ := zero_mul (M₀ := GF8) b
  have h1 : ((⟨0⟩ : GF8).div b).mul b = ⟨1⟩ := by
    rw [h]; exact inv_mul_cancel₀ (G₀ := GF8) hb
  refine ⟨h1, ?_, ?_⟩
  · rw [h0, h]; exact inv_ne_zero (G₀ := GF8) hb
  · rw [h1]; decide

/-- C17: what division by zero returns (it does not panic): the numerator itself, and `0/0 = 1`. -/
theorem gf8_div_by_zero (a : GF8) :
    a.div ⟨0⟩ = if a = ⟨0⟩ then ⟨1⟩ else a := by
  split
  · rename_i h; rw [h]; exact GF8.zero_div_zero_eq
  · rename_i h; exact GF8.div_zero_eq h

/-- C18. GF(16): addition is xor, multiplication is polynomial multiplication modulo `0x13`
(all 256 pairs, by evaluation of the whole domain in the kernel). -/
theorem gf4_is_polynomial_arithmetic (a b : BitVec 4) :
    (GF4.add ⟨a⟩ ⟨b⟩).val = a ^^^ b ∧ (GF4.sub ⟨a⟩ ⟨b⟩).val = a ^^^ b ∧
    (GF4.mul ⟨a⟩ ⟨b⟩).val = polyMul p4 a b := by
  have h : ∀ a b : BitVec 4, (GF4.mul ⟨a⟩ ⟨b⟩).val = polyMul p4 a b := by decide +kernel
  exact ⟨rfl, rfl, h a b⟩

/-- C18. Associativity, distributivity and commutativity. -/
theorem gf4_ring_laws (a b c : BitVec 4) :
    GF4.mul ⟨a⟩ ⟨b⟩ = GF4.mul ⟨b⟩ ⟨a⟩ ∧
    GF4.mul (GF4.mul ⟨a⟩ ⟨b⟩) ⟨c⟩ = GF4.mul ⟨a⟩ (GF4.mul ⟨b⟩ ⟨c⟩) ∧
    GF4.mul ⟨a⟩ (GF4.add ⟨b⟩ ⟨c⟩) = GF4.add (GF4.mul ⟨a⟩ ⟨b⟩) (GF4.mul ⟨a⟩ ⟨c⟩) ∧
    GF4.mul ⟨a⟩ ⟨1⟩ = ⟨a⟩ := by
  revert a b c
  decide +kernel

/-- C18. Division by a nonzero element inverts multiplication of nonzero elements. -/
theorem gf4_div_mul (a b : BitVec 4) (ha : a ≠ 0) (hb : b ≠ 0) :
    (GF4.div (GF4.mul ⟨a⟩ ⟨b⟩) ⟨b⟩) = ⟨a⟩ ∧ GF4.mul (GF4.div ⟨a⟩ ⟨b⟩) ⟨b⟩ = ⟨a⟩ := by
  revert a b
  decide +kernel

/-- C18. `EXP4[i]` is `2^i` for `i < 15` and `LOG4` is its inverse on nonzero elements. -/
theorem gf4_tables (i : Nat) (hi : i < 15) (x : BitVec 4) (hx : x ≠ 0) :
    (exp4 i).val = mulXPow p4 i 1 ∧ log4 (exp4 i) = i ∧
    log4 ⟨x⟩ < 15 ∧ exp4 (log4 ⟨x⟩) = ⟨x⟩ := by
  have h1 : ∀ i : Fin 15, (exp4 i.val).val = mulXPow p4 i.val 1 ∧ log4 (exp4 i.val) = i.val := by
    decide +kernel
  have h2 : ∀ x : BitVec 4, x ≠ 0 → log4 ⟨x⟩ < 15 ∧ exp4 (log4 ⟨x⟩) = ⟨x⟩ := by decide +kernel
  exact ⟨(h1 ⟨i, hi⟩).1, (h1 ⟨i, hi⟩).2, (h2 x hx).1, (h2 x hx).2⟩

example : GF4.mul ⟨7⟩ ⟨9⟩ = ⟨10⟩ ∧ GF4.div ⟨10⟩ ⟨9⟩ = ⟨7⟩ := by decide +kernel

/-- C18, boundary: the code's division of zero in GF(16) is the inverse of the divisor for every
divisor other than 1, and dividing by zero returns the numerator (for nonzero numerators). -/
theorem gf4_div_zero (a b : BitVec 4) (hb : b ≠ 0) :
    (b ≠ 1 → GF4.mul (GF4.div ⟨0⟩ ⟨b⟩) ⟨b⟩ = ⟨1⟩) ∧ (a ≠ 0 → GF4.div ⟨a⟩ ⟨0⟩ = ⟨a⟩) := by
  revert a b
  decide +kernel

end Verif.Props
