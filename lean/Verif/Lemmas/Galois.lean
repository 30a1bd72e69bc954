import Verif.Model.Galois
import Verif.Spec.Galois
import Mathlib.Algebra.Field.Defs
import Mathlib.Algebra.Field.Basic
/-! GF(256) of the model is a field; helper lemmas. -/
namespace Verif
open Spec

/-! ### linearity of the specification -/

theorem mulX_xor {w : Nat} (p a b : BitVec w) : mulX p (a ^^^ b) = mulX p a ^^^ mulX p b := by
  have hs : (a ^^^ b) <<< 1 = (a <<< 1) ^^^ (b <<< 1) := BitVec.shiftLeft_xor_distrib a b 1
  have hm : (a ^^^ b).msb = (a.msb ^^ b.msb) := BitVec.msb_xor
  rw [mulX, mulX, mulX, hs, hm]
  generalize a <<< 1 = u
  generalize b <<< 1 = v
  cases a.msb <;> cases b.msb <;> simp only [Bool.false_xor, Bool.true_xor, Bool.not_false,
    Bool.not_true, if_true, Bool.false_eq_true, if_false] <;>
    (apply BitVec.eq_of_getLsbD_eq; intro i _; simp only [BitVec.getLsbD_xor];
     cases u.getLsbD i <;> cases v.getLsbD i <;> cases p.getLsbD i <;> rfl)

theorem mulXPow_xor {w : Nat} (p : BitVec w) (i : Nat) (a b : BitVec w) :
    mulXPow p i (a ^^^ b) = mulXPow p i a ^^^ mulXPow p i b := by
  induction i with
  | zero => rfl
  | succ i ih => rw [mulXPow, mulXPow, mulXPow, ih, mulX_xor]

theorem mulX_zero {w : Nat} (p : BitVec w) : mulX p 0 = 0 := by
  simp [mulX]

theorem mulXPow_zero {w : Nat} (p : BitVec w) (i : Nat) : mulXPow p i 0 = 0 := by
  induction i with
  | zero => rfl
  | succ i ih => rw [mulXPow, ih, mulX_zero]

theorem mulXPow_mulX {w : Nat} (p : BitVec w) (i : Nat) (a : BitVec w) :
    mulXPow p i (mulX p a) = mulX p (mulXPow p i a) := by
  induction i with
  | zero => rfl
  | succ i ih => rw [mulXPow, mulXPow, ih]

theorem xor_four {w : Nat} (a b c d : BitVec w) : a ^^^ b ^^^ (c ^^^ d) = a ^^^ c ^^^ (b ^^^ d) := by
  simp only [BitVec.xor_assoc]
  rw [← BitVec.xor_assoc b c d, BitVec.xor_comm b c, BitVec.xor_assoc]

theorem polyMulUpTo_xor_left {w : Nat} (p : BitVec w) (n : Nat) (a a' b : BitVec w) :
    polyMulUpTo p n (a ^^^ a') b = polyMulUpTo p n a b ^^^ polyMulUpTo p n a' b := by
  induction n with
  | zero => simp [polyMulUpTo]
  | succ n ih =>
    rw [polyMulUpTo, polyMulUpTo, polyMulUpTo, ih, mulXPow_xor, xor_four]
    congr 1
    cases b.getLsbD n <;> simp

theorem polyMulUpTo_xor_right {w : Nat} (p : BitVec w) (n : Nat) (a b b' : BitVec w) :
    polyMulUpTo p n a (b ^^^ b') = polyMulUpTo p n a b ^^^ polyMulUpTo p n a b' := by
  induction n with
  | zero => simp [polyMulUpTo]
  | succ n ih =>
    rw [polyMulUpTo, polyMulUpTo, polyMulUpTo, ih, xor_four, BitVec.getLsbD_xor]
    congr 1
    cases b.getLsbD n <;> cases b'.getLsbD n <;> simp

theorem polyMulUpTo_mulX {w : Nat} (p : BitVec w) (n : Nat) (a b : BitVec w) :
    polyMulUpTo p n (mulX p a) b = mulX p (polyMulUpTo p n a b) := by
  induction n with
  | zero => exact (mulX_zero p).symm
  | succ n ih =>
    rw [polyMulUpTo, polyMulUpTo, ih, mulX_xor, mulXPow_mulX]
    congr 1
    cases b.getLsbD n
    · exact (mulX_zero p).symm
    · rfl

theorem polyMul_mulXPow {w : Nat} (p : BitVec w) (i : Nat) (a b : BitVec w) :
    polyMul p (mulXPow p i a) b = mulXPow p i (polyMul p a b) := by
  induction i with
  | zero => rfl
  | succ i ih => rw [mulXPow, mulXPow, ← ih]; exact polyMulUpTo_mulX p w _ _

/-! ### the tables -/

theorem exp8_eq : ∀ i : Fin 255, (exp8 i.val).val = mulXPow p8 i.val 1 := by decide +kernel
theorem exp8_255 : exp8 255 = ⟨0⟩ := by decide +kernel
theorem mulXPow_255 : mulXPow p8 255 1 = 1 := by decide +kernel
theorem log8_lt : ∀ x : BitVec 8, x ≠ 0 → log8 ⟨x⟩ < 255 ∧ exp8 (log8 ⟨x⟩) = ⟨x⟩ := by decide +kernel
theorem log8_exp8 : ∀ i : Fin 255, log8 (exp8 i.val) = i.val := by decide +kernel
theorem log8_zero : log8 ⟨0⟩ = 255 := by decide +kernel
theorem exp8_ne_zero : ∀ i : Fin 255, (exp8 i.val).val ≠ 0 := by decide +kernel
theorem polyMul_one8 : ∀ b : BitVec 8, polyMul p8 1 b = b := by decide +kernel

theorem mulXPow_add {w : Nat} (p : BitVec w) (i j : Nat) (a : BitVec w) :
    mulXPow p (i + j) a = mulXPow p i (mulXPow p j a) := by
  induction i with
  | zero => simp [mulXPow]
  | succ i ih => rw [Nat.add_right_comm, mulXPow, mulXPow, ih]

theorem mulXPow_mod (i : Nat) : mulXPow p8 i 1 = mulXPow p8 (i % 255) 1 := by
  have h : ∀ k, mulXPow p8 (255 * k) 1 = 1 := by
    intro k
    induction k with
    | zero => rfl
    | succ k ih => rw [Nat.mul_succ, mulXPow_add, mulXPow_255, ih]
  conv => lhs; rw [← Nat.mod_add_div i 255, mulXPow_add, h]

theorem exp8_mod (i : Nat) : (exp8 (i % 255)).val = mulXPow p8 i 1 := by
  rw [mulXPow_mod]
  exact exp8_eq ⟨i % 255, Nat.mod_lt _ (by decide)⟩

/-- Multiplication of the model is the polynomial product. -/
theorem mul_eq_polyMul (a b : GF8) : (a.mul b).val = polyMul p8 a.val b.val := by
  obtain ⟨a⟩ := a
  obtain ⟨b⟩ := b
  rw [GF8.mul]
  split
  · rename_i h
    rw [exp8_255]
    have h0 : ∀ n, polyMulUpTo p8 n 0 b = 0 := by
      intro n
      induction n with
      | zero => rfl
      | succ n ih => rw [polyMulUpTo, ih, mulXPow_zero]; simp
    have h1 : ∀ n, polyMulUpTo p8 n a 0 = 0 := by
      intro n
      induction n with
      | zero => rfl
      | succ n ih => rw [polyMulUpTo, ih]; simp
    rcases h with h | h
    · simp only at h ⊢; rw [h, polyMul, h0]
    · simp only at h ⊢; rw [h, polyMul, h1]
  · rename_i h
    simp only [not_or] at h
    obtain ⟨ha, hb⟩ := h
    obtain ⟨la, ea⟩ := log8_lt a ha
    obtain ⟨lb, eb⟩ := log8_lt b hb
    have ea' : a = mulXPow p8 (log8 ⟨a⟩) 1 := by
      rw [← exp8_eq ⟨_, la⟩]; simp only; rw [ea]
    have eb' : b = mulXPow p8 (log8 ⟨b⟩) 1 := by
      rw [← exp8_eq ⟨_, lb⟩]; simp only; rw [eb]
    rw [exp8_mod]
    simp only
    conv => rhs; rw [ea', polyMul_mulXPow, polyMul_one8, eb']
    rw [mulXPow_add]

/-! ### field structure -/

namespace GF8

instance : Zero GF8 := ⟨⟨0⟩⟩
instance : One GF8 := ⟨⟨1⟩⟩
instance : Add GF8 := ⟨GF8.add⟩
instance : Sub GF8 := ⟨GF8.sub⟩
instance : Neg GF8 := ⟨id⟩
instance : Mul GF8 := ⟨GF8.mul⟩
/-- The true inverse (0 for 0), not the code's division. -/
instance : Inv GF8 := ⟨fun a => if a = 0 then 0 else exp8 ((255 - log8 a) % 255)⟩

theorem ext' {a b : GF8} (h : a.val = b.val) : a = b := by
  cases a; cases b; simp only at h; rw [h]

@[simp] theorem val_zero : (0 : GF8).val = 0 := rfl
@[simp] theorem val_one : (1 : GF8).val = 1 := rfl
@[simp] theorem val_add (a b : GF8) : (a + b).val = a.val ^^^ b.val := rfl
@[simp] theorem val_sub (a b : GF8) : (a - b).val = a.val ^^^ b.val := rfl
theorem val_mul (a b : GF8) : (a * b).val = polyMul p8 a.val b.val := mul_eq_polyMul a b
theorem add_def (a b : GF8) : a.add b = a + b := rfl
theorem sub_def (a b : GF8) : a.sub b = a - b := rfl
theorem mul_def (a b : GF8) : a.mul b = a * b := rfl

theorem eq_zero_iff {a : GF8} : a = 0 ↔ a.val = 0 := ⟨fun h => by rw [h]; rfl, fun h => ext' h⟩

theorem mul_log {a b : GF8} (ha : a ≠ 0) (hb : b ≠ 0) :
    a * b = exp8 ((log8 a + log8 b) % 255) := by
  show GF8.mul a b = _
  rw [GF8.mul, if_neg]
  rintro (h | h)
  · exact ha (ext' h)
  · exact hb (ext' h)

theorem zero_mul' (a : GF8) : 0 * a = 0 := by
  show GF8.mul 0 a = _
  rw [GF8.mul, if_pos (.inl rfl), exp8_255]; rfl

theorem mul_zero' (a : GF8) : a * 0 = 0 := by
  show GF8.mul a 0 = _
  rw [GF8.mul, if_pos (.inr rfl), exp8_255]; rfl

theorem log8_lt' {a : GF8} (ha : a ≠ 0) : log8 a < 255 ∧ exp8 (log8 a) = a :=
  log8_lt a.val (fun h => ha (ext' h))

theorem log8_exp8' {i : Nat} (h : i < 255) : log8 (exp8 i) = i := log8_exp8 ⟨i, h⟩

theorem exp8_ne {i : Nat} (h : i < 255) : exp8 i ≠ 0 := fun he =>
  exp8_ne_zero ⟨i, h⟩ (by simp only; rw [he]; rfl)

theorem mul_comm' (a b : GF8) : a * b = b * a := by
  by_cases ha : a = 0
  · rw [ha, zero_mul', mul_zero']
  by_cases hb : b = 0
  · rw [hb, zero_mul', mul_zero']
  rw [mul_log ha hb, mul_log hb ha, Nat.add_comm]

theorem mul_assoc' (a b c : GF8) : a * b * c = a * (b * c) := by
  by_cases ha : a = 0
  · rw [ha, zero_mul', zero_mul', zero_mul']
  by_cases hb : b = 0
  · rw [hb, zero_mul', mul_zero', zero_mul']
  by_cases hc : c = 0
  · rw [hc, mul_zero', mul_zero', mul_zero']
  have h1 : (log8 a + log8 b) % 255 < 255 := Nat.mod_lt _ (by decide)
  have h2 : (log8 b + log8 c) % 255 < 255 := Nat.mod_lt _ (by decide)
  rw [mul_log ha hb, mul_log hb hc, mul_log (exp8_ne h1) hc, mul_log ha (exp8_ne h2),
    log8_exp8' h1, log8_exp8' h2]
  congr 1
  omega

theorem left_distrib' (a b c : GF8) : a * (b + c) = a * b + a * c := by
  apply ext'
  rw [val_mul, val_add, val_add, val_mul, val_mul]
  exact polyMulUpTo_xor_right p8 8 _ _ _

theorem one_mul' (a : GF8) : 1 * a = a := by
  apply ext'
  rw [val_mul]
  exact polyMul_one8 _

theorem mul_inv' (a : GF8) (ha : a ≠ 0) : a * a⁻¹ = 1 := by
  show a * (if a = 0 then 0 else exp8 ((255 - log8 a) % 255)) = 1
  have h1 : (255 - log8 a) % 255 < 255 := Nat.mod_lt _ (by decide)
  have h2 := (log8_lt' ha).1
  rw [if_neg ha, mul_log ha (exp8_ne h1), log8_exp8' h1]
  have : (log8 a + (255 - log8 a) % 255) % 255 = 0 := by omega
  rw [this]
  decide +kernel

theorem xor_self' (a : GF8) : a + a = 0 := ext' (by simp)

instance : Field GF8 where
  add_assoc a b c := ext' (BitVec.xor_assoc _ _ _)
  zero_add a := ext' (by simp)
  add_zero a := ext' (by simp)
  add_comm a b := ext' (BitVec.xor_comm _ _)
  neg_add_cancel a := xor_self' a
  sub_eq_add_neg a b := rfl
  nsmul := nsmulRec
  zsmul := zsmulRec
  mul_assoc := mul_assoc'
  one_mul := one_mul'
  mul_one a := by rw [mul_comm', one_mul']
  left_distrib := left_distrib'
  right_distrib a b c := by rw [mul_comm', left_distrib', mul_comm' c a, mul_comm' c b]
  zero_mul := zero_mul'
  mul_zero := mul_zero'
  mul_comm := mul_comm'
  exists_pair_ne := ⟨0, 1, by decide⟩
  mul_inv_cancel := mul_inv'
  inv_zero := by decide
  nnqsmul := _
  nnqsmul_def := fun _ _ => rfl
  qsmul := _
  qsmul_def := fun _ _ => rfl

/-- The primitive element 2 (the polynomial `x`). -/
def α : GF8 := ⟨2⟩

theorem exp8_eq_pow {i : Nat} (h : i < 255) : exp8 i = α ^ i := by
  induction i with
  | zero => decide +kernel
  | succ i ih =>
    have hi : i < 255 := by omega
    rw [pow_succ, ← ih hi, mul_log (exp8_ne hi) (by decide), log8_exp8' hi]
    have : log8 α = 1 := by decide +kernel
    rw [this, Nat.mod_eq_of_lt h]

theorem α_pow_255 : α ^ 255 = 1 := by
  have : α ^ 255 = α ^ 254 * α := pow_succ _ _
  rw [this, ← exp8_eq_pow (by decide)]
  decide +kernel

theorem exp8_mod_eq_pow (i : Nat) : exp8 (i % 255) = α ^ i := by
  rw [exp8_eq_pow (Nat.mod_lt _ (by decide))]
  conv => rhs; rw [← Nat.mod_add_div i 255, pow_add, pow_mul, α_pow_255, one_pow, mul_one]

theorem α_pow_inj {i j : Nat} (hi : i < 255) (hj : j < 255) (h : α ^ i = α ^ j) : i = j := by
  rw [← exp8_eq_pow hi, ← exp8_eq_pow hj] at h
  rw [← log8_exp8' hi, ← log8_exp8' hj, h]

/-- The code's division is field division unless the numerator is zero. -/
theorem div_eq {a b : GF8} (ha : a ≠ 0) (hb : b ≠ 0) : GF8.div a b = a / b := by
  have h1 := log8_lt' ha
  have h2 := log8_lt' hb
  rw [eq_div_iff hb]
  rw [GF8.div]
  obtain ⟨k, hk, he⟩ : ∃ k : Nat, k < 255 ∧ (((if (log8 a : Int) - (log8 b : Int) < 0 then
      (log8 a : Int) - (log8 b : Int) + 255 else (log8 a : Int) - (log8 b : Int)) % 255).toNat) = k ∧
      (k + log8 b) % 255 = log8 a := by
    refine ⟨_, ?_, rfl, ?_⟩
    · split <;> omega
    · split <;> omega
  rw [he.1, mul_log (exp8_ne hk) hb, log8_exp8' hk, he.2, h1.2]

/-- The code's division of zero. -/
theorem zero_div_eq {b : GF8} (hb : b ≠ 0) : GF8.div 0 b = b⁻¹ := by
  show _ = if b = 0 then 0 else exp8 ((255 - log8 b) % 255)
  have h2 := log8_lt' hb
  rw [if_neg hb, GF8.div]
  have h0 : log8 0 = 255 := log8_zero
  rw [h0]
  congr 1
  split <;> omega

/-- The code's division by zero returns the numerator. -/
theorem div_zero_eq {a : GF8} (ha : a ≠ 0) : GF8.div a 0 = a := by
  have h1 := log8_lt' ha
  rw [GF8.div]
  have h0 : log8 0 = 255 := log8_zero
  simp only [h0]
  have : (((if (log8 a : Int) - ((255 : Nat) : Int) < 0 then (log8 a : Int) - ((255 : Nat) : Int) + 255
      else (log8 a : Int) - ((255 : Nat) : Int)) % 255).toNat) = log8 a := by
    split <;> omega
  rw [this, h1.2]

theorem zero_div_zero_eq : GF8.div 0 0 = 1 := by decide +kernel

end GF8
end Verif
