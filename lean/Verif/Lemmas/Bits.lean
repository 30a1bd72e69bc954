import Verif.Spec.Bits
/-! Helper lemmas about bit lists. -/
namespace Verif.Spec

theorem foldl_bits (bs : List Bool) (a : Nat) :
    bs.foldl (fun acc b => 2 * acc + b.toNat) a = a * 2 ^ bs.length + bitsToNat bs := by
  induction bs generalizing a with
  | nil => simp [bitsToNat]
  | cons b bs ih =>
    simp only [bitsToNat, List.foldl_cons, List.length_cons]
    rw [ih, ih (2 * 0 + b.toNat), Nat.pow_succ]
    simp only [Nat.mul_zero, Nat.zero_add, Nat.add_mul]
    have : 2 * a * 2 ^ bs.length = a * (2 ^ bs.length * 2) := by
      rw [Nat.mul_comm 2 a, Nat.mul_assoc, Nat.mul_comm 2]
    omega

@[simp] theorem bitsToNat_nil : bitsToNat [] = 0 := rfl

theorem bitsToNat_cons (b : Bool) (bs : List Bool) :
    bitsToNat (b :: bs) = b.toNat * 2 ^ bs.length + bitsToNat bs := by
  rw [bitsToNat, List.foldl_cons, foldl_bits]; simp

theorem bitsToNat_append (a b : List Bool) :
    bitsToNat (a ++ b) = bitsToNat a * 2 ^ b.length + bitsToNat b := by
  rw [bitsToNat, List.foldl_append, foldl_bits]; rfl

theorem bitsToNat_lt (bs : List Bool) : bitsToNat bs < 2 ^ bs.length := by
  induction bs with
  | nil => simp
  | cons b bs ih =>
    rw [bitsToNat_cons, List.length_cons, Nat.pow_succ]
    cases b <;> simp <;> omega

@[simp] theorem length_natToBits (n v : Nat) : (natToBits n v).length = n := by
  induction n with
  | zero => rfl
  | succ n ih => simp [natToBits, ih]

theorem bitsToNat_natToBits (n v : Nat) : bitsToNat (natToBits n v) = v % 2 ^ n := by
  induction n with
  | zero => simp [natToBits, Nat.mod_one]
  | succ n ih =>
    rw [natToBits, bitsToNat_cons, ih, length_natToBits, Nat.testBit_eq_decide_div_mod_eq,
      Nat.pow_succ, Nat.mod_mul]
    have h2 : v / 2 ^ n % 2 < 2 := Nat.mod_lt _ (by decide)
    rcases Nat.lt_or_ge (v / 2 ^ n % 2) 1 with h | h
    · have h0 : v / 2 ^ n % 2 = 0 := by omega
      simp [h0]
    · have h1 : v / 2 ^ n % 2 = 1 := by omega
      simp [h1, Nat.add_comm]

theorem natToBits_congr (n : Nat) (v w : Nat) (h : v % 2 ^ n = w % 2 ^ n) :
    natToBits n v = natToBits n w := by
  induction n with
  | zero => rfl
  | succ n ih =>
    have hbit : v.testBit n = w.testBit n := by
      have h1 := Nat.testBit_mod_two_pow v (n + 1) n
      have h2 := Nat.testBit_mod_two_pow w (n + 1) n
      rw [h] at h1
      rw [h1] at h2
      simpa using h2
    rw [natToBits, natToBits, hbit, ih]
    have hd : (2 : Nat) ^ n ∣ 2 ^ (n + 1) := ⟨2, by rw [Nat.pow_succ]⟩
    rw [← Nat.mod_mod_of_dvd v hd, ← Nat.mod_mod_of_dvd w hd, h]

theorem natToBits_bitsToNat (bs : List Bool) : natToBits bs.length (bitsToNat bs) = bs := by
  induction bs with
  | nil => rfl
  | cons b bs ih =>
    rw [List.length_cons, natToBits]
    congr 1
    · rw [bitsToNat_cons, Nat.testBit_eq_decide_div_mod_eq,
        Nat.mul_comm, Nat.mul_add_div (Nat.two_pow_pos _), Nat.div_eq_of_lt (bitsToNat_lt bs)]
      cases b <;> simp
    · have h2 : natToBits bs.length (bitsToNat (b :: bs)) = natToBits bs.length (bitsToNat bs) := by
        apply natToBits_congr
        rw [bitsToNat_cons, Nat.add_comm, Nat.add_mul_mod_self_right]
      rw [h2, ih]

theorem bitsToNat_inj {a b : List Bool} (hl : a.length = b.length)
    (h : bitsToNat a = bitsToNat b) : a = b := by
  rw [← natToBits_bitsToNat a, ← natToBits_bitsToNat b, hl, h]

@[simp] theorem length_byteBits (b : U8) : (byteBits b).length = 8 := by simp [byteBits]

@[simp] theorem streamOf_nil : streamOf [] = [] := rfl
@[simp] theorem streamOf_cons (b : U8) (bs : List U8) :
    streamOf (b :: bs) = byteBits b ++ streamOf bs := by simp [streamOf]

@[simp] theorem length_streamOf (bs : List U8) : (streamOf bs).length = 8 * bs.length := by
  induction bs with
  | nil => rfl
  | cons b bs ih => simp [ih]; omega

theorem natToBits_add (m n v : Nat) : natToBits (m + n) v = natToBits m (v / 2 ^ n) ++ natToBits n v := by
  induction m with
  | zero => simp [natToBits]
  | succ m ih =>
    rw [Nat.add_right_comm, natToBits, natToBits, List.cons_append, ih, Nat.testBit_div_two_pow]
    

theorem take_natToBits (m n v : Nat) : (natToBits (m + n) v).take m = natToBits m (v / 2 ^ n) := by
  rw [natToBits_add, List.take_append_of_le_length (by simp), List.take_of_length_le (by simp)]

theorem drop_natToBits (m n v : Nat) : (natToBits (m + n) v).drop m = natToBits n v := by
  rw [natToBits_add, List.drop_append, List.drop_of_length_le (by simp)]
  simp

theorem toNat_shr_byte (b : U8) (n : Nat) (hn : n ≤ 8) :
    (b >>> (8 - n)).toNat = bitsToNat ((byteBits b).take n) := by
  obtain ⟨k, hk⟩ : ∃ k, 8 = n + k := ⟨8 - n, by omega⟩
  have h8 : 8 - n = k := by omega
  have hb : byteBits b = natToBits (n + k) b.toNat := by rw [byteBits, ← hk]
  rw [hb, take_natToBits, bitsToNat_natToBits, h8, BitVec.toNat_ushiftRight,
    Nat.shiftRight_eq_div_pow]
  rw [Nat.mod_eq_of_lt]
  apply Nat.div_lt_of_lt_mul
  rw [← Nat.pow_add, Nat.add_comm k n, ← hk]
  exact b.isLt

theorem take_byteBits_shl (b : U8) (n l : Nat) (h : l + n ≤ 8) :
    (byteBits (b <<< n)).take l = ((byteBits b).drop n).take l := by
  apply List.ext_getElem?
  intro i
  have hget : ∀ (c : U8) (j : Nat), j < 8 → (byteBits c)[j]? = some (c.getLsbD (7 - j)) := by
    intro c j hj
    have : j = 0 ∨ j = 1 ∨ j = 2 ∨ j = 3 ∨ j = 4 ∨ j = 5 ∨ j = 6 ∨ j = 7 := by omega
    rcases this with h | h | h | h | h | h | h | h <;> subst h <;> rfl
  by_cases hi : i < l
  · rw [List.getElem?_take_of_lt hi, List.getElem?_take_of_lt hi, List.getElem?_drop,
      hget _ _ (by omega), hget _ _ (by omega)]
    congr 1
    rw [BitVec.getLsbD_shiftLeft]
    have h1 : 7 - i < 8 := by omega
    have h2 : ¬ 7 - i < n := by omega
    have h3 : 7 - i - n = 7 - (n + i) := by omega
    simp [h1, h2, h3]
  · rw [List.getElem?_eq_none (by simp; omega), List.getElem?_eq_none (by simp; omega)]

end Verif.Spec
