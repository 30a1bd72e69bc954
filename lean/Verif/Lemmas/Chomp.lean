import Verif.Lemmas.Bits
import Verif.Model.Chomp
/-! Refinement of the bit reader to a list of unread bits. -/
namespace Verif
open Spec

namespace Chomp

/-- Bits not yet handed out. -/
def unread (c : Chomp) : List Bool :=
  (match c.currentByte with
   | some b => (byteBits b).take c.bitsLeftInByte
   | none => []) ++ streamOf c.bytes

/-- Structural invariant of the reader. -/
def Inv (c : Chomp) : Prop :=
  match c.currentByte with
  | some _ => 1 ≤ c.bitsLeftInByte ∧ c.bitsLeftInByte ≤ 8
  | none => c.bitsLeftInByte = 0 ∧ c.bytes = []

/-- The counter `bits_left` still covers every byte not completely handed out. Holds as long as no
request was refused. -/
def Full (c : Chomp) : Prop :=
  match c.currentByte with
  | some _ => 8 * (c.bytes.length + 1) ≤ c.bitsLeft
  | none => True

theorem new_full (bytes : List U8) : (new bytes).Full := by
  cases bytes <;> simp [new, Full]; omega

theorem new_inv (bytes : List U8) : (new bytes).Inv := by
  cases bytes <;> simp [new, Inv]

theorem new_unread (bytes : List U8) : (new bytes).unread = streamOf bytes := by
  cases bytes with
  | nil => rfl
  | cons b bs => simp [new, unread, List.take_of_length_le]

theorem new_bitsLeft (bytes : List U8) : (new bytes).bitsLeft = (new bytes).unread.length := by
  rw [new_unread, length_streamOf]
  cases bytes <;> simp [new]; omega

theorem length_unread_some {c : Chomp} {b : U8} (hb : c.currentByte = some b)
    (h8 : c.bitsLeftInByte ≤ 8) :
    c.unread.length = c.bitsLeftInByte + 8 * c.bytes.length := by
  simp only [unread, hb, List.length_append, List.length_take, length_byteBits, length_streamOf]
  omega

/-- What one request does, for any reader state satisfying the invariant. -/
theorem chomp_spec (c : Chomp) (n : Nat) (hi : c.Inv) :
    ∃ r c', c.chomp n = .ret (r, c') ∧ c'.Inv ∧
      (match r with
       | some v => 1 ≤ n ∧ n ≤ 8 ∧ n ≤ c.bitsLeft ∧ n ≤ c.unread.length ∧
          v.toNat = bitsToNat (c.unread.take n) ∧
          c'.unread = c.unread.drop n ∧ (c.Full → c'.Full)
       | none => c'.unread = c.unread ∧
          ((c' = c ∧ (¬ (1 ≤ n ∧ n ≤ 8) ∨ c.bitsLeft < n)) ∨
           (1 ≤ n ∧ n ≤ 8 ∧ c.unread.length < n ∧ c'.bitsLeft = c.bitsLeft - c.unread.length ∧
            c.bytes = [] ∧ c.unread.length = c.bitsLeftInByte ∧
            c' = { c with bitsLeft := c'.bitsLeft }))) := by
  by_cases h1 : ¬ (1 ≤ n ∧ n ≤ 8) ∨ n > c.bitsLeft
  · refine ⟨none, c, ?_, hi, rfl, Or.inl ⟨rfl, h1⟩⟩
    rw [chomp, if_pos h1]; rfl
  have h1' := h1
  rw [not_or, Decidable.not_not] at h1
  obtain ⟨⟨hn1, hn8⟩, hnb⟩ := h1
  cases hc : c.currentByte with
  | none =>
    rw [Inv, hc] at hi
    obtain ⟨hz, hbs⟩ := hi
    have hlt : ¬ n < c.bitsLeftInByte := by omega
    have hne : ¬ n = c.bitsLeftInByte := by omega
    have hun : c.unread = [] := by simp [unread, hc, hbs]
    refine ⟨none, { c with bitsLeft := c.bitsLeft - c.bitsLeftInByte }, ?_, ?_, ?_, Or.inr ?_⟩
    · rw [chomp, if_neg h1', if_neg hlt, if_neg hne]
      have : c.bitsLeftInByte ≤ n := by omega
      have h2 : c.bitsLeftInByte ≤ c.bitsLeft := by omega
      simp [checkedSub, hc, hbs, this, h2]
    · simp [Inv, hc, hz, hbs]
    · simp [unread, hc, hbs]
    · refine ⟨hn1, hn8, ?_, ?_, hbs, ?_, by simp [hc]⟩
      · simp [hun]; omega
      · simp [hun, hz]
      · simp [hun, hz]
  | some b =>
    rw [Inv, hc] at hi
    obtain ⟨hl1, hl8⟩ := hi
    have hlen := length_unread_some hc hl8
    have hunr : c.unread = (byteBits b).take c.bitsLeftInByte ++ streamOf c.bytes := by
      simp [unread, hc]
    by_cases hlt : n < c.bitsLeftInByte
    · -- inside the current byte
      refine ⟨some (b >>> (8 - n)),
        { c with currentByte := some (b <<< n), bitsLeftInByte := c.bitsLeftInByte - n }, ?_, ?_,
        hn1, hn8, by omega, by omega, ?_, ?_, by simp [Full, hc]⟩
      · rw [chomp, if_neg h1', if_pos hlt, nibble, hc]
        have a1 : 8 - n < 8 := by omega
        have a2 : n < 8 := by omega
        have a3 : n ≤ c.bitsLeftInByte := by omega
        simp [checkedSub, checkedShr, checkedShl, hn8, a1, a2, a3]
      · simp [Inv]; omega
      · rw [toNat_shr_byte b n hn8, hunr, List.take_append_of_le_length (by simp; omega),
          List.take_take, Nat.min_eq_left (by omega)]
      · rw [hunr]
        simp only [unread]
        rw [List.drop_append_of_le_length (by simp; omega), List.drop_take,
          take_byteBits_shl b n _ (by omega)]
    by_cases heq : n = c.bitsLeftInByte
    · -- the rest of the current byte
      have a1 : 8 - c.bitsLeftInByte < 8 := by omega
      have a2 : c.bitsLeftInByte ≤ c.bitsLeft := by omega
      have hv : (b >>> (8 - c.bitsLeftInByte)).toNat = bitsToNat (c.unread.take n) := by
        rw [toNat_shr_byte b _ hl8, hunr, List.take_append_of_le_length (by simp; omega),
          List.take_take, heq, Nat.min_self]
      have hd : c.unread.drop n = streamOf c.bytes := by
        rw [hunr, List.drop_append, List.drop_of_length_le (by simp; omega)]
        have : n - ((byteBits b).take c.bitsLeftInByte).length = 0 := by simp; omega
        rw [this]; simp
      cases hbs : c.bytes with
      | nil =>
        refine ⟨some (b >>> (8 - c.bitsLeftInByte)),
          { bytes := [], bitsLeft := c.bitsLeft - c.bitsLeftInByte, currentByte := none,
            bitsLeftInByte := 0 }, ?_, by simp [Inv], hn1, hn8, by omega, by omega, hv, ?_, ?_⟩
        · rw [chomp, if_neg h1', if_neg hlt, if_pos heq]
          simp [checkedSub, checkedShr, hc, hbs, hl8, a1, a2]
        · rw [hd, hbs]; simp [unread]
        · simp [Full]
      | cons b' rest =>
        refine ⟨some (b >>> (8 - c.bitsLeftInByte)),
          { bytes := rest, bitsLeft := c.bitsLeft - c.bitsLeftInByte, currentByte := some b',
            bitsLeftInByte := 8 }, ?_, by simp [Inv], hn1, hn8, by omega, by omega, hv, ?_, ?_⟩
        · rw [chomp, if_neg h1', if_neg hlt, if_pos heq]
          simp [checkedSub, checkedShr, hc, hbs, hl8, a1, a2]
        · rw [hd, hbs]; simp [unread, List.take_of_length_le]
        · simp only [Full, hc, hbs, List.length_cons]; omega
    · -- straddling two bytes
      have a0 : c.bitsLeftInByte ≤ n := by omega
      have a1 : 8 - c.bitsLeftInByte < 8 := by omega
      have a2 : c.bitsLeftInByte ≤ c.bitsLeft := by omega
      have a3 : n - c.bitsLeftInByte < 8 := by omega
      cases hbs : c.bytes with
      | nil =>
        have hle : c.unread.length = c.bitsLeftInByte := by rw [hlen, hbs]; simp
        refine ⟨none, { c with bitsLeft := c.bitsLeft - c.bitsLeftInByte }, ?_, ?_, ?_,
          Or.inr ⟨hn1, hn8, by omega, by simp [hle], by simp, hle, by simp [hc, hbs]⟩⟩
        · rw [chomp, if_neg h1', if_neg hlt, if_neg heq]
          simp [checkedSub, checkedShr, checkedShl, hc, hbs, hl8, a0, a1, a2, a3]
        · simp [Inv, hc, hl1, hl8]
        · simp [unread]
      | cons b' rest =>
        have hlen2 : c.unread.length = c.bitsLeftInByte + 8 * (rest.length + 1) := by
          rw [hlen, hbs]; simp
        have hsplit : c.unread.take n = (byteBits b).take c.bitsLeftInByte ++
            (byteBits b').take (n - c.bitsLeftInByte) := by
          rw [hunr, hbs, List.take_append, List.take_of_length_le (by simp; omega), streamOf_cons]
          congr 1
          have : ((byteBits b).take c.bitsLeftInByte).length = c.bitsLeftInByte := by
            simp; omega
          rw [this, List.take_append_of_le_length (by simp; omega)]
        have hval : bitsToNat (c.unread.take n) =
            (b >>> (8 - c.bitsLeftInByte)).toNat * 2 ^ (n - c.bitsLeftInByte) +
              (b' >>> (8 - (n - c.bitsLeftInByte))).toNat := by
          rw [hsplit, bitsToNat_append, toNat_shr_byte b _ hl8, toNat_shr_byte b' _ (by omega)]
          congr 3
          simp; omega
        have hbound : (b >>> (8 - c.bitsLeftInByte)).toNat * 2 ^ (n - c.bitsLeftInByte) +
              (b' >>> (8 - (n - c.bitsLeftInByte))).toNat < 256 := by
          rw [← hval]
          refine Nat.lt_of_lt_of_le (bitsToNat_lt _) ?_
          have : (c.unread.take n).length ≤ 8 := by simp; omega
          exact Nat.pow_le_pow_right (by decide) this
        have hshl : ((b >>> (8 - c.bitsLeftInByte)) <<< (n - c.bitsLeftInByte)).toNat =
            (b >>> (8 - c.bitsLeftInByte)).toNat * 2 ^ (n - c.bitsLeftInByte) := by
          rw [BitVec.toNat_shiftLeft, Nat.shiftLeft_eq, Nat.mod_eq_of_lt (by omega)]
        refine ⟨some ((b >>> (8 - c.bitsLeftInByte)) <<< (n - c.bitsLeftInByte) +
              b' >>> (8 - (n - c.bitsLeftInByte))),
          { bytes := rest, bitsLeft := c.bitsLeft - c.bitsLeftInByte,
            currentByte := some (b' <<< (n - c.bitsLeftInByte)),
            bitsLeftInByte := 8 - (n - c.bitsLeftInByte) }, ?_, ?_, hn1, hn8, by omega, by omega,
          ?_, ?_, ?_⟩
        · rw [chomp, if_neg h1', if_neg hlt, if_neg heq]
          have b1 : n - c.bitsLeftInByte ≤ 8 := by omega
          have b2 : 8 - (n - c.bitsLeftInByte) < 8 := by omega
          have b3 : ((b >>> (8 - c.bitsLeftInByte)) <<< (n - c.bitsLeftInByte)).toNat +
              (b' >>> (8 - (n - c.bitsLeftInByte))).toNat < 256 := by rw [hshl]; exact hbound
          simp only [checkedSub, checkedShr, checkedShl, checkedAdd8, nibble, hc, hbs, hl8, a0, a1,
            a2, a3, b1, b2, b3, if_true, Run.ret_bind, Run.pure_eq]
        · simp [Inv]; omega
        · rw [hval, BitVec.toNat_add, hshl, Nat.mod_eq_of_lt hbound]
        · simp only [unread, hc, hbs]
          rw [take_byteBits_shl b' _ _ (by omega), streamOf_cons, List.drop_append,
            List.drop_of_length_le (l := (byteBits b).take _) (by simp; omega)]
          have : n - ((byteBits b).take c.bitsLeftInByte).length = n - c.bitsLeftInByte := by
            simp; omega
          rw [this, List.drop_append_of_le_length (by simp; omega), List.nil_append,
            List.take_of_length_le (by simp)]
        · simp only [Full, hc, hbs, List.length_cons]; omega

theorem Full.le {c : Chomp} (hi : c.Inv) (hf : c.Full) : c.unread.length ≤ c.bitsLeft := by
  cases hc : c.currentByte with
  | none => rw [Inv, hc] at hi; simp [unread, hc, hi.2]
  | some b =>
    rw [Inv, hc] at hi; rw [Full, hc] at hf
    rw [length_unread_some hc hi.2]; simp only at hi hf; omega

/-- On a reader without earlier refusal a legal request with enough bits is answered. -/
theorem chomp_some {c : Chomp} {n : Nat} (hi : c.Inv) (hf : c.Full) (h1 : 1 ≤ n) (h8 : n ≤ 8)
    (hn : n ≤ c.unread.length) :
    ∃ v c', c.chomp n = .ret (some v, c') ∧ c'.Inv ∧ c'.Full ∧
      v.toNat = bitsToNat (c.unread.take n) ∧ c'.unread = c.unread.drop n := by
  obtain ⟨r, c', he, hi', hr⟩ := chomp_spec c n hi
  cases r with
  | some v => exact ⟨v, c', he, hi', hr.2.2.2.2.2.2 hf, hr.2.2.2.2.1, hr.2.2.2.2.2.1⟩
  | none =>
    have := Full.le hi hf
    rcases hr.2 with ⟨_, h⟩ | ⟨_, _, h, _⟩ <;> omega

/-- An illegal request, or one with too few unread bits, is refused in every state. -/
theorem chomp_none {c : Chomp} {n : Nat} (hi : c.Inv)
    (hn : ¬ (1 ≤ n ∧ n ≤ 8 ∧ n ≤ c.unread.length)) :
    ∃ c', c.chomp n = .ret (none, c') ∧ c'.Inv ∧ c'.unread = c.unread := by
  obtain ⟨r, c', he, hi', hr⟩ := chomp_spec c n hi
  cases r with
  | some v => exact absurd ⟨hr.1, hr.2.1, hr.2.2.2.1⟩ hn
  | none => exact ⟨c', he, hi', hr.1⟩

/-- The loop of `chomp_or_u16` as one conditional. -/
theorem chompOrU16Go_eq {E : Type} (err : E) (bits : Nat) (c : Chomp) (result : U16) :
    chompOrU16Go err bits c result =
      if bits > 8 then do
        let (r, c') ← c.chomp 8
        match r with
        | none => return (.error err, c')
        | some v => do
          let result ← checkedShl16 (v.setWidth 16) (bits - 8)
          chompOrU16Go err (bits - 8) c' result
      else do
        let (r, c') ← c.chomp bits
        match r with
        | none => return (.error err, c')
        | some v => do
          let s ← checkedAdd16 result (v.setWidth 16)
          return (.ok s, c') := by
  by_cases h : bits > 8
  · obtain ⟨n, rfl⟩ : ∃ n, bits = n + 9 := ⟨bits - 9, by omega⟩
    rw [if_pos h]; rfl
  · rw [if_neg h]
    obtain _ | _ | _ | _ | _ | _ | _ | _ | _ | n := bits
    all_goals first | rfl | (exfalso; omega)

/-- 16-bit reads of 1 to 16 bits on a reader without earlier refusal. -/
theorem chompOrU16_some {E : Type} {c : Chomp} {n : Nat} (err : E) (hi : c.Inv) (hf : c.Full)
    (h1 : 1 ≤ n) (h16 : n ≤ 16) (hn : n ≤ c.unread.length) :
    ∃ v c', c.chompOrU16 n err = .ret (.ok v, c') ∧ c'.Inv ∧ c'.Full ∧
      v.toNat = bitsToNat (c.unread.take n) ∧ c'.unread = c.unread.drop n := by
  by_cases h8 : n ≤ 8
  · obtain ⟨v, c', he, hi', hf', hv, hu⟩ := chomp_some hi hf h1 h8 hn
    refine ⟨0#16 + v.setWidth 16, c', ?_, hi', hf', ?_, hu⟩
    · rw [chompOrU16, chompOrU16Go_eq, if_neg (by omega), he]
      have hv' := v.isLt
      have : (0#16).toNat + (v.setWidth 16).toNat < 65536 := by simp; omega
      simp only [Run.ret_bind]
      rw [checkedAdd16, if_pos this]; rfl
    · have := v.isLt
      rw [← hv]; simp; omega
  · obtain ⟨v, c1, he, hi1, hf1, hv, hu⟩ := chomp_some (n := 8) hi hf (by omega) (by omega) (by omega)
    obtain ⟨w, c2, he2, hi2, hf2, hw, hu2⟩ := chomp_some (c := c1) (n := n - 8) hi1 hf1 (by omega)
      (by omega) (by rw [hu, List.length_drop]; omega)
    have hsplit : c.unread.take n = c.unread.take 8 ++ (c.unread.drop 8).take (n - 8) := by
      have h : c.unread.take n = c.unread.take (8 + (n - 8)) := by congr 1; omega
      rw [h, List.take_add]
    have hval : bitsToNat (c.unread.take n) = v.toNat * 2 ^ (n - 8) + w.toNat := by
      rw [hsplit, bitsToNat_append, hv, hw, hu]
      congr 3
      simp; omega
    have hb : bitsToNat (c.unread.take n) < 65536 := by
      refine Nat.lt_of_lt_of_le (bitsToNat_lt _) ?_
      have : (c.unread.take n).length ≤ 16 := by simp; omega
      exact Nat.pow_le_pow_right (by decide) this
    have hsh : ((v.setWidth 16) <<< (n - 8) : U16).toNat = v.toNat * 2 ^ (n - 8) := by
      rw [BitVec.toNat_shiftLeft, Nat.shiftLeft_eq]
      have := v.isLt
      have h2 : (v.setWidth 16 : U16).toNat = v.toNat := by simp; omega
      rw [h2, Nat.mod_eq_of_lt (by omega)]
    have hw16 : (w.setWidth 16 : U16).toNat = w.toNat := by
      have := w.isLt
      simp; omega
    refine ⟨(v.setWidth 16) <<< (n - 8) + w.setWidth 16, c2, ?_, hi2, hf2, ?_, ?_⟩
    · rw [chompOrU16, chompOrU16Go_eq, if_pos (by omega), he]
      simp only [Run.ret_bind]
      rw [checkedShl16, if_pos (by omega)]
      simp only [Run.ret_bind]
      rw [chompOrU16Go_eq, if_neg (by omega), he2]
      simp only [Run.ret_bind]
      rw [checkedAdd16, if_pos (by omega)]
      rfl
    · rw [hval, BitVec.toNat_add, hsh, hw16, Nat.mod_eq_of_lt (by omega)]
    · rw [hu2, hu, List.drop_drop]; congr 1; omega

/-- 16-bit reads fail with the given error when the bits do not suffice (at most 16 requested). -/
theorem chompOrU16_err {E : Type} {c : Chomp} {n : Nat} (err : E) (hi : c.Inv) (h16 : n ≤ 16)
    (hn : ¬ (1 ≤ n ∧ n ≤ c.unread.length)) :
    ∃ c', c.chompOrU16 n err = .ret (.error err, c') ∧ c'.Inv := by
  by_cases h8 : n ≤ 8
  · obtain ⟨c', he, hi', _⟩ := chomp_none (c := c) (n := n) hi (by omega)
    refine ⟨c', ?_, hi'⟩
    rw [chompOrU16, chompOrU16Go_eq, if_neg (by omega), he]; rfl
  · obtain ⟨r, c1, he, hi1, hr⟩ := chomp_spec c 8 hi
    cases r with
    | none =>
      refine ⟨c1, ?_, hi1⟩
      rw [chompOrU16, chompOrU16Go_eq, if_pos (by omega), he]; rfl
    | some v =>
      have hu := hr.2.2.2.2.2.1
      obtain ⟨c2, he2, hi2, _⟩ := chomp_none (c := c1) (n := n - 8) hi1 (by
        rw [hu, List.length_drop]; omega)
      refine ⟨c2, ?_, hi2⟩
      rw [chompOrU16, chompOrU16Go_eq, if_pos (by omega), he]
      simp only [Run.ret_bind]
      rw [checkedShl16, if_pos (by omega)]
      simp only [Run.ret_bind]
      rw [chompOrU16Go_eq, if_neg (by omega), he2]
      rfl

end Chomp
end Verif
