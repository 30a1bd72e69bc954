import Verif.Lemmas.Data
/-! Helper lemmas: the reference payload decoder on encoded segments. -/
namespace Verif
open Spec

theorem takeBits_append {k : Nat} {p s : List Bool} (h : p.length = k) (e : QRError) :
    takeBits k e (p ++ s) = .ok (bitsToNat p, s) := by
  subst h
  rw [takeBits, if_pos (by simp), List.take_left, List.drop_left]

theorem takeBits_nat {k v : Nat} {s : List Bool} (h : v < 2 ^ k) (e : QRError) :
    takeBits k e (natToBits k v ++ s) = .ok (v, s) := by
  rw [takeBits_append (by simp), bitsToNat_natToBits, Nat.mod_eq_of_lt h]

theorem takeBits_short {k : Nat} {s : List Bool} (h : s.length < k) (e : QRError) :
    takeBits k e s = .err e := by
  rw [takeBits, if_neg (by omega)]

theorem takeBits_ok {k : Nat} {s : List Bool} (h : k ≤ s.length) (e : QRError) :
    takeBits k e s = .ok (bitsToNat (s.take k), s.drop k) := by
  rw [takeBits, if_pos h]

/-! ### numeric -/

theorem payloadBits_numeric_3 (n : Nat) :
    Mode.numeric.payloadBits (n + 3) = 10 + Mode.numeric.payloadBits n := by
  simp only [Mode.payloadBits]; split <;> split <;> omega

/-- text of a digit -/
def digitChar (d : Fin 10) : Char := Char.ofNat (48 + d.val)

theorem fmtPad3 : ∀ a b c : Fin 10, fmtPad 3 (100 * a.val + 10 * b.val + c.val) =
    [digitChar a, digitChar b, digitChar c] := by decide +kernel
theorem fmtPad2 : ∀ a b : Fin 10, fmtPad 2 (10 * a.val + b.val) = [digitChar a, digitChar b] := by
  decide +kernel
theorem fmtPad1 : ∀ a : Fin 10, fmtPad 1 a.val = [digitChar a] := by decide +kernel

theorem refNum_digits : ∀ (ds : List (Fin 10)) (s : List Bool),
    refNum ds.length (numericPayload ds ++ s) = .ok (ds.map digitChar, s)
  | a :: b :: c :: ds, s => by
    rw [numericPayload, List.append_assoc]
    simp only [List.length_cons]
    rw [refNum, takeBits_nat (by have := a.isLt; have := b.isLt; have := c.isLt; omega)]
    simp only [Outcome.ok_bind]
    rw [refNum_digits ds s]
    simp [fmtPad3]
  | [a, b], s => by
    show refNum 2 _ = _
    rw [numericPayload, refNum, takeBits_nat (by have := a.isLt; have := b.isLt; omega)]
    simp [fmtPad2]
  | [a], s => by
    show refNum 1 _ = _
    rw [numericPayload, refNum, takeBits_nat (by have := a.isLt; omega)]
    simp [fmtPad1]
  | [], s => rfl

theorem fmtPad3_all : ∀ v : Fin 1024, (fmtPad 3 v.val).all Char.isDigit = true ∧
    (fmtPad 3 v.val).length = (if v.val < 1000 then 3 else 4) := by decide +kernel
theorem fmtPad2_all : ∀ v : Fin 128, (fmtPad 2 v.val).all Char.isDigit = true ∧
    (fmtPad 2 v.val).length = (if v.val < 100 then 2 else 3) := by decide +kernel
theorem fmtPad1_all : ∀ v : Fin 16, (fmtPad 1 v.val).all Char.isDigit = true ∧
    (fmtPad 1 v.val).length = (if v.val < 10 then 1 else 2) := by decide +kernel

theorem exists_digits3 {v : Nat} (h : v < 1000) :
    ∃ a b c : Fin 10, 100 * a.val + 10 * b.val + c.val = v :=
  ⟨⟨v / 100, by omega⟩, ⟨v / 10 % 10, by omega⟩, ⟨v % 10, by omega⟩, by simp only; omega⟩
theorem exists_digits2 {v : Nat} (h : v < 100) : ∃ a b : Fin 10, 10 * a.val + b.val = v :=
  ⟨⟨v / 10, by omega⟩, ⟨v % 10, by omega⟩, by simp only; omega⟩

theorem numericPayload_length : ∀ ds : List (Fin 10),
    (numericPayload ds).length = Mode.numeric.payloadBits ds.length
  | a :: b :: c :: ds => by
    simp only [numericPayload, List.length_append, length_natToBits, numericPayload_length ds,
      List.length_cons]
    rw [payloadBits_numeric_3]
  | [a, b] => by simp [numericPayload, Mode.payloadBits]
  | [a] => by simp [numericPayload, Mode.payloadBits]
  | [] => by simp [numericPayload, Mode.payloadBits]

/-- Any complete numeric payload is read; it has the declared length iff it is a legal encoding. -/
theorem refNum_spec : ∀ (n : Nat) (p s : List Bool), p.length = Mode.numeric.payloadBits n →
    ∃ t, refNum n (p ++ s) = .ok (t, s) ∧ t.all Char.isDigit = true ∧ n ≤ t.length ∧
      (t.length = n ↔ ∃ ds : List (Fin 10), ds.length = n ∧ p = numericPayload ds)
  | n + 3, p, s, h => by
    rw [payloadBits_numeric_3] at h
    obtain ⟨g, q, rfl, hg⟩ : ∃ g q, p = g ++ q ∧ g.length = 10 :=
      ⟨p.take 10, p.drop 10, (List.take_append_drop 10 p).symm, by simp; omega⟩
    have hq : q.length = Mode.numeric.payloadBits n := by
      rw [List.length_append] at h; omega
    obtain ⟨t, ht, hd, hle, hiff⟩ := refNum_spec n q s hq
    have hv : bitsToNat g < 1024 := by have := bitsToNat_lt g; rw [hg] at this; exact this
    obtain ⟨f1, f2⟩ := fmtPad3_all ⟨bitsToNat g, hv⟩
    refine ⟨fmtPad 3 (bitsToNat g) ++ t, ?_, ?_, ?_, ?_⟩
    · rw [refNum, List.append_assoc, takeBits_append hg]
      simp only [Outcome.ok_bind]
      rw [ht]; rfl
    · simp only [List.all_append, f1, hd, Bool.and_self]
    · simp only [List.length_append, f2]; split <;> omega
    · simp only [List.length_append, f2]
      constructor
      · intro hl
        have hlt : bitsToNat g < 1000 := by
          refine Decidable.byContradiction fun hc => ?_
          rw [if_neg hc] at hl; omega
        rw [if_pos hlt] at hl
        obtain ⟨ds, hds, rfl⟩ := hiff.1 (by omega)
        obtain ⟨a, b, c, habc⟩ := exists_digits3 hlt
        refine ⟨a :: b :: c :: ds, by simp [hds], ?_⟩
        rw [numericPayload, habc, ← hg, natToBits_bitsToNat]
      · rintro ⟨ds, hds, he⟩
        match ds, hds with
        | a :: b :: c :: ds, hds =>
          simp only [List.length_cons, Nat.add_right_cancel_iff] at hds
          rw [numericPayload] at he
          obtain ⟨h1, h2⟩ := List.append_inj he (by simp [hg])
          have hb : bitsToNat g = 100 * a.val + 10 * b.val + c.val := by
            rw [h1, bitsToNat_natToBits]
            have := a.isLt; have := b.isLt; have := c.isLt
            omega
          have hlt : bitsToNat g < 1000 := by
            have := a.isLt; have := b.isLt; have := c.isLt; omega
          have := hiff.2 ⟨ds, by omega, h2⟩
          rw [if_pos hlt]; omega
  | 2, p, s, h => by
    have hg : p.length = 7 := h
    have hv : bitsToNat p < 128 := by have := bitsToNat_lt p; rw [hg] at this; exact this
    obtain ⟨f1, f2⟩ := fmtPad2_all ⟨bitsToNat p, hv⟩
    refine ⟨fmtPad 2 (bitsToNat p), ?_, f1, ?_, ?_⟩
    · rw [refNum, takeBits_append hg]; rfl
    · simp only [f2]; split <;> omega
    · simp only [f2]
      constructor
      · intro hl
        have hlt : bitsToNat p < 100 := by
          refine Decidable.byContradiction fun hc => ?_
          rw [if_neg hc] at hl; omega
        obtain ⟨a, b, hab⟩ := exists_digits2 hlt
        exact ⟨[a, b], rfl, by rw [numericPayload, hab, ← hg, natToBits_bitsToNat]⟩
      · rintro ⟨ds, hds, he⟩
        match ds, hds with
        | [a, b], _ =>
          rw [if_pos]
          have := a.isLt; have := b.isLt
          rw [he, numericPayload, bitsToNat_natToBits, Nat.mod_eq_of_lt (by omega)]
          omega
  | 1, p, s, h => by
    have hg : p.length = 4 := h
    have hv : bitsToNat p < 16 := by have := bitsToNat_lt p; rw [hg] at this; exact this
    obtain ⟨f1, f2⟩ := fmtPad1_all ⟨bitsToNat p, hv⟩
    refine ⟨fmtPad 1 (bitsToNat p), ?_, f1, ?_, ?_⟩
    · rw [refNum, takeBits_append hg]; rfl
    · simp only [f2]; split <;> omega
    · simp only [f2]
      constructor
      · intro hl
        have hlt : bitsToNat p < 10 := by
          refine Decidable.byContradiction fun hc => ?_
          rw [if_neg hc] at hl; omega
        exact ⟨[⟨bitsToNat p, hlt⟩], rfl, by rw [numericPayload, ← hg, natToBits_bitsToNat]⟩
      · rintro ⟨ds, hds, he⟩
        match ds, hds with
        | [a], _ =>
          rw [if_pos]
          rw [he, numericPayload, bitsToNat_natToBits]
          have := a.isLt
          omega
  | 0, p, s, h => by
    have hg : p = [] := by simpa [Mode.payloadBits] using h
    subst hg
    exact ⟨[], rfl, rfl, by simp, by simp [numericPayload]⟩

theorem refNum_short : ∀ (n : Nat) (s : List Bool), s.length < Mode.numeric.payloadBits n →
    ∃ e, refNum n s = .err e
  | n + 3, s, h => by
    rw [payloadBits_numeric_3] at h
    rw [refNum]
    by_cases h10 : 10 ≤ s.length
    · rw [takeBits_ok h10]
      obtain ⟨e, he⟩ := refNum_short n (s.drop 10) (by rw [List.length_drop]; omega)
      simp only [Outcome.ok_bind]
      rw [he]; exact ⟨e, rfl⟩
    · rw [takeBits_short (by omega)]; exact ⟨_, rfl⟩
  | 2, s, h => by rw [refNum, takeBits_short (k := 7) h]; exact ⟨_, rfl⟩
  | 1, s, h => by rw [refNum, takeBits_short (k := 4) h]; exact ⟨_, rfl⟩
  | 0, s, h => by simp [Mode.payloadBits] at h

/-! ### alphanumeric -/

theorem alphabet_eq : ALPHANUMERIC = alnumAlphabet := by decide +kernel

theorem alnumChar_lt : ∀ i : Fin 45, alnumChar i.val = .ok (alnumAlphabet.getD i.val '?') := by
  decide +kernel

theorem alnumChar_ge {i : Nat} (h : 45 ≤ i) : alnumChar i = .panic := by
  rw [alnumChar, List.getElem?_eq_none]
  exact h

def alnumText (cs : List (Fin 45)) : List Char := cs.map fun i => alnumAlphabet.getD i.val '?'

theorem payloadBits_alnum_2 (n : Nat) :
    Mode.alphanumeric.payloadBits (n + 2) = 11 + Mode.alphanumeric.payloadBits n := by
  simp only [Mode.payloadBits]; omega

theorem alnumPayload_length : ∀ cs : List (Fin 45),
    (alnumPayload cs).length = Mode.alphanumeric.payloadBits cs.length
  | a :: b :: cs => by
    simp only [alnumPayload, List.length_append, length_natToBits, alnumPayload_length cs,
      List.length_cons]
    rw [payloadBits_alnum_2]
  | [a] => by simp [alnumPayload, Mode.payloadBits]
  | [] => by simp [alnumPayload, Mode.payloadBits]

/-- reading one pair -/
theorem refAlnum_pair (n : Nat) (a b : Fin 45) (s : List Bool) :
    refAlnum (n + 2) (natToBits 11 (45 * a.val + b.val) ++ s) = do
      let (rest, s) ← refAlnum n s
      return (alnumAlphabet.getD a.val '?' :: alnumAlphabet.getD b.val '?' :: rest, s) := by
  have ha := a.isLt
  have hb := b.isLt
  rw [refAlnum, takeBits_nat (by omega)]
  simp only [Outcome.ok_bind]
  have h1 : (45 * a.val + b.val) / 45 = a.val := by omega
  have h2 : (45 * a.val + b.val) % 45 = b.val := by omega
  rw [h1, h2, if_neg (by omega), alnumChar_lt a, alnumChar_lt b]
  rfl

theorem refAlnum_chars : ∀ (cs : List (Fin 45)) (s : List Bool),
    refAlnum cs.length (alnumPayload cs ++ s) = .ok (alnumText cs, s)
  | a :: b :: cs, s => by
    rw [alnumPayload, List.append_assoc]
    simp only [List.length_cons]
    rw [refAlnum_pair, refAlnum_chars cs s]
    rfl
  | [a], s => by
    show refAlnum 1 _ = _
    rw [alnumPayload, refAlnum, takeBits_nat (by have := a.isLt; omega)]
    simp only [Outcome.ok_bind]
    rw [alnumChar_lt a]
    rfl
  | [], s => rfl

theorem split_at (k : Nat) (s : List Bool) (h : k ≤ s.length) :
    ∃ v, v < 2 ^ k ∧ s = natToBits k v ++ s.drop k := by
  refine ⟨bitsToNat (s.take k), ?_, ?_⟩
  · have := bitsToNat_lt (s.take k)
    rwa [List.length_take, Nat.min_eq_left h] at this
  · have : (s.take k).length = k := by rw [List.length_take, Nat.min_eq_left h]
    have h2 := natToBits_bitsToNat (s.take k)
    rw [this] at h2
    rw [h2, List.take_append_drop]

/-- The three possible outcomes of reading an alphanumeric payload. -/
theorem refAlnum_cases : ∀ (n : Nat) (s : List Bool),
    (∃ e, refAlnum n s = .err e) ∨
    (∃ (cs : List (Fin 45)) (s' : List Bool), cs.length = n ∧ s = alnumPayload cs ++ s' ∧
      refAlnum n s = .ok (alnumText cs, s')) ∨
    (∃ (cs : List (Fin 45)) (x : Nat) (s' : List Bool), cs.length + 1 = n ∧ cs.length % 2 = 0 ∧
      45 ≤ x ∧ x < 64 ∧ s = alnumPayload cs ++ (natToBits 6 x ++ s') ∧ refAlnum n s = .panic)
  | n + 2, s => by
    by_cases h : 11 ≤ s.length
    · obtain ⟨v, hv, hs⟩ := split_at 11 s h
      rw [hs]
      generalize s.drop 11 = r
      by_cases hc : v / 45 > 44
      · left
        rw [refAlnum, takeBits_nat hv]
        simp only [Outcome.ok_bind]
        rw [if_pos hc]
        exact ⟨_, rfl⟩
      · obtain ⟨a, b, rfl⟩ : ∃ a b : Fin 45, v = 45 * a.val + b.val :=
          ⟨⟨v / 45, by omega⟩, ⟨v % 45, by omega⟩, by simp only; omega⟩
        rw [refAlnum_pair]
        rcases refAlnum_cases n r with ⟨e, he⟩ | ⟨cs, s', hl, hs', he⟩ | ⟨cs, x, s', hl, hm, h1, h2, hs', he⟩
        · left; rw [he]; exact ⟨e, rfl⟩
        · right; left
          rw [he]
          exact ⟨a :: b :: cs, s', by simp [hl], by rw [alnumPayload, hs', List.append_assoc], rfl⟩
        · right; right
          rw [he]
          exact ⟨a :: b :: cs, x, s', by simp; omega, by simp; omega, h1, h2,
            by rw [alnumPayload, hs', List.append_assoc], rfl⟩
    · left
      rw [refAlnum, takeBits_short (by omega)]
      exact ⟨_, rfl⟩
  | 1, s => by
    by_cases h : 6 ≤ s.length
    · obtain ⟨v, hv, hs⟩ := split_at 6 s h
      rw [hs]
      generalize s.drop 6 = r
      rw [refAlnum, takeBits_nat hv]
      simp only [Outcome.ok_bind]
      by_cases hx : v < 45
      · right; left
        refine ⟨[⟨v, hx⟩], r, rfl, rfl, ?_⟩
        rw [alnumChar_lt ⟨v, hx⟩]; rfl
      · right; right
        refine ⟨[], v, r, rfl, rfl, by omega, hv, rfl, ?_⟩
        rw [alnumChar_ge (by omega)]; rfl
    · left
      rw [refAlnum, takeBits_short (by omega)]
      exact ⟨_, rfl⟩
  | 0, s => .inr (.inl ⟨[], s, rfl, rfl, rfl⟩)

theorem refAlnum_short (n : Nat) (s : List Bool) (h : s.length < Mode.alphanumeric.payloadBits n) :
    ∃ e, refAlnum n s = .err e := by
  rcases refAlnum_cases n s with he | ⟨cs, s', hl, hs', _⟩ | ⟨cs, x, s', hl, hm, _, _, hs', _⟩
  · exact he
  · rw [hs', List.length_append, alnumPayload_length, hl] at h; omega
  · rw [hs', List.length_append, alnumPayload_length, List.length_append, length_natToBits, ← hl] at h
    simp only [Mode.payloadBits] at h
    omega

theorem refAlnum_bad (cs : List (Fin 45)) (x : Nat) (s : List Bool) (hm : cs.length % 2 = 0)
    (h45 : 45 ≤ x) (h64 : x < 64) :
    refAlnum (cs.length + 1) (alnumPayload cs ++ (natToBits 6 x ++ s)) = .panic :=
  match cs, hm with
  | a :: b :: cs, hm => by
    rw [alnumPayload, List.append_assoc]
    simp only [List.length_cons]
    rw [show cs.length + 1 + 1 + 1 = cs.length + 1 + 2 from rfl, refAlnum_pair,
      refAlnum_bad cs x s (by simp only [List.length_cons] at hm; omega) h45 h64]
    rfl
  | [a], hm => by simp at hm
  | [], _ => by
    show refAlnum 1 _ = _
    rw [alnumPayload, List.nil_append, refAlnum, takeBits_nat h64]
    simp only [Outcome.ok_bind]
    rw [alnumChar_ge h45]
    rfl

/-! ### byte -/

theorem refBytes_stream : ∀ (bs : List U8) (s : List Bool),
    refBytes bs.length (streamOf bs ++ s) = .ok (bs, s)
  | b :: bs, s => by
    rw [streamOf_cons, List.append_assoc]
    simp only [List.length_cons]
    rw [refBytes, byteBits, takeBits_nat b.isLt]
    simp only [Outcome.ok_bind]
    rw [refBytes_stream bs s]
    simp
  | [], s => rfl

theorem refBytes_short : ∀ (n : Nat) (s : List Bool), s.length < 8 * n → ∃ e, refBytes n s = .err e
  | n + 1, s, h => by
    rw [refBytes]
    by_cases h8 : 8 ≤ s.length
    · rw [takeBits_ok h8]
      obtain ⟨e, he⟩ := refBytes_short n (s.drop 8) (by rw [List.length_drop]; omega)
      simp only [Outcome.ok_bind]
      rw [he]; exact ⟨e, rfl⟩
    · rw [takeBits_short (by omega)]; exact ⟨_, rfl⟩
  | 0, s, h => by simp at h

/-- Every bit list of `8 * n` bits is the stream of `n` bytes. -/
theorem exists_bytes : ∀ (n : Nat) (s : List Bool), s.length = 8 * n →
    ∃ bs : List U8, bs.length = n ∧ s = streamOf bs
  | 0, s, h => ⟨[], rfl, by simpa using h⟩
  | n + 1, s, h => by
    obtain ⟨v, hv, hs⟩ := split_at 8 s (by omega)
    obtain ⟨bs, hl, hb⟩ := exists_bytes n (s.drop 8) (by rw [List.length_drop]; omega)
    refine ⟨BitVec.ofNat 8 v :: bs, by simp [hl], ?_⟩
    rw [streamOf_cons, ← hb, byteBits]
    rw [hs]
    simp [Nat.mod_eq_of_lt hv]

/-! ### UTF-8 -/

theorem fromUtf8_utf8 (text : List Char) : fromUtf8 (Spec.utf8 text) = some text := by
  have : (ByteArray.mk ((Spec.utf8 text).map UInt8.ofBitVec).toArray) = text.utf8Encode := by
    rw [List.utf8Encode, Spec.utf8, List.map_flatMap]
    apply ByteArray.ext
    simp [Function.comp_def]
  rw [fromUtf8, this, List.utf8Decode?_utf8Encode]
  simp

theorem fromUtf8_some {bs : List U8} {text : List Char} (h : fromUtf8 bs = some text) :
    Spec.utf8 text = bs := by
  rw [fromUtf8, Option.map_eq_some_iff] at h
  obtain ⟨a, ha, rfl⟩ := h
  have h2 := ByteArray.utf8Encode_get_utf8Decode?
    (b := ByteArray.mk (bs.map UInt8.ofBitVec).toArray) (h := by rw [ha]; rfl)
  simp only [ha, Option.get_some] at h2
  rw [List.utf8Encode] at h2
  have h3 := congrArg (fun b => b.data.toList.map UInt8.toBitVec) h2
  simp only [List.map_map] at h3
  rw [Spec.utf8, ← List.map_flatMap]
  have h4 : (a.toList.flatMap String.utf8EncodeChar).toByteArray.data.toList =
      a.toList.flatMap String.utf8EncodeChar := by simp
  rw [h4] at h3
  rw [h3]
  simp [Function.comp_def]

theorem bytesToText_latin1 {bs : List U8} (h : 0xC3#8 ∉ bs) :
    bytesToText bs = .ok (bs.map latin1) := by
  rw [bytesToText, if_neg h]; rfl

theorem bytesToText_utf8 {text : List Char} (h : 0xC3#8 ∈ Spec.utf8 text) :
    bytesToText (Spec.utf8 text) = .ok text := by
  rw [bytesToText, if_pos h, fromUtf8_utf8]

theorem bytesToText_bad {bs : List U8} (h : 0xC3#8 ∈ bs) (hb : ∀ text, Spec.utf8 text ≠ bs) :
    bytesToText bs = .err ⟨"Unable to convert result to UTF-8, raw bytes: " ++ fmtBytes bs⟩ := by
  rw [bytesToText, if_pos h]
  cases hf : fromUtf8 bs with
  | none => rfl
  | some t => exact absurd (fromUtf8_some hf) (hb t)

end Verif
