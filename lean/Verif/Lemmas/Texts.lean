import Verif.Lemmas.DataRuns
import Verif.Spec.Texts
/-! Helper lemmas for C78: the reference payload decoder, one segment at a time. -/
namespace Verif
open Spec

theorem fmtPad3_group : ∀ v : Fin 1024, fmtPad 3 v.val = groupText 3 v.val := by decide +kernel
theorem fmtPad2_group : ∀ v : Fin 128, fmtPad 2 v.val = groupText 2 v.val := by decide +kernel
theorem fmtPad1_group : ∀ v : Fin 16, fmtPad 1 v.val = groupText 1 v.val := by decide +kernel

theorem refNum_text : ∀ (n : Nat) (p s : List Bool), p.length = Mode.numeric.payloadBits n →
    refNum n (p ++ s) = .ok (numericText n p, s)
  | n + 3, p, s, h => by
    rw [payloadBits_numeric_3] at h
    have ih := refNum_text n (p.drop 10) s (by rw [List.length_drop]; omega)
    have hg : (p.take 10).length = 10 := by rw [List.length_take]; omega
    have hv : bitsToNat (p.take 10) < 1024 := by have := bitsToNat_lt (p.take 10); rw [hg] at this; exact this
    have e : p ++ s = p.take 10 ++ (p.drop 10 ++ s) := by rw [← List.append_assoc, List.take_append_drop]
    rw [e, refNum, takeBits_append hg, numericText, ← fmtPad3_group ⟨_, hv⟩]
    simp only [Outcome.ok_bind]
    rw [ih]
    rfl
  | 2, p, s, h => by
    have hg : p.length = 7 := h
    have hv : bitsToNat p < 128 := by have := bitsToNat_lt p; rw [hg] at this; exact this
    rw [refNum, takeBits_append hg, numericText, ← fmtPad2_group ⟨_, hv⟩]
    rfl
  | 1, p, s, h => by
    have hg : p.length = 4 := h
    have hv : bitsToNat p < 16 := by have := bitsToNat_lt p; rw [hg] at this; exact this
    rw [refNum, takeBits_append hg, numericText, ← fmtPad1_group ⟨_, hv⟩]
    rfl
  | 0, p, s, h => by
    have hg : p = [] := by simpa [Mode.payloadBits] using h
    subst hg
    rfl

theorem readsTo_says {v : Nat} (h1 : 1 ≤ v) (h40 : v ≤ 40) {bits : List Bool} {t : List Char}
    (h : SegmentSays v bits t) : ReadsTo v bits t := by
  cases h with
  | numeric n p hn hp => exact readsTo_numeric h1 h40 hn fun s => refNum_text n p s hp
  | alphanumeric cs hn => exact readsTo_alnum h1 h40 hn
  | latin1 bs hn hc => exact readsTo_byte h1 h40 hn (bytesToText_latin1 hc)
  | utf8 text hn hc => exact readsTo_byte h1 h40 hn (bytesToText_utf8 hc)

theorem readable_says {v : Nat} {bits rest : List Bool} {t : List Char} (h : SegmentSays v bits t)
    (hr : Readable v rest) : Readable v (bits ++ rest) := by
  cases h with
  | numeric n p hn hp => simpa only [List.append_assoc] using Readable.numeric n p hn hp hr
  | alphanumeric cs hn => simpa only [List.append_assoc] using Readable.alphanumeric cs hn hr
  | latin1 bs hn hc => simpa only [List.append_assoc] using Readable.byte bs hn (.inl hc) hr
  | utf8 text hn hc => simpa only [List.append_assoc] using Readable.byte _ hn (.inr ⟨_, rfl⟩) hr

/-- Why an alphanumeric payload is refused. -/
theorem refAlnum_err : ∀ (n : Nat) (s : List Bool) (e : QRError), refAlnum n s = .err e →
    s.length < Mode.alphanumeric.payloadBits n ∨
    ∃ (cs : List (Fin 45)) (x : Nat) (s' : List Bool), cs.length % 2 = 0 ∧ cs.length + 2 ≤ n ∧ 2025 ≤ x ∧ x < 2048 ∧
      s = alnumPayload cs ++ (natToBits 11 x ++ s')
  | n + 2, s, e, he => by
    rw [payloadBits_alnum_2]
    by_cases h : 11 ≤ s.length
    · obtain ⟨v, hv, hs⟩ := split_at 11 s h
      have hl : s.length = 11 + (s.drop 11).length := by rw [List.length_drop]; omega
      rw [hl]
      rw [hs] at he ⊢
      generalize s.drop 11 = r at *
      by_cases hc : v / 45 > 44
      · exact .inr ⟨[], v, r, rfl, by simp, by omega, by omega, rfl⟩
      · obtain ⟨a, b, rfl⟩ : ∃ a b : Fin 45, v = 45 * a.val + b.val :=
          ⟨⟨v / 45, by omega⟩, ⟨v % 45, by omega⟩, by simp only; omega⟩
        rw [refAlnum_pair] at he
        have he' : ∃ e', refAlnum n r = .err e' := by
          cases hr : refAlnum n r with
          | ok a => rw [hr] at he; cases he
          | err e' => exact ⟨e', rfl⟩
          | panic => rw [hr] at he; cases he
        obtain ⟨e', he'⟩ := he'
        rcases refAlnum_err n r e' he' with h | ⟨cs, x, s', hm, hle, hx, hx', rfl⟩
        · exact .inl (by rw [List.drop_left' (by simp)]; omega)
        · refine .inr ⟨a :: b :: cs, x, s', by simp; omega, by simp; omega, hx, hx', ?_⟩
          rw [alnumPayload, List.append_assoc]
    · exact .inl (by omega)
  | 1, s, e, he => by
    by_cases h : 6 ≤ s.length
    · exfalso
      obtain ⟨v, hv, hs⟩ := split_at 6 s h
      rw [hs, refAlnum, takeBits_nat hv] at he
      simp only [Outcome.ok_bind] at he
      by_cases hx : v < 45
      · rw [alnumChar_lt ⟨v, hx⟩] at he; cases he
      · rw [alnumChar_ge (by omega)] at he; cases he
    · left
      simp only [Mode.payloadBits]
      omega
  | 0, s, e, he => by cases he

theorem refAlnum_pair_bad : ∀ (cs : List (Fin 45)) (n x : Nat) (s : List Bool), cs.length % 2 = 0 → cs.length + 2 ≤ n →
    2025 ≤ x → x < 2048 → ∃ e, refAlnum n (alnumPayload cs ++ (natToBits 11 x ++ s)) = .err e
  | a :: b :: cs, n, x, s, hm, hn, hx, hx' => by
    simp only [List.length_cons] at hm hn
    obtain ⟨k, rfl⟩ : ∃ k, n = k + 2 := ⟨n - 2, by omega⟩
    rw [alnumPayload, List.append_assoc, refAlnum_pair]
    obtain ⟨e, he⟩ := refAlnum_pair_bad cs k x s (by omega) (by omega) hx hx'
    rw [he]
    exact ⟨e, rfl⟩
  | [a], n, x, s, hm, hn, hx, hx' => by simp at hm
  | [], n, x, s, hm, hn, hx, hx' => by
    obtain ⟨k, rfl⟩ : ∃ k, n = k + 2 := ⟨n - 2, by simp at hn; omega⟩
    rw [alnumPayload, List.nil_append, refAlnum, takeBits_nat (by omega)]
    simp only [Outcome.ok_bind]
    rw [if_pos (by omega)]
    exact ⟨_, rfl⟩

/-- What one round of the main loop does. -/
theorem refData_round {v : Nat} (h1 : 1 ≤ v) (h40 : v ≤ 40) (s : List Bool) :
    Terminated s ∨
    (∃ bits t rest, s = bits ++ rest ∧ SegmentSays v bits t ∧ rest.length < s.length) ∨
    NoSegment v s ∨ ∀ f, refData v (f + 1) s = .panic := by
  by_cases h4 : s.length < 4
  · exact .inl (.inl h4)
  obtain ⟨m, hm, hs⟩ := split_at 4 s (by omega)
  have hl : s.length = 4 + (s.drop 4).length := by rw [List.length_drop]; omega
  rw [hs]
  generalize s.drop 4 = r at *
  by_cases m0 : m = 0
  · subst m0
    exact .inl (.inr ⟨r, rfl⟩)
  right
  by_cases m1 : m = 1
  · subst m1
    by_cases hcc : Mode.numeric.countBits v ≤ r.length
    · obtain ⟨n, hn, hr⟩ := split_at _ r hcc
      rw [hr]
      generalize r.drop (Mode.numeric.countBits v) = q at *
      by_cases hq : Mode.numeric.payloadBits n ≤ q.length
      · obtain ⟨p, w, rfl, hpl⟩ : ∃ p w, q = p ++ w ∧ p.length = Mode.numeric.payloadBits n :=
          ⟨_, _, (List.take_append_drop (Mode.numeric.payloadBits n) q).symm, by simp; omega⟩
        refine .inl ⟨_, _, w, ?_, SegmentSays.numeric n p hn hpl, by simp; omega⟩
        simp only [List.append_assoc]
        rfl
      · exact .inr (.inl (NoSegment.payload .numeric n hn (by omega)))
    · exact .inr (.inl (NoSegment.count .numeric (by omega)))
  by_cases m2 : m = 2
  · subst m2
    by_cases hcc : Mode.alphanumeric.countBits v ≤ r.length
    · obtain ⟨n, hn, hr⟩ := split_at _ r hcc
      rw [hr]
      generalize r.drop (Mode.alphanumeric.countBits v) = q at *
      rcases refAlnum_cases n q with ⟨e, he⟩ | ⟨cs, w, hl, rfl, he⟩ | ⟨cs, x, w, hl, hmod, h45, h64, rfl, he⟩
      · rcases refAlnum_err n q e he with h | ⟨cs, x, s', hm, hle, hx, hx', rfl⟩
        · exact .inr (.inl (NoSegment.payload .alphanumeric n hn h))
        · exact .inr (.inl (NoSegment.pair n cs x hn hm hle hx hx'))
      · subst hl
        refine .inl ⟨_, _, w, ?_, SegmentSays.alphanumeric cs hn, by simp; omega⟩
        simp only [List.append_assoc]
        rfl
      · refine .inr (.inr fun f => ?_)
        rw [refData_step v f 2 (by decide), if_neg (by decide), if_pos rfl, alnum_chunk h1 h40 hn, he]
        rfl
    · exact .inr (.inl (NoSegment.count .alphanumeric (by omega)))
  by_cases m4 : m = 4
  · subst m4
    by_cases hcc : Mode.byte.countBits v ≤ r.length
    · obtain ⟨n, hn, hr⟩ := split_at _ r hcc
      rw [hr]
      generalize r.drop (Mode.byte.countBits v) = q at *
      by_cases hq : 8 * n ≤ q.length
      · obtain ⟨p, w, rfl, hpl⟩ : ∃ p w, q = p ++ w ∧ p.length = 8 * n :=
          ⟨_, _, (List.take_append_drop (8 * n) q).symm, by simp; omega⟩
        obtain ⟨bs, hbl, rfl⟩ := exists_bytes n p hpl
        subst hbl
        by_cases hc : 0xC3#8 ∈ bs
        · by_cases hok : ∃ text, utf8 text = bs
          · obtain ⟨text, rfl⟩ := hok
            refine .inl ⟨_, _, w, ?_, SegmentSays.utf8 text hn hc, by simp; omega⟩
            simp only [List.append_assoc]
            rfl
          · exact .inr (.inl (NoSegment.bytes bs hn hc fun t ht => hok ⟨t, ht⟩))
        · refine .inl ⟨_, _, w, ?_, SegmentSays.latin1 bs hn hc, by simp; omega⟩
          simp only [List.append_assoc]
          rfl
      · exact .inr (.inl (NoSegment.payload .byte n hn (by simp only [Mode.payloadBits]; omega)))
    · exact .inr (.inl (NoSegment.count .byte (by omega)))
  exact .inr (.inl (NoSegment.mode m hm m0 m1 m2 m4))

/-- What is no segment is an error. -/
theorem refData_noSegment {v : Nat} (h1 : 1 ≤ v) (h40 : v ≤ 40) {s : List Bool} (h : NoSegment v s) (f : Nat) :
    ∃ e, refData v (f + 1) s = .err e := by
  cases h with
  | mode m hm m0 m1 m2 m4 =>
    rw [refData_step v f m hm, if_neg m1, if_neg m2, if_neg m4, if_neg m0]
    exact ⟨_, rfl⟩
  | count m hc =>
    rw [refData_step v f _ (by cases m <;> decide)]
    cases m with
    | numeric =>
      rw [if_pos (by decide), refNumeric, lengthBits_numeric h1 h40]
      simp only [Outcome.ok_bind]
      rw [takeBits_short hc]
      exact ⟨_, rfl⟩
    | alphanumeric =>
      rw [if_neg (by decide), if_pos (by decide), refAlphanumeric, lengthBits_alnum h1 h40]
      simp only [Outcome.ok_bind]
      rw [takeBits_short hc]
      exact ⟨_, rfl⟩
    | byte =>
      rw [if_neg (by decide), if_neg (by decide), if_pos (by decide), refEightBit, lengthBits_byte h1 h40]
      simp only [Outcome.ok_bind]
      rw [takeBits_short hc]
      exact ⟨_, rfl⟩
  | @payload rest m n hn hc =>
    rw [refData_step v f _ (by cases m <;> decide)]
    cases m with
    | numeric =>
      have := numeric_chunk (p := rest) (s := []) h1 h40 hn
      rw [List.append_nil] at this
      obtain ⟨e, he⟩ := refNum_short n rest hc
      rw [if_pos (by decide), this, he]
      exact ⟨e, rfl⟩
    | alphanumeric =>
      obtain ⟨e, he⟩ := refAlnum_short n rest hc
      rw [if_neg (by decide), if_pos (by decide), alnum_chunk h1 h40 hn, he]
      exact ⟨e, rfl⟩
    | byte =>
      obtain ⟨e, he⟩ := refBytes_short n rest hc
      rw [if_neg (by decide), if_neg (by decide), if_pos (by decide), byte_chunk h1 h40 hn, he]
      exact ⟨e, rfl⟩
  | @pair rest n cs x hn hm hle hx hx' =>
    obtain ⟨e, he⟩ := refAlnum_pair_bad cs n x rest hm hle hx hx'
    rw [refData_step v f _ (by decide), if_neg (by decide), if_pos (by decide), alnum_chunk h1 h40 hn, he]
    exact ⟨e, rfl⟩
  | bytes bs hn hc hb =>
    rw [refData_step v f _ (by decide), if_neg (by decide), if_neg (by decide), if_pos (by decide), byte_chunk h1 h40 hn,
      refBytes_stream]
    simp only [Outcome.ok_bind]
    rw [bytesToText_bad hc hb]
    exact ⟨_, rfl⟩

/-- A panic now is a panic later. -/
theorem refData_cases {v : Nat} (h1 : 1 ≤ v) (h40 : v ≤ 40) (k : Nat) : ∀ s : List Bool, s.length ≤ k →
    (∃ t, Says v s t) ∨ Garbled v s ∨ ∃ pre t rest, s = pre ++ rest ∧ ReadsTo v pre t ∧ ∀ f, refData v (f + 1) rest = .panic := by
  induction k with
  | zero =>
    intro s hs
    exact .inl ⟨[], .done (.inl (by omega))⟩
  | succ k ih =>
    intro s hs
    rcases refData_round h1 h40 s with h | ⟨bits, t, rest, rfl, hb, hl⟩ | h | h
    · exact .inl ⟨[], .done h⟩
    · rcases ih rest (by omega) with ⟨u, hu⟩ | ⟨pre, tail, hp, hn, rfl⟩ | ⟨pre, u, tail, rfl, hr, hp⟩
      · exact .inl ⟨t ++ u, .segment hb hu⟩
      · exact .inr (.inl ⟨bits ++ pre, tail, readable_says hb hp, hn, by rw [List.append_assoc]⟩)
      · exact .inr (.inr ⟨bits ++ pre, t ++ u, tail, by rw [List.append_assoc],
          (readsTo_says h1 h40 hb).append hr, hp⟩)
    · exact .inr (.inl ⟨[], s, .nil, h, rfl⟩)
    · exact .inr (.inr ⟨[], [], s, rfl, ReadsTo.nil v, h⟩)

theorem says_prefix {v : Nat} (h1 : 1 ≤ v) (h40 : v ≤ 40) {s : List Bool} {t : List Char} (h : Says v s t) :
    ∃ pre tail, s = pre ++ tail ∧ ReadsTo v pre t ∧ Terminated tail := by
  induction h with
  | done h => exact ⟨[], _, rfl, ReadsTo.nil v, h⟩
  | segment hb _ ih =>
    obtain ⟨pre, tail, rfl, hr, ht⟩ := ih
    exact ⟨_, tail, by rw [List.append_assoc], (readsTo_says h1 h40 hb).append hr, ht⟩

end Verif
