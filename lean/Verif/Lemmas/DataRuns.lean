import Verif.Lemmas.Segments
/-! Helper lemmas: running the payload decoder over a prefix made of complete segments. -/
namespace Verif
open Spec

theorem Outcome.map_map {α β γ : Type} (f : α → β) (g : β → γ) (m : Outcome α) :
    (m.map f).map g = m.map (fun a => g (f a)) := by cases m <;> rfl

theorem lengthBits_numeric {v : Nat} (h1 : 1 ≤ v) (h40 : v ≤ 40) :
    lengthBits v 10 12 14 = .ok (Mode.numeric.countBits v) := by
  simp only [lengthBits, Mode.countBits]
  split
  · rw [if_pos (by omega)]
  split
  · rw [if_neg (by omega), if_pos (by omega)]
  · rw [if_pos (by omega), if_neg (by omega), if_neg (by omega)]

theorem lengthBits_alnum {v : Nat} (h1 : 1 ≤ v) (h40 : v ≤ 40) :
    lengthBits v 9 11 13 = .ok (Mode.alphanumeric.countBits v) := by
  simp only [lengthBits, Mode.countBits]
  split
  · rw [if_pos (by omega)]
  split
  · rw [if_neg (by omega), if_pos (by omega)]
  · rw [if_pos (by omega), if_neg (by omega), if_neg (by omega)]

theorem lengthBits_byte {v : Nat} (h1 : 1 ≤ v) (h40 : v ≤ 40) :
    lengthBits v 8 16 16 = .ok (Mode.byte.countBits v) := by
  simp only [lengthBits, Mode.countBits]
  split
  · rw [if_pos (by omega)]
  split
  · rw [if_neg (by omega)]
  · rw [if_pos (by omega), if_neg (by omega)]

/-- One iteration of the main loop. -/
theorem refData_step (v f m : Nat) (hm : m < 16) (s : List Bool) :
    refData v (f + 1) (natToBits 4 m ++ s) =
      if m = 1 then do
        let (t, s) ← refNumeric v s
        let rest ← refData v f s
        return t ++ rest
      else if m = 2 then do
        let (t, s) ← refAlphanumeric v s
        let rest ← refData v f s
        return t ++ rest
      else if m = 4 then do
        let (t, s) ← refEightBit v s
        let rest ← refData v f s
        return t ++ rest
      else if m = 0 then .ok []
      else .err ⟨"Mode " ++ fmtBin4 m ++ " not yet implemented."⟩ := by
  rw [refData, if_neg (by simp)]
  have h1 : (natToBits 4 m ++ s).take 4 = natToBits 4 m := List.take_left' (by simp)
  have h2 : (natToBits 4 m ++ s).drop 4 = s := List.drop_left' (by simp)
  simp only [h1, h2, bitsToNat_natToBits]
  rw [Nat.mod_eq_of_lt hm]

/-- The decoder reads the prefix `pre` and contributes `t`. -/
def ReadsTo (v : Nat) (pre : List Bool) (t : List Char) : Prop :=
  ∃ k, k ≤ pre.length ∧ ∀ f rest,
    refData v (f + k) (pre ++ rest) = (refData v f rest).map (t ++ ·)

theorem ReadsTo.nil (v : Nat) : ReadsTo v [] [] :=
  ⟨0, by simp, fun f rest => by cases h : refData v f rest <;> simp [h, Outcome.map]⟩

theorem ReadsTo.append {v : Nat} {p q : List Bool} {t u : List Char} (hp : ReadsTo v p t)
    (hq : ReadsTo v q u) : ReadsTo v (p ++ q) (t ++ u) := by
  obtain ⟨k, hk, hp⟩ := hp
  obtain ⟨l, hl, hq⟩ := hq
  refine ⟨l + k, by rw [List.length_append]; omega, ?_⟩
  intro f rest
  rw [← Nat.add_assoc, List.append_assoc, hp, hq, Outcome.map_map]
  simp

theorem numeric_chunk {v : Nat} (h1 : 1 ≤ v) (h40 : v ≤ 40) {n : Nat} {p s : List Bool}
    (hn : n < 2 ^ Mode.numeric.countBits v) :
    refNumeric v (natToBits (Mode.numeric.countBits v) n ++ (p ++ s)) = refNum n (p ++ s) := by
  rw [refNumeric, lengthBits_numeric h1 h40]
  simp only [Outcome.ok_bind]
  rw [takeBits_nat hn]
  rfl

theorem alnum_chunk {v : Nat} (h1 : 1 ≤ v) (h40 : v ≤ 40) {n : Nat} {s : List Bool}
    (hn : n < 2 ^ Mode.alphanumeric.countBits v) :
    refAlphanumeric v (natToBits (Mode.alphanumeric.countBits v) n ++ s) = refAlnum n s := by
  rw [refAlphanumeric, lengthBits_alnum h1 h40]
  simp only [Outcome.ok_bind]
  rw [takeBits_nat hn]
  rfl

theorem byte_chunk {v : Nat} (h1 : 1 ≤ v) (h40 : v ≤ 40) {n : Nat} {s : List Bool}
    (hn : n < 2 ^ Mode.byte.countBits v) :
    refEightBit v (natToBits (Mode.byte.countBits v) n ++ s) = do
      let (bytes, s) ← refBytes n s
      let text ← bytesToText bytes
      return (text, s) := by
  rw [refEightBit, lengthBits_byte h1 h40]
  simp only [Outcome.ok_bind]
  rw [takeBits_nat hn]
  rfl

theorem readsTo_numeric {v : Nat} (h1 : 1 ≤ v) (h40 : v ≤ 40) {n : Nat} {p : List Bool}
    {t : List Char} (hn : n < 2 ^ Mode.numeric.countBits v)
    (hp : ∀ s, refNum n (p ++ s) = .ok (t, s)) :
    ReadsTo v (natToBits 4 Mode.numeric.indicator ++
      (natToBits (Mode.numeric.countBits v) n ++ p)) t := by
  refine ⟨1, by simp; omega, ?_⟩
  intro f rest
  rw [List.append_assoc, refData_step v f _ (by decide), if_pos (by decide), List.append_assoc,
    numeric_chunk h1 h40 hn, hp]
  simp only [Outcome.ok_bind]
  cases refData v f rest <;> rfl

theorem readsTo_alnum {v : Nat} (h1 : 1 ≤ v) (h40 : v ≤ 40) {cs : List (Fin 45)}
    (hn : cs.length < 2 ^ Mode.alphanumeric.countBits v) :
    ReadsTo v (natToBits 4 Mode.alphanumeric.indicator ++
      (natToBits (Mode.alphanumeric.countBits v) cs.length ++ alnumPayload cs)) (alnumText cs) := by
  refine ⟨1, by simp; omega, ?_⟩
  intro f rest
  rw [List.append_assoc, refData_step v f _ (by decide), if_neg (by decide), if_pos (by decide),
    List.append_assoc, alnum_chunk h1 h40 hn, refAlnum_chars]
  simp only [Outcome.ok_bind]
  cases refData v f rest <;> rfl

theorem readsTo_byte {v : Nat} (h1 : 1 ≤ v) (h40 : v ≤ 40) {bs : List U8} {t : List Char}
    (hn : bs.length < 2 ^ Mode.byte.countBits v) (ht : bytesToText bs = .ok t) :
    ReadsTo v (natToBits 4 Mode.byte.indicator ++
      (natToBits (Mode.byte.countBits v) bs.length ++ streamOf bs)) t := by
  refine ⟨1, by simp; omega, ?_⟩
  intro f rest
  rw [List.append_assoc, refData_step v f _ (by decide), if_neg (by decide), if_neg (by decide),
    if_pos (by decide), List.append_assoc, byte_chunk h1 h40 hn, refBytes_stream]
  simp only [Outcome.ok_bind, ht, Outcome.pure_eq]
  cases refData v f rest <;> rfl

theorem readsTo_segment {v : Nat} (h1 : 1 ≤ v) (h40 : v ≤ 40) {s : Segment} {t : List Char}
    (hf : s.fits v) (ht : s.HasText t) : ReadsTo v (s.bits v) t := by
  cases ht with
  | numeric ds =>
    rw [Segment.bits, List.append_assoc]
    exact readsTo_numeric h1 h40 hf (fun s => refNum_digits ds s)
  | alphanumeric cs =>
    rw [Segment.bits, List.append_assoc]
    exact readsTo_alnum h1 h40 hf
  | latin1 bs h =>
    rw [Segment.bits, List.append_assoc]
    exact readsTo_byte h1 h40 hf (bytesToText_latin1 h)
  | utf8 text h =>
    rw [Segment.bits, List.append_assoc]
    exact readsTo_byte h1 h40 hf (bytesToText_utf8 h)

theorem readsTo_segments {v : Nat} (h1 : 1 ≤ v) (h40 : v ≤ 40) {ss : List Segment} {t : List Char}
    (ht : SegmentsText ss t) (hf : ∀ s ∈ ss, s.fits v) : ReadsTo v (ss.flatMap (·.bits v)) t := by
  induction ht with
  | nil => exact ReadsTo.nil v
  | cons h _ ih =>
    rw [List.flatMap_cons]
    exact (readsTo_segment h1 h40 (hf _ (by simp)) h).append (ih fun s hs => hf s (by simp [hs]))

theorem readsTo_readable {v : Nat} (h1 : 1 ≤ v) (h40 : v ≤ 40) {pre : List Bool}
    (h : Readable v pre) : ∃ t, ReadsTo v pre t := by
  induction h with
  | nil => exact ⟨[], ReadsTo.nil v⟩
  | numeric n payload hn hp _ ih =>
    obtain ⟨u, hu⟩ := ih
    obtain ⟨t, ht⟩ : ∃ t, ∀ s, refNum n (payload ++ s) = .ok (t, s) := by
      obtain ⟨t, ht, _⟩ := refNum_spec n payload [] hp
      refine ⟨t, fun s => ?_⟩
      -- the text does not depend on what follows
      have key : ∀ (n : Nat) (p : List Bool), p.length = Mode.numeric.payloadBits n →
          ∃ t, ∀ s, refNum n (p ++ s) = .ok (t, s) := by
        intro n
        induction n using Nat.strongRecOn with
        | ind n ih =>
          intro p h
          match n, h with
          | n + 3, h =>
            rw [payloadBits_numeric_3] at h
            obtain ⟨t, ht⟩ := ih n (by omega) (p.drop 10) (by rw [List.length_drop]; omega)
            refine ⟨fmtPad 3 (bitsToNat (p.take 10)) ++ t, fun s => ?_⟩
            have : p ++ s = p.take 10 ++ (p.drop 10 ++ s) := by
              rw [← List.append_assoc, List.take_append_drop]
            rw [this, refNum, takeBits_append (by simp; omega)]
            simp only [Outcome.ok_bind]
            rw [ht]; rfl
          | 2, h => exact ⟨_, fun s => by rw [refNum, takeBits_append (k := 7) h]; rfl⟩
          | 1, h => exact ⟨_, fun s => by rw [refNum, takeBits_append (k := 4) h]; rfl⟩
          | 0, h =>
            have : p = [] := by simpa [Mode.payloadBits] using h
            subst this
            exact ⟨[], fun s => rfl⟩
      obtain ⟨t', ht'⟩ := key n payload hp
      have := ht' []
      rw [ht] at this
      simp only [Outcome.ok.injEq, Prod.mk.injEq, and_true] at this
      rw [this]
      exact ht' s
    refine ⟨t ++ u, ?_⟩
    have := (readsTo_numeric h1 h40 hn ht).append hu
    simpa only [List.append_assoc] using this
  | alphanumeric cs hn _ ih =>
    obtain ⟨u, hu⟩ := ih
    refine ⟨alnumText cs ++ u, ?_⟩
    have := (readsTo_alnum h1 h40 hn).append hu
    simpa only [List.append_assoc] using this
  | byte bs hn hok _ ih =>
    obtain ⟨u, hu⟩ := ih
    obtain ⟨t, ht⟩ : ∃ t, bytesToText bs = .ok t := by
      by_cases hc : 0xC3#8 ∈ bs
      · rcases hok with h | ⟨text, rfl⟩
        · exact absurd hc h
        · exact ⟨text, bytesToText_utf8 hc⟩
      · exact ⟨_, bytesToText_latin1 hc⟩
    refine ⟨t ++ u, ?_⟩
    have := (readsTo_byte h1 h40 hn ht).append hu
    simpa only [List.append_assoc] using this

/-- Reading a prefix, on the entry point. -/
theorem data_prefix {v : Nat} {pre rest : List Bool} {t : List Char} {input : List U8}
    (h : ReadsTo v pre t) (hs : streamOf input = pre ++ rest) :
    ∃ f, rest.length < f ∧ data input v = (refData v f rest).map (t ++ ·) := by
  obtain ⟨k, hk, h⟩ := h
  have hl := length_streamOf input
  rw [hs, List.length_append] at hl
  refine ⟨8 * input.length + 1 - k, by omega, ?_⟩
  rw [data_eq, hs, ← h, Nat.sub_add_cancel (by omega)]

theorem refData_terminated {v f : Nat} {tail : List Bool} (hf : tail.length < f)
    (h : Terminated tail) : refData v f tail = .ok [] := by
  obtain ⟨f, rfl⟩ : ∃ g, f = g + 1 := ⟨f - 1, by omega⟩
  rcases h with h | ⟨r, rfl⟩
  · rw [refData, if_pos h]
  · exact refData_step v f 0 (by decide) r

/-- Outcome of the main loop on an arbitrary bit list: it panics only at the last character of an
odd-length alphanumeric segment. -/
theorem refData_panic (v f : Nat) (s : List Bool) (hf : s.length < f)
    (hp : refData v f s = .panic) :
    1 ≤ v ∧ v ≤ 40 ∧ ∃ (pre rest : List Bool) (cs : List (Fin 45)) (x : Nat), Readable v pre ∧
      cs.length % 2 = 0 ∧ cs.length + 1 < 2 ^ Mode.alphanumeric.countBits v ∧ 45 ≤ x ∧ x < 64 ∧
      s = pre ++ (natToBits 4 Mode.alphanumeric.indicator ++
        (natToBits (Mode.alphanumeric.countBits v) (cs.length + 1) ++
          (alnumPayload cs ++ (natToBits 6 x ++ rest)))) := by
  induction f generalizing s with
  | zero => omega
  | succ f ih =>
    by_cases h4 : s.length < 4
    · rw [refData, if_pos h4] at hp; cases hp
    obtain ⟨m, hm, hs⟩ := split_at 4 s (by omega)
    rw [hs] at hp ⊢
    have hlen : (s.drop 4).length < f := by rw [List.length_drop]; omega
    generalize s.drop 4 = r at *
    rw [refData_step v f m hm] at hp
    by_cases hv : ¬ (1 ≤ v ∧ v ≤ 40)
    · exfalso
      have hlb : ∀ a b c, lengthBits v a b c = .err ⟨"Unknown version " ++ toString v⟩ := by
        intro a b c
        rw [lengthBits, if_neg (by omega), if_neg (by omega), if_neg (by omega)]
      rw [refNumeric, refAlphanumeric, refEightBit, hlb, hlb, hlb] at hp
      split at hp
      · cases hp
      split at hp
      · cases hp
      split at hp
      · cases hp
      split at hp <;> cases hp
    have hv : 1 ≤ v ∧ v ≤ 40 := Decidable.byContradiction hv
    refine ⟨hv.1, hv.2, ?_⟩
    obtain ⟨h1, h40⟩ := hv
    split at hp
    · rename_i hm1
      subst hm1
      rw [refNumeric, lengthBits_numeric h1 h40] at hp
      simp only [Outcome.ok_bind] at hp
      by_cases hcc : Mode.numeric.countBits v ≤ r.length
      · obtain ⟨n, hn, hr⟩ := split_at _ r hcc
        rw [hr, takeBits_nat hn] at hp
        simp only [Outcome.ok_bind] at hp
        rw [hr]
        have hl2 : (r.drop (Mode.numeric.countBits v)).length ≤ r.length := by
          rw [List.length_drop]; omega
        generalize r.drop (Mode.numeric.countBits v) = q at *
        by_cases hq : Mode.numeric.payloadBits n ≤ q.length
        · obtain ⟨p, w, rfl, hpl⟩ : ∃ p w, q = p ++ w ∧ p.length = Mode.numeric.payloadBits n :=
            ⟨_, _, (List.take_append_drop (Mode.numeric.payloadBits n) q).symm, by simp; omega⟩
          obtain ⟨t, ht, _⟩ := refNum_spec n p w hpl
          rw [ht] at hp
          simp only [Outcome.ok_bind] at hp
          cases hw : refData v f w with
          | ok a => rw [hw] at hp; cases hp
          | err a => rw [hw] at hp; cases hp
          | panic =>
            obtain ⟨_, _, pre, rest, cs, x, hpre, ha, hb, hc, hd, hw2⟩ := ih w
              (by rw [List.length_append] at hl2; omega) hw
            refine ⟨_, rest, cs, x, Readable.numeric n p hn hpl hpre, ha, hb, hc, hd, ?_⟩
            rw [hw2]
            simp only [List.append_assoc]
            rfl
        · obtain ⟨e, he⟩ := refNum_short n q (by omega)
          rw [he] at hp; cases hp
      · rw [takeBits_short (by omega)] at hp; cases hp
    split at hp
    · rename_i _ hm2
      subst hm2
      rw [refAlphanumeric, lengthBits_alnum h1 h40] at hp
      simp only [Outcome.ok_bind] at hp
      by_cases hcc : Mode.alphanumeric.countBits v ≤ r.length
      · obtain ⟨n, hn, hr⟩ := split_at _ r hcc
        rw [hr, takeBits_nat hn] at hp
        simp only [Outcome.ok_bind] at hp
        rw [hr]
        have hl2 : (r.drop (Mode.alphanumeric.countBits v)).length ≤ r.length := by
          rw [List.length_drop]; omega
        generalize r.drop (Mode.alphanumeric.countBits v) = q at *
        rcases refAlnum_cases n q with ⟨e, he⟩ | ⟨cs, w, hl, rfl, he⟩ | ⟨cs, x, w, hl, hmod, h45, h64, rfl, he⟩
        · rw [he] at hp; cases hp
        · rw [he] at hp
          simp only [Outcome.ok_bind] at hp
          cases hw : refData v f w with
          | ok a => rw [hw] at hp; cases hp
          | err a => rw [hw] at hp; cases hp
          | panic =>
            obtain ⟨_, _, pre, rest, cs', x, hpre, ha, hb, hc, hd, hw2⟩ := ih w
              (by rw [List.length_append] at hl2; omega) hw
            subst hl
            refine ⟨_, rest, cs', x, Readable.alphanumeric cs hn hpre, ha, hb, hc, hd, ?_⟩
            rw [hw2]
            simp only [List.append_assoc]
            rfl
        · exact ⟨[], w, cs, x, .nil, hmod, by omega, h45, h64, by rw [hl]; rfl⟩
      · rw [takeBits_short (by omega)] at hp; cases hp
    split at hp
    · rename_i _ _ hm4
      subst hm4
      rw [refEightBit, lengthBits_byte h1 h40] at hp
      simp only [Outcome.ok_bind] at hp
      by_cases hcc : Mode.byte.countBits v ≤ r.length
      · obtain ⟨n, hn, hr⟩ := split_at _ r hcc
        rw [hr, takeBits_nat hn] at hp
        simp only [Outcome.ok_bind] at hp
        rw [hr]
        have hl2 : (r.drop (Mode.byte.countBits v)).length ≤ r.length := by
          rw [List.length_drop]; omega
        generalize r.drop (Mode.byte.countBits v) = q at *
        by_cases hq : 8 * n ≤ q.length
        · obtain ⟨p, w, rfl, hpl⟩ : ∃ p w, q = p ++ w ∧ p.length = 8 * n :=
            ⟨_, _, (List.take_append_drop (8 * n) q).symm, by simp; omega⟩
          obtain ⟨bs, hbl, rfl⟩ := exists_bytes n p hpl
          rw [← hbl, refBytes_stream] at hp
          simp only [Outcome.ok_bind] at hp
          by_cases hok : 0xC3#8 ∉ bs ∨ ∃ text, utf8 text = bs
          · cases hw : refData v f w with
            | ok a =>
              exfalso
              cases hbt : bytesToText bs <;> rw [hbt] at hp <;> simp [hw] at hp
              · rw [bytesToText] at hbt
                split at hbt
                · split at hbt <;> cases hbt
                · cases hbt
            | err a =>
              exfalso
              cases hbt : bytesToText bs <;> rw [hbt] at hp <;> simp [hw] at hp
              · rw [bytesToText] at hbt
                split at hbt
                · split at hbt <;> cases hbt
                · cases hbt
            | panic =>
              obtain ⟨_, _, pre, rest, cs', x, hpre, ha, hb, hc, hd, hw2⟩ := ih w
                (by rw [List.length_append] at hl2; omega) hw
              subst hbl
              refine ⟨_, rest, cs', x, Readable.byte bs hn hok hpre, ha, hb, hc, hd, ?_⟩
              rw [hw2]
              simp only [List.append_assoc]
              rfl
          · exfalso
            have hmem : 0xC3#8 ∈ bs := Decidable.byContradiction fun hc => hok (.inl hc)
            rw [bytesToText_bad hmem (fun t ht => hok (.inr ⟨t, ht⟩))] at hp
            cases hp
        · obtain ⟨e, he⟩ := refBytes_short n q (by omega)
          rw [he] at hp; cases hp
      · rw [takeBits_short (by omega)] at hp; cases hp
    split at hp <;> cases hp

/-- An ASCII character is its own single UTF-8 byte. -/
theorem utf8_ascii (text : List Char) (h : ∀ c ∈ text, c.toNat < 128) :
    utf8 text = text.map fun c => BitVec.ofNat 8 c.toNat := by
  induction text with
  | nil => rfl
  | cons c cs ih =>
    have hc : c.val.toNat ≤ 0x7f := by
      have h3 : c.val.toNat < 128 := h c (by simp)
      omega
    have h2 := ih (fun d hd => h d (by simp [hd]))
    rw [utf8] at h2 ⊢
    rw [List.flatMap_cons, h2, List.map_cons, String.utf8EncodeChar]
    simp only [hc, ↓reduceIte]
    rfl

theorem latin1_ascii (c : Char) (h : c.toNat < 128) : latin1 (BitVec.ofNat 8 c.toNat) = c := by
  rw [latin1, BitVec.toNat_ofNat, Nat.mod_eq_of_lt (by omega), Char.ofNat_toNat]

/-- The UTF-8 encoding is as long as the text only for pure ASCII. -/
theorem utf8_length (text : List Char) : text.length ≤ (utf8 text).length ∧
    ((utf8 text).length = text.length → ∀ c ∈ text, c.toNat < 128) := by
  induction text with
  | nil => exact ⟨by simp [utf8], by simp⟩
  | cons c cs ih =>
    have hc : (utf8 (c :: cs)).length = (String.utf8EncodeChar c).length + (utf8 cs).length := by
      simp [utf8]
    have h1 : 1 ≤ (String.utf8EncodeChar c).length ∧
        ((String.utf8EncodeChar c).length = 1 → c.toNat < 128) := by
      rw [String.utf8EncodeChar]
      split
      · rename_i h
        exact ⟨by simp, fun _ => by have : c.val.toNat = c.toNat := rfl; omega⟩
      split
      · simp
      split <;> simp
    refine ⟨by rw [hc, List.length_cons]; omega, ?_⟩
    intro h
    rw [hc, List.length_cons] at h
    intro d hd
    rcases List.mem_cons.1 hd with rfl | hd
    · exact h1.2 (by omega)
    · exact ih.2 (by omega) d hd

end Verif
