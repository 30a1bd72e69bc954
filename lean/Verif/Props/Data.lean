import Verif.Lemmas.DataRuns
/-!
# Properties C07-C15: payload decoding (`data`)

`data input version` is the model of `decode::qr::data::data`. The encoder is `Spec.Segment.bits`.
-/
namespace Verif.Props
open Spec

/-- **C11.** Any list of segments that fit their count fields, followed by the terminator and arbitrary
padding, or by fewer than four arbitrary bits, decodes to the concatenated texts. -/
theorem data_segments (version : Nat) (h1 : 1 ≤ version) (h40 : version ≤ 40)
    (segments : List Segment) (text : List Char) (tail : List Bool) (input : List U8)
    (htext : SegmentsText segments text) (hfits : ∀ s ∈ segments, s.fits version)
    (hinput : streamOf input = segments.flatMap (·.bits version) ++ tail)
    (htail : Terminated tail) :
    data input version = .ok text := by
  obtain ⟨f, hf, he⟩ := data_prefix (readsTo_segments h1 h40 htext hfits) hinput
  rw [he, refData_terminated hf htail]
  simp [Outcome.map]

/-- **C07.** Numeric segments round-trip. -/
theorem numeric_roundtrip (version : Nat) (h1 : 1 ≤ version) (h40 : version ≤ 40)
    (digits : List (Fin 10)) (hfits : digits.length < 2 ^ Mode.numeric.countBits version)
    (tail : List Bool) (htail : Terminated tail) (input : List U8)
    (hinput : streamOf input = (Segment.numeric digits).bits version ++ tail) :
    data input version = .ok (digits.map fun d => Char.ofNat (48 + d.val)) := by
  have := data_segments version h1 h40 [.numeric digits] _ tail input
    (.cons (.numeric digits) .nil) (by simpa [Segment.fits, Segment.count, Segment.mode] using hfits) (by simpa using hinput) htail
  simpa using this

/-- **C08.** Alphanumeric segments round-trip. -/
theorem alphanumeric_roundtrip (version : Nat) (h1 : 1 ≤ version) (h40 : version ≤ 40)
    (chars : List (Fin 45)) (hfits : chars.length < 2 ^ Mode.alphanumeric.countBits version)
    (tail : List Bool) (htail : Terminated tail) (input : List U8)
    (hinput : streamOf input = (Segment.alphanumeric chars).bits version ++ tail) :
    data input version = .ok (chars.map fun i => alnumAlphabet.getD i.val '?') := by
  have := data_segments version h1 h40 [.alphanumeric chars] _ tail input
    (.cons (.alphanumeric chars) .nil) (by simpa [Segment.fits, Segment.count, Segment.mode] using hfits) (by simpa using hinput) htail
  simpa using this

/-- **C09.** Byte segments: without a byte `0xC3` the ISO 8859-1 reading; with one, the UTF-8 reading if
there is one, and otherwise an error. -/
theorem byte_reading (version : Nat) (h1 : 1 ≤ version) (h40 : version ≤ 40)
    (bytes : List U8) (hfits : bytes.length < 2 ^ Mode.byte.countBits version)
    (tail : List Bool) (htail : Terminated tail) (input : List U8)
    (hinput : streamOf input = (Segment.byte bytes).bits version ++ tail) :
    (0xC3#8 ∉ bytes → data input version = .ok (bytes.map latin1)) ∧
    (∀ text, 0xC3#8 ∈ bytes → utf8 text = bytes → data input version = .ok text) ∧
    (0xC3#8 ∈ bytes → (∀ text, utf8 text ≠ bytes) → ∃ e, data input version = .err e) := by
  refine ⟨?_, ?_, ?_⟩
  · intro h
    have := data_segments version h1 h40 [.byte bytes] _ tail input
      (.cons (.latin1 bytes h) .nil) (by simpa [Segment.fits, Segment.count, Segment.mode] using hfits) (by simpa using hinput) htail
    simpa using this
  · rintro text h rfl
    have := data_segments version h1 h40 [.byte (utf8 text)] _ tail input
      (.cons (.utf8 text h) .nil) (by simpa [Segment.fits, Segment.count, Segment.mode] using hfits) (by simpa using hinput) htail
    simpa using this
  · intro h hb
    obtain ⟨f, hf, he⟩ := data_prefix (ReadsTo.nil version) (by simpa using hinput)
    obtain ⟨f, rfl⟩ : ∃ g, f = g + 1 := ⟨f - 1, by omega⟩
    rw [he, Segment.bits, List.append_assoc, List.append_assoc]
    simp only [Segment.mode, Segment.count, Segment.payload]
    rw [refData_step _ _ _ (by decide), if_neg (by decide), if_neg (by decide), if_pos (by decide),
      byte_chunk h1 h40 hfits, refBytes_stream]
    simp only [Outcome.ok_bind]
    rw [bytesToText_bad h hb]
    exact ⟨_, rfl⟩

/-- **C10 (partial).** UTF-8 text in byte mode is recovered when it is pure ASCII or when its encoding
contains the byte `0xC3` (for instance any text with a letter from U+00C0 to U+00FF).
Missing: other non-ASCII texts, for which the claim is false; see the next theorem. -/
theorem utf8_text_recovered_partial (version : Nat) (h1 : 1 ≤ version) (h40 : version ≤ 40)
    (text : List Char) (hok : (∀ c ∈ text, c.toNat < 128) ∨ 0xC3#8 ∈ utf8 text)
    (hfits : (utf8 text).length < 2 ^ Mode.byte.countBits version)
    (tail : List Bool) (htail : Terminated tail) (input : List U8)
    (hinput : streamOf input = (Segment.byte (utf8 text)).bits version ++ tail) :
    data input version = .ok text := by
  obtain ⟨a, b, _⟩ := byte_reading version h1 h40 _ hfits tail htail input hinput
  rcases hok with h | h
  · have hl : (utf8 text).map latin1 = text := by
      rw [utf8_ascii text h, List.map_map]
      conv => rhs; rw [← List.map_id text]
      exact List.map_congr_left fun c hc => latin1_ascii c (h c hc)
    have hn : 0xC3#8 ∉ utf8 text := by
      rw [utf8_ascii text h]
      simp only [List.mem_map, not_exists, not_and]
      intro c hc he
      have h3 := congrArg BitVec.toNat he
      have h4 := h c hc
      simp only [BitVec.toNat_ofNat] at h3
      omega
    rw [a hn, hl]
  · exact b text h rfl

theorem utf8_euro : utf8 ['€'] = [0xE2#8, 0x82#8, 0xAC#8] := by decide +kernel

/-- **C10 is false of the code**: the UTF-8 encoding of the one-character text "€" (U+20AC), in every
version, decodes to the three characters `â`, U+0082, `¬`. -/
theorem utf8_euro_misread (version : Nat) (h1 : 1 ≤ version) (h40 : version ≤ 40)
    (tail : List Bool) (htail : Terminated tail) (input : List U8)
    (hinput : streamOf input = (Segment.byte (utf8 ['€'])).bits version ++ tail) :
    data input version = .ok [Char.ofNat 0xE2, Char.ofNat 0x82, Char.ofNat 0xAC] ∧
    data input version ≠ .ok ['€'] := by
  obtain ⟨a, _, _⟩ := byte_reading version h1 h40 _
    (by rw [utf8_euro]; simp only [Mode.countBits]; split <;> decide) tail htail input hinput
  rw [a (by rw [utf8_euro]; decide), utf8_euro]
  exact ⟨rfl, by decide⟩

/-- **C10, exact condition.** A byte segment holding the UTF-8 encoding of a text decodes to that text iff
the text is pure ASCII or its encoding contains the byte `0xC3`. -/
theorem utf8_text_recovered_iff (version : Nat) (h1 : 1 ≤ version) (h40 : version ≤ 40)
    (text : List Char) (hfits : (utf8 text).length < 2 ^ Mode.byte.countBits version)
    (tail : List Bool) (htail : Terminated tail) (input : List U8)
    (hinput : streamOf input = (Segment.byte (utf8 text)).bits version ++ tail) :
    data input version = .ok text ↔ ((∀ c ∈ text, c.toNat < 128) ∨ 0xC3#8 ∈ utf8 text) := by
  constructor
  · intro h
    by_cases hc : 0xC3#8 ∈ utf8 text
    · exact .inr hc
    · left
      obtain ⟨a, _, _⟩ := byte_reading version h1 h40 _ hfits tail htail input hinput
      rw [a hc] at h
      have hl := congrArg List.length (Outcome.ok.inj h)
      rw [List.length_map] at hl
      exact (utf8_length text).2 hl
  · intro h
    exact utf8_text_recovered_partial version h1 h40 text h hfits tail htail input hinput

/-- **C12.** After any readable segments, a mode indicator other than 0, 1, 2 and 4 gives an error that
names the mode in binary. -/
theorem unsupported_mode (version : Nat) (h1 : 1 ≤ version) (h40 : version ≤ 40)
    (pre rest : List Bool) (hpre : Readable version pre) (m : Nat) (hm : m < 16)
    (hm' : m ≠ 0 ∧ m ≠ 1 ∧ m ≠ 2 ∧ m ≠ 4) (input : List U8)
    (hinput : streamOf input = pre ++ (natToBits 4 m ++ rest)) :
    data input version = .err ⟨"Mode " ++
      String.ofList ((natToBits 4 m).map fun b => if b then '1' else '0') ++ " not yet implemented."⟩ := by
  obtain ⟨t, ht⟩ := readsTo_readable h1 h40 hpre
  obtain ⟨f, hf, he⟩ := data_prefix ht hinput
  obtain ⟨f, rfl⟩ : ∃ g, f = g + 1 := ⟨f - 1, by omega⟩
  have hb : ∀ m : Fin 16, fmtBin4 m.val =
      String.ofList ((natToBits 4 m.val).map fun b => if b then '1' else '0') := by decide +kernel
  rw [he, refData_step _ _ _ hm, if_neg hm'.2.1, if_neg hm'.2.2.1, if_neg hm'.2.2.2, if_neg hm'.1,
    hb ⟨m, hm⟩]
  rfl

/-- **C13.** If the bits run out in the count field or in the payload of a segment, after any readable
segments, the result is an error. -/
theorem truncated_is_error (version : Nat) (h1 : 1 ≤ version) (h40 : version ≤ 40)
    (pre rest : List Bool) (hpre : Readable version pre) (m : Mode)
    (hcut : rest.length < m.countBits version ∨
      ∃ n payload, n < 2 ^ m.countBits version ∧ rest = natToBits (m.countBits version) n ++ payload ∧
        payload.length < m.payloadBits n)
    (input : List U8)
    (hinput : streamOf input = pre ++ (natToBits 4 m.indicator ++ rest)) :
    ∃ e, data input version = .err e := by
  obtain ⟨t, ht⟩ := readsTo_readable h1 h40 hpre
  obtain ⟨f, hf, he⟩ := data_prefix ht hinput
  obtain ⟨f, rfl⟩ : ∃ g, f = g + 1 := ⟨f - 1, by omega⟩
  rw [he, refData_step _ _ _ (by cases m <;> decide)]
  cases m with
  | numeric =>
    rw [if_pos (by decide)]
    rcases hcut with hc | ⟨n, p, hn, rfl, hp⟩
    · rw [refNumeric, lengthBits_numeric h1 h40]
      simp only [Outcome.ok_bind]
      rw [takeBits_short hc]
      exact ⟨_, rfl⟩
    · have := numeric_chunk (p := p) (s := []) h1 h40 hn
      rw [List.append_nil] at this
      obtain ⟨e, he2⟩ := refNum_short n p hp
      rw [this, he2]
      exact ⟨e, rfl⟩
  | alphanumeric =>
    rw [if_neg (by decide), if_pos (by decide)]
    rcases hcut with hc | ⟨n, p, hn, rfl, hp⟩
    · rw [refAlphanumeric, lengthBits_alnum h1 h40]
      simp only [Outcome.ok_bind]
      rw [takeBits_short hc]
      exact ⟨_, rfl⟩
    · obtain ⟨e, he2⟩ := refAlnum_short n p hp
      rw [alnum_chunk h1 h40 hn, he2]
      exact ⟨e, rfl⟩
  | byte =>
    rw [if_neg (by decide), if_neg (by decide), if_pos (by decide)]
    rcases hcut with hc | ⟨n, p, hn, rfl, hp⟩
    · rw [refEightBit, lengthBits_byte h1 h40]
      simp only [Outcome.ok_bind]
      rw [takeBits_short hc]
      exact ⟨_, rfl⟩
    · obtain ⟨e, he2⟩ := refBytes_short n p hp
      rw [byte_chunk h1 h40 hn, he2]
      exact ⟨e, rfl⟩

/-- **C14 (partial).** A complete numeric segment with declared count `n`, after any segments with text
`before`, contributes only digits and at least `n` of them; it contributes exactly `n` iff its payload is
a legal encoding of `n` digits. Missing: "exactly `n`" for illegal payloads, which is false (next theorem). -/
theorem numeric_count_partial (version : Nat) (h1 : 1 ≤ version) (h40 : version ≤ 40)
    (segments : List Segment) (before : List Char) (htext : SegmentsText segments before)
    (hfits : ∀ s ∈ segments, s.fits version)
    (n : Nat) (hn : n < 2 ^ Mode.numeric.countBits version)
    (payload tail : List Bool) (hpayload : payload.length = Mode.numeric.payloadBits n)
    (htail : Terminated tail) (input : List U8)
    (hinput : streamOf input = segments.flatMap (·.bits version) ++
      (natToBits 4 Mode.numeric.indicator ++ (natToBits (Mode.numeric.countBits version) n ++
        (payload ++ tail)))) :
    ∃ text, data input version = .ok (before ++ text) ∧ (∀ c ∈ text, c.isDigit = true) ∧
      n ≤ text.length ∧
      (text.length = n ↔ ∃ ds : List (Fin 10), ds.length = n ∧ payload = numericPayload ds) := by
  obtain ⟨f, hf, he⟩ := data_prefix (readsTo_segments h1 h40 htext hfits) hinput
  obtain ⟨t, ht, hd, hle, hiff⟩ := refNum_spec n payload tail hpayload
  obtain ⟨f, rfl⟩ : ∃ g, f = g + 1 := ⟨f - 1, by omega⟩
  refine ⟨t, ?_, by simpa using hd, hle, hiff⟩
  rw [he, refData_step _ _ _ (by decide), if_pos (by decide), numeric_chunk h1 h40 hn, ht]
  simp only [Outcome.ok_bind]
  rw [refData_terminated (by simp at hf; omega) htail]
  simp [Outcome.map]

/-- **C14 is false of the code**: a numeric segment that declares three digits and whose 10-bit group has
the value 1000 to 1023 decodes to four characters. -/
theorem numeric_count_wrong (version : Nat) (h1 : 1 ≤ version) (h40 : version ≤ 40)
    (g : Nat) (hg : 1000 ≤ g ∧ g < 1024) (tail : List Bool) (htail : Terminated tail)
    (input : List U8)
    (hinput : streamOf input = natToBits 4 Mode.numeric.indicator ++
      (natToBits (Mode.numeric.countBits version) 3 ++ (natToBits 10 g ++ tail))) :
    ∃ text, data input version = .ok text ∧ text.length = 4 := by
  obtain ⟨f, hf, he⟩ := data_prefix (rest := streamOf input) (ReadsTo.nil version) rfl
  obtain ⟨f, rfl⟩ : ∃ g, f = g + 1 := ⟨f - 1, by omega⟩
  have h3 : 3 < 2 ^ Mode.numeric.countBits version := by
    simp only [Mode.countBits]; repeat' split
    all_goals decide
  refine ⟨fmtPad 3 g, ?_, ?_⟩
  · rw [hinput] at hf
    rw [he, hinput, refData_step _ _ _ (by decide), if_pos (by decide), numeric_chunk h1 h40 h3]
    rw [show (3 : Nat) = 0 + 3 from rfl, refNum, takeBits_nat (by omega)]
    simp only [Outcome.ok_bind, refNum, Outcome.pure_eq]
    rw [refData_terminated (by simp at hf; omega) htail]
    simp [Outcome.map]
  · have := (fmtPad3_all ⟨g, hg.2⟩).2
    simp only at this
    rw [this, if_neg (by omega)]

/-- **C15, exact condition.** `data` panics (or fails to terminate) iff the version is known and the
stream is a sequence of readable segments followed by an alphanumeric segment with an odd character
count, legal pairs, and a last 6-bit value above 44. C15 ("never panics") is therefore false of the
code, and this is the only way to make it fail. -/
theorem data_panics_iff (input : List U8) (version : Nat) :
    data input version = .panic ↔
      1 ≤ version ∧ version ≤ 40 ∧ ∃ (pre rest : List Bool) (cs : List (Fin 45)) (x : Nat),
        Readable version pre ∧ cs.length % 2 = 0 ∧
        cs.length + 1 < 2 ^ Mode.alphanumeric.countBits version ∧ 45 ≤ x ∧ x < 64 ∧
        streamOf input = pre ++ (natToBits 4 Mode.alphanumeric.indicator ++
          (natToBits (Mode.alphanumeric.countBits version) (cs.length + 1) ++
            (alnumPayload cs ++ (natToBits 6 x ++ rest)))) := by
  constructor
  · intro h
    rw [data_eq] at h
    exact refData_panic version _ _ (by rw [length_streamOf]; omega) h
  · rintro ⟨h1, h40, pre, rest, cs, x, hpre, hm, hn, h45, h64, hs⟩
    obtain ⟨t, ht⟩ := readsTo_readable h1 h40 hpre
    obtain ⟨f, hf, he⟩ := data_prefix ht hs
    obtain ⟨f, rfl⟩ : ∃ g, f = g + 1 := ⟨f - 1, by omega⟩
    rw [he, refData_step _ _ _ (by decide), if_neg (by decide), if_pos (by decide),
      alnum_chunk h1 h40 hn, refAlnum_bad cs x rest hm h45 h64]
    rfl

/-- **C15 (partial).** Symbols whose segments follow the standard never make `data` panic, whatever
follows them, unless a further alphanumeric segment starts: in particular everything covered by C11-C13.
Stated for streams without any alphanumeric mode indicator pattern. Missing: the panicking inputs above. -/
theorem data_never_panics_partial (input : List U8) (version : Nat)
    (h : ∀ a b, streamOf input ≠ a ++ ([false, false, true, false] ++ b)) :
    data input version ≠ .panic := by
  intro hp
  obtain ⟨_, _, pre, rest, cs, x, _, _, _, _, _, hs⟩ := (data_panics_iff input version).1 hp
  exact h pre _ hs

/-! ### Concrete cases (the hypotheses above are satisfiable) -/

/-- "01234567" in version 1, the example of ISO/IEC 18004 7.4.3, with terminator. -/
example : data [0x10#8, 0x20#8, 0x0C#8, 0x56#8, 0x61#8, 0x80#8] 1 = .ok "01234567".toList := by
  have := numeric_roundtrip 1 (by decide) (by decide) [0, 1, 2, 3, 4, 5, 6, 7] (by decide)
    [false, false, false, false, false, false, false] (.inr ⟨_, rfl⟩)
    [0x10#8, 0x20#8, 0x0C#8, 0x56#8, 0x61#8, 0x80#8] (by decide +kernel)
  rw [this]; decide +kernel

/-- "AC-42" in version 1, the example of 7.4.4. -/
example : data [0x20#8, 0x29#8, 0xCE#8, 0xE7#8, 0x21#8, 0x00#8] 1 = .ok "AC-42".toList := by
  have := alphanumeric_roundtrip 1 (by decide) (by decide) [10, 12, 41, 4, 2] (by decide)
    [false, false, false, false, false, false, false] (.inr ⟨_, rfl⟩)
    [0x20#8, 0x29#8, 0xCE#8, 0xE7#8, 0x21#8, 0x00#8] (by decide +kernel)
  rw [this]; decide +kernel

/-- a byte segment "é" as UTF-8 (0xC3 0xA9), then a numeric segment "7", cut off after the last digit -/
example : data [0x40#8, 0x2C#8, 0x3A#8, 0x91#8, 0x00#8, 0x5C#8] 1 = .ok ['é', '7'] := by
  have hu : utf8 ['é'] = [0xC3#8, 0xA9#8] := by decide +kernel
  have := data_segments 1 (by decide) (by decide) [.byte (utf8 ['é']), .numeric [7]] ['é', '7']
    [false, false] [0x40#8, 0x2C#8, 0x3A#8, 0x91#8, 0x00#8, 0x5C#8]
    (.cons (t := ['é']) (.utf8 ['é'] (by rw [hu]; decide)) (.cons (.numeric [7]) .nil))
    (by rw [hu]; intro s hs; simp at hs; rcases hs with rfl | rfl <;> simp [Segment.fits, Segment.count, Segment.mode, Mode.countBits])
    (by rw [hu]; decide +kernel) (.inl (by decide))
  exact this

/-- the bytes `C3 28` are not UTF-8 -/
example : (0xC3#8 ∈ [0xC3#8, 0x28#8]) ∧ ∀ text, utf8 text ≠ [0xC3#8, 0x28#8] := by
  refine ⟨by decide, ?_⟩
  intro text h
  have h2 := fromUtf8_utf8 text
  rw [h] at h2
  have h3 : fromUtf8 [0xC3#8, 0x28#8] = none := by decide +kernel
  rw [h3] at h2; cases h2

/-- "€" in version 1 is misread. -/
example : data [0x40#8, 0x3E#8, 0x28#8, 0x2A#8, 0xC0#8] 1 ≠ .ok ['€'] :=
  (utf8_euro_misread 1 (by decide) (by decide) [false, false, false, false] (.inr ⟨_, rfl⟩) _
    (by rw [utf8_euro]; decide +kernel)).2

/-- ECI mode (0111) is reported. -/
example : data [0x70#8] 1 = .err ⟨"Mode 0111 not yet implemented."⟩ := by
  have := unsupported_mode 1 (by decide) (by decide) [] [false, false, false, false] .nil 7 (by decide)
    (by decide) [0x70#8] (by decide +kernel)
  rw [this]; decide +kernel

/-- a byte segment announcing 3 bytes of which one is present -/
example : ∃ e, data [0x40#8, 0x34#8, 0x10#8] 1 = .err e :=
  truncated_is_error 1 (by decide) (by decide) [] (natToBits 8 3 ++ [false, true, false, false, false, false, false, true, false, false, false, false]) .nil .byte
    (.inr ⟨3, [false, true, false, false, false, false, false, true, false, false, false, false], by decide, rfl, by decide⟩) _ (by decide +kernel)

/-- three digits declared, group value 1000: four characters -/
example : data [0x10#8, 0x0F#8, 0xE8#8] 1 = .ok "1000".toList := by decide +kernel

/-- a panic is reachable: one alphanumeric character with value 63 -/
example : data [0x20#8, 0x0F#8, 0xE0#8] 1 = .panic := by decide +kernel

example : data [0x10#8, 0x20#8, 0x0C#8, 0x56#8, 0x61#8, 0x80#8] 41 = .err ⟨"Unknown version 41"⟩ := by
  decide +kernel

end Verif.Props
