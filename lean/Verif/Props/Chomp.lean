import Verif.Lemmas.Chomp
/-!
# Properties C01-C06: the bit reader `Chomp`
-/
namespace Verif.Props
open Spec

/-- A client that sends a list of `chomp` requests to a reader and records the answers. -/
def client (c : Chomp) : List Nat → Run (List (Option Nat) × Chomp)
  | [] => .ret ([], c)
  | n :: ns => do
    let (a, c') ← c.chomp n
    let (as, c'') ← client c' ns
    return (a.map BitVec.toNat :: as, c'')

/-- A client that mixes `chomp` and `chomp_or_u16`. -/
def client16 (c : Chomp) : List Req → Run (List (Option Nat) × Chomp)
  | [] => .ret ([], c)
  | .bits n :: rs => do
    let (a, c') ← c.chomp n
    let (as, c'') ← client16 c' rs
    return (a.map BitVec.toNat :: as, c'')
  | .bits16 n :: rs => do
    let (a, c') ← c.chompOrU16 n ()
    let (as, c'') ← client16 c' rs
    return ((match a with | .ok v => some v.toNat | .error _ => none) :: as, c'')

theorem client_spec (ns : List Nat) (c : Chomp) (hi : c.Inv) :
    ∃ as c', client c ns = .ret (as, c') ∧ c'.Inv ∧ SoundAnswers c.unread ns as ∧
      (c.Full → upToRefusal as = upToRefusal (readAll c.unread ns)) ∧
      (c.Full → (∀ a ∈ as, a ≠ none) →
        c'.Full ∧ c'.unread = c.unread.drop ns.sum ∧ ns.sum ≤ c.unread.length) := by
  induction ns generalizing c with
  | nil => exact ⟨[], c, rfl, hi, .nil _, fun _ => rfl, fun hf _ => ⟨hf, by simp, by simp⟩⟩
  | cons n ns ih =>
    obtain ⟨r, c1, he, hi1, hr⟩ := Chomp.chomp_spec c n hi
    obtain ⟨as, c2, he2, hi2, hs2, hx2, hy2⟩ := ih c1 hi1
    refine ⟨r.map BitVec.toNat :: as, c2, ?_, hi2, ?_, ?_, ?_⟩
    · simp [client, he, he2]
    · cases r with
      | none => rw [hr.1] at hs2; exact .refused _ _ _ _ hs2
      | some v =>
        simp only at hr
        obtain ⟨h1, h8, _, hn, hv, hu, _⟩ := hr
        rw [hu] at hs2
        simpa [hv] using SoundAnswers.answered _ _ _ _ h1 h8 hn hs2
    · intro hf
      cases r with
      | none =>
        have hle := Chomp.Full.le hi hf
        have hno : ¬ (1 ≤ n ∧ n ≤ 8 ∧ n ≤ c.unread.length) := by
          rcases hr.2 with ⟨_, h⟩ | ⟨_, _, h, _⟩ <;> omega
        simp [readAll, Spec.readBits, hno, upToRefusal]
      | some v =>
        simp only at hr
        obtain ⟨h1, h8, _, hn, hv, hu, hfull⟩ := hr
        have hyes : (1 ≤ n ∧ n ≤ 8 ∧ n ≤ c.unread.length) := ⟨h1, h8, hn⟩
        have := hx2 (hfull hf)
        rw [hu] at this
        simp [readAll, Spec.readBits, hyes, upToRefusal, hv, this]
    · intro hf hall
      cases r with
      | none => exact absurd rfl (hall none (by simp))
      | some v =>
        simp only at hr
        obtain ⟨h1, h8, _, hn, hv, hu, hfull⟩ := hr
        obtain ⟨a1, a2, a3⟩ := hy2 (hfull hf) (fun a ha => hall a (by simp [ha]))
        rw [hu] at a2 a3
        rw [List.length_drop] at a3
        refine ⟨a1, ?_, ?_⟩
        · rw [a2, List.drop_drop, List.sum_cons]
        · rw [List.sum_cons]; omega

/-- **C01, C02.** Whatever is requested, the reader's answers are those of the ideal bit reader on
the MSB-first bit stream of the bytes, up to and including the first refusal: the values are the
next bits, and the first refusal happens exactly when the ideal reader refuses. -/
theorem chomp_reads_stream (bytes : List U8) (requests : List Nat) :
    ∃ answers c, client (Chomp.new bytes) requests = .ret (answers, c) ∧
      upToRefusal answers = upToRefusal (readAll (streamOf bytes) requests) := by
  obtain ⟨as, c', he, _, _, h, _⟩ := client_spec requests _ (Chomp.new_inv bytes)
  rw [Chomp.new_unread] at h
  exact ⟨as, c', he, h (Chomp.new_full bytes)⟩

/-- **C02**, spelled out: after requests that were all answered, the next request for `n` bits is
refused iff `n` is outside `1..=8` or fewer than `n` bits of the vector are unread. -/
theorem chomp_refuses_iff (bytes : List U8) (requests : List Nat) (answers : List (Option Nat))
    (c : Chomp) (hrun : client (Chomp.new bytes) requests = .ret (answers, c))
    (hall : ∀ a ∈ answers, a ≠ none) (n : Nat) :
    ∃ a c', c.chomp n = .ret (a, c') ∧
      (a = none ↔ ¬ (1 ≤ n ∧ n ≤ 8) ∨ 8 * bytes.length < requests.sum + n) := by
  obtain ⟨as, c0, he, hi, _, _, h⟩ := client_spec requests _ (Chomp.new_inv bytes)
  rw [hrun] at he
  simp only [Run.ret.injEq, Prod.mk.injEq] at he
  obtain ⟨rfl, rfl⟩ := he
  obtain ⟨hf, hu, hle⟩ := h (Chomp.new_full bytes) hall
  rw [Chomp.new_unread, length_streamOf] at hle
  have hlen : c.unread.length = 8 * bytes.length - requests.sum := by
    rw [hu, Chomp.new_unread, List.length_drop, length_streamOf]
  by_cases hn : 1 ≤ n ∧ n ≤ 8 ∧ n ≤ c.unread.length
  · obtain ⟨v, c', he', _⟩ := Chomp.chomp_some hi hf hn.1 hn.2.1 hn.2.2
    exact ⟨some v, c', he', by simp; omega⟩
  · obtain ⟨c', he', _⟩ := Chomp.chomp_none (n := n) hi hn
    exact ⟨none, c', he', by simp; omega⟩

/-- non-vacuity: a straddling, fully answered history exists -/
example : ∃ c, client (Chomp.new [0b11101011#8, 0b01101101#8]) [3, 8, 2] =
    .ret ([some 0b111, some 0b01011011, some 0b01], c) := ⟨_, rfl⟩

/-- **C03 is false of the code.** For every byte: read 1 bit, ask for 8 (refused, 7 are left), ask
for the 7 bits that are left: the reader refuses, although the ideal reader answers. -/
theorem chomp_refusal_loses_bits (b : U8) :
    (∃ v c, client (Chomp.new [b]) [1, 8, 7] = .ret ([some v, none, none], c)) ∧
    (∃ v w, readAll (streamOf [b]) [1, 8, 7] = [some v, none, some w]) := by
  refine ⟨⟨_, _, rfl⟩, ⟨bitsToNat (streamOf [b] |>.take 1), bitsToNat (((streamOf [b]).drop 1).take 7), ?_⟩⟩
  simp [readAll, Spec.readBits]

/-- **C03 (partial).** After a fully answered history, a refused request is harmless when its count
is illegal (the reader is unchanged), or when at most 4 bits are unread: then any request for `m`
of the remaining bits is answered with exactly those bits.
Missing w.r.t. C03: refusals while 5, 6 or 7 bits are unread, and repeated refusals; the previous
theorem shows that these really fail. -/
theorem chomp_refusal_harmless_partial (bytes : List U8) (requests : List Nat)
    (answers : List (Option Nat)) (c : Chomp)
    (hrun : client (Chomp.new bytes) requests = .ret (answers, c))
    (hall : ∀ a ∈ answers, a ≠ none) (n : Nat) (c' : Chomp)
    (href : c.chomp n = .ret (none, c')) :
    (¬ (1 ≤ n ∧ n ≤ 8) → c' = c) ∧
    (8 * bytes.length ≤ requests.sum + 4 →
      ∀ m, 1 ≤ m → requests.sum + m ≤ 8 * bytes.length →
        ∃ v c'', c'.chomp m = .ret (some v, c'') ∧
          v.toNat = bitsToNat (((streamOf bytes).drop requests.sum).take m)) := by
  obtain ⟨as, c0, he, hi, _, _, h⟩ := client_spec requests _ (Chomp.new_inv bytes)
  rw [hrun] at he
  simp only [Run.ret.injEq, Prod.mk.injEq] at he
  obtain ⟨rfl, rfl⟩ := he
  obtain ⟨hf, hu, hle⟩ := h (Chomp.new_full bytes) hall
  rw [Chomp.new_unread, length_streamOf] at hle
  rw [Chomp.new_unread] at hu
  have hlen : c.unread.length = 8 * bytes.length - requests.sum := by
    rw [hu, List.length_drop, length_streamOf]
  obtain ⟨r, c1, he1, hi1, hr⟩ := Chomp.chomp_spec c n hi
  rw [href] at he1
  simp only [Run.ret.injEq, Prod.mk.injEq] at he1
  obtain ⟨rfl, rfl⟩ := he1
  have hfl := Chomp.Full.le hi hf
  refine ⟨?_, ?_⟩
  · intro hn
    rcases hr.2 with ⟨h, _⟩ | h
    · exact h
    · exact absurd ⟨h.1, h.2.1⟩ hn
  · intro h4 m hm1 hm
    obtain ⟨r2, c2, he2, hi2, hr2⟩ := Chomp.chomp_spec c' m hi1
    cases r2 with
    | some v => exact ⟨v, c2, he2, by rw [hr2.2.2.2.2.1, hr.1, hu]⟩
    | none =>
      exfalso
      have hu' := hr.1
      rcases hr2.2 with ⟨_, h⟩ | ⟨_, _, h, _⟩
      · rcases hr.2 with ⟨h0, _⟩ | ⟨_, _, _, hb, hbs, hlb, _⟩
        · subst h0; omega
        · -- the counter covered the whole last byte before the refusal
          have : 8 ≤ c.bitsLeft := by
            cases hc : c.currentByte with
            | none => rw [Chomp.Inv, hc] at hi; simp only at hi; omega
            | some b => rw [Chomp.Full, hc, hbs] at hf; simpa using hf
          omega
      · rw [hu'] at h; omega

example : ∃ c c', client (Chomp.new [0b11000100#8]) [2, 4] = .ret ([some 3, some 1], c) ∧
    c.chomp 3 = .ret (none, c') ∧ ∃ v c'', c'.chomp 2 = .ret (some v, c'') :=
  ⟨_, _, rfl, rfl, _, _, rfl⟩

/-- **C04.** For every byte vector and every request history, including illegal and refused
requests, nothing panics and every answer is exactly the next unread bits. -/
theorem chomp_never_panics_and_sound (bytes : List U8) (requests : List Nat) :
    ∃ answers c, client (Chomp.new bytes) requests = .ret (answers, c) ∧
      SoundAnswers (streamOf bytes) requests answers := by
  obtain ⟨as, c', he, _, h, _⟩ := client_spec requests _ (Chomp.new_inv bytes)
  rw [Chomp.new_unread] at h
  exact ⟨as, c', he, h⟩

example : ∃ c, client (Chomp.new [0xA5#8]) [9, 3, 8, 0, 5] =
    .ret ([none, some 5, none, none, none], c) := ⟨_, rfl⟩

theorem client16_spec (rs : List Req) (c : Chomp) (hi : c.Inv) (hf : c.Full)
    (h16 : ∀ r ∈ rs, ∀ n, r = Req.bits16 n → n ≤ 16) :
    ∃ as c', client16 c rs = .ret (as, c') ∧
      upToRefusal as = upToRefusal (serve c.unread rs) := by
  -- after a refusal nothing is claimed, but the run still must not panic
  have nopanic : ∀ (rs : List Req) (c : Chomp), c.Inv →
      (∀ r ∈ rs, ∀ n, r = Req.bits16 n → n ≤ 16) → ∃ as c', client16 c rs = .ret (as, c') := by
    intro rs
    induction rs with
    | nil => intro c _ _; exact ⟨_, _, rfl⟩
    | cons r rs ih =>
      intro c hi h16
      cases r with
      | bits n =>
        obtain ⟨r, c1, he, hi1, _⟩ := Chomp.chomp_spec c n hi
        obtain ⟨as, c2, he2⟩ := ih c1 hi1 (fun r hr => h16 r (by simp [hr]))
        exact ⟨_, _, by simp [client16, he, he2]; exact ⟨rfl, rfl⟩⟩
      | bits16 n =>
        have hn : n ≤ 16 := h16 _ (by simp) n rfl
        have : ∃ r c1, c.chompOrU16 n () = .ret (r, c1) ∧ c1.Inv := by
          by_cases h8 : n ≤ 8
          · obtain ⟨r, c1, he, hi1, hr⟩ := Chomp.chomp_spec c n hi
            rw [Chomp.chompOrU16, Chomp.chompOrU16Go_eq, if_neg (by omega), he]
            cases r with
            | none => exact ⟨_, _, rfl, hi1⟩
            | some v =>
              have hv' := v.isLt
              have h0 : (0#16).toNat + (v.setWidth 16).toNat < 65536 := by simp; omega
              simp only [Run.ret_bind]
              rw [checkedAdd16, if_pos h0]
              exact ⟨_, _, rfl, hi1⟩
          · obtain ⟨r, c1, he, hi1, hr⟩ := Chomp.chomp_spec c 8 hi
            rw [Chomp.chompOrU16, Chomp.chompOrU16Go_eq, if_pos (by omega), he]
            cases r with
            | none => exact ⟨_, _, rfl, hi1⟩
            | some v =>
              simp only [Run.ret_bind]
              rw [checkedShl16, if_pos (by omega)]
              simp only [Run.ret_bind]
              rw [Chomp.chompOrU16Go_eq, if_neg (by omega)]
              obtain ⟨r2, c2, he2, hi2, hr2⟩ := Chomp.chomp_spec c1 (n - 8) hi1
              rw [he2]
              cases r2 with
              | none => exact ⟨_, _, rfl, hi2⟩
              | some w =>
                have hv' := v.isLt
                have hw : w.toNat < 2 ^ (n - 8) := by
                  rw [hr2.2.2.2.2.1]
                  refine Nat.lt_of_lt_of_le (bitsToNat_lt _) ?_
                  exact Nat.pow_le_pow_right (by decide) (by simp; omega)
                have hsh : ((v.setWidth 16) <<< (n - 8) : U16).toNat ≤ 65536 - 2 ^ (n - 8) := by
                  rw [BitVec.toNat_shiftLeft, Nat.shiftLeft_eq]
                  have h2 : (v.setWidth 16 : U16).toNat = v.toNat := by simp; omega
                  rw [h2]
                  have h3 : v.toNat * 2 ^ (n - 8) ≤ 255 * 2 ^ (n - 8) :=
                    Nat.mul_le_mul_right _ (by omega)
                  have h4 : 2 ^ (n - 8) ≤ 2 ^ 8 := Nat.pow_le_pow_right (by decide) (by omega)
                  have h5 := Nat.mod_le (v.toNat * 2 ^ (n - 8)) (2 ^ 16)
                  omega
                have hw16 : (w.setWidth 16 : U16).toNat = w.toNat := by
                  have := w.isLt
                  simp; omega
                simp only [Run.ret_bind]
                rw [checkedAdd16, if_pos (by
                  have h4 : 2 ^ (n - 8) ≤ 2 ^ 8 := Nat.pow_le_pow_right (by decide) (by omega)
                  omega)]
                exact ⟨_, _, rfl, hi2⟩
        obtain ⟨r, c1, he, hi1⟩ := this
        obtain ⟨as, c2, he2⟩ := ih c1 hi1 (fun r hr => h16 r (by simp [hr]))
        exact ⟨_, _, by simp [client16, he, he2]; exact ⟨rfl, rfl⟩⟩
  induction rs generalizing c with
  | nil => exact ⟨[], c, rfl, rfl⟩
  | cons r rs ih =>
    have h16' : ∀ r ∈ rs, ∀ n, r = Req.bits16 n → n ≤ 16 := fun r hr => h16 r (by simp [hr])
    cases r with
    | bits n =>
      by_cases hn : 1 ≤ n ∧ n ≤ 8 ∧ n ≤ c.unread.length
      · obtain ⟨v, c1, he, hi1, hf1, hv, hu⟩ := Chomp.chomp_some hi hf hn.1 hn.2.1 hn.2.2
        obtain ⟨as, c2, he2, ha⟩ := ih c1 hi1 hf1 h16'
        refine ⟨some v.toNat :: as, c2, by simp [client16, he, he2], ?_⟩
        rw [hu] at ha
        rw [serve, if_pos (by simpa [Req.count, Req.limit] using hn)]
        simp [upToRefusal, ha, hv, Req.count]
      · obtain ⟨c1, he, hi1, _⟩ := Chomp.chomp_none (n := n) hi hn
        obtain ⟨as, c2, he2⟩ := nopanic rs c1 hi1 h16'
        refine ⟨none :: as, c2, by simp [client16, he, he2], ?_⟩
        rw [serve, if_neg (by simpa [Req.count, Req.limit] using hn)]
        simp [upToRefusal]
    | bits16 n =>
      have h16n : n ≤ 16 := h16 _ (by simp) n rfl
      by_cases hn : 1 ≤ n ∧ n ≤ c.unread.length
      · obtain ⟨v, c1, he, hi1, hf1, hv, hu⟩ := Chomp.chompOrU16_some () hi hf hn.1 h16n hn.2
        obtain ⟨as, c2, he2, ha⟩ := ih c1 hi1 hf1 h16'
        refine ⟨some v.toNat :: as, c2, by simp [client16, he, he2], ?_⟩
        rw [hu] at ha
        rw [serve, if_pos (by simp [Req.count, Req.limit]; omega)]
        simp [upToRefusal, ha, hv, Req.count]
      · obtain ⟨c1, he, hi1⟩ := Chomp.chompOrU16_err () hi h16n hn
        obtain ⟨as, c2, he2⟩ := nopanic rs c1 hi1 h16'
        refine ⟨none :: as, c2, by simp [client16, he, he2], ?_⟩
        rw [serve, if_neg (by simp [Req.count, Req.limit]; omega)]
        simp [upToRefusal]

/-- **C05.** Any mixture of `chomp(n)` and `chomp_or_u16(n, err)` with `n ≤ 16` behaves like the
ideal reader up to and including the first refusal: 16-bit reads return the next `n` bits MSB-first,
consume exactly those, and fail exactly when `n = 0` or fewer than `n` bits are unread. -/
theorem chomp_u16_reads_stream (bytes : List U8) (requests : List Req)
    (h16 : ∀ r ∈ requests, ∀ n, r = Req.bits16 n → n ≤ 16) :
    ∃ answers c, client16 (Chomp.new bytes) requests = .ret (answers, c) ∧
      upToRefusal answers = upToRefusal (serve (streamOf bytes) requests) := by
  have := client16_spec requests _ (Chomp.new_inv bytes) (Chomp.new_full bytes) h16
  rwa [Chomp.new_unread] at this

/-- **C05**, the error value: on refusal the caller's error value is returned, and nothing else. -/
theorem chomp_or_u16_error_value {E : Type} (bytes : List U8) (n : Nat) (err : E) (h16 : n ≤ 16) :
    (∃ c v, (Chomp.new bytes).chompOrU16 n err = .ret (.ok v, c) ∧
        v.toNat = bitsToNat ((streamOf bytes).take n) ∧ 1 ≤ n ∧ n ≤ 8 * bytes.length) ∨
    (∃ c, (Chomp.new bytes).chompOrU16 n err = .ret (.error err, c) ∧
        ¬ (1 ≤ n ∧ n ≤ 8 * bytes.length)) := by
  have hl : (Chomp.new bytes).unread.length = 8 * bytes.length := by
    rw [Chomp.new_unread, length_streamOf]
  by_cases hn : 1 ≤ n ∧ n ≤ 8 * bytes.length
  · obtain ⟨v, c', he, _, _, hv, _⟩ := Chomp.chompOrU16_some err (Chomp.new_inv bytes)
      (Chomp.new_full bytes) hn.1 h16 (by rw [hl]; exact hn.2)
    rw [Chomp.new_unread] at hv
    exact .inl ⟨c', v, he, hv, hn⟩
  · obtain ⟨c', he, _⟩ := Chomp.chompOrU16_err err (Chomp.new_inv bytes) h16 (by rw [hl]; exact hn)
    exact .inr ⟨c', he, hn⟩

example : ∃ c, client16 (Chomp.new [0b11000100#8, 0b10101010#8]) [.bits16 12, .bits 4, .bits 4] =
    .ret ([some 0b110001001010, some 0b1010, none], c) := ⟨_, rfl⟩

/-- **C06 is false of the code.** The documented error for more than 16 bits is not produced:
with enough bits, 17 to 23 bits give `Ok`, and 24 or more bits panic (shift overflow; in a build
without overflow checks the shift wraps instead). -/
theorem chomp_or_u16_over_16 {E : Type} (bytes : List U8) (n : Nat) (err : E) (h17 : 17 ≤ n)
    (hn : n ≤ 8 * bytes.length) :
    (n ≤ 23 → ∃ v c, (Chomp.new bytes).chompOrU16 n err = .ret (.ok v, c)) ∧
    (24 ≤ n → (Chomp.new bytes).chompOrU16 n err = .panic) := by
  have hi := Chomp.new_inv bytes
  have hf := Chomp.new_full bytes
  have hl : (Chomp.new bytes).unread.length = 8 * bytes.length := by
    rw [Chomp.new_unread, length_streamOf]
  obtain ⟨v, c1, he, hi1, hf1, hv, hu⟩ := Chomp.chomp_some (n := 8) hi hf (by omega) (by omega)
    (by omega)
  refine ⟨?_, ?_⟩
  · intro h23
    obtain ⟨w, c2, he2, hi2, hf2, hw, hu2⟩ := Chomp.chompOrU16_some (c := c1) (n := n - 8) err hi1 hf1
      (by omega) (by omega) (by rw [hu, List.length_drop]; omega)
    refine ⟨w, c2, ?_⟩
    rw [Chomp.chompOrU16, Chomp.chompOrU16Go_eq, if_pos (by omega), he]
    simp only [Run.ret_bind]
    rw [checkedShl16, if_pos (by omega)]
    simp only [Run.ret_bind]
    -- the accumulated value is overwritten, so the tail equals a fresh 16-bit read
    rw [Chomp.chompOrU16, Chomp.chompOrU16Go_eq, if_pos (by omega)] at he2
    rw [Chomp.chompOrU16Go_eq, if_pos (by omega)]
    exact he2
  · intro h24
    rw [Chomp.chompOrU16, Chomp.chompOrU16Go_eq, if_pos (by omega), he]
    simp only [Run.ret_bind]
    rw [checkedShl16, if_neg (by omega)]
    rfl

/-- **C06 (partial).** With too few bits, 17 to 23 bits do return the error; so do requests on an
empty vector. Missing: the documented error when the bits are available (refuted above). -/
theorem chomp_or_u16_over_16_partial {E : Type} (bytes : List U8) (n : Nat) (err : E) (h17 : 17 ≤ n)
    (h : (n ≤ 23 ∧ 8 * bytes.length < n) ∨ bytes = []) :
    ∃ c, (Chomp.new bytes).chompOrU16 n err = .ret (.error err, c) := by
  have hi := Chomp.new_inv bytes
  have hl : (Chomp.new bytes).unread.length = 8 * bytes.length := by
    rw [Chomp.new_unread, length_streamOf]
  rw [Chomp.chompOrU16, Chomp.chompOrU16Go_eq, if_pos (by omega)]
  obtain ⟨r, c1, he, hi1, hr⟩ := Chomp.chomp_spec (Chomp.new bytes) 8 hi
  rw [he]
  cases r with
  | none => exact ⟨c1, rfl⟩
  | some v =>
    have h8 := hr.2.2.2.1
    have hu := hr.2.2.2.2.2.1
    rcases h with ⟨h23, hlt⟩ | rfl
    · simp only [Run.ret_bind]
      rw [checkedShl16, if_pos (by omega)]
      simp only [Run.ret_bind]
      obtain ⟨c2, he2, _⟩ := Chomp.chompOrU16_err (c := c1) (n := n - 8) err hi1 (by omega)
        (by rw [hu, List.length_drop]; omega)
      refine ⟨c2, ?_⟩
      rw [Chomp.chompOrU16, Chomp.chompOrU16Go_eq, if_pos (by omega)] at he2
      rw [Chomp.chompOrU16Go_eq, if_pos (by omega)]
      exact he2
    · simp at hl; rw [hl] at h8; simp at h8

example : ∃ c, (Chomp.new [1#8, 2#8]).chompOrU16 17 "err" = .ret (.error "err", c) :=
  chomp_or_u16_over_16_partial _ _ _ (by decide) (.inl (by decide))

end Verif.Props
