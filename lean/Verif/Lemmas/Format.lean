import Verif.Model.Format
import Verif.Spec.Format
/-! Helper lemmas about format information. -/
namespace Verif
open Spec

/-! ### all words with at most `k` set bits -/

/-- All `Bool` lists of length `n` with at most `k` entries `true`. -/
def patterns : Nat → Nat → List (List Bool)
  | 0, _ => [[]]
  | n + 1, 0 => (patterns n 0).map (false :: ·)
  | n + 1, k + 1 => (patterns n (k + 1)).map (false :: ·) ++ (patterns n k).map (true :: ·)

theorem mem_patterns (n k : Nat) (e : List Bool) (hl : e.length = n) (hw : weight e ≤ k) :
    e ∈ patterns n k := by
  induction n generalizing k e with
  | zero =>
    cases e with
    | nil => cases k <;> simp [patterns]
    | cons => simp at hl
  | succ n ih =>
    cases e with
    | nil => simp at hl
    | cons b e =>
      simp only [List.length_cons, Nat.add_right_cancel_iff] at hl
      cases b with
      | false =>
        have hw' : weight e ≤ k := by simpa [weight] using hw
        cases k with
        | zero => simp [patterns, ih 0 e hl hw']
        | succ k => simp [patterns, ih (k + 1) e hl hw']
      | true =>
        have hw' : weight e + 1 ≤ k := by simpa [weight] using hw
        cases k with
        | zero => omega
        | succ k => simp [patterns, ih k e hl (by omega)]

/-! ### linearity -/

theorem gf4_add_swap (a b c d : GF4) :
    (a.add b).add (c.add d) = (a.add c).add (b.add d) := by
  obtain ⟨a⟩ := a; obtain ⟨b⟩ := b; obtain ⟨c⟩ := c; obtain ⟨d⟩ := d
  simp only [GF4.add, GF4.mk.injEq]
  apply BitVec.eq_of_getLsbD_eq
  intro i _
  simp only [BitVec.getLsbD_xor]
  cases a.getLsbD i <;> cases b.getLsbD i <;> cases c.getLsbD i <;> cases d.getLsbD i <;> rfl

theorem gf4_bit_mul (x y : Bool) (c : GF4) :
    (gf4OfBit (xor x y)).mul c = ((gf4OfBit x).mul c).add ((gf4OfBit y).mul c) := by
  obtain ⟨c⟩ := c
  revert x y c
  decide +kernel

theorem fold_add (L : List Nat) (t u : Nat → GF4) (s s' : GF4) :
    L.foldl (fun s i => s.add ((t i).add (u i))) (s.add s') =
      (L.foldl (fun s i => s.add (t i)) s).add (L.foldl (fun s i => s.add (u i)) s') := by
  induction L generalizing s s' with
  | nil => rfl
  | cons i L ih =>
    simp only [List.foldl_cons]
    rw [gf4_add_swap, ih]

theorem getD_zipWith_xor (a b : List Bool) (h : a.length = b.length) (i : Nat) :
    (a.zipWith xor b).getD i false = xor (a.getD i false) (b.getD i false) := by
  simp only [List.getD_eq_getElem?_getD, List.getElem?_zipWith]
  by_cases hi : i < a.length
  · rw [List.getElem?_eq_getElem hi, List.getElem?_eq_getElem (h ▸ hi)]; rfl
  · rw [List.getElem?_eq_none (by omega), List.getElem?_eq_none (by omega)]; rfl

theorem formatSyndrome_xor (k : Nat) (a b : List Bool) (h : a.length = b.length) :
    formatSyndrome k (a.zipWith xor b) = (formatSyndrome k a).add (formatSyndrome k b) := by
  have hl : (a.zipWith xor b).length = a.length := by rw [List.length_zipWith, ← h, Nat.min_self]
  unfold formatSyndrome
  rw [hl, ← h]
  have := fold_add (List.range a.length)
    (fun i => (gf4OfBit (a.getD (a.length - i - 1) false)).mul (exp4 ((k * i) % 15)))
    (fun i => (gf4OfBit (b.getD (a.length - i - 1) false)).mul (exp4 ((k * i) % 15))) ⟨0⟩ ⟨0⟩
  rw [← this]
  congr 1
  funext s i
  rw [getD_zipWith_xor a b h, gf4_bit_mul]

theorem zipWith_modify (a b : List Bool) (i : Nat) :
    (a.zipWith xor b).modify i (fun x => !x) = a.zipWith xor (b.modify i (fun x => !x)) := by
  induction a generalizing b i with
  | nil => cases b <;> cases i <;> simp
  | cons x a ih =>
    cases b with
    | nil => cases i <;> simp
    | cons y b =>
      cases i with
      | zero => simp
      | succ i => simp [ih]

theorem flipAll_length (ps : List Nat) (e r : List Bool) (h : flipAll ps e = .ret r) :
    r.length = e.length := by
  induction ps generalizing e with
  | nil => simp only [flipAll, Run.ret.injEq] at h; rw [h]
  | cons p ps ih =>
    rw [flipAll] at h
    split at h
    · rw [ih _ h]; simp
    · cases h

theorem flipAll_xor (ps : List Nat) (c e : List Bool) (h : c.length = e.length) :
    flipAll ps (c.zipWith xor e) =
      match flipAll ps e with
      | .ret r => .ret (c.zipWith xor r)
      | .panic => .panic := by
  induction ps generalizing e with
  | nil => rfl
  | cons p ps ih =>
    have hl : (c.zipWith xor e).length = e.length := by rw [List.length_zipWith, h, Nat.min_self]
    rw [flipAll, flipAll, hl]
    split
    · rw [zipWith_modify, ih _ (by simp [h])]
    · rfl

theorem flipAll_ret (ps : List Nat) (e : List Bool) (h : ∀ p ∈ ps, p + 1 ≤ e.length) :
    ∃ r, flipAll ps e = .ret r := by
  induction ps generalizing e with
  | nil => exact ⟨_, rfl⟩
  | cons p ps ih =>
    rw [flipAll, if_pos (h p (by simp))]
    exact ih _ (by intro p' hp'; simpa using h p' (by simp [hp']))

theorem log4_le : ∀ x : BitVec 4, log4 ⟨x⟩ ≤ 14 := by decide +kernel

theorem formatErrorPos_le (s1 s3 s5 : GF4) : ∀ p ∈ formatErrorPos s1 s3 s5, p ≤ 14 := by
  intro p hp
  unfold formatErrorPos at hp
  simp only [List.mem_filterMap] at hp
  obtain ⟨i, _, hi⟩ := hp
  split at hi
  · split at hi
    · cases hi; exact log4_le _
    · cases hi
  · cases hi

/-- On 15 bits the correction is total: 15 bits or the fixed error. -/
theorem formatCorrect_total (e : List Bool) (h : e.length = 15) :
    (∃ r, formatCorrect e = .ok r ∧ r.length = 15) ∨
      formatCorrect e = .err ⟨"Format information corrupted"⟩ := by
  unfold formatCorrect
  simp only
  split
  · exact .inl ⟨e, rfl, h⟩
  · obtain ⟨r, hr⟩ := flipAll_ret (formatErrorPos (formatSyndrome 1 e) (formatSyndrome 3 e)
      (formatSyndrome 5 e)) e (fun p hp => by have := formatErrorPos_le _ _ _ p hp; omega)
    rw [hr]
    simp only
    split
    · exact .inl ⟨r, rfl, by rw [flipAll_length _ _ _ hr, h]⟩
    · exact .inr rfl

theorem gf4_zero_add (x : GF4) : (GF4.mk 0).add x = x := by
  obtain ⟨x⟩ := x; simp [GF4.add]

/-- Correcting a code word plus an error pattern is correcting the error pattern. -/
theorem formatCorrect_xor (c e : List Bool) (h : c.length = e.length)
    (h1 : formatSyndrome 1 c = ⟨0⟩) (h3 : formatSyndrome 3 c = ⟨0⟩) (h5 : formatSyndrome 5 c = ⟨0⟩) :
    formatCorrect (c.zipWith xor e) = (formatCorrect e).map (c.zipWith xor ·) := by
  unfold formatCorrect
  simp only
  rw [formatSyndrome_xor 1 _ _ h, formatSyndrome_xor 3 _ _ h, formatSyndrome_xor 5 _ _ h, h1, h3, h5,
    gf4_zero_add, gf4_zero_add, gf4_zero_add]
  split
  · rfl
  · rw [flipAll_xor _ _ _ h]
    cases hf : flipAll (formatErrorPos (formatSyndrome 1 e) (formatSyndrome 3 e)
      (formatSyndrome 5 e)) e with
    | panic => rfl
    | ret r =>
      simp only
      have hl := flipAll_length _ _ _ hf
      rw [formatSyndrome_xor 1 _ _ (by omega), h1, gf4_zero_add]
      split <;> rfl

/-! ### reading the two copies -/

theorem readBitsAt_shows (q : QRData) (ps : List (Nat × Nat)) (w : List Bool) (h : Shows q ps w) :
    readBitsAt q ps = .ret w := by
  unfold Shows at h
  induction ps generalizing w with
  | nil => cases w <;> simp_all [readBitsAt]
  | cons p ps ih =>
    cases w with
    | nil => simp at h
    | cons b w =>
      simp only [List.map_cons, List.cons.injEq] at h
      obtain ⟨hb, hw⟩ := h
      obtain ⟨x, y⟩ := p
      rw [readBitsAt, ih w hw]
      unfold QRData.index
      unfold moduleAt at hb
      simp only at hb
      cases hp : q.data[y * q.side + x]? with
      | none => rw [hp] at hb; simp at hb
      | some v =>
        rw [hp] at hb
        simp only [Option.map_some, Option.some.injEq] at hb
        simp only [← hb]
        congr 2

theorem format1Positions_eq : format1Positions = formatCopy1 := by decide +kernel

theorem format2Positions_eq (side : Nat) (h : 8 ≤ side) :
    format2Positions side = formatCopy2 side := by
  obtain ⟨s, rfl⟩ : ∃ s, side = s + 8 := ⟨side - 8, by omega⟩
  unfold format2Positions formatCopy2
  simp [List.range_succ, List.range_zero]

theorem shows_length {q ps w} (h : Shows q ps w) : w.length = ps.length := by
  have := congrArg List.length h
  simpa using this.symm

theorem format1_shows (q : QRData) (w : List Bool) (h : Shows q formatCopy1 w) :
    format1 q = formatCorrect (w.zipWith xor MASK) := by
  unfold format1
  rw [format1Positions_eq, readBitsAt_shows q _ w h]

theorem format2_shows (q : QRData) (hs : 8 ≤ q.side) (w : List Bool)
    (h : Shows q (formatCopy2 q.side) w) :
    format2 q = formatCorrect (w.zipWith xor MASK) := by
  unfold format2
  rw [if_neg (by omega), format2Positions_eq _ hs, readBitsAt_shows q _ w h]

/-- The last part of `format`. -/
def finishFormat (fmt : Outcome (List Bool)) : Outcome (ECLevel × QRMask) :=
  match fmt with
  | .panic => .panic
  | .err e => .err e
  | .ok (f0 :: f1 :: f2 :: f3 :: f4 :: _) =>
    match errorCorrection (2 * bitVal f0 + bitVal f1),
        mask (4 * bitVal f2 + 2 * bitVal f3 + bitVal f4) with
    | some correction, some mask => .ok (correction, mask)
    | _, _ => .panic
  | .ok _ => .panic

theorem format_eq (q : QRData) :
    format q = finishFormat (match format1 q with | .err _ => format2 q | r => r) := rfl

theorem errorCorrection_some (a b : Bool) :
    ∃ l, errorCorrection (2 * bitVal a + bitVal b) = some l := by
  cases a <;> cases b <;> exact ⟨_, rfl⟩

theorem mask_some (a b c : Bool) :
    ∃ m, mask (4 * bitVal a + 2 * bitVal b + bitVal c) = some m := by
  cases a <;> cases b <;> cases c <;> exact ⟨_, rfl⟩

theorem finishFormat_ok (r : List Bool) (h : r.length = 15) : ∃ x, finishFormat (.ok r) = .ok x := by
  match r, h with
  | f0 :: f1 :: f2 :: f3 :: f4 :: _, _ =>
    obtain ⟨l, hl⟩ := errorCorrection_some f0 f1
    obtain ⟨m, hm⟩ := mask_some f2 f3 f4
    simp only [finishFormat, hl, hm]
    exact ⟨_, rfl⟩

/-- What `format` computes from the 15 bits shown by the two copies. -/
def formatOf (w1 w2 : List Bool) : Outcome (ECLevel × QRMask) :=
  finishFormat (match formatCorrect (w1.zipWith xor MASK) with
    | .err _ => formatCorrect (w2.zipWith xor MASK)
    | r => r)

theorem format_shows (q : QRData) (hs : 8 ≤ q.side) (w1 w2 : List Bool)
    (h1 : Shows q formatCopy1 w1) (h2 : Shows q (formatCopy2 q.side) w2) :
    format q = formatOf w1 w2 := by
  rw [format_eq, format1_shows q w1 h1, format2_shows q hs w2 h2]; rfl

theorem zip_mask_length (w : List Bool) (h : w.length = 15) : (w.zipWith xor MASK).length = 15 := by
  rw [List.length_zipWith, h]; decide

/-- `format` as a function of the two shown words, without panics. -/
theorem formatOf_cases (w1 w2 : List Bool) (h1 : w1.length = 15) (h2 : w2.length = 15) :
    (∃ x, formatOf w1 w1 = .ok x ∧ formatOf w1 w2 = .ok x) ∨
    ((∀ x, formatOf w1 w1 ≠ .ok x) ∧ formatOf w1 w2 = formatOf w2 w2 ∧
      formatOf w1 w1 = .err ⟨"Format information corrupted"⟩) := by
  rcases formatCorrect_total _ (zip_mask_length w1 h1) with ⟨r, hr, hl⟩ | hr
  · obtain ⟨x, hx⟩ := finishFormat_ok r hl
    refine .inl ⟨x, ?_, ?_⟩ <;> simp only [formatOf, hr, hx]
  · refine .inr ⟨?_, ?_, ?_⟩
    · intro x; simp only [formatOf, hr, finishFormat]; intro h; cases h
    · simp only [formatOf, hr]
      rcases formatCorrect_total _ (zip_mask_length w2 h2) with ⟨r2, hr2, hl2⟩ | hr2 <;> rw [hr2]
    · simp only [formatOf, hr, finishFormat]

/-! ### masks -/

theorem mask_reads (k : Nat) (hk : k < 8) (m : QRMask) (hm : mask k = some m) (q : QRData)
    (x y : Nat) (hx : x < 2 ^ 16) (hy : y < 2 ^ 16) :
    m q x y = match moduleAt q x y with
      | some b => .ret (xor b (isoMask k y x))
      | none => .panic := by
  have hp : y * x < 2 ^ 32 := by
    calc y * x ≤ (2 ^ 16 - 1) * (2 ^ 16 - 1) := Nat.mul_le_mul (by omega) (by omega)
      _ < 2 ^ 32 := by decide
  have ha : y + x < 2 ^ 32 := by omega
  have ha' : y / 2 + x / 3 < 2 ^ 32 := by omega
  have hmod : q.index x y = match moduleAt q x y with | some b => .ret b | none => .panic := by
    unfold QRData.index moduleAt
    cases q.data[y * q.side + x]? with
    | none => rfl
    | some v => simp only [Option.map_some]; congr 1
  have hq : ∀ c b, maskClosure k = some c → c x y = .ret b → m q x y = match moduleAt q x y with
      | some v => .ret (xor v b)
      | none => .panic := by
    intro c b hc hb
    rw [mask, hc] at hm
    simp only [Option.map_some, Option.some.injEq] at hm
    rw [← hm, qrmask, hmod]
    cases moduleAt q x y with
    | none => rfl
    | some v => simp only [Run.ret_bind, hb, Run.pure_eq]
  have hbeq : ∀ n : Nat, (n == 0) = decide (n = 0) := fun n => rfl
  match k, hk with
  | 0, _ => exact hq _ _ rfl (by simp only [addU32, if_pos ha, Run.ret_bind, Run.pure_eq, isoMask, hbeq])
  | 1, _ => exact hq _ _ rfl (by simp only [isoMask, hbeq])
  | 2, _ => exact hq _ _ rfl (by simp only [isoMask, hbeq])
  | 3, _ => exact hq _ _ rfl (by simp only [addU32, if_pos ha, Run.ret_bind, Run.pure_eq, isoMask, hbeq])
  | 4, _ => exact hq _ _ rfl (by simp only [addU32, if_pos ha', Run.ret_bind, Run.pure_eq, isoMask, hbeq])
  | 5, _ => exact hq _ _ rfl (by simp only [mulU32, if_pos hp, Run.ret_bind, Run.pure_eq, isoMask, hbeq])
  | 6, _ => exact hq _ _ rfl (by simp only [mulU32, if_pos hp, Run.ret_bind, Run.pure_eq, isoMask, hbeq])
  | 7, _ => exact hq _ _ rfl (by
      simp only [mulU32, addU32, if_pos hp, if_pos ha, Run.ret_bind, Run.pure_eq, isoMask, hbeq]
      rw [Nat.add_comm (y * x % 3)])

end Verif
