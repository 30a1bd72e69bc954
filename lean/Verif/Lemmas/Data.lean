import Verif.Model.Data
import Verif.Spec.Segments
import Verif.Lemmas.Chomp
/-!
Helper: the payload decoder re-expressed on the list of unread bits (no `Chomp` state), and the proof
that the model refines it.
-/
namespace Verif
open Spec

/-- Read `k` bits from a bit list. -/
def takeBits (k : Nat) (e : QRError) (s : List Bool) : Outcome (Nat × List Bool) :=
  if k ≤ s.length then .ok (bitsToNat (s.take k), s.drop k) else .err e

def readErr (k : Nat) : QRError := ⟨"Could not read " ++ toString k ++ " bits"⟩

def refNum : Nat → List Bool → Outcome (List Char × List Bool)
  | n + 3, s => do
    let (d, s) ← takeBits 10 (readErr 10) s
    let (rest, s) ← refNum n s
    return (fmtPad 3 d ++ rest, s)
  | 2, s => do
    let (d, s) ← takeBits 7 (readErr 7) s
    return (fmtPad 2 d, s)
  | 1, s => do
    let (d, s) ← takeBits 4 (readErr 4) s
    return (fmtPad 1 d, s)
  | 0, s => return ([], s)

def refAlnum : Nat → List Bool → Outcome (List Char × List Bool)
  | n + 2, s => do
    let (chars, s) ← takeBits 11 (readErr 11) s
    if chars / 45 > 44 then
      .err ⟨"Invalid character in alphanumeric data " ++ toString (chars / 45)⟩
    else do
      let a ← alnumChar (chars / 45)
      let b ← alnumChar (chars % 45)
      let (rest, s) ← refAlnum n s
      return (a :: b :: rest, s)
  | 1, s => do
    let (chars, s) ← takeBits 6 (readErr 6) s
    let a ← alnumChar chars
    return ([a], s)
  | 0, s => return ([], s)

def refBytes : Nat → List Bool → Outcome (List U8 × List Bool)
  | n + 1, s => do
    let (b, s) ← takeBits 8 (readErr 8) s
    let (rest, s) ← refBytes n s
    return (BitVec.ofNat 8 b :: rest, s)
  | 0, s => return ([], s)

def refNumeric (version : Nat) (s : List Bool) : Outcome (List Char × List Bool) := do
  let lb ← lengthBits version 10 12 14
  let (length, s) ← takeBits lb ⟨"Could not read " ++ toString lb ++ " bits for numeric length"⟩ s
  refNum length s

def refAlphanumeric (version : Nat) (s : List Bool) : Outcome (List Char × List Bool) := do
  let lb ← lengthBits version 9 11 13
  let (length, s) ← takeBits lb
    ⟨"Could not read " ++ toString lb ++ " bits for alphanumeric length"⟩ s
  refAlnum length s

def refEightBit (version : Nat) (s : List Bool) : Outcome (List Char × List Bool) := do
  let lb ← lengthBits version 8 16 16
  let (length, s) ← takeBits lb
    ⟨"Could not read " ++ toString lb ++ " bits for alphanumeric length"⟩ s
  let (bytes, s) ← refBytes length s
  let text ← bytesToText bytes
  return (text, s)

def refData (version : Nat) : Nat → List Bool → Outcome (List Char)
  | 0, _ => .panic
  | fuel + 1, s =>
    if s.length < 4 then .ok []
    else
      let mode := bitsToNat (s.take 4)
      let s := s.drop 4
      if mode = 1 then do
        let (t, s) ← refNumeric version s
        let rest ← refData version fuel s
        return t ++ rest
      else if mode = 2 then do
        let (t, s) ← refAlphanumeric version s
        let rest ← refData version fuel s
        return t ++ rest
      else if mode = 4 then do
        let (t, s) ← refEightBit version s
        let rest ← refData version fuel s
        return t ++ rest
      else if mode = 0 then .ok []
      else .err ⟨"Mode " ++ fmtBin4 mode ++ " not yet implemented."⟩

/-- Agreement of a computation on a reader with one on the unread bits. -/
def Agree {α β : Type} (f : α → β) : Outcome (α × Chomp) → Outcome (β × List Bool) → Prop
  | .ok (a, c), .ok (b, s) => f a = b ∧ c.Inv ∧ c.Full ∧ c.unread = s
  | .err e, .err e' => e = e'
  | .panic, .panic => True
  | _, _ => False

theorem Agree.bind {α β γ δ : Type} {f : α → β} {g : γ → δ} {m : Outcome (α × Chomp)}
    {r : Outcome (β × List Bool)} (h : Agree f m r) {k : α × Chomp → Outcome (γ × Chomp)}
    {l : β × List Bool → Outcome (δ × List Bool)}
    (hk : ∀ a c, c.Inv → c.Full → Agree g (k (a, c)) (l (f a, c.unread))) :
    Agree g (m >>= k) (r >>= l) := by
  cases m with
  | ok p =>
    obtain ⟨a, c⟩ := p
    cases r with
    | ok q =>
      obtain ⟨b, s⟩ := q
      obtain ⟨rfl, hi, hf, rfl⟩ := h
      exact hk a c hi hf
    | err e => exact h.elim
    | panic => exact h.elim
  | err e =>
    cases r with
    | ok q => exact h.elim
    | err e' => exact h
    | panic => exact h.elim
  | panic =>
    cases r with
    | ok q => exact h.elim
    | err e' => exact h.elim
    | panic => trivial

theorem agree_u16 {c : Chomp} (hi : c.Inv) (hf : c.Full) {k : Nat} (h1 : 1 ≤ k) (h16 : k ≤ 16)
    (e : QRError) :
    Agree BitVec.toNat (liftRes (c.chompOrU16 k e)) (takeBits k e c.unread) := by
  by_cases hn : k ≤ c.unread.length
  · obtain ⟨v, c', he, hi', hf', hv, hu⟩ := Chomp.chompOrU16_some e hi hf h1 h16 hn
    rw [he, takeBits, if_pos hn]
    exact ⟨hv, hi', hf', hu⟩
  · obtain ⟨c', he, _⟩ := Chomp.chompOrU16_err e hi h16 (by omega)
    rw [he, takeBits, if_neg hn]
    exact rfl

theorem agree_read8 {c : Chomp} (hi : c.Inv) (hf : c.Full) :
    Agree BitVec.toNat (readBits c 8) (takeBits 8 (readErr 8) c.unread) := by
  by_cases hn : 8 ≤ c.unread.length
  · obtain ⟨v, c', he, hi', hf', hv, hu⟩ := Chomp.chomp_some hi hf (by omega) (by omega) hn
    rw [readBits, Chomp.chompOr, he, takeBits, if_pos hn]
    exact ⟨hv, hi', hf', hu⟩
  · obtain ⟨c', he, _⟩ := Chomp.chomp_none (n := 8) hi (by omega)
    rw [readBits, Chomp.chompOr, he, takeBits, if_neg hn]
    exact rfl

theorem agree_num : ∀ (n : Nat) (c : Chomp), c.Inv → c.Full →
    Agree id (numericLoop n c) (refNum n c.unread)
  | n + 3, c, hi, hf => by
    rw [numericLoop, refNum]
    refine (agree_u16 hi hf (by omega) (by omega) _).bind ?_
    intro a c hi hf
    refine (agree_num n c hi hf).bind ?_
    intro t c hi hf
    exact ⟨rfl, hi, hf, rfl⟩
  | 2, c, hi, hf => by
    rw [numericLoop, refNum]
    refine (agree_u16 hi hf (by omega) (by omega) _).bind ?_
    intro a c hi hf
    exact ⟨rfl, hi, hf, rfl⟩
  | 1, c, hi, hf => by
    rw [numericLoop, refNum]
    refine (agree_u16 hi hf (by omega) (by omega) _).bind ?_
    intro a c hi hf
    exact ⟨rfl, hi, hf, rfl⟩
  | 0, c, hi, hf => ⟨rfl, hi, hf, rfl⟩

/-- A result that does not depend on the reader. -/
theorem agree_pure_bind {α γ δ : Type} {g : γ → δ} (m : Outcome α) {k : α → Outcome (γ × Chomp)}
    {l : α → Outcome (δ × List Bool)} (hk : ∀ a, Agree g (k a) (l a)) :
    Agree g (m >>= k) (m >>= l) := by
  cases m with
  | ok a => exact hk a
  | err e => exact rfl
  | panic => trivial

theorem agree_alnum : ∀ (n : Nat) (c : Chomp), c.Inv → c.Full →
    Agree id (alnumLoop n c) (refAlnum n c.unread)
  | n + 2, c, hi, hf => by
    rw [alnumLoop, refAlnum]
    refine (agree_u16 hi hf (by omega) (by omega) _).bind ?_
    intro a c hi hf
    simp only
    split
    · exact rfl
    · refine agree_pure_bind _ fun x => agree_pure_bind _ fun y => ?_
      refine (agree_alnum n c hi hf).bind ?_
      intro t c hi hf
      exact ⟨rfl, hi, hf, rfl⟩
  | 1, c, hi, hf => by
    rw [alnumLoop, refAlnum]
    refine (agree_u16 hi hf (by omega) (by omega) _).bind ?_
    intro a c hi hf
    refine agree_pure_bind _ fun x => ?_
    exact ⟨rfl, hi, hf, rfl⟩
  | 0, c, hi, hf => ⟨rfl, hi, hf, rfl⟩

theorem agree_bytes : ∀ (n : Nat) (c : Chomp), c.Inv → c.Full →
    Agree id (bytesLoop n c) (refBytes n c.unread)
  | n + 1, c, hi, hf => by
    rw [bytesLoop, refBytes]
    refine (agree_read8 hi hf).bind ?_
    intro a c hi hf
    refine (agree_bytes n c hi hf).bind ?_
    intro t c hi hf
    exact ⟨by simp, hi, hf, rfl⟩
  | 0, c, hi, hf => ⟨rfl, hi, hf, rfl⟩

theorem lengthBits_cases {v a b c : Nat} (P : Outcome Nat → Prop) (ha : P (.ok a)) (hb : P (.ok b))
    (hc : P (.ok c)) (he : ∀ e, P (.err e)) : P (lengthBits v a b c) := by
  unfold lengthBits
  split
  · exact ha
  split
  · exact hb
  split
  · exact hc
  · exact he _

theorem agree_numeric (v : Nat) {c : Chomp} (hi : c.Inv) (hf : c.Full) :
    Agree id (numeric c v) (refNumeric v c.unread) := by
  rw [numeric, refNumeric]
  refine lengthBits_cases (fun m => Agree id (m >>= _) (m >>= _)) ?_ ?_ ?_ (fun _ => rfl) <;>
  · refine (agree_u16 hi hf (by omega) (by omega) _).bind ?_
    intro a c hi hf
    exact agree_num _ c hi hf

theorem agree_alphanumeric (v : Nat) {c : Chomp} (hi : c.Inv) (hf : c.Full) :
    Agree id (alphanumeric c v) (refAlphanumeric v c.unread) := by
  rw [alphanumeric, refAlphanumeric]
  refine lengthBits_cases (fun m => Agree id (m >>= _) (m >>= _)) ?_ ?_ ?_ (fun _ => rfl) <;>
  · refine (agree_u16 hi hf (by omega) (by omega) _).bind ?_
    intro a c hi hf
    exact agree_alnum _ c hi hf

theorem agree_eightBit (v : Nat) {c : Chomp} (hi : c.Inv) (hf : c.Full) :
    Agree id (eightBit c v) (refEightBit v c.unread) := by
  rw [eightBit, refEightBit]
  refine lengthBits_cases (fun m => Agree id (m >>= _) (m >>= _)) ?_ ?_ ?_ (fun _ => rfl) <;>
  · refine (agree_u16 hi hf (by omega) (by omega) _).bind ?_
    intro a c hi hf
    refine (agree_bytes _ c hi hf).bind ?_
    intro bs c hi hf
    refine agree_pure_bind _ fun x => ?_
    exact ⟨rfl, hi, hf, rfl⟩

theorem Agree.bind_eq {α γ : Type} {m : Outcome (α × Chomp)}
    {r : Outcome (α × List Bool)} (h : Agree id m r) {k : α × Chomp → Outcome γ}
    {l : α × List Bool → Outcome γ}
    (hk : ∀ a c, c.Inv → c.Full → k (a, c) = l (a, c.unread)) : (m >>= k) = (r >>= l) := by
  cases m with
  | ok p =>
    obtain ⟨a, c⟩ := p
    cases r with
    | ok q =>
      obtain ⟨b, s⟩ := q
      obtain ⟨rfl, hi, hf, rfl⟩ := h
      exact hk a c hi hf
    | err e => exact h.elim
    | panic => exact h.elim
  | err e =>
    cases r with
    | ok q => exact h.elim
    | err e' => exact congrArg Outcome.err h
    | panic => exact h.elim
  | panic =>
    cases r with
    | ok q => exact h.elim
    | err e' => exact h.elim
    | panic => rfl

theorem dataLoop_eq (v : Nat) (fuel : Nat) (c : Chomp) (hi : c.Inv) (hf : c.Full) :
    dataLoop v fuel c = refData v fuel c.unread := by
  induction fuel generalizing c with
  | zero => rfl
  | succ fuel ih =>
    rw [dataLoop, refData]
    by_cases h4 : c.unread.length < 4
    · obtain ⟨c', he, _⟩ := Chomp.chomp_none (n := 4) hi (by omega)
      rw [he, if_pos h4]
    · obtain ⟨m, c', he, hi', hf', hm, hu⟩ := Chomp.chomp_some (n := 4) hi hf (by omega) (by omega)
        (by omega)
      rw [he, if_neg h4]
      have hmode : ∀ k : Nat, k < 256 → (m = BitVec.ofNat 8 k ↔ bitsToNat (c.unread.take 4) = k) := by
        intro k hk
        rw [← hm]
        constructor
        · rintro rfl; simp; omega
        · intro h; rw [← h]; simp
      have e1 := hmode 1 (by omega)
      have e2 := hmode 2 (by omega)
      have e4 := hmode 4 (by omega)
      have e0 := hmode 0 (by omega)
      simp only [e1, e2, e4, e0, ← hu]
      split
      · exact (agree_numeric v hi' hf').bind_eq fun t c hi hf => by simp only [ih c hi hf]
      split
      · exact (agree_alphanumeric v hi' hf').bind_eq fun t c hi hf => by simp only [ih c hi hf]
      split
      · exact (agree_eightBit v hi' hf').bind_eq fun t c hi hf => by simp only [ih c hi hf]
      split
      · rfl
      · rw [hm]

theorem data_eq (input : List U8) (v : Nat) :
    data input v = refData v (8 * input.length + 1) (streamOf input) := by
  rw [data, dataLoop_eq v _ _ (Chomp.new_inv input) (Chomp.new_full input), Chomp.new_unread]

end Verif
