import Verif.Lemmas.Format
import Verif.Spec.Galois
/-!
# Properties C19–C23: format information and masks

Specification: `Verif.Spec.Format` (positions of the two copies, the BCH(15,5) words, the mask
conditions).
-/
namespace Verif.Props
open Spec

/-- The format of `q` is read as level `l` and mask `k`: `format` returns `l` and a mask that returns,
for every grid and position, the module xor the ISO mask condition of mask `k` (and panics outside
the grid). -/
def ReadsAs (q : QRData) (l : ECLevel) (k : Nat) : Prop :=
  ∃ m, format q = .ok (l, m) ∧ ∀ q' x y, x < 2 ^ 16 → y < 2 ^ 16 →
    m q' x y = match moduleAt q' x y with
      | some b => .ret (xor b (isoMask k y x))
      | none => .panic

/-! ### from words to `ReadsAs` -/

theorem xor_xor (a m : List Bool) : (a.zipWith xor m).zipWith xor m = a.take m.length := by
  induction a generalizing m with
  | nil => simp
  | cons x a ih =>
    cases m with
    | nil => simp
    | cons y m => simp [ih]

theorem flip_mask (w e : List Bool) :
    (flipBits w e).zipWith xor MASK = (w.zipWith xor MASK).zipWith xor e := by
  unfold flipBits
  generalize MASK = m
  induction w generalizing e m with
  | nil => simp
  | cons x w ih =>
    cases e with
    | nil => simp
    | cons y e =>
      cases m with
      | nil => simp
      | cons z m => simp only [List.zipWith_cons_cons, ih]; cases x <;> cases y <;> cases z <;> rfl

theorem word_facts : ∀ l k, k < 8 →
    (formatWord l k).length = 15 ∧
    formatSyndrome 1 ((formatWord l k).zipWith xor MASK) = ⟨0⟩ ∧
    formatSyndrome 3 ((formatWord l k).zipWith xor MASK) = ⟨0⟩ ∧
    formatSyndrome 5 ((formatWord l k).zipWith xor MASK) = ⟨0⟩ := by
  intro l k hk
  have : ∀ k : Fin 8, (formatWord l k.val).length = 15 ∧
    formatSyndrome 1 ((formatWord l k.val).zipWith xor MASK) = ⟨0⟩ ∧
    formatSyndrome 3 ((formatWord l k.val).zipWith xor MASK) = ⟨0⟩ ∧
    formatSyndrome 5 ((formatWord l k.val).zipWith xor MASK) = ⟨0⟩ := by
    cases l <;> decide +kernel
  exact this ⟨k, hk⟩

theorem word_bits : ∀ l k, k < 8 → ∃ f0 f1 f2 f3 f4 rest,
    (formatWord l k).zipWith xor MASK = f0 :: f1 :: f2 :: f3 :: f4 :: rest ∧
    errorCorrection (2 * bitVal f0 + bitVal f1) = some l ∧
    4 * bitVal f2 + 2 * bitVal f3 + bitVal f4 = k := by
  intro l k hk
  match k, hk with
  | 0, _ => cases l <;> exact ⟨_, _, _, _, _, _, rfl, rfl, rfl⟩
  | 1, _ => cases l <;> exact ⟨_, _, _, _, _, _, rfl, rfl, rfl⟩
  | 2, _ => cases l <;> exact ⟨_, _, _, _, _, _, rfl, rfl, rfl⟩
  | 3, _ => cases l <;> exact ⟨_, _, _, _, _, _, rfl, rfl, rfl⟩
  | 4, _ => cases l <;> exact ⟨_, _, _, _, _, _, rfl, rfl, rfl⟩
  | 5, _ => cases l <;> exact ⟨_, _, _, _, _, _, rfl, rfl, rfl⟩
  | 6, _ => cases l <;> exact ⟨_, _, _, _, _, _, rfl, rfl, rfl⟩
  | 7, _ => cases l <;> exact ⟨_, _, _, _, _, _, rfl, rfl, rfl⟩

theorem readsAs_of_finish (q : QRData) (l : ECLevel) (k : Nat) (hk : k < 8)
    (h : format q = finishFormat (.ok ((formatWord l k).zipWith xor MASK))) : ReadsAs q l k := by
  obtain ⟨f0, f1, f2, f3, f4, rest, he, hl, hm⟩ := word_bits l k hk
  obtain ⟨m, hms⟩ := mask_some f2 f3 f4
  refine ⟨m, ?_, ?_⟩
  · rw [h, he]; simp only [finishFormat, hl, hms]
  · intro q' x y hx hy
    exact mask_reads k hk m (hm ▸ hms) q' x y hx hy

/-- The 15 code word bits of `(l, k)` with pattern `e`, as `correct` sees them. -/
theorem correct_flip (l : ECLevel) (k : Nat) (hk : k < 8) (e : List Bool) (he : e.length = 15) :
    formatCorrect ((flipBits (formatWord l k) e).zipWith xor MASK) =
      (formatCorrect e).map (((formatWord l k).zipWith xor MASK).zipWith xor ·) := by
  obtain ⟨h15, h1, h3, h5⟩ := word_facts l k hk
  rw [flip_mask]
  exact formatCorrect_xor _ _ (by rw [zip_mask_length _ h15, he]) h1 h3 h5

theorem xor_false (w : List Bool) (h : w.length = 15) :
    w.zipWith xor (List.replicate 15 false) = w := by
  rw [← h]
  clear h
  induction w with
  | nil => rfl
  | cons x w ih => simp [List.replicate_succ, ih]

/-- Membership of the last flip. -/
abbrev lastFlipped (e : List Bool) : Bool := e.getD 14 false

theorem two_flips_table : ∀ e ∈ patterns 15 2,
    (lastFlipped e = false → formatCorrect e = .ok (List.replicate 15 false)) ∧
    (lastFlipped e = true → formatCorrect e = .err ⟨"Format information corrupted"⟩) := by
  decide +kernel

/-! ### C19 -/

/-- C19, first copy: whatever the second copy and all other modules contain. -/
theorem clean_format_first_copy (q : QRData) (l : ECLevel) (k : Nat) (hk : k < 8)
    (h : Shows q formatCopy1 (formatWord l k)) : ReadsAs q l k := by
  apply readsAs_of_finish q l k hk
  rw [format_eq, format1_shows q _ h]
  obtain ⟨-, h1, -, -⟩ := word_facts l k hk
  have : formatCorrect ((formatWord l k).zipWith xor MASK) =
      .ok ((formatWord l k).zipWith xor MASK) := by
    unfold formatCorrect
    simp only
    rw [if_pos h1]
  rw [this]

/-- C19, second copy: if a grid showing the first copy's bits `w1` twice is not readable, then the
second copy's clean word is used. -/
theorem clean_format_second_copy (q : QRData) (hs : 8 ≤ q.side) (l : ECLevel) (k : Nat) (hk : k < 8)
    (w1 : List Bool) (h1 : Shows q formatCopy1 w1)
    (h2 : Shows q (formatCopy2 q.side) (formatWord l k))
    (hbad : ∃ q', 8 ≤ q'.side ∧ Shows q' formatCopy1 w1 ∧ Shows q' (formatCopy2 q'.side) w1 ∧
      ∀ x, format q' ≠ .ok x) : ReadsAs q l k := by
  obtain ⟨q', hs', h1', h2', hx⟩ := hbad
  obtain ⟨h15, hsyn, -, -⟩ := word_facts l k hk
  rw [format_shows q' hs' w1 w1 h1' h2'] at hx
  apply readsAs_of_finish q l k hk
  rw [format_shows q hs w1 _ h1 h2]
  rcases formatOf_cases w1 (formatWord l k) (shows_length h1) h15 with ⟨x, h, _⟩ | ⟨_, h, _⟩
  · exact absurd h (hx x)
  · rw [h]
    have : formatCorrect ((formatWord l k).zipWith xor MASK) =
        .ok ((formatWord l k).zipWith xor MASK) := by
      unfold formatCorrect
      simp only
      rw [if_pos hsyn]
    unfold formatOf
    rw [this]

/-! ### C20 -/

/-- C20. At most two flipped bits in the first copy, none of them the last bit: the format is read
correctly, whatever the second copy contains. -/
theorem two_flips_corrected (q : QRData) (l : ECLevel) (k : Nat) (hk : k < 8) (e : List Bool)
    (he : e.length = 15) (hw : weight e ≤ 2) (hlast : e.getD 14 false = false)
    (h : Shows q formatCopy1 (flipBits (formatWord l k) e)) : ReadsAs q l k := by
  apply readsAs_of_finish q l k hk
  have ht := (two_flips_table e (mem_patterns 15 2 e he hw)).1 hlast
  obtain ⟨h15, -⟩ := word_facts l k hk
  rw [format_eq, format1_shows q _ h, correct_flip l k hk e he, ht]
  simp only [Outcome.map]
  rw [xor_false _ (zip_mask_length _ h15)]

/-- C20. At most two flipped bits including the last one: the first copy is rejected, and the result
is exactly that of a grid showing the second copy's bits in both copies. -/
theorem two_flips_rejected (q : QRData) (hs : 8 ≤ q.side) (l : ECLevel) (k : Nat) (hk : k < 8)
    (e : List Bool) (he : e.length = 15) (hw : weight e ≤ 2) (hlast : e.getD 14 false = true)
    (h : Shows q formatCopy1 (flipBits (formatWord l k) e)) (w2 : List Bool)
    (h2 : Shows q (formatCopy2 q.side) w2) (q' : QRData) (hs' : 8 ≤ q'.side)
    (h1' : Shows q' formatCopy1 w2) (h2' : Shows q' (formatCopy2 q'.side) w2) :
    format q = format q' := by
  have ht := (two_flips_table e (mem_patterns 15 2 e he hw)).2 hlast
  rw [format_shows q hs _ w2 h h2, format_shows q' hs' w2 w2 h1' h2']
  unfold formatOf
  rw [correct_flip l k hk e he, ht]
  simp only [Outcome.map]
  rcases formatCorrect_total _ (zip_mask_length w2 (shows_length h1')) with ⟨r, hr, _⟩ | hr <;> rw [hr]

/-- C20, summary: with at most two flips in the first copy and a clean second copy, or at most two
flips in each copy and the last bit of the first or of the second copy intact, the format is read
correctly; with the last bit flipped in both it is an error, never a misread. -/
theorem two_flips_never_misread (q : QRData) (hs : 8 ≤ q.side) (l : ECLevel) (k : Nat) (hk : k < 8)
    (e1 e2 : List Bool) (he1 : e1.length = 15) (he2 : e2.length = 15)
    (hw1 : weight e1 ≤ 2) (hw2 : weight e2 ≤ 2)
    (h1 : Shows q formatCopy1 (flipBits (formatWord l k) e1))
    (h2 : Shows q (formatCopy2 q.side) (flipBits (formatWord l k) e2)) :
    (e1.getD 14 false = true ∧ e2.getD 14 false = true →
      format q = .err ⟨"Format information corrupted"⟩) ∧
    (¬ (e1.getD 14 false = true ∧ e2.getD 14 false = true) → ReadsAs q l k) := by
  have t1 := two_flips_table e1 (mem_patterns 15 2 e1 he1 hw1)
  have t2 := two_flips_table e2 (mem_patterns 15 2 e2 he2 hw2)
  obtain ⟨h15, -⟩ := word_facts l k hk
  constructor
  · intro ⟨a, b⟩
    rw [format_shows q hs _ _ h1 h2]
    unfold formatOf
    rw [correct_flip l k hk e1 he1, t1.2 a, correct_flip l k hk e2 he2, t2.2 b]
    rfl
  · intro hn
    cases ha : e1.getD 14 false with
    | false => exact two_flips_corrected q l k hk e1 he1 hw1 ha h1
    | true =>
      have hb : e2.getD 14 false = false := by
        cases hb : e2.getD 14 false with
        | false => rfl
        | true => exact absurd ⟨ha, hb⟩ hn
      apply readsAs_of_finish q l k hk
      rw [format_shows q hs _ _ h1 h2]
      unfold formatOf
      rw [correct_flip l k hk e1 he1, t1.2 ha, correct_flip l k hk e2 he2, t2.1 hb]
      simp only [Outcome.map]
      rw [xor_false _ (zip_mask_length _ h15)]

/-! ### C21 -/

/-- Positions (as powers of `x` in GF(16)) of the flipped bits. -/
def locators (e : List Bool) : List (BitVec 4) :=
  (List.range 15).filterMap fun i => if e.getD i false then some (mulXPow p4 (14 - i) 1) else none

/-- First and second elementary symmetric function of a list in GF(16). -/
def sym1 (xs : List (BitVec 4)) : BitVec 4 := xs.foldr (· ^^^ ·) 0
/-- See `sym1`. -/
def sym2 : List (BitVec 4) → BitVec 4
  | [] => 0
  | x :: xs => sym2 xs ^^^ polyMul p4 x (sym1 xs)

theorem three_flips_table : ∀ e ∈ patterns 15 3,
    (formatCorrect e = .ok (List.replicate 15 false)) ↔
      (lastFlipped e = false ∧
        (weight e = 3 → sym1 (locators e) ≠ 0 ∧ sym2 (locators e) ≠ 0)) := by
  decide +kernel

/-- C21, the part that holds: at most three flipped bits are corrected if the last bit is not flipped
and, for three flips, neither the sum of the locators nor the sum of their pairwise products is 0.
Missing: the other flip sets, for which the claim is false (`three_flips_misread`,
`two_flips_rejected`). -/
theorem three_flips_corrected_partial (q : QRData) (l : ECLevel) (k : Nat) (hk : k < 8)
    (e : List Bool) (he : e.length = 15) (hw : weight e ≤ 3) (hlast : e.getD 14 false = false)
    (hsym : weight e = 3 → sym1 (locators e) ≠ 0 ∧ sym2 (locators e) ≠ 0)
    (h : Shows q formatCopy1 (flipBits (formatWord l k) e)) : ReadsAs q l k := by
  apply readsAs_of_finish q l k hk
  have ht := (three_flips_table e (mem_patterns 15 3 e he hw)).2 ⟨hlast, hsym⟩
  obtain ⟨h15, -⟩ := word_facts l k hk
  rw [format_eq, format1_shows q _ h, correct_flip l k hk e he, ht]
  simp only [Outcome.map]
  rw [xor_false _ (zip_mask_length _ h15)]

/-- How many of the 455 three-bit flip sets are corrected in the word: 312. -/
theorem three_flips_count :
    ((patterns 15 3).filter fun e => weight e = 3 && formatCorrect e = .ok (List.replicate 15 false)).length
      = 312 ∧ ((patterns 15 3).filter fun e => weight e = 3).length = 455 := by
  decide +kernel

/-- Flips of the bits 0, 3 and 4 (from the left) of the copy. -/
def badFlips : List Bool :=
  [true, false, false, true, true, false, false, false, false, false, false, false, false, false, false]

theorem badFlips_result : formatCorrect badFlips = .ok badFlips := by decide +kernel

/-- C21 is false: for every level and mask, flipping bits 14, 11 and 10 of the first copy makes the
decoder read a different level or mask without any error, whatever the second copy contains. -/
theorem three_flips_misread (q : QRData) (l : ECLevel) (k : Nat) (hk : k < 8)
    (h : Shows q formatCopy1 (flipBits (formatWord l k) badFlips)) :
    ∃ l' k', k' < 8 ∧ l' ≠ l ∧ k' ≠ k ∧ ReadsAs q l' k' := by
  obtain ⟨l', k', hk', hl, hk'', hd⟩ : ∃ l' k', k' < 8 ∧ l' ≠ l ∧ k' ≠ k ∧
      (((formatWord l k).zipWith xor MASK).zipWith xor badFlips).take 5 =
      ((formatWord l' k').zipWith xor MASK).take 5 := by
    have : ∀ k : Fin 8, ∃ l' : ECLevel, ∃ k' : Fin 8, l' ≠ l ∧ k'.val ≠ k.val ∧
        (((formatWord l k.val).zipWith xor MASK).zipWith xor badFlips).take 5 =
        ((formatWord l' k'.val).zipWith xor MASK).take 5 := by
      cases l with
      | low => refine fun k => ⟨.quartile, ?_⟩; revert k; decide +kernel
      | medium => refine fun k => ⟨.high, ?_⟩; revert k; decide +kernel
      | quartile => refine fun k => ⟨.low, ?_⟩; revert k; decide +kernel
      | high => refine fun k => ⟨.medium, ?_⟩; revert k; decide +kernel
    obtain ⟨l', k', h1, h2, h3⟩ := this ⟨k, hk⟩
    exact ⟨l', k'.val, k'.isLt, h1, h2, h3⟩
  refine ⟨l', k', hk', hl, hk'', readsAs_of_finish q l' k' hk' ?_⟩
  rw [format_eq, format1_shows q _ h, correct_flip l k hk _ rfl, badFlips_result]
  simp only [Outcome.map]
  obtain ⟨f0, f1, f2, f3, f4, rest, he, -, -⟩ := word_bits l' k' hk'
  rw [he] at hd ⊢
  obtain ⟨g0, g1, g2, g3, g4, rest', he', -, -⟩ := word_bits l k hk
  rw [he'] at hd ⊢
  simp only [badFlips, List.zipWith_cons_cons, List.take_succ_cons, List.take_zero, List.cons.injEq,
    and_true] at hd ⊢
  obtain ⟨h0, h1, h2, h3, h4⟩ := hd
  rw [h0, h1, h2, h3, h4]
  rfl

/-! ### C22 -/

/-- C22. (1) If a grid showing the first copy's word `w1` twice is readable, the second copy has no
influence; (2) otherwise the result is that of a grid showing the second copy's word twice;
(3) an unreadable word in both copies gives exactly this error. -/
theorem second_copy_is_fallback (q r1 r2 : QRData) (hs : 8 ≤ q.side) (hs1 : 8 ≤ r1.side)
    (hs2 : 8 ≤ r2.side) (w1 w2 : List Bool)
    (h1 : Shows q formatCopy1 w1) (h2 : Shows q (formatCopy2 q.side) w2)
    (h11 : Shows r1 formatCopy1 w1) (h12 : Shows r1 (formatCopy2 r1.side) w1)
    (h21 : Shows r2 formatCopy1 w2) (h22 : Shows r2 (formatCopy2 r2.side) w2) :
    ((∃ x, format r1 = .ok x) → format q = format r1) ∧
    ((∀ x, format r1 ≠ .ok x) → format q = format r2) ∧
    ((∀ x, format r1 ≠ .ok x) → (∀ x, format r2 ≠ .ok x) →
      format q = .err ⟨"Format information corrupted"⟩) := by
  rw [format_shows q hs _ _ h1 h2, format_shows r1 hs1 _ _ h11 h12, format_shows r2 hs2 _ _ h21 h22]
  rcases formatOf_cases w1 w2 (shows_length h1) (shows_length h2) with ⟨x, ha, hb⟩ | ⟨ha, hb, hc⟩
  · exact ⟨fun _ => by rw [ha, hb], fun h => absurd ha (h x), fun h => absurd ha (h x)⟩
  · refine ⟨fun ⟨x, hx⟩ => absurd hx (ha x), fun _ => hb, fun _ h => ?_⟩
    rcases formatOf_cases w2 w2 (shows_length h2) (shows_length h2) with ⟨x, h', _⟩ | ⟨_, _, h'⟩
    · exact absurd h' (h x)
    · rw [hb, h']

/-- C22/C19: reading the format of a grid that contains all format modules never panics. -/
theorem format_never_panics (q : QRData) (hs : 8 ≤ q.side) (w1 w2 : List Bool)
    (h1 : Shows q formatCopy1 w1) (h2 : Shows q (formatCopy2 q.side) w2) :
    (∃ x, format q = .ok x) ∨ format q = .err ⟨"Format information corrupted"⟩ := by
  rw [format_shows q hs _ _ h1 h2]
  rcases formatOf_cases w1 w2 (shows_length h1) (shows_length h2) with ⟨x, _, hb⟩ | ⟨_, hb, _⟩
  · exact .inl ⟨x, hb⟩
  · rcases formatOf_cases w2 w2 (shows_length h2) (shows_length h2) with ⟨x, h', _⟩ | ⟨_, _, h'⟩
    · exact .inl ⟨x, by rw [hb, h']⟩
    · exact .inr (by rw [hb, h'])

/-! ### C23 -/

/-- C23. Each of the eight masks reads a module as its value xor the ISO condition, for all grids and
coordinates (below 2^16; a symbol has at most 177 columns). -/
theorem masks_are_iso (k : Nat) (hk : k < 8) : ∃ m, mask k = some m ∧
    ∀ q x y, x < 2 ^ 16 → y < 2 ^ 16 →
      m q x y = match moduleAt q x y with
        | some b => .ret (xor b (isoMask k y x))
        | none => .panic := by
  obtain ⟨m, hm⟩ : ∃ m, mask k = some m := by
    match k, hk with
    | 0, _ => exact ⟨_, rfl⟩
    | 1, _ => exact ⟨_, rfl⟩
    | 2, _ => exact ⟨_, rfl⟩
    | 3, _ => exact ⟨_, rfl⟩
    | 4, _ => exact ⟨_, rfl⟩
    | 5, _ => exact ⟨_, rfl⟩
    | 6, _ => exact ⟨_, rfl⟩
    | 7, _ => exact ⟨_, rfl⟩
  exact ⟨m, hm, fun q x y hx hy => mask_reads k hk m hm q x y hx hy⟩

/-- C23. Masking is an involution: if a grid shows at `(x, y)` the module `b` xor mask, the mask
recovers `b`. -/
theorem mask_involution (k : Nat) (hk : k < 8) (q : QRData) (x y : Nat) (hx : x < 2 ^ 16)
    (hy : y < 2 ^ 16) (b : Bool) (h : moduleAt q x y = some (xor b (isoMask k y x))) :
    ∃ m, mask k = some m ∧ m q x y = .ret b := by
  obtain ⟨m, hm, hr⟩ := masks_are_iso k hk
  refine ⟨m, hm, ?_⟩
  rw [hr q x y hx hy, h]
  simp

/-- C23. There are exactly eight masks. -/
theorem no_other_mask (k : Nat) (hk : 8 ≤ k) : mask k = none := by
  obtain ⟨n, rfl⟩ : ∃ n, k = n + 8 := ⟨k - 8, by omega⟩
  rfl

/-! ### non-vacuity -/

/-- A version-1 grid with both format copies for level M, mask 5 and everything else light. -/
def exampleGrid (w1 w2 : List Bool) : QRData :=
  { data := (List.range 441).map fun i =>
      match (formatCopy1.zip w1 ++ (formatCopy2 21).zip w2).find? (fun p => p.1.2 * 21 + p.1.1 = i) with
      | some (_, true) => 0#8
      | _ => 255#8
    version := 1
    side := 21 }

example : Shows (exampleGrid (formatWord .medium 5) (formatWord .medium 5)) formatCopy1
    (formatWord .medium 5) := by decide +kernel

example : formatWord .medium 5 =
    [true, false, false, false, false, false, false, true, true, false, false, true, true, true, false] := by
  decide +kernel

/-- Two flips (bits 4 and 12), as in the repository's own unit test. -/
example : ∃ e : List Bool, e.length = 15 ∧ weight e = 2 ∧ e.getD 14 false = false ∧
    Shows (exampleGrid (flipBits (formatWord .high 3) e) (formatWord .low 0)) formatCopy1
      (flipBits (formatWord .high 3) e) :=
  ⟨[false, false, false, false, true, false, false, false, false, false, false, false, true, false, false],
    by decide +kernel⟩

/-- The level returned, if any. -/
def levelRead (r : Outcome (ECLevel × QRMask)) : Option ECLevel :=
  match r with
  | .ok (l, _) => some l
  | _ => none

/-- A flipped last bit: the first copy is rejected and the second one is used. -/
example : ∃ e : List Bool, e.length = 15 ∧ weight e = 1 ∧ e.getD 14 false = true ∧
    Shows (exampleGrid (flipBits (formatWord .high 3) e) (formatWord .high 3)) formatCopy1
      (flipBits (formatWord .high 3) e) ∧
    Shows (exampleGrid (flipBits (formatWord .high 3) e) (formatWord .high 3)) (formatCopy2 21)
      (formatWord .high 3) ∧
    levelRead (format (exampleGrid (flipBits (formatWord .high 3) e) (formatWord .high 3))) = some .high ∧
    levelRead (format (exampleGrid (flipBits (formatWord .high 3) e) (flipBits (formatWord .high 3) e))) = none :=
  ⟨[false, false, false, false, false, false, false, false, false, false, false, false, false, false, true],
    by decide +kernel⟩

example : Shows (exampleGrid (flipBits (formatWord .low 6) badFlips) (formatWord .low 6)) formatCopy1
    (flipBits (formatWord .low 6) badFlips) ∧
    levelRead (format (exampleGrid (flipBits (formatWord .low 6) badFlips) (formatWord .low 6))) = some .quartile := by decide +kernel

end Verif.Props
