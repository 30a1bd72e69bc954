import Verif.Lemmas.Layout
import Verif.Lemmas.Segments
/-! The column loop of `blocks` reads the specified modules in the specified order. -/
namespace Verif
open Spec

/-- Read the modules at a list of positions. -/
def readPositions (q : QRData) (loc : AlignmentLocation) (m : QRMask) :
    List (Nat × Nat) → Codewords → Run Codewords
  | [], c => .ret c
  | p :: ps, c =>
    match readModule q loc m p.1 p.2 c with
    | .panic => .panic
    | .ret c => readPositions q loc m ps c

theorem readPositions_append (q loc m) (a b : List (Nat × Nat)) (c : Codewords) :
    readPositions q loc m (a ++ b) c =
      match readPositions q loc m a c with
      | .panic => .panic
      | .ret c => readPositions q loc m b c := by
  induction a generalizing c with
  | nil => rfl
  | cons p a ih =>
    simp only [List.cons_append, readPositions]
    cases readModule q loc m p.1 p.2 c with
    | panic => rfl
    | ret c => exact ih c

theorem readPair_eq (q loc m) (x : Nat) (hx : x ≠ 0) (ys : List Nat) (c : Codewords) :
    readPair q loc m x ys c =
      readPositions q loc m (ys.flatMap fun y => [(x, y), (x - 1, y)]) c := by
  induction ys generalizing c with
  | nil => rfl
  | cons y ys ih =>
    simp only [readPair, List.flatMap_cons, List.cons_append, List.nil_append, readPositions, if_neg hx]
    cases readModule q loc m x y c with
    | panic => rfl
    | ret c =>
      simp only
      cases readModule q loc m (x - 1) y c with
      | panic => rfl
      | ret c => exact ih c

/-- The modules of one strip. -/
def strip (v k : Nat) : List (Nat × Nat) :=
  (stripRows v k).flatMap fun y => [(stripColumn v k, y), (stripColumn v k - 1, y)]

theorem yRange_strip (v k : Nat) (hk : k < 2 * v + 8) :
    yRange (stripColumn v k) (sideOf v) = stripRows v k := by
  unfold yRange stripRows
  have h : (if stripColumn v k < 6 then stripColumn v k + 1 else stripColumn v k) =
      sideOf v - 1 - 2 * k := by
    unfold stripColumn sideOf
    simp only
    split <;> split <;> omega
  have hs : sideOf v = 4 * v + 17 := rfl
  simp only [h]
  by_cases hk2 : k % 2 = 0
  · rw [if_pos hk2, if_pos]
    obtain ⟨j, rfl⟩ : ∃ j, k = 2 * j := ⟨k / 2, by omega⟩
    have : ((sideOf v - 1 - 2 * (2 * j) : Nat) : Int) - (sideOf v : Int) + 1 = -(4 * (j : Int)) := by omega
    rw [this, Int.neg_tmod, Int.mul_tmod_right]; rfl
  · rw [if_neg hk2, if_neg]
    obtain ⟨j, rfl⟩ : ∃ j, k = 2 * j + 1 := ⟨k / 2, by omega⟩
    have : ((sideOf v - 1 - 2 * (2 * j + 1) : Nat) : Int) - (sideOf v : Int) + 1 =
      -(4 * (j : Int) + 2) := by omega
    rw [this, Int.neg_tmod, Int.tmod_eq_emod_of_nonneg (by omega)]
    omega

theorem readColumns_eq (q : QRData) (loc m) (v : Nat) (hs : q.side = sideOf v) (n k : Nat)
    (hk : k + n = 2 * v + 8) (hn : n ≠ 0) (fuel : Nat) (hf : n ≤ fuel) (c : Codewords) :
    readColumns q loc m fuel (stripColumn v k) c =
      readPositions q loc m ((List.range' k n).flatMap (strip v)) c := by
  induction n generalizing k fuel c with
  | zero => exact absurd rfl hn
  | succ n ih =>
    cases fuel with
    | zero => omega
    | succ fuel =>
      have hside : sideOf v = 4 * v + 17 := rfl
      have hpos : stripColumn v k ≠ 0 := by
        unfold stripColumn; simp only; split <;> omega
      rw [readColumns, hs, yRange_strip v k (by omega), readPair_eq _ _ _ _ hpos]
      rw [List.range'_succ, List.flatMap_cons, readPositions_append]
      change (match readPositions q loc m (strip v k) c with | .panic => _ | .ret c => _) = _
      cases readPositions q loc m (strip v k) c with
      | panic => rfl
      | ret c =>
        simp only
        by_cases hn0 : n = 0
        · subst hn0
          have : stripColumn v k = 1 := by
            unfold stripColumn; simp only; split <;> omega
          rw [if_pos this]; rfl
        · have h1 : ¬ stripColumn v k = 1 := by
            unfold stripColumn; simp only; split <;> omega
          have h2 : ¬ stripColumn v k < 2 := by
            unfold stripColumn; simp only; split <;> omega
          have h3 : (if stripColumn v k - 2 = 6 then 5 else stripColumn v k - 2) =
              stripColumn v (k + 1) := by
            unfold stripColumn; simp only; repeat' split
            all_goals omega
          rw [if_neg h1, if_neg h2, h3]
          exact ih (k + 1) (by omega) hn0 fuel (by omega) c

theorem readColumns_zigzag (q : QRData) (loc m) (v : Nat) (hs : q.side = sideOf v) (c : Codewords) :
    readColumns q loc m q.side (q.side - 1) c = readPositions q loc m (zigzag v) c := by
  have hside : sideOf v = 4 * v + 17 := rfl
  have h0 : q.side - 1 = stripColumn v 0 := by
    unfold stripColumn; simp only; split <;> omega
  rw [h0, readColumns_eq q loc m v hs (2 * v + 8) 0 (by omega) (by omega) _ (by omega)]
  have : (sideOf v - 1) / 2 = 2 * v + 8 := by omega
  rw [zigzag, this, List.range_eq_range']
  rfl

/-! ### the strips partition the symbol without column 6 -/

theorem mem_strip {v k : Nat} {p : Nat × Nat} :
    p ∈ strip v k ↔ (p.1 = stripColumn v k ∨ p.1 = stripColumn v k - 1) ∧ p.2 < sideOf v := by
  unfold strip
  have hm : ∀ y, y ∈ stripRows v k ↔ y < sideOf v := by
    intro y; unfold stripRows; split <;> simp
  simp only [List.mem_flatMap, hm, List.mem_cons, List.not_mem_nil, or_false]
  obtain ⟨x, y⟩ := p
  simp only [Prod.mk.injEq]
  constructor
  · rintro ⟨a, ha, ⟨rfl, rfl⟩ | ⟨rfl, rfl⟩⟩ <;> simp [ha]
  · rintro ⟨h | h, hy⟩
    · exact ⟨y, hy, .inl ⟨h, rfl⟩⟩
    · exact ⟨y, hy, .inr ⟨h, rfl⟩⟩

theorem zigzag_eq (v : Nat) : zigzag v = (List.range (2 * v + 8)).flatMap (strip v) := by
  have : (sideOf v - 1) / 2 = 2 * v + 8 := by unfold sideOf; omega
  rw [zigzag, this]; rfl

theorem mem_zigzag {v x y : Nat} : (x, y) ∈ zigzag v ↔ x < sideOf v ∧ y < sideOf v ∧ x ≠ 6 := by
  rw [zigzag_eq]
  simp only [List.mem_flatMap, List.mem_range, mem_strip]
  have hside : sideOf v = 4 * v + 17 := rfl
  unfold stripColumn
  simp only
  constructor
  · rintro ⟨k, hk, h, hy⟩
    refine ⟨?_, hy, ?_⟩ <;> split at h <;> omega
  · rintro ⟨hx, hy, h6⟩
    refine ⟨(sideOf v - 1 - (if x < 6 then x + 1 else x)) / 2 , ?_, ?_, hy⟩
    · split <;> omega
    · split <;> split <;> omega

theorem strip_nodup (v k : Nat) (hk : k < 2 * v + 8) : (strip v k).Nodup := by
  have hside : sideOf v = 4 * v + 17 := rfl
  have hpos : stripColumn v k ≠ stripColumn v k - 1 := by
    unfold stripColumn; simp only; split <;> omega
  have hrows : (stripRows v k).Nodup := by
    unfold stripRows
    split
    · exact (List.reverse_perm _).nodup_iff.mpr List.nodup_range
    · exact List.nodup_range
  unfold strip
  revert hrows
  generalize stripRows v k = ys
  intro hrows
  induction ys with
  | nil => simp
  | cons y ys ih =>
    rw [List.nodup_cons] at hrows
    rw [List.flatMap_cons, List.nodup_append]
    refine ⟨by simpa using hpos, ih hrows.2, ?_⟩
    intro a ha b hb hab
    subst hab
    simp only [List.mem_cons, List.not_mem_nil, or_false] at ha
    simp only [List.mem_flatMap, List.mem_cons, List.not_mem_nil, or_false] at hb
    obtain ⟨y', hy', hb⟩ := hb
    have : y = y' := by
      rcases ha with rfl | rfl <;> rcases hb with hb | hb <;> simp only [Prod.mk.injEq] at hb <;> exact hb.2
    exact hrows.1 (this ▸ hy')

theorem zigzag_nodup (v : Nat) : (zigzag v).Nodup := by
  have hside : sideOf v = 4 * v + 17 := rfl
  rw [zigzag_eq]
  have : ∀ n, n ≤ 2 * v + 8 → ((List.range n).flatMap (strip v)).Nodup := by
    intro n hn
    induction n with
    | zero => simp
    | succ n ih =>
      rw [List.range_succ, List.flatMap_append, List.nodup_append]
      refine ⟨ih (by omega), by simpa using strip_nodup v n (by omega), ?_⟩
      rintro ⟨x, y⟩ ha b hb rfl
      simp only [List.mem_flatMap, List.mem_range, mem_strip, List.mem_cons, List.not_mem_nil,
        or_false] at ha hb
      obtain ⟨k, hk, hx, -⟩ := ha
      obtain ⟨_, rfl, hx', -⟩ := hb
      unfold stripColumn at hx hx'
      simp only at hx hx'
      split at hx <;> split at hx' <;> omega
  exact this _ (Nat.le_refl _)

/-! ### from positions to bits -/

/-- Feed bits to the codeword assembler. -/
def addBits : List Bool → Codewords → Run Codewords
  | [], c => .ret c
  | b :: bs, c =>
    match c.addBit b with
    | .panic => .panic
    | .ret c => addBits bs c

theorem readPositions_bits (q : QRData) (m : QRMask) (v : Nat) (h1 : 1 ≤ v) (h40 : v ≤ 40)
    (hv : q.version = v) (hs : q.side = sideOf v) (bit : Nat × Nat → Bool)
    (ps : List (Nat × Nat)) (hps : ∀ p ∈ ps, p.1 < sideOf v ∧ p.2 < sideOf v)
    (hm : ∀ p ∈ ps, isDataModule v p.1 p.2 → m q p.1 p.2 = .ret (bit p)) (c : Codewords) :
    readPositions q (locOf v) m ps c =
      addBits ((ps.filter fun p => decide (isDataModule v p.1 p.2)).map bit) c := by
  induction ps generalizing c with
  | nil => rfl
  | cons p ps ih =>
    have ih' := fun c => ih (fun p hp => hps p (List.mem_cons_of_mem _ hp))
      (fun p hp => hm p (List.mem_cons_of_mem _ hp)) c
    obtain ⟨hx, hy⟩ := hps p List.mem_cons_self
    rw [readPositions, readModule, isData_eq q v h1 h40 hv hs _ _ hx hy]
    by_cases hd : isDataModule v p.1 p.2
    · rw [List.filter_cons_of_pos (by simpa using hd), List.map_cons, addBits]
      rw [decide_eq_true hd, hm p List.mem_cons_self hd]
      simp only
      cases c.addBit (bit p) with
      | panic => rfl
      | ret c => exact ih' c
    · rw [List.filter_cons_of_neg (by simpa using hd)]
      rw [decide_eq_false hd]
      exact ih' c

theorem dataModules_bounds {v : Nat} {p : Nat × Nat} (h : p ∈ dataModules v) :
    p.1 < sideOf v ∧ p.2 < sideOf v := by
  unfold dataModules at h
  rw [List.mem_filter] at h
  have h2 := of_decide_eq_true h.2
  exact ⟨h2.1, h2.2.1⟩

theorem readColumns_bits (q : QRData) (m : QRMask) (v : Nat) (h1 : 1 ≤ v) (h40 : v ≤ 40)
    (hv : q.version = v) (hs : q.side = sideOf v) (bit : Nat × Nat → Bool)
    (hm : ∀ p ∈ dataModules v, m q p.1 p.2 = .ret (bit p)) (c : Codewords) :
    readColumns q (locOf v) m q.side (q.side - 1) c = addBits ((dataModules v).map bit) c := by
  rw [readColumns_zigzag q _ m v hs]
  apply readPositions_bits q m v h1 h40 hv hs
  · rintro ⟨x, y⟩ hp
    have := mem_zigzag.mp hp
    exact ⟨this.1, this.2.1⟩
  · intro p hp hd
    exact hm p (List.mem_filter.mpr ⟨hp, decide_eq_true hd⟩)

/-! ### from bits to bytes -/

/-- Push a list of bytes. -/
def pushAll : List U8 → Blocks → Run Blocks
  | [], s => .ret s
  | b :: bs, s =>
    match s.push b with
    | .panic => .panic
    | .ret s => pushAll bs s

theorem byte_step (n : Nat) (b : Bool) (hn : n < 128) :
    ¬ (BitVec.ofNat 8 n).toNat * 2 ≥ 256 ∧
    checkedAdd8 (BitVec.ofNat 8 n * 2) (if b then 1 else 0) =
      .ret (BitVec.ofNat 8 (2 * n + b.toNat)) := by
  have h : ∀ n : Fin 128, ¬ (BitVec.ofNat 8 n.val).toNat * 2 ≥ 256 ∧
    checkedAdd8 (BitVec.ofNat 8 n.val * 2) (if b then 1 else 0) =
      .ret (BitVec.ofNat 8 (2 * n.val + b.toNat)) := by
    cases b <;> decide +kernel
  exact h ⟨n, hn⟩

theorem addBit_acc (n k : Nat) (s : Blocks) (b : Bool) (hn : n < 2 ^ k) (hk : k < 7) :
    Codewords.addBit ⟨BitVec.ofNat 8 n, k, s⟩ b = .ret ⟨BitVec.ofNat 8 (2 * n + b.toNat), k + 1, s⟩ := by
  have hk' : 2 ^ k ≤ 2 ^ 6 := Nat.pow_le_pow_right (by omega) (by omega)
  obtain ⟨h1, h2⟩ := byte_step n b (by omega)
  unfold Codewords.addBit
  rw [if_neg h1]
  simp only [h2]
  rw [if_neg (by omega), if_neg (by omega)]

theorem addBit_push (n : Nat) (s : Blocks) (b : Bool) (hn : n < 2 ^ 7) :
    Codewords.addBit ⟨BitVec.ofNat 8 n, 7, s⟩ b =
      match s.push (BitVec.ofNat 8 (2 * n + b.toNat)) with
      | .panic => .panic
      | .ret s => .ret ⟨0, 0, s⟩ := by
  obtain ⟨h1, h2⟩ := byte_step n b (by omega)
  unfold Codewords.addBit
  rw [if_neg h1]
  simp only [h2]
  rw [if_neg (by omega), if_pos trivial]
  cases s.push (BitVec.ofNat 8 (2 * n + b.toNat)) <;> rfl

/-- Fewer than eight bits only accumulate. -/
theorem addBits_acc (bs : List Bool) (n k : Nat) (s : Blocks) (hn : n < 2 ^ k)
    (hk : k + bs.length < 8) :
    addBits bs ⟨BitVec.ofNat 8 n, k, s⟩ =
      .ret ⟨BitVec.ofNat 8 (bs.foldl (fun acc b => 2 * acc + b.toNat) n), k + bs.length, s⟩ := by
  induction bs generalizing n k with
  | nil => rfl
  | cons b bs ih =>
    simp only [List.length_cons] at hk
    rw [addBits, addBit_acc n k s b hn (by omega)]
    simp only
    rw [ih (2 * n + b.toNat) (k + 1) (by cases b <;> simp [Nat.pow_succ] <;> omega) (by omega)]
    simp only [List.foldl_cons, List.length_cons]
    congr 2
    omega

theorem addBits_append (a b : List Bool) (c : Codewords) :
    addBits (a ++ b) c = match addBits a c with
      | .panic => .panic
      | .ret c => addBits b c := by
  induction a generalizing c with
  | nil => rfl
  | cons x a ih =>
    simp only [List.cons_append, addBits]
    cases c.addBit x with
    | panic => rfl
    | ret c => exact ih c

theorem addBits_byte (b : U8) (s : Blocks) :
    addBits (byteBits b) ⟨0, 0, s⟩ = match s.push b with
      | .panic => .panic
      | .ret s => .ret ⟨0, 0, s⟩ := by
  have hsplit : byteBits b = natToBits 7 (b.toNat / 2 ^ 1) ++ natToBits 1 b.toNat :=
    natToBits_add 7 1 b.toNat
  have hlen : ∀ n v, (natToBits n v).length = n := by
    intro n v; induction n with
    | zero => rfl
    | succ n ih => simp [natToBits, ih]
  rw [hsplit, addBits_append]
  rw [show (0 : U8) = BitVec.ofNat 8 0 from rfl]
  rw [addBits_acc _ 0 0 s (by decide) (by rw [hlen]; decide), hlen]
  have hb := b.isLt
  have hfold : (natToBits 7 (b.toNat / 2 ^ 1)).foldl (fun acc b => 2 * acc + b.toNat) 0 =
      b.toNat / 2 := by
    have := bitsToNat_natToBits 7 (b.toNat / 2 ^ 1)
    unfold bitsToNat at this
    rw [this]
    omega
  rw [hfold]
  simp only [natToBits, addBits]
  rw [addBit_push _ _ _ (by omega)]
  have : 2 * (b.toNat / 2) + (b.toNat.testBit 0).toNat = b.toNat := by
    rw [Nat.testBit_zero]
    rcases Nat.mod_two_eq_zero_or_one b.toNat with h | h <;> rw [h] <;> simp <;> omega
  rw [this, BitVec.ofNat_toNat, BitVec.setWidth_eq]
  cases s.push b <;> rfl

/-- Whole bytes are pushed, the remainder bits are dropped. -/
theorem addBits_stream (bytes : List U8) (rest : List Bool) (hr : rest.length < 8) (s : Blocks) :
    (addBits (streamOf bytes ++ rest) ⟨0, 0, s⟩ = .panic ∧ pushAll bytes s = .panic) ∨
    ∃ s' cb bc, addBits (streamOf bytes ++ rest) ⟨0, 0, s⟩ = .ret ⟨cb, bc, s'⟩ ∧
      pushAll bytes s = .ret s' := by
  induction bytes generalizing s with
  | nil =>
    right
    have := addBits_acc rest 0 0 s (by decide) (by omega)
    exact ⟨s, _, _, this, rfl⟩
  | cons b bytes ih =>
    rw [streamOf_cons, List.append_assoc, addBits_append, addBits_byte, pushAll]
    cases s.push b with
    | panic => exact .inl ⟨rfl, rfl⟩
    | ret s => exact ih s

end Verif
