import Verif.Lemmas.Repairs
import Verif.Lemmas.Blocks
/-!
# Properties C30–C34: Reed–Solomon error correction

Specification: `Verif.Spec.ReedSolomon` (code words, error patterns, locator polynomial).
-/
namespace Verif.Props
open Spec

/-- `bi` is one of the rows of the block table for version `v` and level `l`. -/
def IsRow (v : Nat) (l : ECLevel) (bi : BlockInfo) : Prop :=
  1 ≤ v ∧ v ≤ 40 ∧ ∃ rows, blockInfo v l = .ok rows ∧ bi ∈ rows

theorem caps_two : ∀ v ∈ List.range' 1 40, ∀ l ∈ [ECLevel.low, .medium, .quartile, .high],
    ∀ rows, blockInfo v l = .ok rows → rows.all (fun b => decide (2 ≤ b.ec_cap)) = true := by
  intro v hv l hl rows
  have : ∀ v ∈ List.range' 1 40, ∀ l ∈ [ECLevel.low, .medium, .quartile, .high],
      (match blockInfo v l with
      | .ok rows => rows.all fun b => decide (2 ≤ b.ec_cap)
      | _ => true) = true := by decide +kernel
  intro h
  have h' := this v hv l hl
  rw [h] at h'
  exact h'

theorem row_facts {v : Nat} {l : ECLevel} {bi : BlockInfo} (h : IsRow v l bi) :
    GoodInfo bi ∧ 2 ≤ bi.ec_cap ∧ 2 * bi.ec_cap ≤ eccPerBlock v l ∧ eccPerBlock v l ≤ 255 ∧
      bi.data_per + eccPerBlock v l = bi.total_per ∧ 1 ≤ bi.data_per := by
  obtain ⟨h1, h40, rows, hr, hm⟩ := h
  obtain ⟨bis, hb, -, -, hall, -⟩ := blockInfo_facts v h1 h40 l
  rw [hr] at hb
  cases hb
  obtain ⟨a1, a2, a3, a4, a5, a6⟩ := hall bi hm
  have := caps_two v (range1_40 h1 h40) l (level_mem l) rows hr
  have h2 := of_decide_eq_true (List.all_eq_true.mp this bi hm)
  exact ⟨⟨by omega, by omega, a5⟩, h2, a3, by omega, a2, a1⟩

/-! ### C30 -/

/-- C30. A code word is returned untouched, with error count 0, by every row of the table. -/
theorem codeword_untouched (v : Nat) (l : ECLevel) (bi : BlockInfo) (hb : IsRow v l bi)
    (c : List U8) (hlen : c.length = bi.total_per) (hc : IsCodeword (eccPerBlock v l) c) :
    correctWithErrorCount c bi = .ok (c, 0) ∧ correct c bi = .ok c := by
  obtain ⟨hg, h2, hcap, h255, -⟩ := row_facts hb
  have := (correct_master c bi hlen hg).1 fun i hi =>
    (codeword_iff _ h255 c).mp hc i (by omega)
  exact ⟨this, by rw [correct, this]; rfl⟩

/-! ### C31 -/

/-- C31 (exact for regular patterns). A code word is damaged in between 1 and `ec_cap` codewords and
exact elimination of the Hankel matrix of the error's power sums meets no zero entry in its pivot rows
(`Regular`). Then correction always answers `Ok`, with the count of the bits it changed, and it restores
the code word iff none of the Newton numerators for the roots of the polynomial it uses is zero.
Missing from C31: irregular patterns (some are lost, see `cancelling_errors_never_repaired`), and the
unconditional claim, which is false (`single_error_lost_silently`). -/
theorem damage_repaired_iff_partial (v : Nat) (l : ECLevel) (bi : BlockInfo) (hb : IsRow v l bi)
    (c e : List U8) (hlen : c.length = bi.total_per) (hc : IsCodeword (eccPerBlock v l) c)
    (helen : e.length = bi.total_per) (h1 : 1 ≤ (errPlaces e).card)
    (ht : (errPlaces e).card ≤ bi.ec_cap)
    (hreg : Regular (errPlaces e).card bi.ec_cap (fun r c => powerSum e (r + c))) :
    ∃ b, correctWithErrorCount (damage c e) bi = .ok (b, bitDistance (damage c e) b) ∧
      (b = c ↔ ∀ i < (rootList (usedLocator bi.ec_cap e) bi.total_per).length,
        newton e (rootList (usedLocator bi.ec_cap e) bi.total_per) i ≠ 0) := by
  obtain ⟨hg, -, hcap, h255, -⟩ := row_facts hb
  exact repaired_iff bi hg _ h255 hcap c e hlen hc helen h1 ht hreg

/-- C31 for one damaged codeword, exact: it is repaired iff the value of `X^cap + X^(cap-1)` at its
power of `α` is not taken again at a higher power within the block. -/
theorem single_error_repaired_iff_partial (v : Nat) (l : ECLevel) (bi : BlockInfo) (hb : IsRow v l bi)
    (c e : List U8) (hlen : c.length = bi.total_per) (hc : IsCodeword (eccPerBlock v l) c)
    (helen : e.length = bi.total_per) (p : Nat) (hp : errPlaces e = {p}) :
    ∃ b, correct (damage c e) bi = .ok b ∧
      (b = c ↔ ∀ p', p < p' → p' < bi.total_per →
        (GF8.α ^ p') ^ bi.ec_cap + (GF8.α ^ p') ^ (bi.ec_cap - 1) ≠
          (GF8.α ^ p) ^ bi.ec_cap + (GF8.α ^ p) ^ (bi.ec_cap - 1)) := by
  obtain ⟨hg, h2, hcap, h255, -⟩ := row_facts hb
  obtain ⟨b, hb', hiff⟩ := single_iff bi hg _ h255 hcap h2 c e hlen hc helen p hp
  exact ⟨b, by rw [correct, hb']; rfl, hiff⟩

/-- The error pattern with the single value `m` at the codeword of power `p` (the `p`-th from the end). -/
def singleError (len p : Nat) (m : U8) : List U8 := ((List.replicate len 0).set p m).reverse

theorem errPlaces_single (len p : Nat) (hp : p < len) (m : U8) (hm : m ≠ 0) :
    errPlaces (singleError len p m) = {p} ∧ (singleError len p m).length = len := by
  have hl : (singleError len p m).length = len := by simp [singleError]
  refine ⟨?_, hl⟩
  ext l
  rw [mem_errPlaces, hl, Finset.mem_singleton]
  unfold errAt singleError
  rw [List.reverse_reverse, List.getD_eq_getElem?_getD, List.getElem?_set]
  by_cases h : p = l
  · subst h
    rw [if_pos rfl, if_pos (by simpa using hp)]
    simp only [Option.getD_some, iff_true]
    exact ⟨hp, fun h0 => hm (congrArg GF8.val h0)⟩
  · rw [if_neg h]
    constructor
    · rintro ⟨hl', h0⟩
      exfalso
      apply h0
      rw [List.getElem?_replicate, if_pos hl']
      rfl
    · intro h'
      exact absurd h'.symm h

/-- All single-codeword errors of all code words of this version and level are repaired. -/
def RepairsSingles (v : Nat) (l : ECLevel) : Prop :=
  ∀ bi, IsRow v l bi → ∀ c : List U8, c.length = bi.total_per → IsCodeword (eccPerBlock v l) c →
    ∀ p < bi.total_per, ∀ m : U8, m ≠ 0 →
      correct (damage c (singleError bi.total_per p m)) bi = .ok c

/-- `α ^ (p * z) + α ^ (p * (z-1))` by table. -/
def keyNat (z p : Nat) : Nat := EXP8.getD (p * z % 255) 0 ^^^ EXP8.getD (p * (z - 1) % 255) 0

theorem exp8_bound : EXP8.all (· < 256) = true := by decide +kernel

theorem EXP8_getD_lt (i : Nat) : EXP8.getD i 0 < 256 := by
  rw [List.getD_eq_getElem?_getD]
  cases h : EXP8[i]? with
  | none => decide
  | some a => exact of_decide_eq_true (List.all_eq_true.mp exp8_bound a (List.mem_of_getElem? h))

theorem key_val (z p : Nat) : (key z p).val.toNat = keyNat z p := by
  unfold key keyNat
  rw [← pow_mul, ← pow_mul, ← GF8.exp8_mod_eq_pow, ← GF8.exp8_mod_eq_pow, GF8.val_add, BitVec.toNat_xor]
  unfold exp8
  rw [BitVec.toNat_ofNat, BitVec.toNat_ofNat, Nat.mod_eq_of_lt (EXP8_getD_lt _),
    Nat.mod_eq_of_lt (EXP8_getD_lt _)]

theorem key_eq_iff (z p q : Nat) : key z p = key z q ↔ keyNat z p = keyNat z q := by
  rw [← key_val, ← key_val]
  exact ⟨fun h => by rw [h], fun h => GF8.ext' (BitVec.eq_of_toNat_eq h)⟩

/-- No key occurs twice. -/
def keysOk (bi : BlockInfo) : Bool :=
  let ks := (List.range bi.total_per).map (keyNat bi.ec_cap)
  decide (ks.Pairwise (· ≠ ·))

/-- The versions and levels whose decoding repairs every single damaged codeword. -/
def singlesRepaired : List (Nat × ECLevel) :=
  (1, .medium) :: ([16, 21] ++ List.range' 23 18).map fun v => (v, .high)

theorem keys_table : ∀ v ∈ List.range' 1 40, ∀ l ∈ [ECLevel.low, .medium, .quartile, .high],
    (match blockInfo v l with
    | .ok rows => rows.eraseDups.all keysOk
    | _ => false) = decide ((v, l) ∈ singlesRepaired) := by
  decide +kernel

theorem keysOk_iff (bi : BlockInfo) : keysOk bi = true ↔
    ∀ p p', p < p' → p' < bi.total_per → key bi.ec_cap p' ≠ key bi.ec_cap p := by
  unfold keysOk
  simp only [decide_eq_true_eq]
  rw [List.pairwise_iff_getElem]
  simp only [List.length_map, List.length_range, List.getElem_map, List.getElem_range]
  constructor
  · intro h p p' hp hp' he
    exact h p p' (by omega) hp' hp ((key_eq_iff _ _ _).mp he.symm)
  · intro h i j hi hj hij he
    exact h i j hij hj ((key_eq_iff _ _ _).mpr he.symm)

theorem singles_rows (v : Nat) (h1 : 1 ≤ v) (h40 : v ≤ 40) (l : ECLevel) :
    (∀ bi, IsRow v l bi → keysOk bi = true) ↔ (v, l) ∈ singlesRepaired := by
  have h := keys_table v (range1_40 h1 h40) l (level_mem l)
  obtain ⟨rows, hr, -⟩ := blockInfo_facts v h1 h40 l
  rw [hr] at h
  simp only at h
  rw [← decide_eq_true_iff (p := (v, l) ∈ singlesRepaired), ← h, List.all_eq_true]
  constructor
  · intro hall bi hbi
    exact hall bi ⟨h1, h40, rows, hr, List.mem_eraseDups.mp hbi⟩
  · rintro hall bi ⟨-, -, rows', hr', hm⟩
    rw [hr] at hr'
    cases hr'
    exact hall bi (List.mem_eraseDups.mpr hm)

/-- C31, refuted wherever it fails for single errors: outside the 21 combinations of `singlesRepaired`
there is a row and a place in its blocks at which *every* error, of *every* code word, is silently
"corrected" to something else: the answer is `Ok` with a block that is not the original one. -/
theorem single_error_lost_silently (v : Nat) (h1 : 1 ≤ v) (h40 : v ≤ 40) (l : ECLevel)
    (hnot : (v, l) ∉ singlesRepaired) :
    ∃ bi, IsRow v l bi ∧ ∃ p < bi.total_per, ∀ c : List U8, c.length = bi.total_per →
      IsCodeword (eccPerBlock v l) c → ∀ m : U8, m ≠ 0 →
        ∃ b, correct (damage c (singleError bi.total_per p m)) bi = .ok b ∧ b ≠ c := by
  rw [← singles_rows v h1 h40 l] at hnot
  simp only [not_forall] at hnot
  obtain ⟨bi, hrow, hk⟩ := hnot
  rw [keysOk_iff] at hk
  simp only [not_forall, not_not] at hk
  obtain ⟨p, p', hpp, hp', he⟩ := hk
  refine ⟨bi, hrow, p, by omega, fun c hlen hc m hm => ?_⟩
  obtain ⟨hs, hl⟩ := errPlaces_single bi.total_per p (by omega) m hm
  obtain ⟨b, hb, hiff⟩ := single_error_repaired_iff_partial v l bi hrow c _ hlen hc hl p hs
  exact ⟨b, hb, fun hbc => hiff.mp hbc p' hpp hp' he⟩

theorem zero_codeword (n len : Nat) : IsCodeword n (List.replicate len 0) := by
  have : ∀ len, blockPoly (List.replicate len 0) = 0 := by
    intro len
    induction len with
    | zero => rfl
    | succ k ih =>
      rw [List.replicate_succ, blockPoly, ih, show GF8.mk 0 = (0 : GF8) from rfl]
      simp
  unfold IsCodeword
  rw [this]
  exact dvd_zero _

/-- C31 for single errors, over the whole table: a version and level repairs every damaged codeword iff
it is one of the 21 combinations in `singlesRepaired` (1-M, 16-H, 21-H, 23-H … 40-H). -/
theorem repairs_singles_iff_partial (v : Nat) (h1 : 1 ≤ v) (h40 : v ≤ 40) (l : ECLevel) :
    RepairsSingles v l ↔ (v, l) ∈ singlesRepaired := by
  constructor
  · intro h
    refine Decidable.byContradiction fun hnot => ?_
    obtain ⟨bi, hrow, p, hp, hbad⟩ := single_error_lost_silently v h1 h40 l hnot
    obtain ⟨b, hb, hne⟩ := hbad (List.replicate bi.total_per 0) (by simp) (zero_codeword _ _) 1 (by decide)
    rw [h bi hrow _ (by simp) (zero_codeword _ _) p hp 1 (by decide)] at hb
    cases hb
    exact hne rfl
  · intro hin bi hrow c hlen hc p hp m hm
    obtain ⟨hs, hl⟩ := errPlaces_single bi.total_per p hp m hm
    obtain ⟨b, hb, hiff⟩ := single_error_repaired_iff_partial v l bi hrow c _ hlen hc hl p hs
    have hk := (keysOk_iff bi).mp ((singles_rows v h1 h40 l).mpr hin bi hrow)
    rw [hb, hiff.mpr fun p' hpp hp' => hk p p' hpp hp']

/-- C31: errors that cancel in the sum of all codewords (first power sum zero) are never repaired; they
are reported as an error, for every code word and every such pattern of weight 2 up to `2 * ec_cap`. -/
theorem cancelling_errors_never_repaired (v : Nat) (l : ECLevel) (bi : BlockInfo) (hb : IsRow v l bi)
    (c e : List U8) (hlen : c.length = bi.total_per) (hc : IsCodeword (eccPerBlock v l) c)
    (helen : e.length = bi.total_per) (h1 : 1 ≤ (errPlaces e).card)
    (ht : (errPlaces e).card ≤ 2 * bi.ec_cap) (h0 : powerSum e 0 = 0) :
    ∃ msg, correct (damage c e) bi = .err msg := by
  obtain ⟨hg, h2, hcap, h255, -⟩ := row_facts hb
  have hec : e.length = c.length := by omega
  have hS : ∀ i < 2 * bi.ec_cap, synd (damage c e) i = powerSum e i := by
    intro i hi
    rw [synd_damage c e hec, (codeword_iff _ h255 c).mp hc i (by omega), zero_add, synd_powerSum]
  have hne : ∃ i < 2 * bi.ec_cap, synd (damage c e) i ≠ 0 := by
    refine Decidable.byContradiction fun hno => ?_
    have hz : ∀ i < 2 * bi.ec_cap, powerSum e i = 0 := fun i hi => by
      rw [← hS i hi]
      exact Decidable.byContradiction fun h => hno ⟨i, hi, h⟩
    obtain ⟨p, hp⟩ := Finset.card_pos.mp h1
    exact (mem_errPlaces.mp hp).2 (vandermonde_zero (errPlaces e) (fun l hl => by
      have := (mem_errPlaces.mp hl).1; have := hg.2.2; omega) (errAt e) _ ht hz p hp)
  obtain ⟨x, -, hL⟩ := (correct_master (damage c e) bi (by rw [damage_length c e hec, hlen]) hg).2 hne
  obtain ⟨hnil, hcons⟩ := hL _ rfl
  by_cases hr : rootList (sigmaPoly bi.ec_cap x) bi.total_per = []
  · exact ⟨_, by rw [correct, hnil hr]; rfl⟩
  · obtain ⟨d, -, b, -, -, -, -, hres⟩ := hcons hr
    rw [if_pos (by rw [hS 0 (by omega), h0])] at hres
    exact ⟨_, by rw [correct, hres]; rfl⟩

/-! ### C32 -/

/-- Sum in the field (exclusive or) of all bytes of a block. -/
def parity (b : List U8) : U8 := b.foldr (· ^^^ ·) 0

theorem synd_zero_parity (b : List U8) : synd b 0 = ⟨parity b⟩ := by
  unfold synd parity
  rw [pow_zero]
  induction b with
  | nil => simp [blockPoly]; rfl
  | cons a b ih =>
    rw [blockPoly, Polynomial.eval_add, ih]
    simp only [Polynomial.eval_mul, Polynomial.eval_C, Polynomial.eval_pow, Polynomial.eval_X, one_pow,
      mul_one, List.foldr_cons]
    rfl

/-- C32, the part that holds: whatever the received block, an accepted block has byte parity zero (the
first of the code's conditions), and a block whose parity already was zero is accepted only unchanged
and only if all `2 * ec_cap` conditions hold. Missing: the other conditions, which can fail
(`accepted_non_codeword`). -/
theorem accepted_parity_partial (v : Nat) (l : ECLevel) (bi : BlockInfo) (hb : IsRow v l bi)
    (r b : List U8) (hlen : r.length = bi.total_per) (h : correct r bi = .ok b) :
    parity b = 0 ∧ (parity r = 0 → b = r ∧ IsCodeword (2 * bi.ec_cap) r) := by
  obtain ⟨hg, h2, hcap, h255, -⟩ := row_facts hb
  obtain ⟨hm1, hm2⟩ := correct_master r bi hlen hg
  by_cases hall : ∀ i < 2 * bi.ec_cap, synd r i = 0
  · rw [correct, hm1 hall] at h
    cases h
    have h0 := hall 0 (by omega)
    rw [synd_zero_parity] at h0
    exact ⟨congrArg GF8.val h0, fun _ => ⟨rfl, (codeword_iff _ (by omega) r).mpr hall⟩⟩
  · obtain ⟨x, -, hL⟩ := hm2 (by
      refine Decidable.byContradiction fun hno => hall fun i hi => ?_
      exact Decidable.byContradiction fun hc => hno ⟨i, hi, hc⟩)
    obtain ⟨hnil, hcons⟩ := hL _ rfl
    by_cases hr : rootList (sigmaPoly bi.ec_cap x) bi.total_per = []
    · rw [correct, hnil hr] at h; cases h
    · obtain ⟨d, -, b', -, -, -, hs, hres⟩ := hcons hr
      rw [correct, hres] at h
      by_cases h0 : synd r 0 = 0
      · rw [if_pos h0] at h; cases h
      · rw [if_neg h0] at h hs
        cases h
        rw [synd_zero_parity, synd_zero_parity, show (⟨parity r⟩ : GF8) + ⟨parity r⟩ = 0 from GF8.xor_self' _] at hs
        refine ⟨congrArg GF8.val hs, fun hp => ?_⟩
        rw [synd_zero_parity, hp] at h0
        exact absurd rfl h0

/-! ### C33 -/

/-- C33. The count returned with an accepted block is the number of bits in which it differs from the
received block. -/
theorem error_count_is_bit_distance (v : Nat) (l : ECLevel) (bi : BlockInfo) (hb : IsRow v l bi)
    (r b : List U8) (k : Nat) (hlen : r.length = bi.total_per)
    (h : correctWithErrorCount r bi = .ok (b, k)) : k = bitDistance r b := by
  obtain ⟨hg, -⟩ := row_facts hb
  obtain ⟨hm1, hm2⟩ := correct_master r bi hlen hg
  by_cases hall : ∀ i < 2 * bi.ec_cap, synd r i = 0
  · rw [hm1 hall] at h
    cases h
    symm
    unfold bitDistance
    have : ∀ r : List U8, (r.zipWith bitDiff r).sum = 0 := by
      intro r
      induction r with
      | nil => rfl
      | cons a r ih =>
        rw [List.zipWith_cons_cons, List.sum_cons, ih]
        simp [bitDiff]
    exact this r
  · obtain ⟨x, -, hL⟩ := hm2 (by
      refine Decidable.byContradiction fun hno => hall fun i hi => ?_
      exact Decidable.byContradiction fun hc => hno ⟨i, hi, hc⟩)
    obtain ⟨hnil, hcons⟩ := hL _ rfl
    by_cases hr : rootList (sigmaPoly bi.ec_cap x) bi.total_per = []
    · rw [hnil hr] at h; cases h
    · obtain ⟨d, -, b', -, -, -, -, hres⟩ := hcons hr
      rw [hres] at h
      split at h
      · cases h
      · cases h; rfl

/-! ### C34 -/

/-- C34. On every block of the right length, correction returns `Ok` with a block of the same length,
or an error; it never panics. Both entry points agree. -/
theorem correction_total (v : Nat) (l : ECLevel) (bi : BlockInfo) (hb : IsRow v l bi)
    (r : List U8) (hlen : r.length = bi.total_per) :
    (∃ b k, correctWithErrorCount r bi = .ok (b, k) ∧ correct r bi = .ok b ∧ b.length = r.length) ∨
    (∃ msg, correctWithErrorCount r bi = .err msg ∧ correct r bi = .err msg) := by
  obtain ⟨hg, -⟩ := row_facts hb
  obtain ⟨hm1, hm2⟩ := correct_master r bi hlen hg
  by_cases hall : ∀ i < 2 * bi.ec_cap, synd r i = 0
  · exact .inl ⟨r, 0, hm1 hall, by rw [correct, hm1 hall]; rfl, rfl⟩
  · obtain ⟨x, -, hL⟩ := hm2 (by
      refine Decidable.byContradiction fun hno => hall fun i hi => ?_
      exact Decidable.byContradiction fun hc => hno ⟨i, hi, hc⟩)
    obtain ⟨hnil, hcons⟩ := hL _ rfl
    by_cases hr : rootList (sigmaPoly bi.ec_cap x) bi.total_per = []
    · exact .inr ⟨_, hnil hr, by rw [correct, hnil hr]; rfl⟩
    · obtain ⟨d, -, b', hl, -, -, -, hres⟩ := hcons hr
      split at hres
      · exact .inr ⟨_, hres, by rw [correct, hres]; rfl⟩
      · exact .inl ⟨_, _, hres, by rw [correct, hres]; rfl, hl⟩

/-! ### the hypotheses are met -/

/-- The data "Hello" in byte mode, padded, with the seven error correction codewords of version 1-L. -/
def helloBlock : List U8 :=
  [64, 84, 134, 86, 198, 198, 240, 236, 17, 236, 17, 236, 17, 236, 17, 236, 17, 236, 17,
    173, 122, 150, 61, 133, 147, 94]

/-- A version 1-M block (ISO/IEC 18004 example data) with its ten error correction codewords. -/
def isoBlock : List U8 :=
  [32, 91, 11, 120, 209, 114, 220, 77, 67, 64, 236, 17, 236, 17, 236, 17,
    196, 35, 39, 119, 235, 215, 231, 226, 93, 23]

theorem isCodeword_of_syndromes (n : Nat) (hn : n < 255) (b : List U8)
    (h : ∀ i ∈ List.range n, syndrome b (exp8 i) = ⟨0⟩) : IsCodeword n b :=
  (codeword_iff n (by omega) b).mpr fun i hi => by
    rw [← syndrome_exp b (by omega)]
    exact h i (List.mem_range.mpr hi)

theorem helloBlock_codeword : IsCodeword (eccPerBlock 1 .low) helloBlock :=
  isCodeword_of_syndromes 7 (by decide) _ (by decide +kernel)

theorem isoBlock_codeword : IsCodeword (eccPerBlock 1 .medium) isoBlock :=
  isCodeword_of_syndromes 10 (by decide) _ (by decide +kernel)

theorem row_1L : IsRow 1 .low (BI 1 26 19 2) :=
  ⟨by decide, by decide, [BI 1 26 19 2], by decide +kernel, by decide⟩

theorem row_1M : IsRow 1 .medium (BI 1 26 16 4) :=
  ⟨by decide, by decide, [BI 1 26 16 4], by decide +kernel, by decide⟩

/-- C30 applies to a real block. -/
example : correctWithErrorCount isoBlock (BI 1 26 16 4) = .ok (isoBlock, 0) :=
  (codeword_untouched 1 .medium _ row_1M isoBlock (by decide) isoBlock_codeword).1

/-- An error pattern with two damaged codewords. -/
def twoErrors : List U8 := (List.replicate 26 0).set 3 0x5A |>.set 20 0x81

example : errPlaces twoErrors = {5, 22} ∧
    Regular (errPlaces twoErrors).card 4 (fun r c => powerSum twoErrors (r + c)) := by
  decide +kernel

example : correct (damage isoBlock twoErrors) (BI 1 26 16 4) = .ok isoBlock := by decide +kernel

/-- Four damaged codewords (the capacity), regular, and repaired. -/
def fourErrors : List U8 := (List.replicate 26 0).set 3 0x5A |>.set 20 0x81 |>.set 0 0xFF |>.set 25 7

example : (errPlaces fourErrors).card = 4 ∧
    Regular (errPlaces fourErrors).card 4 (fun r c => powerSum fourErrors (r + c)) := by
  decide +kernel

example : correct (damage isoBlock fourErrors) (BI 1 26 16 4) = .ok isoBlock := by decide +kernel

/-- Two equal errors cancel. -/
example : let e : List U8 := (List.replicate 26 0).set 3 0x5A |>.set 20 0x5A
    (errPlaces e).card = 2 ∧ powerSum e 0 = 0 ∧
    correct (damage isoBlock e) (BI 1 26 16 4) = .err ⟨"Error correcting did not fix corrupted data"⟩ := by
  decide +kernel

/-- C33 on a corrected block. -/
example : correctWithErrorCount (damage isoBlock twoErrors) (BI 1 26 16 4) = .ok (isoBlock, 6) := by
  decide +kernel

/-- C32, refuted: a version 1-L block that correction accepts, after changing it, although the result
is not a code word. The received block is `helloBlock` with one damaged codeword, at power 1; the result
differs from it at the powers 1 and 25. -/
theorem accepted_non_codeword : ∃ b : List U8,
    correct (damage helloBlock (singleError 26 1 5)) (BI 1 26 19 2) = .ok b ∧
    ¬ IsCodeword (eccPerBlock 1 .low) b := by
  refine ⟨[65, 84, 134, 86, 198, 198, 240, 236, 17, 236, 17, 236, 17, 236, 17, 236, 17, 236, 17,
    173, 122, 150, 61, 133, 146, 94], by decide +kernel, fun h => ?_⟩
  have h1 := (codeword_iff (eccPerBlock 1 .low) (by decide) _).mp h 1 (by decide)
  rw [← syndrome_exp _ (by omega)] at h1
  revert h1
  decide +kernel

end Verif.Props
