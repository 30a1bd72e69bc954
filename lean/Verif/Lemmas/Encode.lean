import Verif.Spec.Encode
import Verif.Lemmas.Repairs
import Verif.Lemmas.Blocks
/-!
# The encoder builds symbols
-/
namespace Verif
open Spec Finset Polynomial

/-! ### error correction codewords -/

theorem blockPoly_append (a b : List U8) :
    blockPoly (a ++ b) = blockPoly a * X ^ b.length + blockPoly b := by
  induction a with
  | nil => simp [blockPoly]
  | cons x a ih =>
    rw [List.cons_append, blockPoly, ih, blockPoly, List.length_append, pow_add]
    ring

@[simp] theorem length_ecCodewords (n : Nat) (d : List U8) : (ecCodewords n d).length = n := by
  simp [ecCodewords]

theorem generator_monic (n : Nat) : (generator n).Monic :=
  monic_prod_of_monic _ _ fun l _ => monic_X_sub_C _

theorem generator_degree (n : Nat) : (generator n).natDegree = n := by
  unfold generator
  rw [natDegree_prod_pow, Finset.card_range]

theorem poly_add_self (p : GF8[X]) : p + p = 0 := by
  ext i
  rw [coeff_add, coeff_zero]
  exact GF8.xor_self' _

theorem ecCodewords_poly (n : Nat) (hn : 0 < n) (d : List U8) :
    blockPoly (ecCodewords n d) = blockPoly d * X ^ n %ₘ generator n := by
  have hdeg : (blockPoly d * X ^ n %ₘ generator n).natDegree < n := by
    have := natDegree_modByMonic_lt (blockPoly d * X ^ n) (generator_monic n) (by
      intro h1
      have := generator_degree n
      rw [h1, natDegree_one] at this
      omega)
    rwa [generator_degree] at this
  rw [blockPoly_eq_sum, length_ecCodewords, as_sum_range' _ n hdeg]
  apply Finset.sum_congr rfl
  intro l hl
  have hl := Finset.mem_range.mp hl
  rw [← C_mul_X_pow_eq_monomial]
  congr 2
  unfold errAt ecCodewords
  apply GF8.ext'
  rw [← List.map_reverse, List.getD_eq_getElem?_getD, List.getElem?_map, List.getElem?_reverse (by simpa using hl),
    List.length_range, List.getElem?_range (by omega)]
  simp only [Option.map_some, Option.getD_some]
  rw [show n - 1 - (n - 1 - l) = l by omega]

/-- Data followed by its error correction codewords is a code word. -/
theorem codeword_of_ec (n : Nat) (hn : 0 < n) (d : List U8) : IsCodeword n (d ++ ecCodewords n d) := by
  unfold IsCodeword
  rw [blockPoly_append, length_ecCodewords, ecCodewords_poly n hn]
  have h := modByMonic_add_div (blockPoly d * X ^ n) (generator n)
  have h2 := poly_add_self (blockPoly d * X ^ n %ₘ generator n)
  generalize blockPoly d * X ^ n %ₘ generator n = r at *
  refine ⟨blockPoly d * X ^ n /ₘ generator n, ?_⟩
  generalize blockPoly d * X ^ n /ₘ generator n = w at *
  rw [← h]
  linear_combination h2

/-! ### cutting and padding -/

theorem splitLens_lengths {α : Type} (lens : List Nat) (xs : List α) (h : xs.length = lens.sum) :
    (splitLens lens xs).map List.length = lens := by
  induction lens generalizing xs with
  | nil => rfl
  | cons n ns ih =>
    rw [List.sum_cons] at h
    rw [splitLens, List.map_cons, ih _ (by rw [List.length_drop]; omega), List.length_take]
    congr 1
    omega

theorem splitLens_flatten {α : Type} (lens : List Nat) (xs : List α) (h : xs.length = lens.sum) :
    (splitLens lens xs).flatten = xs := by
  induction lens generalizing xs with
  | nil =>
    have : xs = [] := List.length_eq_zero_iff.mp (by simpa using h)
    rw [this]; rfl
  | cons n ns ih =>
    rw [List.sum_cons] at h
    rw [splitLens, List.flatten_cons, ih _ (by rw [List.length_drop]; omega), List.take_append_drop]

@[simp] theorem length_padBytes (n : Nat) : (padBytes n).length = n := by
  induction n using padBytes.induct with
  | case1 => rfl
  | case2 => rfl
  | case3 n ih => simp [padBytes, ih]

theorem streamOf_append (a b : List U8) : streamOf (a ++ b) = streamOf a ++ streamOf b := by
  simp [streamOf]

theorem streamOf_bitsToBytes (bits : List Bool) (h : bits.length % 8 = 0) :
    streamOf (bitsToBytes bits) = bits := by
  induction bits using bitsToBytes.induct with
  | case1 a b c d e f g i rest ih =>
    rw [bitsToBytes, streamOf_cons, ih (by simp only [List.length_cons] at h; omega)]
    have hb : byteBits (BitVec.ofNat 8 (bitsToNat [a, b, c, d, e, f, g, i])) = [a, b, c, d, e, f, g, i] := by
      have hlt := bitsToNat_lt [a, b, c, d, e, f, g, i]
      unfold byteBits
      rw [BitVec.toNat_ofNat, Nat.mod_eq_of_lt (by simpa using hlt)]
      exact natToBits_bitsToNat [a, b, c, d, e, f, g, i]
    rw [hb]
    rfl
  | case2 bits hno =>
    rw [bitsToBytes.eq_def]
    match bits, h, hno with
    | [], _, _ => rfl
    | a :: b :: c :: d :: e :: f :: g :: i :: rest, _, hno => exact absurd rfl (hno _ _ _ _ _ _ _ _ _)

theorem length_terminate (cap : Nat) (bits : List Bool) (h : bits.length ≤ 8 * cap) :
    (terminate (8 * cap) bits).length % 8 = 0 ∧ (terminate (8 * cap) bits).length ≤ 8 * cap := by
  unfold terminate
  simp only [List.length_append, List.length_replicate]
  omega

theorem terminate_tail (cap : Nat) (bits : List Bool) (h : bits.length ≤ 8 * cap) :
    ∃ tail, terminate (8 * cap) bits = bits ++ tail ∧
      ([false, false, false, false] <+: tail ∨ (tail.length < 4 ∧ (terminate (8 * cap) bits).length = 8 * cap)) := by
  refine ⟨List.replicate (min 4 (8 * cap - bits.length)) false ++ List.replicate
    ((8 - (bits ++ List.replicate (min 4 (8 * cap - bits.length)) false).length % 8) % 8) false, ?_, ?_⟩
  · simp only [terminate, List.append_assoc]
  · by_cases h4 : 4 ≤ 8 * cap - bits.length
    · left
      rw [Nat.min_eq_left h4]
      exact ⟨_, rfl⟩
    · right
      unfold terminate
      simp only [List.length_append, List.length_replicate]
      omega

theorem dataCodewords_spec (v : Nat) (l : ECLevel) (segments : List Segment)
    (h : (segments.flatMap (·.bits v)).length ≤ 8 * dataCapacity v l) :
    (dataCodewords v l segments).length = dataCapacity v l ∧
    ∃ tail, streamOf (dataCodewords v l segments) = segments.flatMap (·.bits v) ++ tail ∧ Terminated tail := by
  obtain ⟨h8, hle⟩ := length_terminate (dataCapacity v l) _ h
  obtain ⟨t, ht, hterm⟩ := terminate_tail (dataCapacity v l) _ h
  have hst := streamOf_bitsToBytes _ h8
  have hlen : 8 * (bitsToBytes (terminate (8 * dataCapacity v l) (segments.flatMap (·.bits v)))).length =
      (terminate (8 * dataCapacity v l) (segments.flatMap (·.bits v))).length := by
    rw [← length_streamOf, hst]
  unfold dataCodewords
  simp only
  refine ⟨by rw [List.length_append, length_padBytes]; omega, ?_⟩
  rw [streamOf_append, hst, ht]
  refine ⟨t ++ streamOf (padBytes (dataCapacity v l - (bitsToBytes (segments.flatMap (·.bits v) ++ t)).length)),
    by rw [List.append_assoc], ?_⟩
  rcases hterm with ⟨z, rfl⟩ | ⟨h4, hfull⟩
  · right
    exact ⟨_, by rw [List.append_assoc]⟩
  · left
    rw [← ht, show dataCapacity v l - (bitsToBytes (terminate (8 * dataCapacity v l) (segments.flatMap (·.bits v)))).length = 0 by omega]
    simpa [padBytes] using h4

/-! ### the family -/

theorem ecc_pos (v : Nat) (h1 : 1 ≤ v) (h40 : v ≤ 40) (l : ECLevel) : 0 < eccPerBlock v l := by
  obtain ⟨bi, hb, -, hdat, hall, hpos, -⟩ := blockInfo_facts v h1 h40 l
  have hl : bi.length = numBlocks v l := by simpa using congrArg List.length hdat
  obtain ⟨b, hb'⟩ := List.exists_mem_of_length_pos (by rw [hl]; exact hpos)
  have := hall b hb'
  omega

theorem symbolFamily_spec (v : Nat) (h1 : 1 ≤ v) (h40 : v ≤ 40) (l : ECLevel) (segments : List Segment)
    (h : (segments.flatMap (·.bits v)).length ≤ 8 * dataCapacity v l) :
    HasShape v l (symbolFamily v l segments) ∧
    (∀ b ∈ symbolFamily v l segments, IsCodeword (eccPerBlock v l) (b.1 ++ b.2)) ∧
    (symbolFamily v l segments).flatMap (·.1) = dataCodewords v l segments := by
  have hd := (dataCodewords_spec v l segments h).1
  unfold dataCapacity at hd
  refine ⟨⟨?_, ?_⟩, ?_, ?_⟩
  · unfold symbolFamily
    rw [List.map_map]
    exact splitLens_lengths _ _ hd
  · intro b hb
    unfold symbolFamily at hb
    obtain ⟨d, -, rfl⟩ := List.mem_map.mp hb
    exact length_ecCodewords _ _
  · intro b hb
    unfold symbolFamily at hb
    obtain ⟨d, -, rfl⟩ := List.mem_map.mp hb
    exact codeword_of_ec _ (ecc_pos v h1 h40 l) d
  · unfold symbolFamily
    rw [List.flatMap_map]
    show (splitLens _ _).flatMap id = _
    rw [List.flatMap_id, splitLens_flatten _ _ hd]

theorem count_below (n M : Nat) (h : n ≤ M) :
    ((List.range M).map fun r => if r < n then 1 else 0).sum = n := by
  induction M generalizing n with
  | zero => have : n = 0 := by omega
            subst this; rfl
  | succ M ih =>
    rw [List.range_succ, List.map_append, List.sum_append]
    by_cases hn : n = M + 1
    · subst hn
      have := ih M (Nat.le_refl _)
      have h2 : ((List.range M).map fun r => if r < M + 1 then 1 else 0) =
          ((List.range M).map fun r => if r < M then 1 else 0) := by
        apply List.map_congr_left
        intro r hr
        have := List.mem_range.mp hr
        rw [if_pos (by omega), if_pos this]
      rw [h2, this]
      simp
    · rw [ih n (by omega)]
      simp only [List.map_cons, List.map_nil, List.sum_cons, List.sum_nil]
      rw [if_neg (by omega)]
      rfl

theorem column_cons_length {α : Type} (b : List α) (bs : List (List α)) (r : Nat) :
    (column (b :: bs) r).length = (if r < b.length then 1 else 0) + (column bs r).length := by
  unfold column
  by_cases h : r < b.length
  · rw [List.filterMap_cons_some (f := fun x : List α => x[r]?) (List.getElem?_eq_getElem h),
      List.length_cons, if_pos h]
    omega
  · rw [List.filterMap_cons_none (f := fun x : List α => x[r]?) (List.getElem?_eq_none (by omega)), if_neg h]
    omega

theorem sum_map_add (l : List Nat) (f g : Nat → Nat) :
    (l.map fun r => f r + g r).sum = (l.map f).sum + (l.map g).sum := by
  induction l with
  | nil => rfl
  | cons a l ih =>
    simp only [List.map_cons, List.sum_cons, ih]
    omega

theorem columns_length {α : Type} (bs : List (List α)) (M : Nat) (h : ∀ b ∈ bs, b.length ≤ M) :
    ((List.range M).map fun r => (column bs r).length).sum = (bs.map List.length).sum := by
  induction bs with
  | nil =>
    simp [column]
  | cons b bs ih =>
    simp only [column_cons_length]
    rw [sum_map_add, count_below _ _ (h b List.mem_cons_self),
      ih (fun b hb => h b (List.mem_cons_of_mem _ hb))]
    simp

theorem interleave_length {α : Type} (bs : List (List α)) :
    (interleave bs).length = (bs.map List.length).sum := by
  unfold interleave
  rw [List.length_flatMap]
  exact columns_length bs _ fun b hb => le_foldr_max _ _ (List.mem_map.mpr ⟨b, hb, rfl⟩)

theorem finalSequence_length (v : Nat) (h1 : 1 ≤ v) (h40 : v ≤ 40) (l : ECLevel)
    (fam : List (List U8 × List U8)) (hf : HasShape v l fam) :
    (finalSequence fam).length = totalCodewords v := by
  obtain ⟨bi, hbi, htot, hdat, hall, hpos, hsum⟩ := blockInfo_facts v h1 h40 l
  unfold finalSequence
  rw [List.length_append, interleave_length, interleave_length, List.map_map, List.map_map]
  have e1 : (fam.map (List.length ∘ fun x => x.1)) = bi.map (·.data_per) := by rw [hdat]; exact hf.1
  have hl : bi.length = fam.length := by
    have := congrArg List.length e1
    simpa using this.symm
  have e2 : (fam.map (List.length ∘ fun x => x.2)) = List.replicate fam.length (eccPerBlock v l) := by
    apply List.eq_replicate_iff.mpr
    refine ⟨by simp, fun n hn => ?_⟩
    obtain ⟨b, hb, rfl⟩ := List.mem_map.mp hn
    exact hf.2 b hb
  rw [e1, e2, List.sum_replicate, ← hsum, ← hl]
  show _ + bi.length * eccPerBlock v l = _
  clear hdat htot hsum hl e1 e2 hbi
  induction bi with
  | nil => simp
  | cons b bi ih =>
    have h := (hall b List.mem_cons_self).2.1
    have ih := ih (fun b hb => hall b (List.mem_cons_of_mem _ hb))
    simp only [List.map_cons, List.sum_cons, List.length_cons, Nat.add_mul, Nat.one_mul]
    omega

/-! ### the grid -/

theorem gridModule (v : Nat) (f : Nat → Nat → Bool) (x y : Nat) (hx : x < sideOf v) (hy : y < sideOf v) :
    moduleAt { data := (List.range (sideOf v * sideOf v)).map (fun i =>
      if f (i % sideOf v) (i / sideOf v) then 0 else 255), version := v, side := sideOf v } x y =
      some (f x y) := by
  unfold moduleAt
  have hlt : y * sideOf v + x < sideOf v * sideOf v := by
    calc y * sideOf v + x < y * sideOf v + sideOf v := by omega
      _ = (y + 1) * sideOf v := by rw [Nat.add_mul, Nat.one_mul]
      _ ≤ sideOf v * sideOf v := Nat.mul_le_mul_right _ hy
  have e1 : (y * sideOf v + x) % sideOf v = x := by
    rw [Nat.mul_comm, Nat.mul_add_mod, Nat.mod_eq_of_lt hx]
  have e2 : (y * sideOf v + x) / sideOf v = y := by
    rw [Nat.mul_comm, Nat.mul_add_div (by omega), Nat.div_eq_of_lt hx, Nat.add_zero]
  simp only [List.getElem?_map, List.getElem?_range hlt, Option.map_some, e1, e2]
  cases f x y <;> rfl

theorem map_getD_idxOf {α : Type} [BEq α] [LawfulBEq α] (ps : List α) (hn : ps.Nodup) (w : List Bool)
    (hw : w.length ≤ ps.length) :
    ps.map (fun p => w.getD (ps.idxOf p) false) = w ++ List.replicate (ps.length - w.length) false := by
  apply List.ext_getElem?
  intro i
  rw [List.getElem?_map]
  by_cases hi : i < ps.length
  · rw [List.getElem?_eq_getElem hi, Option.map_some, List.Nodup.idxOf_getElem hn i hi]
    by_cases hiw : i < w.length
    · rw [List.getElem?_append_left hiw, List.getElem?_eq_getElem hiw, List.getD_eq_getElem?_getD,
        List.getElem?_eq_getElem hiw]
      rfl
    · rw [List.getElem?_append_right (by omega), List.getElem?_replicate, if_pos (by omega),
        List.getD_eq_getElem?_getD, List.getElem?_eq_none (by omega)]
      rfl
  · rw [List.getElem?_eq_none (by omega), Option.map_none, List.getElem?_eq_none]
    rw [List.length_append, List.length_replicate]
    omega

theorem formatWord_length (l : ECLevel) (k : Nat) : (formatWord l k).length = 15 := by
  simp [formatWord, bits15]

theorem formatCopy1_nodup : formatCopy1.Nodup := by decide

theorem formatCopy2_nodup (s : Nat) (hs : 17 ≤ s) : (formatCopy2 s).Nodup := by
  obtain ⟨t, rfl⟩ : ∃ t, s = t + 17 := ⟨s - 17, by omega⟩
  unfold formatCopy2
  simp

theorem formatCopies_disjoint (s : Nat) (hs : 17 ≤ s) : ∀ p ∈ formatCopy2 s, p ∉ formatCopy1 := by
  obtain ⟨t, rfl⟩ : ∃ t, s = t + 17 := ⟨s - 17, by omega⟩
  unfold formatCopy1 formatCopy2
  simp

theorem formatCopy1_bounds : ∀ p ∈ formatCopy1, p.1 ≤ 8 ∧ p.2 ≤ 8 := by decide

theorem formatCopy2_bounds (s : Nat) (hs : 17 ≤ s) : ∀ p ∈ formatCopy2 s, p.1 < s ∧ p.2 < s := by
  unfold formatCopy2
  simp
  omega

theorem format_not_data (v : Nat) (p : Nat × Nat) (hp : p ∈ formatCopy1 ∨ p ∈ formatCopy2 (sideOf v)) :
    p ∉ dataModules v := by
  have hside : sideOf v = 4 * v + 17 := rfl
  have hform : inFormat v p.1 p.2 := by
    unfold inFormat
    rw [hside] at hp
    unfold formatCopy1 formatCopy2 at hp
    simp at hp
    obtain ⟨x, y⟩ := p
    simp at hp
    simp only [hside]
    omega
  intro hd
  unfold dataModules at hd
  have := of_decide_eq_true (List.mem_filter.mp hd).2
  exact this.2.2 (by unfold isFunction; simp [hform])

/-- The encoder's grid is a symbol for its segments. -/
theorem encode_isSymbol (v : Nat) (h1 : 1 ≤ v) (h40 : v ≤ 40) (l : ECLevel) (k : Nat)
    (segments : List Segment) (h : (segments.flatMap (·.bits v)).length ≤ 8 * dataCapacity v l)
    (other : Nat → Nat → Bool) : IsSymbol (encode v l k segments other) v l k segments := by
  have hside : sideOf v = 4 * v + 17 := rfl
  obtain ⟨hf, hcw, hdc⟩ := symbolFamily_spec v h1 h40 l segments h
  obtain ⟨-, tail, htail, hterm⟩ := dataCodewords_spec v l segments h
  have hmod : ∀ x y, x < sideOf v → y < sideOf v → moduleAt (encode v l k segments other) x y =
      some (placeModule v l k (streamOf (finalSequence (symbolFamily v l segments))) other x y) :=
    fun x y hx hy => gridModule v _ x y hx hy
  refine ⟨⟨rfl, rfl, by simp [encode]⟩, ?_, ?_, symbolFamily v l segments,
    List.replicate ((dataModules v).length - 8 * totalCodewords v) false, tail, hf, hcw, ?_, ?_, ?_, hterm⟩
  · unfold Shows
    have e := map_getD_idxOf formatCopy1 formatCopy1_nodup (formatWord l k)
      (by rw [formatWord_length]; decide)
    rw [formatWord_length, show formatCopy1.length - 15 = 0 from rfl, List.replicate_zero,
      List.append_nil] at e
    conv_rhs => rw [← e]
    rw [List.map_map]
    apply List.map_congr_left
    intro p hp
    have hb := formatCopy1_bounds p hp
    rw [hmod p.1 p.2 (by omega) (by omega)]
    unfold placeModule
    rw [if_neg (format_not_data v p (.inl hp)), if_pos hp]
    rfl
  · unfold Shows
    have e := map_getD_idxOf (formatCopy2 (sideOf v)) (formatCopy2_nodup _ (by omega)) (formatWord l k)
      (by rw [formatWord_length]; simp [formatCopy2])
    rw [formatWord_length, show (formatCopy2 (sideOf v)).length - 15 = 0 from rfl, List.replicate_zero,
      List.append_nil] at e
    conv_rhs => rw [← e]
    rw [List.map_map]
    apply List.map_congr_left
    intro p hp
    have hb := formatCopy2_bounds (sideOf v) (by omega) p hp
    rw [hmod p.1 p.2 hb.1 hb.2]
    unfold placeModule
    rw [if_neg (format_not_data v p (.inr hp)), if_neg (formatCopies_disjoint _ (by omega) p hp), if_pos hp]
    rfl
  · rw [List.length_replicate]
    have : totalCodewords v = (dataModules v).length / 8 := rfl
    omega
  · have hlen : (streamOf (finalSequence (symbolFamily v l segments))).length = 8 * totalCodewords v := by
      rw [length_streamOf, finalSequence_length v h1 h40 l _ hf]
    have e := map_getD_idxOf (dataModules v) ((zigzag_nodup v).filter _)
      (streamOf (finalSequence (symbolFamily v l segments)))
      (by rw [hlen]; have : totalCodewords v = (dataModules v).length / 8 := rfl; omega)
    rw [hlen] at e
    rw [← e]
    unfold symbolBits
    apply List.map_congr_left
    intro p hp
    have hb := dataModules_bounds hp
    unfold unmasked
    rw [hmod p.1 p.2 hb.1 hb.2, Option.getD_some]
    unfold placeModule
    rw [if_pos hp, Bool.xor_assoc, Bool.xor_self, Bool.xor_false]
  · rw [hdc]
    exact htail

end Verif
