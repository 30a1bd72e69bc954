import Verif.Lemmas.Correct
import Mathlib.RingTheory.Coprime.Lemmas
/-! When `correct` restores a damaged code word. -/
namespace Verif
open Spec Finset Polynomial

/-! ### code words -/

theorem prod_sub_dvd {K : Type} [Field K] (T : Finset Nat) (f : Nat → K)
    (hf : ∀ a ∈ T, ∀ b ∈ T, f a = f b → a = b) (p : K[X]) (h : ∀ l ∈ T, p.eval (f l) = 0) :
    (∏ l ∈ T, (X - C (f l))) ∣ p := by
  refine Finset.prod_dvd_of_coprime (fun a ha b hb hab => ?_) (fun l hl => dvd_iff_isRoot.mpr (h l hl))
  apply Polynomial.isCoprime_X_sub_C_of_isUnit_sub
  rw [isUnit_iff_ne_zero, sub_ne_zero]
  exact fun he => hab (hf a ha b hb he)

theorem codeword_iff (n : Nat) (hn : n ≤ 255) (b : List U8) :
    IsCodeword n b ↔ ∀ i < n, synd b i = 0 := by
  unfold IsCodeword generator synd
  constructor
  · intro h i hi
    have : (X - C (GF8.α ^ i)) ∣ blockPoly b :=
      (Finset.dvd_prod_of_mem (fun i => X - C (GF8.α ^ i)) (Finset.mem_range.mpr hi)).trans h
    exact (dvd_iff_isRoot.mp this)
  · intro h
    exact prod_sub_dvd (range n) (fun i => GF8.α ^ i) (fun a ha b hb he =>
      GF8.α_pow_inj (by have := Finset.mem_range.mp ha; omega) (by have := Finset.mem_range.mp hb; omega) he) _
      (fun i hi => h i (Finset.mem_range.mp hi))

theorem damage_length (c e : List U8) (h : e.length = c.length) : (damage c e).length = c.length := by
  simp [damage, h]

theorem errAt_damage (c e : List U8) (h : e.length = c.length) (l : Nat) (hl : l < c.length) :
    errAt (damage c e) l = errAt c l + errAt e l := by
  unfold errAt damage
  rw [List.reverse_zipWith h.symm]
  simp only [List.getD_eq_getElem?_getD, List.getElem?_zipWith,
    List.getElem?_eq_getElem (show l < c.reverse.length by simpa using hl),
    List.getElem?_eq_getElem (show l < e.reverse.length by rw [List.length_reverse]; omega),
    Option.getD_some]
  rfl

theorem synd_damage (c e : List U8) (h : e.length = c.length) (i : Nat) :
    synd (damage c e) i = synd c i + synd e i := by
  rw [synd_eq_sum, synd_eq_sum, synd_eq_sum, damage_length c e h, h, ← Finset.sum_add_distrib]
  apply Finset.sum_congr rfl
  intro l hl
  rw [errAt_damage c e h l (Finset.mem_range.mp hl)]
  ring

theorem synd_powerSum (e : List U8) (i : Nat) : synd e i = powerSum e i := by
  rw [synd_eq_sum, powerSum, errPlaces, Finset.sum_filter]
  apply Finset.sum_congr rfl
  intro l _
  split
  · rfl
  · next h => rw [Decidable.not_not.mp h, zero_mul]

theorem mem_errPlaces {e : List U8} {l : Nat} : l ∈ errPlaces e ↔ l < e.length ∧ errAt e l ≠ 0 := by
  simp [errPlaces]

/-! ### Vandermonde -/

theorem vandermonde_poly (T : Finset Nat) (w : Nat → GF8) (t : Nat)
    (h : ∀ i < t, ∑ l ∈ T, w l * (GF8.α ^ l) ^ i = 0) (P : GF8[X]) (hP : P.natDegree < t) :
    ∑ l ∈ T, w l * P.eval (GF8.α ^ l) = 0 := by
  have : ∀ l, w l * P.eval (GF8.α ^ l) = ∑ i ∈ range t, P.coeff i * (w l * (GF8.α ^ l) ^ i) := by
    intro l
    rw [eval_eq_sum_range' hP, Finset.mul_sum]
    apply Finset.sum_congr rfl
    intro i _
    ring
  simp only [this]
  rw [Finset.sum_comm]
  apply Finset.sum_eq_zero
  intro i hi
  rw [← Finset.mul_sum, h i (Finset.mem_range.mp hi), mul_zero]

theorem natDegree_prod_pow (T : Finset Nat) (f : Nat → GF8) :
    (∏ l ∈ T, (X - C (f l))).natDegree = T.card := natDegree_finset_prod_X_sub_C_eq_card T f

theorem vandermonde_zero (T : Finset Nat) (hT : ∀ l ∈ T, l < 255) (w : Nat → GF8) (t : Nat)
    (ht : T.card ≤ t) (h : ∀ i < t, ∑ l ∈ T, w l * (GF8.α ^ l) ^ i = 0) : ∀ l ∈ T, w l = 0 := by
  intro l hl
  have hpos : 0 < T.card := Finset.card_pos.mpr ⟨l, hl⟩
  have := vandermonde_poly T w t h (∏ m ∈ T.erase l, (X - C (GF8.α ^ m))) (by
    rw [natDegree_prod_pow, Finset.card_erase_of_mem hl]; omega)
  rw [Finset.sum_eq_single l] at this
  · rcases mul_eq_zero.mp this with h0 | h0
    · exact h0
    · rw [eval_prod, Finset.prod_eq_zero_iff] at h0
      obtain ⟨m, hm, he⟩ := h0
      rw [eval_sub, eval_X, eval_C, sub_eq_zero] at he
      rw [Finset.mem_erase] at hm
      exact absurd (GF8.α_pow_inj (hT l hl) (hT m hm.2) he) (fun h => hm.1 h.symm)
  · intro m hm hml
    rw [eval_prod, Finset.prod_eq_zero (Finset.mem_erase.mpr ⟨hml, hm⟩), mul_zero]
    simp
  · intro h; exact absurd hl h

/-! ### regular elimination -/

theorem stg_schur (A : Nat → Nat → GF8) (n i : Nat) (h : ∀ k < i, RegularRow A n k) :
    ∀ r c, i + c ≤ n → stg A i (i + r) (i + c) = (schur^[i] A) r c := by
  induction i with
  | zero => intro r c _; rw [Nat.zero_add, Nat.zero_add]; rfl
  | succ i ih =>
    intro r c hc
    have ih' := ih (fun k hk => h k (by omega))
    rw [Function.iterate_succ_apply', schur, ← ih' (r + 1) (c + 1) (by omega), ← ih' (r + 1) 0 (by omega),
      ← ih' 0 (c + 1) (by omega), ← ih' 0 0 (by omega), stg_succ A i _ _ (by omega) (by omega),
      R_regular (h i (by omega)) (by omega) _ (by omega) (by omega)]
    simp only [Nat.add_zero, show i + 1 + r = i + (r + 1) by omega, show i + 1 + c = i + (c + 1) by omega]

theorem regular_iterate (k cols : Nat) (M : Nat → Nat → GF8) (h : Regular k cols M) :
    ∀ i < k, ∀ c ≤ cols - i, (schur^[i] M) 0 c ≠ 0 := by
  induction k generalizing cols M with
  | zero => intro i hi; omega
  | succ k ih =>
    intro i hi c hc
    cases i with
    | zero => exact h.1 c (by omega)
    | succ i =>
      rw [Function.iterate_succ_apply]
      exact ih (cols - 1) (schur M) h.2 i (by omega) c (by omega)

theorem regular_rows (k n : Nat) (A : Nat → Nat → GF8) (hk : k ≤ n) (h : Regular k n A) :
    ∀ i < k, RegularRow A n i := by
  intro i
  induction i using Nat.strong_induction_on with
  | _ i ih =>
    intro hi c hic hcn
    have := stg_schur A n i (fun j hj => ih j hj (by omega)) 0 (c - i) (by omega)
    rw [Nat.add_zero, Nat.add_sub_of_le hic] at this
    rw [this]
    exact regular_iterate k n A h i hi (c - i) (by omega)

/-! ### the locator -/

theorem sigma_vanishes (e : List U8) (he : e.length < 255) (z : Nat) (S : Nat → GF8)
    (hS : ∀ i < 2 * z, S i = powerSum e i) (x : Nat → GF8) (hx : Tri (hankel S) z x)
    (ht : (errPlaces e).card ≤ z) (hreg : ∀ i < (errPlaces e).card, RegularRow (hankel S) z i) :
    ∀ l ∈ errPlaces e, (sigmaPoly z x).eval (GF8.α ^ l) = 0 := by
  have hT : ∀ l ∈ errPlaces e, l < 255 := fun l hl => by have := (mem_errPlaces.mp hl).1; omega
  have key := vandermonde_zero (errPlaces e) hT
    (fun l => errAt e l * (sigmaPoly z x).eval (GF8.α ^ l)) _ (Nat.le_refl _) ?_
  · intro l hl
    rcases mul_eq_zero.mp (key l hl) with h | h
    · exact absurd h (mem_errPlaces.mp hl).2
    · exact h
  · intro i hi
    have hrow := solution_row (hankel S) z x hx i (by omega) (hreg i hi)
    unfold hankel at hrow
    rw [hS (i + z) (by omega)] at hrow
    have e1 : ∑ j ∈ range z, S (i + j) * x j =
        ∑ l ∈ errPlaces e, errAt e l * (∑ j ∈ range z, x j * (GF8.α ^ l) ^ j) * (GF8.α ^ l) ^ i := by
      have : ∀ j ∈ range z, S (i + j) * x j =
          ∑ l ∈ errPlaces e, errAt e l * (x j * (GF8.α ^ l) ^ j) * (GF8.α ^ l) ^ i := by
        intro j hj
        have hj := Finset.mem_range.mp hj
        rw [hS (i + j) (by omega), powerSum, Finset.sum_mul]
        apply Finset.sum_congr rfl
        intro l _
        rw [pow_add]; ring
      rw [Finset.sum_congr rfl this, Finset.sum_comm]
      apply Finset.sum_congr rfl
      intro l _
      rw [Finset.mul_sum, Finset.sum_mul]
    rw [e1] at hrow
    have e2 : ∀ l, errAt e l * (sigmaPoly z x).eval (GF8.α ^ l) * (GF8.α ^ l) ^ i =
        errAt e l * (∑ j ∈ range z, x j * (GF8.α ^ l) ^ j) * (GF8.α ^ l) ^ i +
        errAt e l * (GF8.α ^ l) ^ (i + z) := by
      intro l
      rw [sigmaPoly, eval_add, eval_finset_sum]
      simp only [eval_pow, eval_X, eval_mul, eval_C]
      rw [pow_add]; ring
    simp only [e2]
    rw [Finset.sum_add_distrib, hrow, powerSum]
    exact GF8.xor_self' _

/-! ### the error values -/

/-- Stage polynomials of the elimination on the Vandermonde system. -/
theorem vander_stage (e : List U8) (S : Nat → GF8) (L : List Nat) (hL : L.Nodup)
    (hlt : ∀ l ∈ L, l < 255) (hS : ∀ i < L.length, S i = powerSum e i) (i : Nat) (hi : i ≤ L.length)
    (hnz : ∀ k < i, newton e L k ≠ 0) :
    (∀ k < i, RegularRow (vander S L) L.length k) ∧
    ∃ P : Nat → GF8[X], ∀ r, i ≤ r → r < L.length →
      (P r).Monic ∧ (P r).natDegree = r ∧
      (∀ m < i, (P r).eval (GF8.α ^ (L.getD m 0)) = 0) ∧
      (∀ c, i ≤ c → c < L.length → stg (vander S L) i r c = (P r).eval (GF8.α ^ (L.getD c 0))) ∧
      stg (vander S L) i r L.length = ∑ l ∈ errPlaces e, errAt e l * (P r).eval (GF8.α ^ l) := by
  have hinj : ∀ a b, a < L.length → b < L.length → GF8.α ^ (L.getD a 0) = GF8.α ^ (L.getD b 0) → a = b := by
    intro a b ha hb h
    have h1 : L.getD a 0 = L[a] := by simp [ha]
    have h2 : L.getD b 0 = L[b] := by simp [hb]
    rw [h1, h2] at h
    have := GF8.α_pow_inj (hlt _ (List.getElem_mem ha)) (hlt _ (List.getElem_mem hb)) h
    exact (List.Nodup.getElem_inj_iff hL).mp this
  induction i with
  | zero =>
    refine ⟨fun k hk => absurd hk (by omega), fun r => X ^ r, fun r _ hr => ⟨monic_X_pow r, natDegree_X_pow r,
      fun m hm => absurd hm (by omega), ?_, ?_⟩⟩
    · intro c _ hc
      show vander S L r c = _
      rw [vander, if_pos hc, eval_pow, eval_X]
    · show vander S L r L.length = _
      rw [vander, if_neg (by omega), hS r hr, powerSum]
      apply Finset.sum_congr rfl
      intro l _
      rw [eval_pow, eval_X]
  | succ i ih =>
    obtain ⟨hregs, P, hP⟩ := ih (by omega) (fun k hk => hnz k (by omega))
    obtain ⟨hm, hd, hz, hc, hn⟩ := hP i (Nat.le_refl _) (by omega)
    have hPi : P i = ∏ m ∈ range i, (X - C (GF8.α ^ (L.getD m 0))) := by
      have hmon : (∏ m ∈ range i, (X - C (GF8.α ^ (L.getD m 0)))).Monic :=
        monic_prod_of_monic _ _ fun m _ => monic_X_sub_C _
      refine (Polynomial.eq_of_monic_of_dvd_of_natDegree_le hmon hm ?_ ?_)
      · exact prod_sub_dvd (range i) (fun m => GF8.α ^ (L.getD m 0)) (fun a ha b hb he =>
          hinj a b (by have := Finset.mem_range.mp ha; omega) (by have := Finset.mem_range.mp hb; omega) he) _
          (fun m hm' => hz m (Finset.mem_range.mp hm'))
      · rw [hd, natDegree_prod_pow, Finset.card_range]
    have hreg : RegularRow (vander S L) L.length i := by
      intro c hic hcn
      by_cases hcl : c < L.length
      · rw [hc c hic hcl, hPi, eval_prod, Finset.prod_ne_zero_iff]
        intro m hm'
        have hm' := Finset.mem_range.mp hm'
        rw [eval_sub, eval_X, eval_C, sub_ne_zero]
        intro he
        have := hinj c m hcl (by omega) he
        omega
      · have : c = L.length := by omega
        subst this
        rw [hn]
        have h0 := hnz i (by omega)
        unfold newton at h0
        convert h0 using 3
        rw [hPi, eval_prod]
        apply Finset.prod_congr rfl
        intro m _
        rw [eval_sub, eval_X, eval_C]
    refine ⟨fun k hk => ?_, ?_⟩
    · rcases Nat.lt_succ_iff_lt_or_eq.mp hk with h | h
      · exact hregs k h
      · exact h ▸ hreg
    · have hp0 : (P i).eval (GF8.α ^ (L.getD i 0)) ≠ 0 := by
        rw [← hc i (Nat.le_refl _) (by omega)]
        exact hreg i (Nat.le_refl _) (by omega)
      refine ⟨fun r => P r - C ((P r).eval (GF8.α ^ (L.getD i 0)) / (P i).eval (GF8.α ^ (L.getD i 0))) * P i,
        fun r hr hrl => ?_⟩
      obtain ⟨hm', hd', hz', hc', hn'⟩ := hP r (by omega) hrl
      have hdeg : (C ((P r).eval (GF8.α ^ (L.getD i 0)) / (P i).eval (GF8.α ^ (L.getD i 0))) * P i).degree <
          (P r).degree := by
        rw [Polynomial.degree_eq_natDegree hm'.ne_zero, hd']
        rw [C_mul']
        apply (Polynomial.degree_smul_le _ _).trans_lt
        rw [Polynomial.degree_eq_natDegree hm.ne_zero, hd]
        exact Nat.cast_lt.mpr hr
      refine ⟨hm'.sub_of_left hdeg, ?_, ?_, ?_, ?_⟩
      · rw [natDegree_eq_of_degree_eq (degree_sub_eq_left_of_degree_lt hdeg), hd']
      · intro m hmi
        rw [eval_sub, eval_mul, eval_C]
        rcases Nat.lt_succ_iff_lt_or_eq.mp hmi with h | h
        · rw [hz' m h, hz m h]; ring
        · subst h
          rw [div_mul_cancel₀ _ hp0, sub_self]
      · intro c hic hcl
        rw [stg_succ _ i r c (by omega) (by omega), R_regular hreg (by omega) c (by omega) (by omega),
          hc' c (by omega) hcl, hc' i (by omega) (by omega), hc c (by omega) hcl,
          hc i (by omega) (by omega), eval_sub, eval_mul, eval_C]
        ring
      · rw [stg_succ _ i r _ (by omega) (by omega), R_regular hreg (by omega) _ (by omega) (by omega),
          hn', hc' i (by omega) (by omega), hn, hc i (by omega) (by omega), Finset.sum_div, Finset.mul_sum,
          ← Finset.sum_sub_distrib]
        apply Finset.sum_congr rfl
        intro l _
        rw [eval_sub, eval_mul, eval_C]
        ring

theorem list_pow_inj (L : List Nat) (hL : L.Nodup) (hlt : ∀ l ∈ L, l < 255) :
    ∀ a b, a < L.length → b < L.length → GF8.α ^ (L.getD a 0) = GF8.α ^ (L.getD b 0) → a = b := by
  intro a b ha hb h
  have h1 : L.getD a 0 = L[a] := by simp [ha]
  have h2 : L.getD b 0 = L[b] := by simp [hb]
  rw [h1, h2] at h
  have := GF8.α_pow_inj (hlt _ (List.getElem_mem ha)) (hlt _ (List.getElem_mem hb)) h
  exact (List.Nodup.getElem_inj_iff hL).mp this

theorem stagePoly_eq (L : List Nat) (hL : L.Nodup) (hlt : ∀ l ∈ L, l < 255) (i : Nat) (hi : i < L.length)
    (P : GF8[X]) (hm : P.Monic) (hd : P.natDegree = i)
    (hz : ∀ m < i, P.eval (GF8.α ^ (L.getD m 0)) = 0) :
    P = ∏ m ∈ range i, (X - C (GF8.α ^ (L.getD m 0))) := by
  have hmon : (∏ m ∈ range i, (X - C (GF8.α ^ (L.getD m 0)))).Monic :=
    monic_prod_of_monic _ _ fun m _ => monic_X_sub_C _
  refine (Polynomial.eq_of_monic_of_dvd_of_natDegree_le hmon hm ?_ ?_)
  · exact prod_sub_dvd (range i) (fun m => GF8.α ^ (L.getD m 0)) (fun a ha b hb he =>
      list_pow_inj L hL hlt a b (by have := Finset.mem_range.mp ha; omega)
        (by have := Finset.mem_range.mp hb; omega) he) _
      (fun m hm' => hz m (Finset.mem_range.mp hm'))
  · rw [hd, natDegree_prod_pow, Finset.card_range]

/-- The stage entries of the Vandermonde elimination. -/
theorem vander_entries (e : List U8) (S : Nat → GF8) (L : List Nat) (hL : L.Nodup)
    (hlt : ∀ l ∈ L, l < 255) (hS : ∀ i < L.length, S i = powerSum e i) (i : Nat) (hi : i < L.length)
    (hnz : ∀ k < i, newton e L k ≠ 0) :
    (∀ c, i ≤ c → c < L.length → stg (vander S L) i i c ≠ 0) ∧
    stg (vander S L) i i L.length = newton e L i := by
  obtain ⟨-, P, hP⟩ := vander_stage e S L hL hlt hS i (by omega) hnz
  obtain ⟨hm, hd, hz, hc, hn⟩ := hP i (Nat.le_refl _) hi
  have hPi := stagePoly_eq L hL hlt i hi (P i) hm hd hz
  constructor
  · intro c hic hcl
    rw [hc c hic hcl, hPi, eval_prod, Finset.prod_ne_zero_iff]
    intro m hm'
    have hm' := Finset.mem_range.mp hm'
    rw [eval_sub, eval_X, eval_C, sub_ne_zero]
    intro he
    have := list_pow_inj L hL hlt c m hcl (by omega) he
    omega
  · rw [hn, newton]
    apply Finset.sum_congr rfl
    intro l _
    rw [hPi, eval_prod]
    congr 1
    apply Finset.prod_congr rfl
    intro m _
    rw [eval_sub, eval_X, eval_C]

theorem errAt_zero_of_le (e : List U8) (l : Nat) (h : e.length ≤ l) : errAt e l = 0 := by
  unfold errAt
  rw [List.getD_eq_getElem?_getD, List.getElem?_eq_none (by simpa using h)]
  rfl

theorem true_values (e : List U8) (L : List Nat) (hL : L.Nodup) (hlt : ∀ l ∈ L, l < 255)
    (he : e.length < 255) (hT : ∀ l ∈ errPlaces e, l ∈ L) (r : Nat) :
    ∑ j ∈ range L.length, (GF8.α ^ (L.getD j 0)) ^ r * errAt e (L.getD j 0) = powerSum e r := by
  have hoff : ∀ l, l ∉ L → errAt e l = 0 := by
    intro l hl
    refine Decidable.byContradiction fun hc => hl (hT l (mem_errPlaces.mpr ⟨?_, hc⟩))
    refine Decidable.byContradiction fun hlen => hc (errAt_zero_of_le e l (by omega))
  rw [← sum_over_list 255 L hL hlt (fun l => (GF8.α ^ l) ^ r * errAt e l)
    (fun l _ hl => by rw [hoff l hl, mul_zero]), powerSum]
  symm
  have hsub : errPlaces e ⊆ range 255 := by
    intro l hl
    have := (mem_errPlaces.mp hl).1
    exact Finset.mem_range.mpr (by omega)
  rw [← Finset.sum_subset hsub]
  · apply Finset.sum_congr rfl
    intro l _
    ring
  · intro l _ hl
    have : errAt e l = 0 := by
      refine Decidable.byContradiction fun hc => hl (mem_errPlaces.mpr ⟨?_, hc⟩)
      refine Decidable.byContradiction fun hlen => hc (errAt_zero_of_le e l (by omega))
    rw [this, mul_zero]

/-- The computed error values are the true ones iff no Newton numerator vanishes. -/
theorem distances_iff (e : List U8) (he : e.length < 255) (S : Nat → GF8) (L : List Nat) (hL : L.Nodup)
    (hlt : ∀ l ∈ L, l < 255) (hS : ∀ i < L.length, S i = powerSum e i)
    (hT : ∀ l ∈ errPlaces e, l ∈ L) (d : Nat → GF8) (hd : Tri (vander S L) L.length d) :
    (∀ j < L.length, d j = errAt e (L.getD j 0)) ↔ ∀ i < L.length, newton e L i ≠ 0 := by
  have horig : ∀ r < L.length, ∑ j ∈ range L.length, vander S L r j * errAt e (L.getD j 0) -
      vander S L r L.length = 0 := by
    intro r hr
    have : vander S L r L.length = powerSum e r := by
      rw [vander, if_neg (by omega), hS r hr]
    rw [this, ← true_values e L hL hlt he hT r, sub_eq_zero]
    apply Finset.sum_congr rfl
    intro j hj
    rw [vander, if_pos (Finset.mem_range.mp hj)]
  constructor
  · intro hdy
    have hy : Tri (vander S L) L.length (fun j => errAt e (L.getD j 0)) := by
      intro i hi
      rw [← hd i hi]
      apply Finset.sum_congr rfl
      intro j hj
      rw [hdy j (Finset.mem_Ico.mp hj).2]
    intro i
    induction i using Nat.strong_induction_on with
    | _ i ih =>
      intro hi h0
      obtain ⟨hnz, hrhs⟩ := vander_entries e S L hL hlt hS i hi (fun k hk => ih k hk (by omega))
      have hres := res_solution (vander S L) L.length (fun j => errAt e (L.getD j 0)) i
        (fun k hk => hy k (by omega)) i (Nat.le_refl _) (by omega)
      rw [horig i hi, res, hrhs, h0, sub_zero] at hres
      have hp := hnz i (Nat.le_refl _) hi
      have htri := hy i hi
      have hRn : R (vander S L) i L.length = (stg (vander S L) i i i)⁻¹ := by
        rw [R, hrhs, h0, GF8.zero_div_eq hp]
      have hsum : ∑ j ∈ Ico i L.length, R (vander S L) i j * errAt e (L.getD j 0) =
          (∑ j ∈ Ico i L.length, stg (vander S L) i i j * errAt e (L.getD j 0)) /
            stg (vander S L) i i i := by
        rw [Finset.sum_div]
        apply Finset.sum_congr rfl
        intro j hj
        have hj := Finset.mem_Ico.mp hj
        rw [R, GF8.div_eq (hnz j hj.1 hj.2) hp]
        ring
      rw [hsum, hres, zero_div, hRn] at htri
      exact inv_ne_zero hp htri.symm
  · intro hnz
    obtain ⟨hreg, -⟩ := vander_stage e S L hL hlt hS L.length (Nat.le_refl _) hnz
    have hy : ∀ i < L.length, ∑ j ∈ Ico i L.length, R (vander S L) i j * errAt e (L.getD j 0) =
        R (vander S L) i L.length := by
      intro i
      induction i using Nat.strong_induction_on with
      | _ i ih =>
        intro hi
        have h1 := norm_res (hreg i hi) hi (fun j => errAt e (L.getD j 0))
        have h2 := res_solution (vander S L) L.length (fun j => errAt e (L.getD j 0)) i
          (fun k hk => ih k hk (by omega)) i (Nat.le_refl _) (by omega)
        rw [h2, horig i hi, zero_div] at h1
        exact sub_eq_zero.mp h1
    exact triangular_unique L.length (vander S L) d _ hd hy

/-! ### the polynomial used -/

theorem locator_monic (e : List U8) : (locator e).Monic :=
  monic_prod_of_monic _ _ fun l _ => monic_X_sub_C _

theorem locator_degree (e : List U8) : (locator e).natDegree = (errPlaces e).card :=
  natDegree_prod_pow _ _

theorem hankel_span (e : List U8) (ht : 0 < (errPlaces e).card) (r : Nat) :
    ∃ a : Nat → GF8, ∀ c, powerSum e (r + c) =
      ∑ i ∈ range (errPlaces e).card, a i * powerSum e (i + c) := by
  refine ⟨(X ^ r %ₘ locator e).coeff, fun c => ?_⟩
  have hdeg : (X ^ r %ₘ locator e).natDegree < (errPlaces e).card := by
    rw [← locator_degree e]
    apply natDegree_modByMonic_lt _ (locator_monic e)
    intro h1
    have := locator_degree e
    rw [h1, natDegree_one] at this
    omega
  have hpow : ∀ l ∈ errPlaces e, (GF8.α ^ l) ^ r =
      ∑ i ∈ range (errPlaces e).card, (X ^ r %ₘ locator e).coeff i * (GF8.α ^ l) ^ i := by
    intro l hl
    rw [← eval_eq_sum_range' hdeg]
    have h0 : (locator e).eval (GF8.α ^ l) = 0 := by
      rw [locator, eval_prod]
      apply Finset.prod_eq_zero hl
      rw [eval_sub, eval_X, eval_C, sub_self]
    have := congrArg (Polynomial.eval (GF8.α ^ l)) (modByMonic_add_div (X ^ r) (locator e))
    rw [eval_add, eval_mul, h0, zero_mul, add_zero, eval_pow, eval_X] at this
    exact this.symm
  have e1 : ∀ i ∈ range (errPlaces e).card, (X ^ r %ₘ locator e).coeff i * powerSum e (i + c) =
      ∑ l ∈ errPlaces e, errAt e l * ((X ^ r %ₘ locator e).coeff i * (GF8.α ^ l) ^ i) * (GF8.α ^ l) ^ c := by
    intro i _
    rw [powerSum, Finset.mul_sum]
    apply Finset.sum_congr rfl
    intro l _
    rw [pow_add]; ring
  rw [Finset.sum_congr rfl e1, Finset.sum_comm, powerSum]
  apply Finset.sum_congr rfl
  intro l hl
  rw [← Finset.sum_mul, ← Finset.mul_sum, ← hpow l hl, pow_add, mul_assoc]

theorem stage_span (A : Nat → Nat → GF8) (z t : Nat) (htz : t ≤ z) (hreg : ∀ i < t, RegularRow A z i)
    (r : Nat) (hr : t ≤ r) (a : Nat → GF8)
    (ha : ∀ c ≤ z, A r c = ∑ i ∈ range t, a i * A i c) (k : Nat) (hk : k ≤ t) :
    ∀ c, k ≤ c → c ≤ z → stg A k r c = ∑ i ∈ Ico k t, a i * stg A k i c := by
  induction k with
  | zero =>
    intro c _ hc
    rw [← Finset.range_eq_Ico]
    exact ha c hc
  | succ k ih =>
    intro c hkc hc
    have ih' := ih (by omega)
    have hRk := R_regular (hreg k (by omega)) (by omega) c (by omega) hc
    have hp := hreg k (by omega) k (Nat.le_refl _) (by omega)
    rw [stg_succ A k r c (by omega) (by omega), ih' c (by omega) hc, ih' k (Nat.le_refl _) (by omega),
      Finset.sum_eq_sum_Ico_succ_bot (show k < t by omega),
      Finset.sum_eq_sum_Ico_succ_bot (show k < t by omega)]
    have : ∑ i ∈ Ico (k + 1) t, a i * stg A (k + 1) i c =
        ∑ i ∈ Ico (k + 1) t, a i * stg A k i c - (∑ i ∈ Ico (k + 1) t, a i * stg A k i k) * R A k c := by
      rw [Finset.sum_mul, ← Finset.sum_sub_distrib]
      apply Finset.sum_congr rfl
      intro i hi
      rw [stg_succ A k i c (by have := Finset.mem_Ico.mp hi; omega) (by omega)]
      ring
    rw [this, add_mul]
    have hk0 : a k * stg A k k c - a k * stg A k k k * R A k c = 0 := by
      rw [hRk, mul_assoc, mul_div_cancel₀ _ hp, sub_self]
    linear_combination hk0

theorem zero_block (A : Nat → Nat → GF8) (z t : Nat)
    (h : ∀ r, t ≤ r → r < z → ∀ c, t ≤ c → c ≤ z → stg A t r c = 0) (k : Nat) (hk : t ≤ k) :
    ∀ r, k ≤ r → r < z → ∀ c, k ≤ c → c ≤ z → stg A k r c = 0 := by
  induction k with
  | zero =>
    have : t = 0 := by omega
    subst this
    exact h
  | succ k ih =>
    rcases Nat.lt_or_ge k t with hkt | hkt
    · have : t = k + 1 := by omega
      subst this
      exact h
    · intro r hr hrz c hc hcz
      have ih' := ih hkt
      rw [stg_succ A k r c (by omega) (by omega), ih' r (by omega) hrz c (by omega) hcz,
        ih' r (by omega) hrz k (Nat.le_refl _) (by omega), zero_mul, sub_zero]

theorem tail_ones (z t : Nat) (x : Nat → GF8)
    (h : ∀ i, t ≤ i → i < z → ∑ j ∈ Ico i z, x j = 1) :
    (∀ j, t ≤ j → j + 1 < z → x j = 0) ∧ (t < z → x (z - 1) = 1) := by
  constructor
  · intro j htj hj
    have h1 := h j htj (by omega)
    have h2 := h (j + 1) (by omega) hj
    rw [Finset.sum_eq_sum_Ico_succ_bot (show j < z by omega), h2] at h1
    exact add_eq_right.mp h1
  · intro htz
    have h1 := h (z - 1) (by omega) (by omega)
    rw [Finset.sum_eq_sum_Ico_succ_bot (show z - 1 < z by omega), show z - 1 + 1 = z by omega,
      Finset.Ico_self, Finset.sum_empty, add_zero] at h1
    exact h1

/-- The polynomial computed from regular syndromes is `usedLocator`. -/
theorem sigma_used (e : List U8) (he : e.length < 255) (z : Nat) (S : Nat → GF8)
    (hS : ∀ i < 2 * z, S i = powerSum e i) (x : Nat → GF8) (hx : Tri (hankel S) z x)
    (ht0 : 0 < (errPlaces e).card) (ht : (errPlaces e).card ≤ z)
    (hreg : ∀ i < (errPlaces e).card, RegularRow (hankel S) z i) :
    sigmaPoly z x = usedLocator z e := by
  have hvan := sigma_vanishes e he z S hS x hx ht hreg
  set t := (errPlaces e).card with htdef
  have hzero : ∀ r, t ≤ r → r < z → ∀ c, t ≤ c → c ≤ z → stg (hankel S) t r c = 0 := by
    intro r hr hrz c hc hcz
    obtain ⟨a, ha⟩ := hankel_span e ht0 r
    rw [stage_span (hankel S) z t ht hreg r hr a ?_ t (Nat.le_refl _) c hc hcz, Finset.Ico_self,
      Finset.sum_empty]
    intro c hcz
    unfold hankel
    rw [hS (r + c) (by omega), ha c]
    apply Finset.sum_congr rfl
    intro i hi
    have := Finset.mem_range.mp hi
    rw [hS (i + c) (by omega)]
  have hones : ∀ i, t ≤ i → i < z → ∑ j ∈ Ico i z, x j = 1 := by
    intro i hi hiz
    have hb := zero_block (hankel S) z t hzero i hi i (Nat.le_refl _) hiz
    have hR1 : ∀ c, i ≤ c → c ≤ z → R (hankel S) i c = 1 := by
      intro c hc hcz
      rw [R, hb c hc hcz, hb i (Nat.le_refl _) (by omega)]
      exact GF8.zero_div_zero_eq
    rw [← hR1 z (by omega) (Nat.le_refl _), ← hx i hiz]
    apply Finset.sum_congr rfl
    intro j hj
    have := Finset.mem_Ico.mp hj
    rw [hR1 j (by omega) (by omega), one_mul]
  obtain ⟨hx0, hx1⟩ := tail_ones z t x hones
  have hLm := locator_monic e
  have hLd := locator_degree e
  -- the low part
  have hsplit : sigmaPoly z x = (if t < z then X ^ z + X ^ (z - 1) else X ^ z) +
      ∑ j ∈ range t, C (x j) * X ^ j := by
    unfold sigmaPoly
    split
    · next htz =>
      have hdec : ∑ j ∈ range z, C (x j) * X ^ j =
          X ^ (z - 1) + ∑ j ∈ range t, C (x j) * X ^ j := by
        obtain ⟨k, rfl⟩ : ∃ k, z = k + 1 := ⟨z - 1, by omega⟩
        rw [Finset.sum_range_succ]
        have e1 : x k = 1 := by have := hx1 htz; simpa using this
        rw [e1, C_1, one_mul, Nat.add_sub_cancel, add_comm]
        congr 1
        symm
        apply Finset.sum_subset (Finset.range_mono (show t ≤ k by omega))
        intro j hj hjt
        rw [Finset.mem_range] at hj hjt
        rw [hx0 j (by omega) (by omega), C_0, zero_mul]
      rw [hdec]; ring
    · next htz =>
      have : t = z := by omega
      rw [this]
  have hlow : (∑ j ∈ range t, C (x j) * X ^ j : GF8[X]).degree < (t : WithBot Nat) := by
    apply (Polynomial.degree_sum_le _ _).trans_lt
    refine (Finset.sup_lt_iff (WithBot.bot_lt_coe t)).mpr ?_
    intro j hj
    exact (degree_C_mul_X_pow_le j (x j)).trans_lt (Nat.cast_lt.mpr (Finset.mem_range.mp hj))
  have hdvd : locator e ∣ sigmaPoly z x :=
    prod_sub_dvd (errPlaces e) (fun l => GF8.α ^ l) (fun a ha b hb hab =>
      GF8.α_pow_inj (by have := (mem_errPlaces.mp ha).1; omega) (by have := (mem_errPlaces.mp hb).1; omega)
        hab) _ hvan
  unfold usedLocator
  rw [← htdef]
  generalize hQ : (if t < z then X ^ z + X ^ (z - 1) else X ^ z : GF8[X]) = Q at *
  have hdiv := modByMonic_add_div Q (locator e)
  have hdiff : sigmaPoly z x - locator e * (Q /ₘ locator e) =
      Q %ₘ locator e + ∑ j ∈ range t, C (x j) * X ^ j := by
    rw [hsplit]
    linear_combination -hdiv
  have hz0 : sigmaPoly z x - locator e * (Q /ₘ locator e) = 0 := by
    apply Polynomial.eq_zero_of_dvd_of_degree_lt (p := locator e)
    · exact dvd_sub hdvd (dvd_mul_right _ _)
    · rw [hdiff, Polynomial.degree_eq_natDegree hLm.ne_zero, hLd]
      apply (Polynomial.degree_add_le _ _).trans_lt
      apply max_lt
      · have := degree_modByMonic_lt Q hLm
        rwa [Polynomial.degree_eq_natDegree hLm.ne_zero, hLd] at this
      · exact hlow
  exact sub_eq_zero.mp hz0

/-! ### restoring a code word -/

/-- Exact condition for the repair of a damaged code word, for regular syndromes. -/
theorem repaired_iff (bi : BlockInfo) (hg : GoodInfo bi) (n : Nat) (hn : n ≤ 255)
    (hcap : 2 * bi.ec_cap ≤ n) (c e : List U8) (hc : c.length = bi.total_per) (hcw : IsCodeword n c)
    (he : e.length = bi.total_per) (ht0 : 0 < (errPlaces e).card) (ht : (errPlaces e).card ≤ bi.ec_cap)
    (hreg : Regular (errPlaces e).card bi.ec_cap (fun r c => powerSum e (r + c))) :
    ∃ b, correctWithErrorCount (damage c e) bi = .ok (b, bitDistance (damage c e) b) ∧
      (b = c ↔ ∀ i < (rootList (usedLocator bi.ec_cap e) bi.total_per).length,
        newton e (rootList (usedLocator bi.ec_cap e) bi.total_per) i ≠ 0) := by
  have hec : e.length = c.length := by omega
  have hS : ∀ i < 2 * bi.ec_cap, synd (damage c e) i = powerSum e i := by
    intro i hi
    rw [synd_damage c e hec, (codeword_iff n hn c).mp hcw i (by omega), zero_add, synd_powerSum]
  have hN : bi.total_per < 255 := hg.2.2
  -- regularity carries over
  have hreg' : ∀ i < (errPlaces e).card, RegularRow (hankel (synd (damage c e))) bi.ec_cap i := by
    apply regular_rows _ _ _ ht
    have hagree : ∀ k cols (M M' : Nat → Nat → GF8), k ≤ cols →
        (∀ r c, r < k → c ≤ cols → M r c = M' r c) → Regular k cols M → Regular k cols M' := by
      intro k
      induction k with
      | zero => intros; trivial
      | succ k ih =>
        intro cols M M' hkc hMM hM
        refine ⟨fun c hc => hMM 0 c (by omega) hc ▸ hM.1 c hc, ?_⟩
        apply ih (cols - 1) (schur M) (schur M') (by omega) _ hM.2
        intro r c hr hc
        unfold schur
        rw [hMM (r + 1) (c + 1) (by omega) (by omega), hMM (r + 1) 0 (by omega) (by omega),
          hMM 0 (c + 1) (by omega) (by omega), hMM 0 0 (by omega) (by omega)]
    refine hagree _ _ _ _ ht ?_ hreg
    intro r c hr hc
    unfold hankel
    rw [hS (r + c) (by omega)]
  have hne : ∃ i < 2 * bi.ec_cap, synd (damage c e) i ≠ 0 := by
    refine Decidable.byContradiction fun hall => ?_
    have hall' : ∀ i < 2 * bi.ec_cap, synd (damage c e) i = 0 := fun i hi =>
      Decidable.byContradiction fun h => hall ⟨i, hi, h⟩
    have h0 := hreg' 0 ht0 0 (Nat.le_refl _) (Nat.zero_le _)
    exact h0 (hall' 0 (by have := hg.1; omega))
  obtain ⟨x, hx, hm⟩ := (correct_master (damage c e) bi (by rw [damage_length c e hec, hc]) hg).2 hne
  have hsig := sigma_used e (by omega) bi.ec_cap _ hS x hx ht0 ht hreg'
  generalize hL : rootList (usedLocator bi.ec_cap e) bi.total_per = L
  obtain ⟨-, hm2⟩ := hm L (by rw [hsig, hL])
  have hmem : ∀ l ∈ errPlaces e, l ∈ L := by
    intro l hl
    rw [← hL]
    refine mem_rootList.mpr ⟨?_, ?_⟩
    · have := (mem_errPlaces.mp hl).1; omega
    · rw [← hsig]
      exact sigma_vanishes e (by omega) bi.ec_cap _ hS x hx ht hreg' l hl
  have hLne : L ≠ [] := by
    obtain ⟨l, hl⟩ := Finset.card_pos.mp ht0
    exact List.ne_nil_of_mem (hmem l hl)
  have hLz : L.length ≤ bi.ec_cap := by
    have hdeg := sigmaPoly_degree bi.ec_cap x
    rw [← hL, ← hsig]
    exact (rootList_length _ hdeg.1.ne_zero _ (by omega)).trans hdeg.2.le
  have hnd : L.Nodup := hL ▸ rootList_nodup _ _
  have hlt : ∀ l ∈ L, l < 255 := by
    intro l hl
    rw [← hL] at hl
    have := (mem_rootList.mp hl).1
    omega
  have hltN : ∀ j < L.length, L.getD j 0 < bi.total_per := by
    intro j hj
    have hh : L.getD j 0 = L[j] := by simp [hj]
    have hl : L[j] ∈ L := List.getElem_mem hj
    rw [← hh, ← hL] at hl
    rw [← hL]
    exact (mem_rootList.mp hl).1
  obtain ⟨d, hd, block', hlen', hin, hout, -, hres⟩ := hm2 hLne
  have hiff := distances_iff e (by omega) (synd (damage c e)) L hnd hlt (fun i hi => hS i (by omega)) hmem d hd
  have h0 : synd (damage c e) 0 ≠ 0 := hreg' 0 ht0 0 (Nat.le_refl _) (Nat.zero_le _)
  rw [if_neg h0] at hres
  rw [damage_length c e hec] at hlen' hout
  refine ⟨block', hres, ?_⟩
  rw [← hiff]
  constructor
  · intro hk j hj
    have h1 := hin j hj
    rw [hk, errAt_damage c e hec _ (by rw [hc]; exact hltN j hj), add_assoc] at h1
    have h2 : errAt e (L.getD j 0) + d j = 0 := add_eq_left.mp h1.symm
    have h3 : errAt e (L.getD j 0) + errAt e (L.getD j 0) = 0 := GF8.xor_self' _
    rw [← h3] at h2
    exact add_left_cancel h2
  · intro hdj
    apply ext_errAt _ _ hlen'
    intro l hl
    rw [hlen'] at hl
    by_cases hlL : l ∈ L
    · obtain ⟨j, hj, rfl⟩ := List.getElem_of_mem hlL
      have hh : L.getD j 0 = L[j] := by simp [hj]
      have h1 := hin j hj
      rw [hdj j hj, hh, errAt_damage c e hec _ hl, add_assoc] at h1
      rw [h1, show errAt e L[j] + errAt e L[j] = 0 from GF8.xor_self' _, add_zero]
    · rw [hout l hl hlL, errAt_damage c e hec l hl]
      have : errAt e l = 0 := by
        refine Decidable.byContradiction fun hc' => hlL (hmem l (mem_errPlaces.mpr ⟨by omega, hc'⟩))
      rw [this, add_zero]

/-! ### one damaged codeword -/

/-- `X^z + X^(z-1)` at `α^l`. -/
def key (z l : Nat) : GF8 := (GF8.α ^ l) ^ z + (GF8.α ^ l) ^ (z - 1)

theorem usedLocator_single (z : Nat) (hz : 2 ≤ z) (e : List U8) (l0 : Nat) (he : errPlaces e = {l0}) (l : Nat) :
    (usedLocator z e).eval (GF8.α ^ l) = 0 ↔ key z l = key z l0 := by
  have hl : locator e = X - C (GF8.α ^ l0) := by
    unfold locator
    rw [he, Finset.prod_singleton]
  unfold usedLocator
  rw [he, Finset.card_singleton, if_pos (by omega), hl,
    eq_sub_of_add_eq' (modByMonic_add_div (X ^ z + X ^ (z - 1)) (X - C (GF8.α ^ l0))),
    modByMonic_X_sub_C_eq_C_eval, eval_sub, eval_C, sub_eq_zero]
  simp only [eval_add, eval_pow, eval_X, key]

theorem newton_single (e : List U8) (l0 : Nat) (he : errPlaces e = {l0}) (L : List Nat) (i : Nat) :
    newton e L i = errAt e l0 * ∏ m ∈ range i, (GF8.α ^ l0 - GF8.α ^ (L.getD m 0)) := by
  unfold newton
  rw [he, Finset.sum_singleton]

theorem rootList_sorted (p : GF8[X]) (N : Nat) : (rootList p N).Pairwise (· < ·) :=
  List.pairwise_lt_range.filter _

/-- What happens to a single damaged codeword. -/
theorem single_iff (bi : BlockInfo) (hg : GoodInfo bi) (n : Nat) (hn : n ≤ 255)
    (hcap : 2 * bi.ec_cap ≤ n) (hz : 2 ≤ bi.ec_cap) (c e : List U8) (hc : c.length = bi.total_per)
    (hcw : IsCodeword n c) (he : e.length = bi.total_per) (l0 : Nat) (h1 : errPlaces e = {l0}) :
    ∃ b, correctWithErrorCount (damage c e) bi = .ok (b, bitDistance (damage c e) b) ∧
      (b = c ↔ ∀ l, l0 < l → l < bi.total_per → key bi.ec_cap l ≠ key bi.ec_cap l0) := by
  have hmem := mem_errPlaces.mp (show l0 ∈ errPlaces e by rw [h1]; exact Finset.mem_singleton_self _)
  have hreg : Regular (errPlaces e).card bi.ec_cap (fun r c => powerSum e (r + c)) := by
    rw [h1, Finset.card_singleton]
    refine ⟨fun c _ => ?_, trivial⟩
    show powerSum e (0 + c) ≠ 0
    rw [powerSum, h1, Finset.sum_singleton]
    exact mul_ne_zero hmem.2 (pow_ne_zero _ (pow_ne_zero _ (by decide)))
  obtain ⟨b, hb, hiff⟩ := repaired_iff bi hg n hn hcap c e hc hcw he (by rw [h1]; simp)
    (by rw [h1, Finset.card_singleton]; omega) hreg
  refine ⟨b, hb, hiff.trans ?_⟩
  have hN := hg.2.2
  have hsort := rootList_sorted (usedLocator bi.ec_cap e) bi.total_per
  have hin : ∀ l, l ∈ rootList (usedLocator bi.ec_cap e) bi.total_per ↔
      l < bi.total_per ∧ key bi.ec_cap l = key bi.ec_cap l0 := by
    intro l
    rw [mem_rootList, usedLocator_single bi.ec_cap hz e l0 h1]
  generalize rootList (usedLocator bi.ec_cap e) bi.total_per = L at *
  have hget : ∀ j (h : j < L.length), L.getD j 0 = L[j] := fun j h => by simp [h]
  constructor
  · intro hnw l hl hlN hk
    obtain ⟨p, hp, hpl⟩ := List.getElem_of_mem ((hin l0).mpr ⟨by omega, rfl⟩)
    obtain ⟨q, hq, hql⟩ := List.getElem_of_mem ((hin l).mpr ⟨hlN, hk⟩)
    have hpq : p < q := by
      rcases Nat.lt_trichotomy p q with h | h | h
      · exact h
      · subst h; omega
      · have := List.pairwise_iff_getElem.mp hsort q p hq hp h
        omega
    apply hnw q hq
    rw [newton_single e l0 h1, Finset.prod_eq_zero (Finset.mem_range.mpr hpq), mul_zero]
    rw [hget p hp, hpl, sub_self]
  · intro hno i hi
    rw [newton_single e l0 h1]
    refine mul_ne_zero hmem.2 (Finset.prod_ne_zero_iff.mpr fun m hm => ?_)
    have hm := Finset.mem_range.mp hm
    rw [hget m (by omega), sub_ne_zero]
    intro heq
    have hmN := ((hin L[m]).mp (List.getElem_mem _)).1
    have hiN := (hin L[i]).mp (List.getElem_mem _)
    have := GF8.α_pow_inj (by omega) (by omega) heq
    have hlt := List.pairwise_iff_getElem.mp hsort m i (by omega) hi hm
    exact hno L[i] (by omega) hiN.1 hiN.2

end Verif
