import Verif.Lemmas.Solve
import Verif.Spec.ReedSolomon
import Mathlib.Algebra.Polynomial.Roots
import Mathlib.Algebra.Polynomial.RingDivision
/-! What `correct_with_error_count` computes, for every block. -/
namespace Verif
open Spec Finset Polynomial

/-! ### syndromes -/

theorem syndromeLoop_eq (base : GF8) (l : List U8) (s a : GF8) :
    syndromeLoop base l s a = s + a * (blockPoly l.reverse).eval base := by
  induction l generalizing s a with
  | nil => simp [syndromeLoop, blockPoly]
  | cons c l ih =>
    rw [syndromeLoop, ih]
    have h : ∀ (l : List U8) (c : U8), (blockPoly (l ++ [c])).eval base =
        (blockPoly l).eval base * base + ⟨c⟩ := by
      intro l c
      induction l with
      | nil => simp [blockPoly]
      | cons d l ih =>
        rw [List.cons_append, blockPoly, blockPoly, eval_add, ih, eval_add, List.length_append]
        simp only [List.length_singleton, eval_mul, eval_C, eval_pow, eval_X]
        ring
    rw [List.reverse_cons, h, GF8.add_def, GF8.mul_def, GF8.mul_def]
    ring

theorem syndrome_eq (b : List U8) (base : GF8) : syndrome b base = (blockPoly b).eval base := by
  rw [syndrome, syndromeLoop_eq, List.reverse_reverse]
  show (0 : GF8) + 1 * _ = _
  ring

/-- The `i`-th syndrome. -/
noncomputable def synd (b : List U8) (i : Nat) : GF8 := (blockPoly b).eval (GF8.α ^ i)

theorem syndrome_exp (b : List U8) {i : Nat} (hi : i < 255) : syndrome b (exp8 i) = synd b i := by
  rw [syndrome_eq, GF8.exp8_eq_pow hi, synd]

theorem calculateSyndromes_eq (b : List U8) (bi : BlockInfo) (h : 2 * bi.ec_cap < 255) :
    calculateSyndromes b bi = .ret (decide (∀ i < 2 * bi.ec_cap, synd b i = 0),
      row (2 * bi.ec_cap) (synd b)) := by
  unfold calculateSyndromes
  rw [if_pos (by omega), Nat.mul_comm]
  have : (List.range (2 * bi.ec_cap)).map (fun i => syndrome b (exp8 i)) = row (2 * bi.ec_cap) (synd b) :=
    List.map_congr_left fun i hi => syndrome_exp b (by have := List.mem_range.mp hi; omega)
  simp only [this]
  congr 2
  rw [Bool.eq_iff_iff]
  simp only [row, List.all_eq_true, decide_eq_true_eq, List.mem_map, List.mem_range,
    forall_exists_index, and_imp, forall_apply_eq_imp_iff₂]
  rfl

/-! ### the locator system -/

theorem hankelRows_eq (z : Nat) (S : Nat → GF8) (s t : Nat) (h : s + t = z) :
    hankelRows z (row (2 * z) S) (List.range' s t) =
      .ret ((List.range' s t).map fun i => row (z + 1) fun c => S (i + c)) := by
  induction t generalizing s with
  | zero => rfl
  | succ t ih =>
    rw [List.range'_succ, hankelRows, if_pos (by rw [row_length]; omega), ih (s + 1) (by omega)]
    simp only [List.map_cons]
    congr 2
    apply List.ext_getElem
    · simp [row]; omega
    · intro i h1 h2
      simp [row]

/-- The matrix of the locator system. -/
def hankel (S : Nat → GF8) : Nat → Nat → GF8 := fun r c => S (r + c)

/-- The polynomial whose roots are searched. -/
noncomputable def sigmaPoly (z : Nat) (x : Nat → GF8) : GF8[X] := X ^ z + ∑ j ∈ range z, C (x j) * X ^ j

theorem checkLoop_eq (v : GF8) (l : List GF8) (x c : GF8) :
    checkLoop v l x c = c + ∑ j ∈ range l.length, x * v ^ j * l.getD j 0 + x * v ^ l.length := by
  induction l generalizing x c with
  | nil => simp [checkLoop, GF8.add_def]
  | cons s l ih =>
    rw [checkLoop, ih, List.length_cons, Finset.sum_range_succ']
    simp only [GF8.add_def, GF8.mul_def, List.getD_cons_succ, List.getD_cons_zero, pow_zero, mul_one]
    have : ∑ j ∈ range l.length, x * v * v ^ j * l.getD j 0 =
        ∑ j ∈ range l.length, x * v ^ (j + 1) * l.getD j 0 := by
      apply Finset.sum_congr rfl; intro j _; ring
    rw [this]; ring

theorem check_eq (z : Nat) (hz : 0 < z) (x : Nat → GF8) (v : GF8) :
    ∃ s0 rest, row z x = s0 :: rest ∧ checkLoop v rest v s0 = (sigmaPoly z x).eval v := by
  obtain ⟨k, rfl⟩ : ∃ k, z = k + 1 := ⟨z - 1, by omega⟩
  refine ⟨x 0, (List.range k).map fun i => x (i + 1), ?_, ?_⟩
  · rw [row, List.range_succ_eq_map, List.map_cons, List.map_map]; rfl
  · rw [checkLoop_eq, List.length_map, List.length_range, sigmaPoly]
    simp only [eval_add, eval_pow, eval_X, eval_finset_sum, eval_mul, eval_C]
    rw [Finset.sum_range_succ' (fun j => x j * v ^ j)]
    have : ∑ j ∈ range k, v * v ^ j * ((List.range k).map fun i => x (i + 1)).getD j 0 =
        ∑ j ∈ range k, x (j + 1) * v ^ (j + 1) := by
      apply Finset.sum_congr rfl
      intro j hj
      have hj := Finset.mem_range.mp hj
      rw [List.getD_eq_getElem?_getD, List.getElem?_map, List.getElem?_range hj]
      simp only [Option.map_some, Option.getD_some]; ring
    rw [this]; ring

theorem findRoots_eq (z : Nat) (hz : 0 < z) (x : Nat → GF8) (s t : Nat) (h : s + t < 255) :
    findRoots (row z x) (List.range' s t) = .ret (
      (List.range' s t).filter fun l => decide ((sigmaPoly z x).eval (GF8.α ^ l) = 0)) := by
  induction t generalizing s with
  | zero => rfl
  | succ t ih =>
    obtain ⟨s0, rest, hr, hc⟩ := check_eq z hz x (exp8 s)
    have ih' := ih (s + 1) (by omega)
    rw [List.range'_succ, hr, findRoots, ← hr, ih', hc, GF8.exp8_eq_pow (by omega)]
    simp only
    by_cases h0 : (sigmaPoly z x).eval (GF8.α ^ s) = 0
    · rw [if_pos (show _ = GF8.mk 0 from h0), List.filter_cons_of_pos (by simpa using h0)]
    · rw [if_neg (show ¬ _ = GF8.mk 0 from h0), List.filter_cons_of_neg (by simpa using h0)]

theorem sigmaPoly_degree (z : Nat) (x : Nat → GF8) :
    (sigmaPoly z x).Monic ∧ (sigmaPoly z x).natDegree = z := by
  have hlt : (∑ j ∈ range z, C (x j) * X ^ j).degree < (z : WithBot Nat) := by
    apply (Polynomial.degree_sum_le _ _).trans_lt
    refine (Finset.sup_lt_iff (WithBot.bot_lt_coe z)).mpr ?_
    intro j hj
    exact (degree_C_mul_X_pow_le j (x j)).trans_lt (Nat.cast_lt.mpr (Finset.mem_range.mp hj))
  have hm : (sigmaPoly z x).Monic := monic_X_pow_add hlt
  refine ⟨hm, ?_⟩
  exact natDegree_eq_of_degree_eq_some (by
    rw [sigmaPoly, degree_add_eq_left_of_degree_lt (by rwa [degree_X_pow]), degree_X_pow])

theorem rootList_nodup (p : GF8[X]) (N : Nat) : (rootList p N).Nodup :=
  (List.nodup_range).filter _

theorem mem_rootList {p : GF8[X]} {N l : Nat} :
    l ∈ rootList p N ↔ l < N ∧ p.eval (GF8.α ^ l) = 0 := by
  simp [rootList]

theorem rootList_length (p : GF8[X]) (hp : p ≠ 0) (N : Nat) (hN : N ≤ 255) :
    (rootList p N).length ≤ p.natDegree := by
  classical
  have h1 : (rootList p N).toFinset.card = (rootList p N).length :=
    List.toFinset_card_of_nodup (rootList_nodup p N)
  rw [← h1]
  have h2 : ((rootList p N).toFinset.image fun l => GF8.α ^ l).card = (rootList p N).toFinset.card := by
    apply Finset.card_image_of_injOn
    intro a ha b hb hab
    simp only [List.coe_toFinset, Set.mem_setOf_eq, mem_rootList] at ha hb
    exact GF8.α_pow_inj (by omega) (by omega) hab
  rw [← h2]
  calc _ ≤ p.roots.toFinset.card := by
        apply Finset.card_le_card
        intro v hv
        simp only [Finset.mem_image, List.mem_toFinset, mem_rootList] at hv
        obtain ⟨l, ⟨_, hl⟩, rfl⟩ := hv
        rw [Multiset.mem_toFinset, mem_roots hp]
        exact hl
    _ ≤ Multiset.card p.roots := Multiset.toFinset_card_le _
    _ ≤ p.natDegree := card_roots' p

/-- The triangular system left by the elimination. -/
def Tri (A : Nat → Nat → GF8) (n : Nat) (x : Nat → GF8) : Prop :=
  ∀ i < n, ∑ j ∈ Ico i n, R A i j * x j = R A i n

theorem findLocs_eq (bi : BlockInfo) (S : Nat → GF8) (hz : 0 < bi.ec_cap) (hN : bi.total_per < 255) :
    ∃ x, Tri (hankel S) bi.ec_cap x ∧
      findLocs bi (row (2 * bi.ec_cap) S) =
        .ok (rootList (sigmaPoly bi.ec_cap x) bi.total_per) := by
  obtain ⟨x, hs, hx⟩ := solve_spec bi.ec_cap hz (hankel S)
  refine ⟨x, hx, ?_⟩
  unfold findLocs
  rw [List.range_eq_range', hankelRows_eq bi.ec_cap S 0 _ (by omega)]
  have : ((List.range' 0 bi.ec_cap).map fun i => row (bi.ec_cap + 1) fun c => S (i + c)) =
      mat bi.ec_cap (bi.ec_cap + 1) (hankel S) := by
    rw [← List.range_eq_range']; rfl
  simp only [this, hs]
  rw [Nat.min_eq_right (by omega), List.range_eq_range', findRoots_eq _ hz x _ _ (by omega),
    rootList, List.range_eq_range']

/-! ### the error values -/

/-- The matrix of the system for the error values at the places `L`. -/
def vander (S : Nat → GF8) (L : List Nat) : Nat → Nat → GF8 := fun r c =>
  if c < L.length then (GF8.α ^ (L.getD c 0)) ^ r else S r

theorem distanceRows_eq (S : Nat → GF8) (m : Nat) (L : List Nat) (is : List Nat) (h : ∀ i ∈ is, i < m) :
    distanceRows (row m S) L is =
      .ret (is.map fun i => row (L.length + 1) (vander S L i)) := by
  induction is with
  | nil => rfl
  | cons i is ih =>
    rw [distanceRows, vget_row S (h i List.mem_cons_self)]
    simp only [Run.ret_bind]
    rw [ih (fun j hj => h j (List.mem_cons_of_mem _ hj))]
    simp only [Run.ret_bind, Run.pure_eq, List.map_cons]
    congr 2
    rw [row, List.range_succ, List.map_append]
    congr 1
    · apply List.ext_getElem
      · simp
      · intro k h1 h2
        simp only [List.length_map] at h1
        simp only [List.getElem_map, List.getElem_range, vander, if_pos h1, GF8.exp8_mod_eq_pow]
        rw [List.getD_eq_getElem?_getD, List.getElem?_eq_getElem h1, Option.getD_some, Nat.mul_comm,
          pow_mul]
    · simp [vander]

theorem calculateDistances_nil (syndromes : List GF8) : calculateDistances syndromes [] = .ret none := rfl

theorem calculateDistances_eq (S : Nat → GF8) (m : Nat) (L : List Nat) (hL : L ≠ []) (hm : L.length ≤ m) :
    ∃ d, Tri (vander S L) L.length d ∧
      calculateDistances (row m S) L = .ret (some (row L.length d)) := by
  obtain ⟨d, hs, hd⟩ := solve_spec L.length (List.length_pos_iff.mpr hL) (vander S L)
  refine ⟨d, hd, ?_⟩
  unfold calculateDistances
  rw [distanceRows_eq S m L _ (fun i hi => by have := List.mem_range.mp hi; omega)]
  simp only [Run.ret_bind]
  exact hs

/-! ### the repair loop -/

theorem repair_eq (N : Nat) (L : List Nat) (hL : L.Nodup) (hN : ∀ l ∈ L, l < N) (ds : List GF8)
    (hd : ds.length = L.length) (f : Nat → U8) (count : Nat) (hc : count + 8 * L.length < 2 ^ 32) :
    ∃ f', repair N L ds ((List.range N).map f) count =
        .ret ((List.range N).map f', count + (ds.map fun d => countOnes d.val).sum) ∧
      (∀ j, (hj : j < L.length) → f' (N - 1 - L[j]) = f (N - 1 - L[j]) ^^^ (ds[j]'(hd ▸ hj)).val) ∧
      (∀ k < N, N - 1 - k ∉ L → f' k = f k) := by
  induction L generalizing ds f count with
  | nil =>
    have : ds = [] := List.length_eq_zero_iff.mp hd
    subst this
    exact ⟨f, rfl, fun j hj => absurd hj (by simp), fun _ _ _ => rfl⟩
  | cons l L ih =>
    cases ds with
    | nil => simp at hd
    | cons d ds =>
      have hl := hN l List.mem_cons_self
      rw [List.nodup_cons] at hL
      have hpop : countOnes d.val ≤ 8 := (List.length_filter_le _ _).trans (by simp)
      simp only [List.length_cons] at hc hd
      obtain ⟨f', h1, h2, h3⟩ := ih hL.2 (fun a ha => hN a (List.mem_cons_of_mem _ ha)) ds (by omega)
        (Function.update f (N - 1 - l) (f (N - 1 - l) ^^^ d.val)) (count + countOnes d.val) (by omega)
      refine ⟨f', ?_, ?_, ?_⟩
      · rw [repair]
        unfold checkedSub
        rw [if_pos (by omega)]
        simp only [Run.ret_bind]
        rw [if_pos (by omega)]
        simp only [Run.ret_bind]
        rw [vget_range f (by omega)]
        simp only [Run.ret_bind]
        rw [vset_range f _ (by omega)]
        simp only [Run.ret_bind]
        rw [if_pos (by omega), h1]
        simp only [List.map_cons, List.sum_cons, Nat.add_assoc]
      · intro j hj
        cases j with
        | zero =>
          simp only [List.getElem_cons_zero]
          rw [h3 (N - 1 - l) (by omega), Function.update_self]
          have : N - 1 - (N - 1 - l) = l := by omega
          rw [this]; exact hL.1
        | succ j =>
          simp only [List.getElem_cons_succ]
          simp only [List.length_cons] at hj
          rw [h2 j (by omega), Function.update_of_ne]
          intro he
          have hm : L[j] ∈ L := List.getElem_mem _
          have := hN L[j] (List.mem_cons_of_mem _ hm)
          have : L[j] = l := by omega
          exact hL.1 (this ▸ hm)
      · intro k hk hkL
        rw [h3 k hk (fun hm => hkL (List.mem_cons_of_mem _ hm)), Function.update_of_ne]
        intro he
        apply hkL
        have : N - 1 - k = l := by omega
        rw [this]; exact List.mem_cons_self

/-! ### blocks by powers -/

theorem errAt_range (N : Nat) (f : Nat → U8) (l : Nat) (hl : l < N) :
    errAt ((List.range N).map f) l = ⟨f (N - 1 - l)⟩ := by
  unfold errAt
  rw [List.getD_eq_getElem?_getD, List.getElem?_reverse (by simpa using hl), List.length_map,
    List.length_range, List.getElem?_map, List.getElem?_range (by omega)]
  rfl

theorem list_range_map (b : List U8) : b = (List.range b.length).map fun k => b.getD k 0 := by
  apply List.ext_getElem
  · simp
  · intro i h1 h2
    simp [h1]

theorem errAt_cons_lt (c : U8) (b : List U8) (l : Nat) (h : l < b.length) :
    errAt (c :: b) l = errAt b l := by
  unfold errAt
  rw [List.reverse_cons, List.getD_eq_getElem?_getD, List.getElem?_append_left (by simpa using h),
    List.getD_eq_getElem?_getD]

theorem errAt_cons_eq (c : U8) (b : List U8) : errAt (c :: b) b.length = ⟨c⟩ := by
  unfold errAt
  rw [List.reverse_cons, List.getD_eq_getElem?_getD, List.getElem?_append_right (by simp)]
  simp

theorem blockPoly_eq_sum (b : List U8) :
    blockPoly b = ∑ l ∈ range b.length, C (errAt b l) * X ^ l := by
  induction b with
  | nil => simp [blockPoly]
  | cons c b ih =>
    rw [blockPoly, ih, List.length_cons, Finset.sum_range_succ, errAt_cons_eq, add_comm]
    congr 1
    apply Finset.sum_congr rfl
    intro l hl
    rw [errAt_cons_lt c b l (Finset.mem_range.mp hl)]

theorem synd_eq_sum (b : List U8) (i : Nat) :
    synd b i = ∑ l ∈ range b.length, errAt b l * (GF8.α ^ l) ^ i := by
  rw [synd, blockPoly_eq_sum, eval_finset_sum]
  apply Finset.sum_congr rfl
  intro l _
  simp only [eval_mul, eval_C, eval_pow, eval_X]
  rw [← pow_mul, ← pow_mul, Nat.mul_comm]

theorem ext_errAt (a b : List U8) (h : a.length = b.length)
    (he : ∀ l < a.length, errAt a l = errAt b l) : a = b := by
  rw [← List.reverse_inj]
  apply List.ext_getElem
  · simpa using h
  · intro i h1 h2
    have := congrArg GF8.val (he i (by simpa using h1))
    simp only [errAt, List.getD_eq_getElem?_getD, List.getElem?_eq_getElem h1,
      List.getElem?_eq_getElem h2, Option.getD_some] at this
    exact this

theorem bitDiff_xor (a d : U8) : bitDiff a (a ^^^ d) = countOnes d := by
  unfold bitDiff countOnes
  congr 1
  apply List.filter_congr
  intro i _
  rw [BitVec.getLsbD_xor]
  cases a.getLsbD i <;> cases d.getLsbD i <;> rfl

theorem bitDiff_self (a : U8) : bitDiff a a = 0 := by
  unfold bitDiff
  simp

theorem list_sum_range (n : Nat) (f : Nat → Nat) : ((List.range n).map f).sum = ∑ k ∈ range n, f k := by
  rw [Finset.sum_range, ← List.sum_ofFn]
  congr 1
  apply List.ext_getElem
  · simp
  · intro i h1 h2
    simp

theorem bitDistance_range (N : Nat) (f g : Nat → U8) :
    bitDistance ((List.range N).map f) ((List.range N).map g) = ∑ k ∈ range N, bitDiff (f k) (g k) := by
  unfold bitDistance
  rw [Finset.sum_range, ← List.sum_ofFn]
  congr 1
  apply List.ext_getElem
  · simp
  · intro i h1 h2
    simp

/-- Sum over the places of a list. -/
theorem sum_over_list {M : Type} [AddCommMonoid M] (N : Nat) (L : List Nat) (hL : L.Nodup)
    (hN : ∀ l ∈ L, l < N) (F : Nat → M) (hF : ∀ l < N, l ∉ L → F l = 0) :
    ∑ l ∈ range N, F l = ∑ j ∈ range L.length, F (L.getD j 0) := by
  have hsub : L.toFinset ⊆ range N := fun l hl => Finset.mem_range.mpr (hN l (List.mem_toFinset.mp hl))
  rw [← Finset.sum_subset hsub (fun l hl hn => hF l (Finset.mem_range.mp hl)
    (fun h => hn (List.mem_toFinset.mpr h))), List.sum_toFinset _ hL, Finset.sum_range, ← List.sum_ofFn]
  congr 1
  apply List.ext_getElem
  · simp
  · intro i h1 h2
    simp only [List.length_map] at h1
    simp [h1]

/-! ### the whole function -/

/-- Conditions on a table row. -/
def GoodInfo (bi : BlockInfo) : Prop := 0 < bi.ec_cap ∧ 2 * bi.ec_cap < 255 ∧ bi.total_per < 255

theorem vander_row0 (S : Nat → GF8) (L : List Nat) (hL : L ≠ []) (d : Nat → GF8)
    (hd : Tri (vander S L) L.length d) :
    ∑ j ∈ range L.length, d j = if S 0 = 0 then 1 else S 0 := by
  have hn : 0 < L.length := List.length_pos_iff.mpr hL
  have h := hd 0 hn
  have h1 : ∀ c < L.length, R (vander S L) 0 c = 1 := by
    intro c hc
    rw [R]
    show GF8.div (vander S L 0 c) (vander S L 0 0) = 1
    unfold vander
    rw [if_pos hc, if_pos hn, pow_zero, pow_zero]
    exact div_self_eq 1
  have h2 : R (vander S L) 0 L.length = if S 0 = 0 then 1 else S 0 := by
    rw [R]
    show GF8.div (vander S L 0 L.length) (vander S L 0 0) = _
    unfold vander
    rw [if_neg (by omega), if_pos hn, pow_zero]
    split
    · next h0 => rw [h0, GF8.zero_div_eq one_ne_zero, inv_one]
    · next h0 => rw [GF8.div_eq h0 one_ne_zero, div_one]
  rw [h2] at h
  rw [← h, Finset.range_eq_Ico]
  apply Finset.sum_congr rfl
  intro j hj
  rw [h1 j (Finset.mem_Ico.mp hj).2, one_mul]

/-- Everything `correct_with_error_count` does, for every block. -/
theorem correct_master (block : List U8) (bi : BlockInfo) (hlen : block.length = bi.total_per)
    (hg : GoodInfo bi) :
    ((∀ i < 2 * bi.ec_cap, synd block i = 0) → correctWithErrorCount block bi = .ok (block, 0)) ∧
    ((∃ i < 2 * bi.ec_cap, synd block i ≠ 0) →
      ∃ x, Tri (hankel (synd block)) bi.ec_cap x ∧
        ∀ L, L = rootList (sigmaPoly bi.ec_cap x) bi.total_per →
          (L = [] → correctWithErrorCount block bi = .err ⟨"Could not calculate error distances"⟩) ∧
          (L ≠ [] → ∃ d, Tri (vander (synd block) L) L.length d ∧
            ∃ block', block'.length = block.length ∧
              (∀ j < L.length, errAt block' (L.getD j 0) = errAt block (L.getD j 0) + d j) ∧
              (∀ l < block.length, l ∉ L → errAt block' l = errAt block l) ∧
              synd block' 0 = synd block 0 + (if synd block 0 = 0 then 1 else synd block 0) ∧
              correctWithErrorCount block bi =
                if synd block 0 = 0 then .err ⟨"Error correcting did not fix corrupted data"⟩
                else .ok (block', bitDistance block block'))) := by
  obtain ⟨hz, hz2, hN⟩ := hg
  constructor
  · intro h0
    unfold correctWithErrorCount
    rw [calculateSyndromes_eq block bi hz2]
    simp only [decide_eq_true h0, if_true]
  · rintro ⟨i0, hi0, hne⟩
    have hnot : ¬ ∀ i < 2 * bi.ec_cap, synd block i = 0 := fun h => hne (h i0 hi0)
    obtain ⟨x, hx, hfl⟩ := findLocs_eq bi (synd block) hz hN
    refine ⟨x, hx, fun L hL => ?_⟩
    have hunf : correctWithErrorCount block bi =
        match calculateDistances (row (2 * bi.ec_cap) (synd block)) L with
        | .panic => .panic
        | .ret none => .err ⟨"Could not calculate error distances"⟩
        | .ret (some distance) =>
          match repair bi.total_per L distance block 0 with
          | .panic => .panic
          | .ret (block, error_count) =>
            if syndrome block (exp8 0) ≠ ⟨0⟩ then .err ⟨"Error correcting did not fix corrupted data"⟩
            else .ok (block, error_count) := by
      unfold correctWithErrorCount
      rw [calculateSyndromes_eq block bi hz2]
      simp only [decide_eq_false hnot, Bool.false_eq_true, if_false]
      rw [hfl, ← hL]
      rfl
    constructor
    · intro hnil
      rw [hunf, hnil, calculateDistances_nil]
    · intro hLne
      have hnd : L.Nodup := hL ▸ rootList_nodup _ _
      have hlt : ∀ l ∈ L, l < bi.total_per := by
        intro l hl
        rw [hL] at hl
        exact (mem_rootList.mp hl).1
      have hdeg := sigmaPoly_degree bi.ec_cap x
      have hLz : L.length ≤ bi.ec_cap := by
        rw [hL]
        exact (rootList_length _ hdeg.1.ne_zero _ (by omega)).trans hdeg.2.le
      obtain ⟨d, hd, hcd⟩ := calculateDistances_eq (synd block) (2 * bi.ec_cap) L hLne (by omega)
      refine ⟨d, hd, ?_⟩
      obtain ⟨f', hr, hin, hout⟩ := repair_eq bi.total_per L hnd hlt (row L.length d) (by simp)
        (fun k => block.getD k 0) 0 (by omega)
      have hb : block = (List.range bi.total_per).map fun k => block.getD k 0 := by
        rw [← hlen]; exact list_range_map block
      rw [← hb, Nat.zero_add] at hr
      have hgetL : ∀ j, (hj : j < L.length) → L.getD j 0 = L[j] := by
        intro j hj
        simp [hj]
      have hA : ∀ l < bi.total_per, errAt block l = ⟨block.getD (bi.total_per - 1 - l) 0⟩ := by
        intro l hl
        conv => lhs; rw [hb]
        exact errAt_range _ _ _ hl
      have hin' : ∀ j < L.length, f' (bi.total_per - 1 - L.getD j 0) =
          block.getD (bi.total_per - 1 - L.getD j 0) 0 ^^^ (d j).val := by
        intro j hj
        have := hin j hj
        rw [hgetL j hj, this]
        simp [row]
      have hsum0 := vander_row0 (synd block) L hLne d hd
      refine ⟨(List.range bi.total_per).map f', by simp [hlen], ?_, ?_, ?_⟩
      · intro j hj
        have hl := hlt L[j] (List.getElem_mem _)
        rw [← hgetL j hj] at hl
        rw [errAt_range _ _ _ hl, hA _ hl, hin' j hj]
        rfl
      · intro l hl hnl
        rw [hlen] at hl
        rw [errAt_range _ _ _ hl, hA _ hl, hout _ (by omega)]
        rwa [show bi.total_per - 1 - (bi.total_per - 1 - l) = l by omega]
      · have hs0 : synd ((List.range bi.total_per).map f') 0 =
            synd block 0 + (if synd block 0 = 0 then 1 else synd block 0) := by
          rw [← hsum0, synd_eq_sum, synd_eq_sum]
          simp only [List.length_map, List.length_range, hlen, pow_zero, mul_one]
          rw [← sub_eq_iff_eq_add', ← Finset.sum_sub_distrib,
            sum_over_list bi.total_per L hnd hlt]
          · apply Finset.sum_congr rfl
            intro j hj
            have hj := Finset.mem_range.mp hj
            have hl := hlt L[j] (List.getElem_mem _)
            rw [← hgetL j hj] at hl
            rw [errAt_range _ _ _ hl, hA _ hl, hin' j hj]
            exact add_sub_cancel_left (GF8.mk (block.getD (bi.total_per - 1 - L.getD j 0) 0)) (d j)
          · intro l hl hnl
            rw [errAt_range _ _ _ hl, hA _ hl, hout _ (by omega)]
            · exact sub_self _
            · rwa [show bi.total_per - 1 - (bi.total_per - 1 - l) = l by omega]
        refine ⟨hs0, ?_⟩
        rw [hunf, hcd]
        simp only [hr]
        rw [syndrome_exp _ (by omega), hs0]
        by_cases h0 : synd block 0 = 0
        · rw [if_pos h0, if_pos h0, if_pos]
          rw [h0]
          decide
        · rw [if_neg h0, if_neg h0, if_neg]
          · congr 2
            conv => rhs; rw [hb]
            rw [bitDistance_range]
            have hrefl : ∑ k ∈ range bi.total_per, bitDiff (block.getD k 0) (f' k) =
                ∑ l ∈ range bi.total_per, bitDiff (block.getD (bi.total_per - 1 - l) 0)
                  (f' (bi.total_per - 1 - l)) :=
              (Finset.sum_range_reflect (fun k => bitDiff (block.getD k 0) (f' k)) _).symm
            rw [hrefl, sum_over_list bi.total_per L hnd hlt]
            · rw [row, List.map_map, list_sum_range]
              apply Finset.sum_congr rfl
              intro j hj
              rw [hin' j (Finset.mem_range.mp hj), bitDiff_xor]
              rfl
            · intro l hl hnl
              rw [hout _ (by omega), bitDiff_self]
              rwa [show bi.total_per - 1 - (bi.total_per - 1 - l) = l by omega]
          · intro h
            exact h (GF8.xor_self' _)

end Verif
