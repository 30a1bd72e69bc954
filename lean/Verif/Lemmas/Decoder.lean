import Verif.Model.Decoder
import Verif.Lemmas.Encode
import Verif.Props.Format
import Verif.Props.Blocks
import Verif.Props.Correct
import Verif.Props.Data
/-!
# The whole QR decoder
-/
namespace Verif
open Spec Props

/-! ### the correction loops -/

theorem correctBlocks_ok (pairs : List (List U8 × BlockInfo)) (F : List U8 × BlockInfo → List U8)
    (h : ∀ p ∈ pairs, correct p.1 p.2 = .ok (F p)) (acc : List U8) :
    correctBlocks pairs acc = .ok (acc ++ pairs.flatMap fun p => (F p).take p.2.data_per) := by
  induction pairs generalizing acc with
  | nil => simp [correctBlocks]
  | cons p pairs ih =>
    obtain ⟨b, bi⟩ := p
    rw [correctBlocks, h (b, bi) List.mem_cons_self]
    simp only [Outcome.ok_bind]
    rw [ih (fun p hp => h p (List.mem_cons_of_mem _ hp))]
    simp

theorem correctBlocksWithCount_ok (pairs : List (List U8 × BlockInfo))
    (F : List U8 × BlockInfo → List U8 × Nat)
    (h : ∀ p ∈ pairs, correctWithErrorCount p.1 p.2 = .ok (F p)) (acc : List U8) (n : Nat)
    (hn : n + (pairs.map fun p => (F p).2).sum < 2 ^ 32) :
    correctBlocksWithCount pairs acc n =
      .ok (acc ++ pairs.flatMap (fun p => (F p).1.take p.2.data_per), n + (pairs.map fun p => (F p).2).sum) := by
  induction pairs generalizing acc n with
  | nil => simp [correctBlocksWithCount]
  | cons p pairs ih =>
    obtain ⟨b, bi⟩ := p
    rw [List.map_cons, List.sum_cons] at hn
    rw [correctBlocksWithCount, h (b, bi) List.mem_cons_self]
    simp only [Outcome.ok_bind]
    rw [addU32, if_pos (by omega)]
    simp only
    rw [ih (fun p hp => h p (List.mem_cons_of_mem _ hp)) _ _ (by omega)]
    simp only [List.flatMap_cons, List.map_cons, List.sum_cons, List.append_assoc, Nat.add_assoc]

/-- Both loops agree, as long as the count does not overflow. -/
theorem loops_agree (pairs : List (List U8 × BlockInfo)) (B : List U8 × BlockInfo → Nat)
    (hB : ∀ p ∈ pairs, ∀ b k, correctWithErrorCount p.1 p.2 = .ok (b, k) → k ≤ B p)
    (acc : List U8) (n : Nat) (hn : n + (pairs.map B).sum < 2 ^ 32) :
    correctBlocks pairs acc = (correctBlocksWithCount pairs acc n).map (·.1) := by
  induction pairs generalizing acc n with
  | nil => rfl
  | cons p pairs ih =>
    obtain ⟨b, bi⟩ := p
    rw [List.map_cons, List.sum_cons] at hn
    rw [correctBlocks, correctBlocksWithCount, correct]
    cases hc : correctWithErrorCount b bi with
    | panic => rfl
    | err e => rfl
    | ok r =>
      obtain ⟨c, k⟩ := r
      have hk := hB (b, bi) List.mem_cons_self c k hc
      simp only [Outcome.map, Outcome.ok_bind]
      rw [addU32, if_pos (by omega)]
      simp only
      exact ih (fun p hp => hB p (List.mem_cons_of_mem _ hp)) _ _ (by omega)

/-! ### blocks of any grid -/

theorem checkLengths_inv (i : Nat) (bi : List BlockInfo) (bs : List (List U8)) (hl : bs.length = bi.length)
    (h : checkLengths i bi bs = .ok ()) : bi.map (·.total_per) = bs.map List.length := by
  induction bi generalizing bs i with
  | nil =>
    cases bs with
    | nil => rfl
    | cons => simp at hl
  | cons b bi ih =>
    cases bs with
    | nil => simp at hl
    | cons c bs =>
      rw [checkLengths] at h
      by_cases he : b.total_per = c.length
      · rw [if_neg (by simpa using he)] at h
        simp only [List.length_cons, Nat.add_right_cancel_iff] at hl
        rw [List.map_cons, List.map_cons, he, ih (i + 1) bs hl h]
      · rw [if_pos he] at h
        cases h

theorem blocks_ok_inv (q : QRData) (l : ECLevel) (m : QRMask) (bs : List (List U8))
    (h : blocks q l m = .ok bs) : 1 ≤ q.version ∧ q.version ≤ 40 ∧
      ∃ rows, blockInfo q.version l = .ok rows ∧ rows.map (·.total_per) = bs.map List.length := by
  have hv : 1 ≤ q.version ∧ q.version ≤ 40 := by
    refine Decidable.byContradiction fun hc => ?_
    obtain ⟨e, he, -⟩ := blocks_unknown_version q (by omega) l m
    rw [he] at h
    cases h
  refine ⟨hv.1, hv.2, ?_⟩
  obtain ⟨rows, hrows, -⟩ := blockInfo_facts q.version hv.1 hv.2 l
  refine ⟨rows, hrows, ?_⟩
  unfold blocks at h
  rw [hrows, alignmentLocation_ok _ hv.1 hv.2] at h
  simp only [Outcome.ok_bind] at h
  split at h
  · cases h
  · split at h
    · cases h
    · split at h
      · cases h
      · next c _ hlen =>
        cases hcl : checkLengths 0 rows c.blocks.blocks with
        | panic => rw [hcl] at h; cases h
        | err e => rw [hcl] at h; cases h
        | ok u =>
          rw [hcl] at h
          simp only [Outcome.ok_bind, Outcome.pure_eq, Outcome.ok.injEq] at h
          rw [← h]
          exact checkLengths_inv 0 rows _ (by simpa using hlen) hcl

theorem bitDiff_le (a b : U8) : bitDiff a b ≤ 8 := by
  unfold bitDiff
  exact (List.length_filter_le _ _).trans (by simp)

theorem bitDistance_le (a b : List U8) : bitDistance a b ≤ 8 * a.length := by
  unfold bitDistance
  induction a generalizing b with
  | nil => simp
  | cons x a ih =>
    cases b with
    | nil => simp
    | cons y b =>
      rw [List.zipWith_cons_cons, List.sum_cons, List.length_cons]
      have := ih b
      have := bitDiff_le x y
      omega

theorem totals_small : ∀ v ∈ List.range' 1 40, totalTable v < 4000 := by decide +kernel

/-- Facts about blocks paired with their rows. -/
theorem pairs_facts (v : Nat) (h1 : 1 ≤ v) (h40 : v ≤ 40) (l : ECLevel) (rows : List BlockInfo)
    (hr : blockInfo v l = .ok rows) (bs : List (List U8)) (hl : rows.map (·.total_per) = bs.map List.length) :
    (∀ p ∈ bs.zip rows, IsRow v l p.2 ∧ p.1.length = p.2.total_per) ∧
    ((bs.zip rows).map fun p => 8 * p.1.length).sum < 32000 ∧ bs.length = rows.length := by
  have hlen : bs.length = rows.length := by simpa using (congrArg List.length hl).symm
  refine ⟨?_, ?_, hlen⟩
  · intro p hp
    refine ⟨⟨h1, h40, rows, hr, (List.of_mem_zip (a := p.1) (b := p.2) hp).2⟩, ?_⟩
    obtain ⟨i, hi, rfl⟩ := List.getElem_of_mem hp
    rw [List.getElem_zip]
    have := congrArg (fun l => l[i]?) hl
    rw [List.length_zip] at hi
    simp only [List.getElem?_map, List.getElem?_eq_getElem (show i < rows.length by omega),
      List.getElem?_eq_getElem (show i < bs.length by omega), Option.map_some, Option.some.injEq] at this
    exact this.symm
  · obtain ⟨rows', hr', -, -, -, -, hsum⟩ := blockInfo_facts v h1 h40 l
    rw [hr] at hr'
    cases hr'
    have e1 : ((bs.zip rows).map fun p => 8 * p.1.length) = bs.map fun b => 8 * b.length := by
      rw [show (fun p : List U8 × BlockInfo => 8 * p.1.length) = (fun b => 8 * b.length) ∘ Prod.fst from rfl,
        ← List.map_map, List.map_fst_zip (by omega)]
    rw [e1]
    have e2 : ∀ bs : List (List U8), (bs.map fun b => 8 * b.length).sum = 8 * (bs.map List.length).sum := by
      intro bs
      induction bs with
      | nil => rfl
      | cons b bs ih => rw [List.map_cons, List.sum_cons, ih, List.map_cons, List.sum_cons]; omega
    rw [e2, ← hl, hsum, totalCodewords_eq v h1 h40]
    have := totals_small v (range1_40 h1 h40)
    omega

theorem count_bound (v : Nat) (l : ECLevel) (p : List U8 × BlockInfo) (hp : IsRow v l p.2)
    (hl : p.1.length = p.2.total_per) (b : List U8) (k : Nat)
    (h : correctWithErrorCount p.1 p.2 = .ok (b, k)) : k ≤ 8 * p.1.length := by
  rw [error_count_is_bit_distance v l p.2 hp p.1 b k hl h]
  exact bitDistance_le _ _

theorem take_all_length (v : Nat) (l : ECLevel) (rows : List BlockInfo) (hr : blockInfo v l = .ok rows)
    (h1 : 1 ≤ v) (h40 : v ≤ 40) (bs : List (List U8)) (hl : rows.map (·.total_per) = bs.map List.length)
    (F : List U8 × BlockInfo → List U8) (hF : ∀ p ∈ bs.zip rows, (F p).length = p.1.length) :
    ((bs.zip rows).flatMap fun p => (F p).take p.2.data_per).length = dataCapacity v l := by
  obtain ⟨rows', hr', -, hdat, hall, -⟩ := blockInfo_facts v h1 h40 l
  rw [hr] at hr'
  cases hr'
  obtain ⟨hp, -, hlen⟩ := pairs_facts v h1 h40 l rows hr bs hl
  unfold dataCapacity
  rw [← hdat, List.length_flatMap]
  have : (bs.zip rows).map (fun p => ((F p).take p.2.data_per).length) =
      ((bs.zip rows).map Prod.snd).map (·.data_per) := by
    rw [List.map_map]
    apply List.map_congr_left
    intro p hpm
    have h3 := (hall p.2 (List.of_mem_zip (a := p.1) (b := p.2) hpm).2).2.1
    have h4 := (hp p hpm).2
    have h5 := hF p hpm
    simp only [List.length_take, Function.comp]
    omega
  rw [this, List.map_snd_zip (by omega)]

theorem correct_length (v : Nat) (l : ECLevel) (p : List U8 × BlockInfo) (hp : IsRow v l p.2)
    (hl : p.1.length = p.2.total_per) (b : List U8) (k : Nat)
    (h : correctWithErrorCount p.1 p.2 = .ok (b, k)) : b.length = p.1.length := by
  rcases correction_total v l p.2 hp p.1 hl with ⟨b', k', h1, -, h3⟩ | ⟨m, h1, -⟩
  · rw [h] at h1
    cases h1
    exact h3
  · rw [h] at h1
    cases h1

/-- The counting loop, when it succeeds, on blocks paired with their rows. -/
theorem loop_inv (v : Nat) (l : ECLevel) (pairs : List (List U8 × BlockInfo))
    (hp : ∀ p ∈ pairs, IsRow v l p.2 ∧ p.1.length = p.2.total_per) (acc : List U8) (n : Nat)
    (out : List U8) (tot : Nat) (h : correctBlocksWithCount pairs acc n = .ok (out, tot)) :
    ∃ F : List U8 × BlockInfo → List U8,
      (∀ p ∈ pairs, correct p.1 p.2 = .ok (F p) ∧ (F p).length = p.1.length) ∧
      out = acc ++ pairs.flatMap (fun p => (F p).take p.2.data_per) ∧
      tot = n + (pairs.map fun p => bitDistance p.1 (F p)).sum := by
  refine ⟨fun p => match correct p.1 p.2 with | .ok b => b | _ => [], ?_⟩
  induction pairs generalizing acc n with
  | nil =>
    simp only [correctBlocksWithCount, Outcome.ok.injEq, Prod.mk.injEq] at h
    simp [h.1, h.2]
  | cons p pairs ih =>
    obtain ⟨b, bi⟩ := p
    rw [correctBlocksWithCount] at h
    cases hc : correctWithErrorCount b bi with
    | panic => rw [hc] at h; cases h
    | err e => rw [hc] at h; cases h
    | ok r =>
      obtain ⟨c, k⟩ := r
      rw [hc] at h
      simp only [Outcome.ok_bind] at h
      cases ha : addU32 n k with
      | panic => rw [ha] at h; cases h
      | ret n' =>
        rw [ha] at h
        simp only at h
        have hn' : n' = n + k := by
          unfold addU32 at ha
          split at ha
          · cases ha; rfl
          · cases ha
        obtain ⟨i1, i2, i3⟩ := ih (fun p hp' => hp p (List.mem_cons_of_mem _ hp')) _ _ h
        have hrow := hp (b, bi) List.mem_cons_self
        have hcor : correct b bi = .ok c := by rw [correct, hc]; rfl
        have hdist := error_count_is_bit_distance v l bi hrow.1 b c k hrow.2 hc
        refine ⟨?_, ?_, ?_⟩
        · intro p hp'
          rcases List.mem_cons.mp hp' with rfl | hp'
          · simp only [hcor]
            exact ⟨trivial, correct_length v l (b, bi) hrow.1 hrow.2 c k hc⟩
          · exact i1 p hp'
        · rw [i2]
          simp only [List.flatMap_cons, hcor, List.append_assoc]
        · rw [i3]
          simp only [List.map_cons, List.sum_cons, hcor, hn', hdist, Nat.add_assoc]

end Verif
