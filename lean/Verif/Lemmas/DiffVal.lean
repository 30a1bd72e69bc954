import Verif.Lemmas.Halves

/-!
# The relative difference of two module sizes
-/
namespace Verif
namespace LineScan
open F64 FinderPattern

theorem quot_val {a b : ℚ} (hb : 1 ≤ b) (hab : b ≤ a) (ha : a ≤ 2 ^ 30) :
    ∃ r : ℚ, (F64.fin a - F64.fin b) / F64.fin a = .fin r ∧ |r - (a - b) / a| ≤ 1 / 2 ^ 20 := by
  have a0 : 0 < a := by linarith
  have hd : |a - b| ≤ 2 ^ 30 := by rw [abs_le]; constructor <;> linarith
  have hs := round_near (B := 2 ^ 30) (by norm_num) hd
  have hs0 : 0 ≤ roundQ (a - b) := roundQ_nonneg (by linarith)
  have hq : |roundQ (a - b) / a - (a - b) / a| ≤ 1 / 2 ^ 22 := by
    rw [← sub_div, abs_div, abs_of_pos a0, div_le_iff₀ a0]
    refine le_trans hs ?_
    norm_num
    linarith
  have hq1 : |(a - b) / a| ≤ 1 := by
    rw [abs_div, abs_of_pos a0, div_le_iff₀ a0, abs_of_nonneg (by linarith)]; linarith
  have hq2 : |roundQ (a - b) / a| ≤ 2 := by
    rw [abs_le] at *
    norm_num at hq
    constructor <;> linarith [hq.1, hq.2, hq1.1, hq1.2]
  have hr := round_near (B := 2) (by norm_num) hq2
  refine ⟨roundQ (roundQ (a - b) / a), ?_, ?_⟩
  · rw [sub_fin (by linarith), div_fin (by linarith) (by linarith)]
  · rw [abs_le] at *
    norm_num at hq hr ⊢
    constructor <;> linarith [hq.1, hq.2, hr.1, hr.2]

theorem diff_val {a b : ℚ} (ha : 1 ≤ a) (ha' : a ≤ 2 ^ 30) (hb : 1 ≤ b) (hb' : b ≤ 2 ^ 30) :
    ∃ r : ℚ, diff (.fin a) (.fin b) = .fin r ∧ |r - (max a b - min a b) / max a b| ≤ 1 / 2 ^ 20 := by
  unfold diff
  rw [gt_fin]
  by_cases h : b < a
  · rw [decide_eq_true h, max_eq_left (le_of_lt h), min_eq_right (le_of_lt h)]
    simp only [if_true]
    exact quot_val hb (le_of_lt h) ha'
  · rw [decide_eq_false h, max_eq_right (not_lt.mp h), min_eq_left (not_lt.mp h)]
    simp only [Bool.false_eq_true, if_false]
    exact quot_val ha (not_lt.mp h) hb'

/-- Sizes that differ by at most 19 per cent of the larger are similar. -/
theorem diff_close {a b : ℚ} (ha : 1 ≤ a) (ha' : a ≤ 2 ^ 30) (hb : 1 ≤ b) (hb' : b ≤ 2 ^ 30)
    (h1 : 81 * a ≤ 100 * b) (h2 : 81 * b ≤ 100 * a) :
    F64.lt (diff (.fin a) (.fin b)) (F64.lit 2 10) = true := by
  obtain ⟨r, hr, hn⟩ := diff_val ha ha' hb hb'
  obtain ⟨q, hq, hqn⟩ := two_tenths
  have hm : (max a b - min a b) / max a b ≤ 19 / 100 := by
    rw [div_le_iff₀ (lt_of_lt_of_le (by linarith) (le_max_left a b))]
    rcases le_total a b with h | h
    · rw [max_eq_right h, min_eq_left h]; linarith
    · rw [max_eq_left h, min_eq_right h]; linarith
  rw [hr, hq, lt_fin, decide_eq_true_eq]
  rw [abs_le] at hn hqn
  norm_num at hn hqn
  linarith [hn.2, hqn.1]

/-- Sizes of which one is less than 79 per cent of the other are not. -/
theorem diff_far {a b : ℚ} (ha : 1 ≤ a) (ha' : a ≤ 2 ^ 30) (hb : 1 ≤ b) (hb' : b ≤ 2 ^ 30) (h : 100 * b ≤ 79 * a) :
    F64.lt (diff (.fin a) (.fin b)) (F64.lit 2 10) = false := by
  obtain ⟨r, hr, hn⟩ := diff_val ha ha' hb hb'
  obtain ⟨q, hq, hqn⟩ := two_tenths
  have hba : b ≤ a := by linarith
  rw [max_eq_left hba, min_eq_right hba] at hn
  have hm : 21 / 100 ≤ (a - b) / a := by
    rw [le_div_iff₀ (by linarith)]; linarith
  rw [hr, hq, lt_fin, decide_eq_false_iff_not]
  rw [abs_le] at hn hqn
  norm_num at hn hqn
  linarith [hn.1, hqn.2]

/-- Sizes that differ by at most nine per cent of the larger may belong to one symbol. -/
theorem diff_same_symbol {a b : ℚ} (ha : 1 ≤ a) (ha' : a ≤ 2 ^ 30) (hb : 1 ≤ b) (hb' : b ≤ 2 ^ 30)
    (h1 : 91 * a ≤ 100 * b) (h2 : 91 * b ≤ 100 * a) :
    F64.gt (diff (.fin a) (.fin b)) (F64.lit 1 10) = false := by
  obtain ⟨r, hr, hn⟩ := diff_val ha ha' hb hb'
  have hτ : F64.lit 1 10 = .fin (roundQ (((1 : Nat) : ℚ) / ((10 : Nat) : ℚ))) := lit_eq (by norm_num) (by norm_num)
  have hτn := round_near (q := ((1 : Nat) : ℚ) / ((10 : Nat) : ℚ)) (B := 1) (by norm_num) (by norm_num)
  have hm : (max a b - min a b) / max a b ≤ 9 / 100 := by
    rw [div_le_iff₀ (lt_of_lt_of_le (by linarith) (le_max_left a b))]
    rcases le_total a b with h | h
    · rw [max_eq_right h, min_eq_left h]; linarith
    · rw [max_eq_left h, min_eq_right h]; linarith
  rw [hr, hτ, gt_fin, decide_eq_false_iff_not]
  rw [abs_le] at hn hτn
  norm_num at hn hτn ⊢
  linarith [hn.2, hτn.1]

end LineScan
end Verif
