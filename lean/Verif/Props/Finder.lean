import Verif.Lemmas.Finder

/-!
# C51, C59: the finder pattern test of the line scanner
-/
namespace Verif.Props
open Verif Verif.Spec F64

/-- **C51, exactness.** The floating point test accepts the last five runs exactly when they have the shape
of a finder pattern in exact arithmetic. Left out is the case where the middle run is exactly a third of the
total and the total no multiple of 21: there the exact deviation equals the tolerance, and the answer depends
on the rounding of `total / 7` (see `finder_test_not_scale_invariant`). -/
theorem finder_test_is_exact (s : FinderPattern) (h : s.p2 + s.p3 + s.p4 + s.p5 + s.p6 < 2 ^ 32)
    (hn : s.p2 + s.p3 + s.p4 + s.p5 + s.p6 ≠ 3 * s.p4 ∨ 21 ∣ s.p2 + s.p3 + s.p4 + s.p5 + s.p6) :
    s.looksLikeFinder = .ret (decide (FinderShaped s.p2 s.p3 s.p4 s.p5 s.p6)) := by
  rw [looksLikeFinder_eq h]
  congr 1
  rw [Bool.eq_iff_iff, Bool.and_eq_true, decide_eq_true_eq, decide_eq_true_eq,
    ratiosFit_iff h (by omega) (by omega) (by omega) (by omega) (by omega),
    middle_exact h (by omega) hn]
  rfl

/-- Every accepted run combination has the shape of a finder pattern, with no exception. -/
theorem accepted_is_finder_shaped (s : FinderPattern) (h : s.p2 + s.p3 + s.p4 + s.p5 + s.p6 < 2 ^ 32)
    (ha : s.looksLikeFinder = .ret true) : FinderShaped s.p2 s.p3 s.p4 s.p5 s.p6 := by
  by_cases hn : s.p2 + s.p3 + s.p4 + s.p5 + s.p6 = 3 * s.p4
  · rw [looksLikeFinder_eq h] at ha
    have ha : (decide (7 ≤ s.p2 + s.p3 + s.p4 + s.p5 + s.p6) &&
      s.ratiosFit (s.p2 + s.p3 + s.p4 + s.p5 + s.p6)) = true := by injection ha
    rw [Bool.and_eq_true, decide_eq_true_eq,
      ratiosFit_iff h (by omega) (by omega) (by omega) (by omega) (by omega)] at ha
    obtain ⟨a, b, c, -, e, f⟩ := ha
    exact ⟨a, b, c, by omega, e, f⟩
  · rw [finder_test_is_exact s h (Or.inl hn)] at ha
    have ha : decide (FinderShaped s.p2 s.p3 s.p4 s.p5 s.p6) = true := by injection ha
    simpa using ha

/-- **C51, scales.** Runs `k, k, 3k, k, k` are accepted with module size exactly `k`, whatever came before
them in the line. -/
theorem perfect_finder_accepted (k p0 p1 : Nat) (h1 : 1 ≤ k) (h : 7 * k < 2 ^ 32) :
    (FinderPattern.mk p0 p1 k k (3 * k) k k).looksLikeFinder = .ret true ∧
    (FinderPattern.mk p0 p1 k k (3 * k) k k).estModSize = .ret (.fin k) := by
  constructor
  · rw [finder_test_is_exact _ (by simp only; omega) (Or.inl (by simp only; omega))]
    congr 1
    rw [decide_eq_true_eq]
    unfold FinderShaped
    simp only
    omega
  · rw [estModSize_eq (by simp only; omega)]
    congr 2
    simp only
    unfold modQ
    have : ((k + k + 3 * k + k + k : Nat) : ℚ) / 7 = (k : ℚ) := by push_cast; ring
    rw [this, roundQ_nat (by omega)]

/-- **C51, missing colours.** If one of the last five runs has length 0, the pattern is not accepted. -/
theorem missing_run_rejected (s : FinderPattern) (h : s.p2 + s.p3 + s.p4 + s.p5 + s.p6 < 2 ^ 32)
    (hz : s.p2 = 0 ∨ s.p3 = 0 ∨ s.p4 = 0 ∨ s.p5 = 0 ∨ s.p6 = 0) :
    s.looksLikeFinder = .ret false := by
  by_contra hc
  have : s.looksLikeFinder = .ret true := by
    rw [looksLikeFinder_eq h] at hc ⊢
    congr 1
    by_contra h'
    exact hc (by rw [Bool.not_eq_true] at h'; rw [h'])
  have := accepted_is_finder_shaped s h this
  unfold FinderShaped at this
  simp only at this
  omega

/-- **C59, away from the boundary.** Enlarging all five runs by the same factor does not change the answer,
unless the middle run is exactly a third of the total. (The smallest accepted total, 7 pixels, is the
hypothesis that both totals reach.) -/
theorem finder_test_scale_invariant_partial (a b c d e k p0 p1 : Nat) (hk : 1 ≤ k)
    (h : k * (a + b + c + d + e) < 2 ^ 32) (h7 : 7 ≤ a + b + c + d + e) (hn : a + b + c + d + e ≠ 3 * c) :
    (FinderPattern.mk p0 p1 (k * a) (k * b) (k * c) (k * d) (k * e)).looksLikeFinder =
    (FinderPattern.mk p0 p1 a b c d e).looksLikeFinder := by
  have ht : k * a + k * b + k * c + k * d + k * e = k * (a + b + c + d + e) := by ring
  have hle : a + b + c + d + e ≤ k * (a + b + c + d + e) := Nat.le_mul_of_pos_left _ hk
  rw [finder_test_is_exact _ (by simp only; omega) (Or.inl ?_),
    finder_test_is_exact _ (by simp only; omega) (Or.inl hn)]
  · congr 1
    rw [decide_eq_decide]
    unfold FinderShaped
    simp only [ht]
    have key : ∀ u v m n : Nat, (m * (k * u) ≤ n * (k * v)) ↔ m * u ≤ n * v := by
      intro u v m n
      rw [show m * (k * u) = k * (m * u) by ring, show n * (k * v) = k * (n * v) by ring]
      exact ⟨fun h => Nat.le_of_mul_le_mul_left h hk, fun h => Nat.mul_le_mul_left k h⟩
    have key1 : ∀ u v n : Nat, ((k * u) ≤ n * (k * v)) ↔ u ≤ n * v := by
      intro u v n
      have := key u v 1 n
      simpa using this
    simp only [key, key1]
    have : 7 ≤ k * (a + b + c + d + e) := le_trans h7 hle
    tauto
  · simp only
    rw [ht]
    intro hc
    apply hn
    have : k * (a + b + c + d + e) = k * (3 * c) := by rw [hc]; ring
    exact Nat.eq_of_mul_eq_mul_left (by omega) this

/-- **C59 is false.** The runs 2, 2, 4, 2, 2 are accepted, but the same pattern three times as large is
rejected: the deviation of the middle run equals the tolerance, and the rounding of `36 / 7` tips it over. -/
theorem finder_test_not_scale_invariant :
    (FinderPattern.mk 0 0 2 2 4 2 2).looksLikeFinder = .ret true ∧
    (FinderPattern.mk 0 0 6 6 12 6 6).looksLikeFinder = .ret false ∧
    FinderShaped 6 6 12 6 6 := by decide +kernel

/-! ### The hypotheses are met -/

example : (FinderPattern.mk 9 4 5 6 17 7 5).looksLikeFinder = .ret true := by
  rw [finder_test_is_exact _ (by decide) (by decide)]; decide
example : (FinderPattern.mk 9 4 5 6 17 7 1).looksLikeFinder = .ret false := by
  rw [finder_test_is_exact _ (by decide) (by decide)]; decide
example : (FinderPattern.mk 9 4 0 6 17 7 5).looksLikeFinder = .ret false :=
  missing_run_rejected _ (by decide) (Or.inl rfl)

end Verif.Props
