import Verif.Lemmas.FloatOps
import Verif.Model.LineScan
import Verif.Spec.Finder
import Mathlib.Tactic.IntervalCases

/-!
# The ratio test of the line scanner against exact arithmetic
-/
namespace Verif
open F64

/-- The estimated module size as a rational. -/
def modQ (t : Nat) : ℚ := roundQ ((t : ℚ) / 7)
/-- The permitted deviation as a rational. -/
def varQ (t : Nat) : ℚ := roundQ (modQ t / (3 / 2))

theorem u32_53 {n : Nat} (h : n < 2 ^ 32) : n ≤ 2 ^ 53 := by omega

theorem cast_lt_u32 {n : Nat} (h : n < 2 ^ 32) : (n : ℚ) ≤ 2 ^ 32 := by
  have : n ≤ 2 ^ 32 := by omega
  exact_mod_cast this

theorem abs_le_200 {q B : ℚ} (h : |q| ≤ B) (hB : B ≤ 2 ^ 200) : |q| ≤ 2 ^ 200 := le_trans h hB

theorem modQ_near {t : Nat} (h : t < 2 ^ 32) : |modQ t - (t : ℚ) / 7| ≤ 1 / 2 ^ 23 := by
  have h1 := cast_lt_u32 h
  have h0 : (0 : ℚ) ≤ t := Nat.cast_nonneg t
  have := round_near (q := (t : ℚ) / 7) (B := 2 ^ 30) (by norm_num)
    (by rw [abs_of_nonneg (by positivity)]; rw [div_le_iff₀ (by norm_num)]; linarith)
  refine le_trans this (le_of_eq ?_); norm_num

theorem modQ_bounds {t : Nat} (h : t < 2 ^ 32) : 0 ≤ modQ t ∧ modQ t ≤ 2 ^ 30 := by
  have h1 := cast_lt_u32 h
  have h0 : (0 : ℚ) ≤ t := Nat.cast_nonneg t
  constructor
  · exact roundQ_nonneg (by positivity)
  · have := roundQ_le_nat (q := (t : ℚ) / 7) (n := 2 ^ 30) (by norm_num)
      (by rw [div_le_iff₀ (by norm_num)]; push_cast; linarith)
    push_cast at this; exact this

theorem modQ_ge_one {t : Nat} (h7 : 7 ≤ t) : 1 ≤ modQ t := by
  have h0 : (7 : ℚ) ≤ t := by exact_mod_cast h7
  have := nat_le_roundQ (q := (t : ℚ) / 7) (n := 1) (by norm_num)
    (by rw [le_div_iff₀ (by norm_num)]; push_cast; linarith)
  exact_mod_cast this

theorem varQ_near {t : Nat} (h : t < 2 ^ 32) : |varQ t - 2 * (t : ℚ) / 21| ≤ 1 / 2 ^ 22 := by
  have hm := modQ_near h
  obtain ⟨b1, b2⟩ := modQ_bounds h
  have := round_near (q := modQ t / (3 / 2)) (B := 2 ^ 30) (by norm_num)
    (by rw [abs_of_nonneg (by positivity)]; rw [div_le_iff₀ (by norm_num)]; linarith)
  unfold varQ
  rw [abs_le] at *
  constructor <;> [linarith [this.1, hm.1]; linarith [this.2, hm.2]]

theorem varQ_bounds {t : Nat} (h : t < 2 ^ 32) : 0 ≤ varQ t ∧ varQ t ≤ 2 ^ 30 := by
  obtain ⟨b1, b2⟩ := modQ_bounds h
  constructor
  · exact roundQ_nonneg (by positivity)
  · have := roundQ_le_nat (q := modQ t / (3 / 2)) (n := 2 ^ 30) (by norm_num)
      (by rw [div_le_iff₀ (by norm_num)]; push_cast; linarith)
    push_cast at this; exact this

theorem mod_eq {t : Nat} (h : t < 2 ^ 32) : F64.ofNat t / F64.lit 7 = .fin (modQ t) := by
  rw [ofNat_fin (u32_53 h), lit_nat (by norm_num)]
  have h1 := cast_lt_u32 h
  have h0 : (0 : ℚ) ≤ t := Nat.cast_nonneg t
  rw [div_fin (by norm_num) ?_]
  · norm_num [modQ]
  · rw [abs_of_nonneg (by positivity), div_le_iff₀ (by norm_num)]; push_cast; linarith

theorem var_eq {t : Nat} (h : t < 2 ^ 32) : F64.fin (modQ t) / F64.lit 15 10 = .fin (varQ t) := by
  rw [lit_1_5]
  obtain ⟨b1, b2⟩ := modQ_bounds h
  rw [div_fin (by norm_num) ?_]
  · rfl
  · rw [abs_of_nonneg (by positivity), div_le_iff₀ (by norm_num)]; linarith

/-- The test of an outer run. -/
theorem outer_eq {t r : Nat} (h : t < 2 ^ 32) (hr : r < 2 ^ 32) :
    F64.gt (F64.fin (modQ t) - F64.ofNat r).abs (.fin (varQ t)) = decide (varQ t < |roundQ (modQ t - r)|) := by
  rw [ofNat_fin (u32_53 hr)]
  obtain ⟨b1, b2⟩ := modQ_bounds h
  have h1 := cast_lt_u32 hr
  have h0 : (0 : ℚ) ≤ r := Nat.cast_nonneg r
  rw [sub_fin ?_, abs_fin, gt_fin]
  rw [abs_le]; constructor <;> linarith

theorem three_modQ_bound {t : Nat} (h : t < 2 ^ 32) :
    |modQ t * 3| ≤ 2 ^ 32 ∧ |roundQ (modQ t * 3)| ≤ 2 ^ 32 := by
  obtain ⟨b1, b2⟩ := modQ_bounds h
  have h1 : |modQ t * 3| ≤ 2 ^ 32 := by rw [abs_of_nonneg (by positivity)]; linarith
  refine ⟨h1, ?_⟩
  have := round_abs_le (q := modQ t * 3) (n := 2 ^ 32) (by norm_num) (by push_cast; exact h1)
  push_cast at this; exact this

/-- The test of the middle run. -/
theorem middle_eq {t r : Nat} (h : t < 2 ^ 32) (hr : r < 2 ^ 32) :
    F64.gt (F64.fin (modQ t) * F64.lit 3 - F64.ofNat r).abs (.fin (varQ t)) =
      decide (varQ t < |roundQ (roundQ (modQ t * 3) - r)|) := by
  rw [ofNat_fin (u32_53 hr), lit_nat (by norm_num)]
  obtain ⟨b1, b2⟩ := three_modQ_bound h
  have h1 := cast_lt_u32 hr
  have h0 : (0 : ℚ) ≤ r := Nat.cast_nonneg r
  have e : modQ t * ((3 : Nat) : ℚ) = modQ t * 3 := by norm_num
  rw [mul_fin ?_, sub_fin ?_, abs_fin, gt_fin]
  · rw [e]
  · rw [e]; rw [abs_le] at *; constructor <;> linarith [b2.1, b2.2]
  · rw [e]; linarith

theorem modQ_21 {k : Nat} (h : 21 * k < 2 ^ 32) : modQ (21 * k) = 3 * k := by
  unfold modQ
  have : ((21 * k : Nat) : ℚ) / 7 = ((3 * k : Nat) : ℚ) := by push_cast; ring
  rw [this, roundQ_nat (by omega)]; push_cast; rfl

theorem varQ_21 {k : Nat} (h : 21 * k < 2 ^ 32) : varQ (21 * k) = 2 * k := by
  unfold varQ
  rw [modQ_21 h]
  have : (3 * (k : ℚ)) / (3 / 2) = ((2 * k : Nat) : ℚ) := by push_cast; ring
  rw [this, roundQ_nat (by omega)]; push_cast; rfl

/-- The test of an outer run is exact. -/
theorem outer_exact {t r : Nat} (h : t < 2 ^ 32) (hr : r < 2 ^ 32) :
    ¬ varQ t < |roundQ (modQ t - r)| ↔ t ≤ 21 * r ∧ 21 * r ≤ 5 * t := by
  by_cases hd : 21 ∣ t
  · obtain ⟨k, rfl⟩ := hd
    rw [modQ_21 h, varQ_21 h]
    have : (3 * (k : ℚ) - r) = ((3 * k - r : Int) : ℚ) := by push_cast; ring
    rw [this, roundQ_int (by rw [abs_le]; constructor <;> omega), ← Int.cast_abs]
    have e : (2 * (k : ℚ)) = ((2 * k : Int) : ℚ) := by push_cast; ring
    rw [e, Int.cast_lt, not_lt, abs_le]
    constructor
    · intro ⟨a, b⟩; constructor <;> omega
    · intro ⟨a, b⟩; constructor <;> omega
  · have hm := modQ_near h
    have hv := varQ_near h
    obtain ⟨b1, b2⟩ := modQ_bounds h
    have h1 := cast_lt_u32 hr
    have h0 : (0 : ℚ) ≤ r := Nat.cast_nonneg r
    have hrd := round_near (q := modQ t - r) (B := 2 ^ 32) (by norm_num)
      (by rw [abs_le]; constructor <;> linarith)
    generalize roundQ (modQ t - r) = D at *
    generalize modQ t = M at *
    generalize varQ t = V at *
    rw [not_lt]
    rw [abs_le] at hm hv hrd ⊢
    -- the exact value differs from the boundary by at least 1/21
    have t1 : t ≤ 21 * r → t + 1 ≤ 21 * r := by omega
    have t2 : ¬ t ≤ 21 * r → 21 * r + 1 ≤ t := by omega
    have t3 : 21 * r ≤ 5 * t → 21 * r + 1 ≤ 5 * t := by omega
    have t4 : ¬ 21 * r ≤ 5 * t → 5 * t + 1 ≤ 21 * r := by omega
    constructor
    · intro ⟨g1, g2⟩
      constructor
      · by_contra hc
        have : (21 * r + 1 : ℚ) ≤ t := by exact_mod_cast t2 hc
        linarith [hm.1, hm.2, hv.1, hv.2, hrd.1, hrd.2]
      · by_contra hc
        have : (5 * t + 1 : ℚ) ≤ 21 * r := by exact_mod_cast t4 hc
        linarith [hm.1, hm.2, hv.1, hv.2, hrd.1, hrd.2]
    · intro ⟨g1, g2⟩
      have a1 : (t + 1 : ℚ) ≤ 21 * r := by exact_mod_cast t1 g1
      have a2 : (21 * r + 1 : ℚ) ≤ 5 * t := by exact_mod_cast t3 g2
      constructor <;> linarith [hm.1, hm.2, hv.1, hv.2, hrd.1, hrd.2]

/-- The test of the middle run is exact unless the middle run is exactly a third of the total. -/
theorem middle_exact {t r : Nat} (h : t < 2 ^ 32) (hr : r < 2 ^ 32) (hn : t ≠ 3 * r ∨ 21 ∣ t) :
    ¬ varQ t < |roundQ (roundQ (modQ t * 3) - r)| ↔ 7 * t ≤ 21 * r ∧ 21 * r ≤ 11 * t := by
  by_cases hd : 21 ∣ t
  · obtain ⟨k, rfl⟩ := hd
    rw [modQ_21 h, varQ_21 h]
    have e3 : (3 * (k : ℚ)) * 3 = ((9 * k : Nat) : ℚ) := by push_cast; ring
    rw [e3, roundQ_nat (by omega)]
    have : (((9 * k : Nat) : ℚ) - r) = ((9 * k - r : Int) : ℚ) := by push_cast; ring
    rw [this, roundQ_int (by rw [abs_le]; constructor <;> omega), ← Int.cast_abs]
    have e : (2 * (k : ℚ)) = ((2 * k : Int) : ℚ) := by push_cast; ring
    rw [e, Int.cast_lt, not_lt, abs_le]
    constructor
    · intro ⟨a, b⟩; constructor <;> omega
    · intro ⟨a, b⟩; constructor <;> omega
  · have hn : t ≠ 3 * r := by tauto
    have hm := modQ_near h
    have hv := varQ_near h
    obtain ⟨b1, b2⟩ := modQ_bounds h
    obtain ⟨c1, c2⟩ := three_modQ_bound h
    have h1 := cast_lt_u32 hr
    have h0 : (0 : ℚ) ≤ r := Nat.cast_nonneg r
    have hr3 := round_near (q := modQ t * 3) (B := 2 ^ 32) (by norm_num) c1
    have hrd := round_near (q := roundQ (modQ t * 3) - r) (B := 2 ^ 33) (by norm_num)
      (by rw [abs_le] at *; constructor <;> linarith [c2.1, c2.2])
    generalize roundQ (roundQ (modQ t * 3) - r) = D at *
    generalize roundQ (modQ t * 3) = M3 at *
    generalize modQ t = M at *
    generalize varQ t = V at *
    rw [not_lt]
    rw [abs_le] at hm hv hrd hr3 ⊢
    have t1 : 7 * t ≤ 21 * r → 7 * t + 1 ≤ 21 * r := by omega
    have t2 : ¬ 7 * t ≤ 21 * r → 21 * r + 1 ≤ 7 * t := by omega
    have t3 : 21 * r ≤ 11 * t → 21 * r + 1 ≤ 11 * t := by omega
    have t4 : ¬ 21 * r ≤ 11 * t → 11 * t + 1 ≤ 21 * r := by omega
    constructor
    · intro ⟨g1, g2⟩
      constructor
      · by_contra hc
        have : (21 * r + 1 : ℚ) ≤ 7 * t := by exact_mod_cast t2 hc
        linarith [hm.1, hm.2, hv.1, hv.2, hrd.1, hrd.2, hr3.1, hr3.2]
      · by_contra hc
        have : (11 * t + 1 : ℚ) ≤ 21 * r := by exact_mod_cast t4 hc
        linarith [hm.1, hm.2, hv.1, hv.2, hrd.1, hrd.2, hr3.1, hr3.2]
    · intro ⟨g1, g2⟩
      have a1 : (7 * t + 1 : ℚ) ≤ 21 * r := by exact_mod_cast t1 g1
      have a2 : (21 * r + 1 : ℚ) ≤ 11 * t := by exact_mod_cast t3 g2
      constructor <;> linarith [hm.1, hm.2, hv.1, hv.2, hrd.1, hrd.2, hr3.1, hr3.2]

/-! ### The whole test -/

theorem addU32_ret {a b : Nat} (h : a + b < 2 ^ 32) : addU32 a b = .ret (a + b) := by
  unfold addU32; rw [if_pos h]

theorem lastFive_eq {s : FinderPattern} (h : s.p2 + s.p3 + s.p4 + s.p5 + s.p6 < 2 ^ 32) :
    s.lastFive = .ret (s.p2 + s.p3 + s.p4 + s.p5 + s.p6) := by
  unfold FinderPattern.lastFive
  rw [addU32_ret (by omega), Run.ret_bind, addU32_ret (by omega), Run.ret_bind,
    addU32_ret (by omega), Run.ret_bind, addU32_ret (by omega)]

theorem estModSize_eq {s : FinderPattern} (h : s.p2 + s.p3 + s.p4 + s.p5 + s.p6 < 2 ^ 32) :
    s.estModSize = .ret (.fin (modQ (s.p2 + s.p3 + s.p4 + s.p5 + s.p6))) := by
  unfold FinderPattern.estModSize
  rw [lastFive_eq h, Run.ret_bind, mod_eq h]; rfl

theorem ratiosFit_iff {s : FinderPattern} {t : Nat} (ht : t < 2 ^ 32) (h2 : s.p2 < 2 ^ 32)
    (h3 : s.p3 < 2 ^ 32) (h4 : s.p4 < 2 ^ 32) (h5 : s.p5 < 2 ^ 32) (h6 : s.p6 < 2 ^ 32) :
    s.ratiosFit t = true ↔
      (t ≤ 21 * s.p2 ∧ 21 * s.p2 ≤ 5 * t) ∧ (t ≤ 21 * s.p3 ∧ 21 * s.p3 ≤ 5 * t) ∧
      ¬ varQ t < |roundQ (roundQ (modQ t * 3) - s.p4)| ∧
      (t ≤ 21 * s.p5 ∧ 21 * s.p5 ≤ 5 * t) ∧ (t ≤ 21 * s.p6 ∧ 21 * s.p6 ≤ 5 * t) := by
  unfold FinderPattern.ratiosFit
  simp only
  rw [mod_eq ht, var_eq ht, outer_eq ht h2, outer_eq ht h3, outer_eq ht h5, outer_eq ht h6, middle_eq ht h4]
  rw [← outer_exact ht h2, ← outer_exact ht h3, ← outer_exact ht h5, ← outer_exact ht h6]
  simp only [decide_eq_true_eq]
  split
  · simp_all
  · split
    · simp_all
    · split
      · simp_all
      · split
        · simp_all
        · split <;> simp_all

theorem looksLikeFinder_eq {s : FinderPattern} (h : s.p2 + s.p3 + s.p4 + s.p5 + s.p6 < 2 ^ 32) :
    s.looksLikeFinder = .ret (decide (7 ≤ s.p2 + s.p3 + s.p4 + s.p5 + s.p6) &&
      s.ratiosFit (s.p2 + s.p3 + s.p4 + s.p5 + s.p6)) := by
  unfold FinderPattern.looksLikeFinder
  rw [lastFive_eq h, Run.ret_bind]
  by_cases h7 : s.p2 + s.p3 + s.p4 + s.p5 + s.p6 < 7
  · rw [if_pos h7]
    have : decide (7 ≤ s.p2 + s.p3 + s.p4 + s.p5 + s.p6) = false := by simpa using h7
    rw [this]; rfl
  · rw [if_neg h7]
    have : decide (7 ≤ s.p2 + s.p3 + s.p4 + s.p5 + s.p6) = true := by simpa using h7
    rw [this]; rfl

end Verif
