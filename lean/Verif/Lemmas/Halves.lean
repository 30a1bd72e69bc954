import Verif.Lemmas.Scan

/-!
# Multiples of one half are exact
-/
namespace Verif
open F64 LineScan

/-- `n / 2` as a float. -/
def hf (n : Int) : F64 := .fin ((n : ℚ) / 2)

theorem roundQ_half {n : Int} (h : |n| ≤ 2 ^ 53) : roundQ ((n : ℚ) / 2) = (n : ℚ) / 2 := by
  apply roundQ_of_repr
  refine ⟨n, -1, ?_, h, by norm_num⟩
  rw [pow2_eq]; norm_num; ring

theorem half_abs {n : Int} (h : |n| ≤ 2 ^ 53) : |(n : ℚ) / 2| ≤ 2 ^ 52 := by
  have h' : |(n : ℚ)| ≤ 2 ^ 53 := by exact_mod_cast h
  rw [abs_le] at *
  constructor <;> linarith [h'.1, h'.2]

theorem hf_add {a b : Int} (h : |a + b| ≤ 2 ^ 53) : hf a + hf b = hf (a + b) := by
  have e : (a : ℚ) / 2 + (b : ℚ) / 2 = ((a + b : Int) : ℚ) / 2 := by push_cast; ring
  unfold hf
  rw [add_fin, e, roundQ_half h]
  rw [e]; have := half_abs h; linarith

theorem hf_sub {a b : Int} (h : |a - b| ≤ 2 ^ 53) : hf a - hf b = hf (a - b) := by
  have e : (a : ℚ) / 2 - (b : ℚ) / 2 = ((a - b : Int) : ℚ) / 2 := by push_cast; ring
  unfold hf
  rw [sub_fin, e, roundQ_half h]
  rw [e]; have := half_abs h; linarith

theorem hf_lt (a b : Int) : F64.lt (hf a) (hf b) = decide (a < b) := by
  unfold hf
  rw [lt_fin, decide_eq_decide]
  rw [div_lt_div_iff_of_pos_right (by norm_num)]
  exact_mod_cast Iff.rfl

theorem hf_nat (n : Nat) : F64.fin (n : ℚ) = hf (2 * n) := by
  unfold hf; push_cast; congr 1; ring

theorem hf_ofNat {n : Nat} (h : n < 2 ^ 32) : F64.ofNat n = hf (2 * n) := by
  rw [ofNat_fin (u32_53 h), hf_nat]

theorem hf_lit0 : F64.lit 0 = hf 0 := by
  rw [lit_nat (by norm_num), hf_nat]; rfl

theorem hf_max (a : Int) : (hf a).max (F64.lit 0) = hf (max a 0) := by
  unfold hf
  rw [max_zero_fin]
  congr 1
  rcases le_total a 0 with h | h
  · have h' : (a : ℚ) ≤ 0 := by exact_mod_cast h
    rw [max_eq_right h, max_eq_right (by linarith)]; norm_num
  · have h' : (0 : ℚ) ≤ a := by exact_mod_cast h
    rw [max_eq_left h, max_eq_left (by linarith)]

theorem hf_round_min {a : Int} (h0 : 0 ≤ a) (h : a < 2 ^ 50) :
    (hf a).round.toU32 = min ((a + 1) / 2).toNat (2 ^ 32 - 1) := by
  unfold hf
  rw [round_toU32 (half_abs (by rw [abs_of_nonneg h0]; omega))]
  have : roundAway ((a : ℚ) / 2) = (a + 1) / 2 := by
    unfold roundAway
    have h0' : (0 : ℚ) ≤ a := by exact_mod_cast h0
    rw [if_pos (by positivity), floor_eq, Int.floor_eq_iff]
    have e1 : ((((a + 1) / 2 : Int) : ℚ)) * 2 ≤ (a : ℚ) + 1 := by
      have : (a + 1) / 2 * 2 ≤ a + 1 := by omega
      exact_mod_cast this
    have e2 : (a : ℚ) + 1 < ((((a + 1) / 2 : Int) : ℚ)) * 2 + 2 := by
      have : a + 1 < (a + 1) / 2 * 2 + 2 := by omega
      exact_mod_cast this
    constructor <;> linarith
  rw [this]

theorem hf_round {a : Int} (h0 : 0 ≤ a) (h : a < 2 ^ 33 - 2) : (hf a).round.toU32 = ((a + 1) / 2).toNat := by
  rw [hf_round_min h0 (by omega)]
  omega

theorem hf_five {m : Nat} (h : 10 * m < 2 ^ 33) : F64.lit 5 * F64.fin (m : ℚ) = hf (10 * m) := by
  have e : ((5 : Nat) : ℚ) * (m : ℚ) = ((10 * m : Int) : ℚ) / 2 := by push_cast; ring
  have hb : |(10 * (m : Int))| ≤ 2 ^ 53 := by rw [abs_of_nonneg (by omega)]; omega
  rw [lit_nat (by norm_num), mul_fin, e, roundQ_half hb]
  · rfl
  · rw [e]; have := half_abs hb; linarith

theorem modQ_seven {m : Nat} (h : m < 2 ^ 32) : modQ (7 * m) = m := by
  unfold modQ
  rw [show ((7 * m : Nat) : ℚ) / 7 = (m : ℚ) by push_cast; ring, roundQ_nat (u32_53 h)]

theorem mean_same {m : Nat} (h : m < 2 ^ 32) : (F64.fin (m : ℚ) + F64.fin (m : ℚ)) / F64.lit 2 = F64.fin (m : ℚ) := by
  have h' := cast_lt_u32 h
  have h0 : (0 : ℚ) ≤ m := Nat.cast_nonneg m
  have e : (m : ℚ) + m = ((2 * m : Nat) : ℚ) := by push_cast; ring
  rw [add_fin (by rw [abs_of_nonneg (by positivity)]; linarith), e, roundQ_nat (by omega), lit_nat (by norm_num),
    div_fin (by norm_num)]
  · rw [show ((2 * m : Nat) : ℚ) / ((2 : Nat) : ℚ) = (m : ℚ) by push_cast; ring, roundQ_nat (u32_53 h)]
  · rw [show ((2 * m : Nat) : ℚ) / ((2 : Nat) : ℚ) = (m : ℚ) by push_cast; ring, abs_of_nonneg h0]; linarith

theorem centre_half {x m : Nat} (hx : x < 2 ^ 32) (hm : 7 * m < 2 ^ 32) :
    F64.fin (centreQ x (7 * m)) = hf (2 * x - 7 * m) := by
  unfold centreQ hf
  rw [modQ_seven (by omega)]
  have e : (7 : ℚ) / 2 * (m : ℚ) = ((7 * m : Int) : ℚ) / 2 := by push_cast; ring
  rw [e, roundQ_half (by rw [abs_of_nonneg (by omega)]; omega)]
  have e2 : (x : ℚ) - ((7 * m : Int) : ℚ) / 2 = ((2 * x - 7 * m : Int) : ℚ) / 2 := by push_cast; ring
  rw [e2, roundQ_half (by rw [abs_le]; constructor <;> omega)]

theorem diff_same {m : Nat} (h0 : 0 < m) : diff (F64.fin (m : ℚ)) (F64.fin (m : ℚ)) = F64.fin 0 := by
  have h' : (0 : ℚ) < m := by exact_mod_cast h0
  unfold diff
  rw [gt_fin, decide_eq_false (lt_irrefl _)]
  simp only [Bool.false_eq_true, if_false]
  rw [sub_fin (by rw [sub_self]; norm_num), sub_self, roundQ_zero, div_fin (ne_of_gt h') (by rw [zero_div]; norm_num),
    zero_div, roundQ_zero]

theorem two_tenths : ∃ q : ℚ, F64.lit 2 10 = .fin q ∧ |q - 1 / 5| ≤ 1 / 2 ^ 50 := by
  refine ⟨_, lit_eq (by norm_num) (by norm_num), ?_⟩
  have := round_near (q := ((2 : Nat) : ℚ) / ((10 : Nat) : ℚ)) (B := 1) (by norm_num) (by norm_num)
  rw [abs_le] at *
  norm_num at this ⊢
  constructor <;> linarith [this.1, this.2]

/-- Module sizes that differ by more than 21 per cent of the larger are told apart. -/
theorem diff_large {t u : Nat} (ht : t < 2 ^ 32) (hu : u < 2 ^ 32) (ht7 : 7 ≤ t) (hu7 : 7 ≤ u)
    (h : 21 * max t u + 100 * min t u < 100 * max t u) :
    F64.lt (diff (.fin (modQ t)) (.fin (modQ u))) (F64.lit 2 10) = false := by
  obtain ⟨q, hq, hqn⟩ := two_tenths
  have key : ∀ a b : Nat, a < 2 ^ 32 → b < 2 ^ 32 → 7 ≤ a → 7 ≤ b → 100 * b < 79 * a →
      ∃ r : ℚ, (F64.fin (modQ a) - F64.fin (modQ b)) / F64.fin (modQ a) = .fin r ∧ 41 / 200 ≤ r := by
    intro a b ha hb ha7 hb7 hab
    have a1 := modQ_near ha
    have b1 := modQ_near hb
    have ag := modQ_ge_one ha7
    have bg := modQ_ge_one hb7
    have ab := (modQ_bounds ha).2
    have bb := (modQ_bounds hb).2
    have hab' : 100 * (b : ℚ) < 79 * a := by exact_mod_cast hab
    have ha7' : (7 : ℚ) ≤ a := by exact_mod_cast ha7
    have hbd : |modQ a - modQ b| ≤ 2 ^ 30 := by rw [abs_le]; constructor <;> linarith
    have hs := round_near (q := modQ a - modQ b) (B := 2 ^ 30) (by norm_num) hbd
    have hs2 : |roundQ (modQ a - modQ b)| ≤ 2 ^ 30 := by
      have := round_abs_le (n := 2 ^ 30) (q := modQ a - modQ b) (by norm_num) (by push_cast; linarith)
      exact_mod_cast this
    have hge : (207 / 1000) * modQ a ≤ roundQ (modQ a - modQ b) := by
      rw [abs_le] at a1 b1 hs
      norm_num at a1 b1 hs ⊢
      linarith [a1.1, a1.2, b1.1, b1.2, hs.1, hs.2]
    have hdb : |roundQ (modQ a - modQ b) / modQ a| ≤ 2 ^ 30 := by
      rw [abs_div, abs_of_pos (show 0 < modQ a by linarith), div_le_iff₀ (by linarith)]
      nlinarith
    rw [sub_fin (by linarith), div_fin (by linarith) (by linarith)]
    refine ⟨_, rfl, ?_⟩
    refine le_trans ?_ (roundQ_mono (show (207 : ℚ) / 1000 ≤ _ by rw [le_div_iff₀ (by linarith)]; exact hge))
    have := round_near (q := (207 : ℚ) / 1000) (B := 1) (by norm_num) (by rw [abs_le]; constructor <;> norm_num)
    rw [abs_le] at this
    norm_num at this ⊢
    linarith [this.1]
  unfold diff
  rw [gt_fin, hq]
  rw [abs_le] at hqn
  by_cases htu : u ≤ t
  · obtain ⟨r, hr, hge⟩ := key t u ht hu ht7 hu7 (by omega)
    have hgt : modQ u < modQ t := by
      have a1 := modQ_near ht
      have b1 := modQ_near hu
      have hab' : 100 * (u : ℚ) < 79 * t := by
        have : 100 * u < 79 * t := by omega
        exact_mod_cast this
      have ha7' : (7 : ℚ) ≤ t := by exact_mod_cast ht7
      rw [abs_le] at a1 b1
      norm_num at a1 b1
      linarith [a1.1, a1.2, b1.1, b1.2]
    rw [decide_eq_true hgt]
    simp only [if_true]
    rw [hr, lt_fin, decide_eq_false]
    norm_num at hqn
    linarith [hqn.2]
  · obtain ⟨r, hr, hge⟩ := key u t hu ht hu7 ht7 (by omega)
    have hgt : modQ t ≤ modQ u := by
      unfold modQ
      apply roundQ_mono
      have : (t : ℚ) ≤ u := by exact_mod_cast (show t ≤ u by omega)
      linarith
    rw [decide_eq_false (by linarith)]
    simp only [Bool.false_eq_true, if_false]
    rw [hr, lt_fin, decide_eq_false]
    norm_num at hqn
    linarith [hqn.2]

end Verif
