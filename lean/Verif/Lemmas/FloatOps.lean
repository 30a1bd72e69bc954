import Verif.Lemmas.Float

/-!
# Operations of the `f64` model on finite numbers of moderate size
-/
namespace Verif.F64

theorem le_pow2_1023 {q : ℚ} (h : q ≤ 2 ^ 200) : q ≤ pow2 1023 := by
  refine le_trans h (le_trans (le_of_eq ?_) (pow2_le (show (200 : Int) ≤ 1023 by norm_num)))
  rw [pow2_eq]; norm_num

theorem ofExact_eq {q : ℚ} (h : |q| ≤ 2 ^ 200) : ofExact q = .fin (roundQ q) :=
  ofExact_fin (le_pow2_1023 h)

theorem add_fin {a b : ℚ} (h : |a + b| ≤ 2 ^ 200) : (fin a + fin b : F64) = fin (roundQ (a + b)) :=
  ofExact_eq h

theorem sub_fin {a b : ℚ} (h : |a - b| ≤ 2 ^ 200) : (fin a - fin b : F64) = fin (roundQ (a - b)) :=
  ofExact_eq h

theorem mul_fin {a b : ℚ} (h : |a * b| ≤ 2 ^ 200) : (fin a * fin b : F64) = fin (roundQ (a * b)) :=
  ofExact_eq h

theorem div_fin {a b : ℚ} (hb : b ≠ 0) (h : |a / b| ≤ 2 ^ 200) :
    (fin a / fin b : F64) = fin (roundQ (a / b)) := by
  change F64.div _ _ = _
  unfold F64.div
  simp only
  rw [if_neg hb, ofExact_eq h]

theorem neg_fin (a : ℚ) : (-(fin a) : F64) = fin (-a) := rfl

theorem abs_fin (a : ℚ) : (fin a).abs = fin |a| := by
  change fin a.abs = _
  rw [rat_abs]

theorem lt_fin (a b : ℚ) : F64.lt (fin a) (fin b) = decide (a < b) := rfl
theorem gt_fin (a b : ℚ) : F64.gt (fin a) (fin b) = decide (b < a) := rfl
theorem le_fin (a b : ℚ) : F64.le (fin a) (fin b) = decide (a ≤ b) := rfl
theorem ge_fin (a b : ℚ) : F64.ge (fin a) (fin b) = decide (b ≤ a) := rfl

theorem lit_nat {n : Nat} (h : n ≤ 2 ^ 53) : lit n = .fin n := by
  have := ofNat_fin h
  unfold ofNat at this
  unfold lit
  rw [Rat.mkRat_one]
  exact_mod_cast this

theorem lit_eq {n d : Nat} (hd : 0 < d) (h : n ≤ d * 2 ^ 53) : lit n d = .fin (roundQ ((n : ℚ) / d)) := by
  unfold lit
  have hd' : (0 : ℚ) < d := by exact_mod_cast hd
  rw [Rat.mkRat_eq_div]
  simp only [Int.cast_natCast]
  rw [ofExact_eq]
  rw [abs_of_nonneg (by positivity), div_le_iff₀ hd']
  have : (n : ℚ) ≤ d * 2 ^ 53 := by exact_mod_cast h
  nlinarith

theorem lit_dyadic {n d : Nat} (m : Int) (k : Int) (hd : 0 < d) (h : n ≤ d * 2 ^ 53)
    (e : (n : ℚ) / d = m * pow2 k) (hm : |m| ≤ 2 ^ 53) (hk : -1074 ≤ k) :
    lit n d = .fin ((n : ℚ) / d) := by
  rw [lit_eq hd h, roundQ_of_repr ⟨m, k, e, hm, hk⟩]

theorem lit_3_5 : lit 35 10 = .fin (7 / 2) := by
  rw [lit_dyadic 7 (-1) (by norm_num) (by norm_num) (by rw [pow2_eq]; norm_num) (by norm_num) (by norm_num)]
  norm_num

theorem lit_1_5 : lit 15 10 = .fin (3 / 2) := by
  rw [lit_dyadic 3 (-1) (by norm_num) (by norm_num) (by rw [pow2_eq]; norm_num) (by norm_num) (by norm_num)]
  norm_num

/-- Rounding error in terms of a bound that is at least 1. -/
theorem round_near {q B : ℚ} (hB : 1 ≤ B) (h : |q| ≤ B) : |roundQ q - q| ≤ B / 2 ^ 53 := by
  have h1 : pow2 (-1022) ≤ B := by
    refine le_trans (pow2_le (show (-1022 : Int) ≤ 0 by norm_num)) ?_
    rw [pow2_zero]; exact hB
  have := roundQ_err h1 h
  rw [pow2_eq] at this
  refine le_trans this (le_of_eq ?_)
  norm_num
  ring

theorem round_abs_le {q : ℚ} {n : Nat} (hn : n ≤ 2 ^ 53) (h : |q| ≤ n) : |roundQ q| ≤ n := by
  rw [abs_le] at h ⊢
  constructor
  · have := roundQ_mono h.1
    rw [roundQ_neg, roundQ_nat hn] at this; exact this
  · have := roundQ_mono h.2
    rw [roundQ_nat hn] at this; exact this

/-! ### `round` and `as u32` -/

theorem roundAway_mono {a b : ℚ} (h : a ≤ b) : roundAway a ≤ roundAway b := by
  unfold roundAway
  by_cases ha : 0 ≤ a
  · rw [if_pos ha, if_pos (le_trans ha h)]
    have : a + 1 / 2 ≤ b + 1 / 2 := by linarith
    exact Int.floor_le_floor this
  · rw [if_neg ha]
    have h1 : (0 : Int) ≤ (-a + 1 / 2).floor := by
      rw [floor_eq, Int.floor_nonneg]; linarith [not_le.mp ha]
    by_cases hb : 0 ≤ b
    · rw [if_pos hb]
      have h2 : (0 : Int) ≤ (b + 1 / 2).floor := by
        rw [floor_eq, Int.floor_nonneg]; linarith
      omega
    · rw [if_neg hb]
      have : (-b + 1 / 2).floor ≤ (-a + 1 / 2).floor := by
        have h' : -b + 1 / 2 ≤ -a + 1 / 2 := by linarith
        exact Int.floor_le_floor h'
      omega

theorem roundAway_int (n : Int) : roundAway (n : ℚ) = n := by
  unfold roundAway
  split
  · rw [floor_eq, Int.floor_eq_iff]; constructor <;> linarith
  · have : ((-(n : ℚ) + 1 / 2).floor : Int) = -n := by
      rw [floor_eq, Int.floor_eq_iff]; push_cast; constructor <;> linarith
    omega

theorem roundAway_nat (n : Nat) : roundAway (n : ℚ) = n := by
  have := roundAway_int (n : Int); simpa using this

/-- `round` keeps within half a pixel. -/
theorem roundAway_near (q : ℚ) : |(roundAway q : ℚ) - q| ≤ 1 / 2 := by
  unfold roundAway
  split
  · have h1 := Int.floor_le (q + 1 / 2)
    have h2 := Int.lt_floor_add_one (q + 1 / 2)
    rw [floor_eq, abs_le]; constructor <;> linarith
  · have h1 := Int.floor_le (-q + 1 / 2)
    have h2 := Int.lt_floor_add_one (-q + 1 / 2)
    rw [floor_eq]; push_cast; rw [abs_le]; constructor <;> linarith

theorem round_fin {a : ℚ} (h : |a| ≤ 2 ^ 52) : (fin a).round = .fin (roundAway a : ℚ) := by
  change ofExact _ = _
  have hb : |roundAway a| ≤ 2 ^ 53 := by
    rw [abs_le] at h ⊢
    have h1 := roundAway_mono h.1
    have h2 := roundAway_mono h.2
    rw [show (-2 ^ 52 : ℚ) = ((-2 ^ 52 : Int) : ℚ) by norm_num, roundAway_int] at h1
    rw [show (2 ^ 52 : ℚ) = ((2 ^ 52 : Int) : ℚ) by norm_num, roundAway_int] at h2
    constructor <;> omega
  rw [ofExact_eq, roundQ_int hb]
  rw [← Int.cast_abs]
  have : ((|roundAway a| : Int) : ℚ) ≤ ((2 ^ 53 : Int) : ℚ) := by exact_mod_cast hb
  refine le_trans this ?_
  norm_num

theorem toU32_int (n : Int) : (fin (n : ℚ)).toU32 = min n.toNat (2 ^ 32 - 1) := by
  change min (Rat.floor (n : ℚ)).toNat (2 ^ 32 - 1) = _
  rw [floor_eq, Int.floor_intCast]

theorem round_toU32 {a : ℚ} (h : |a| ≤ 2 ^ 52) :
    (fin a).round.toU32 = min (roundAway a).toNat (2 ^ 32 - 1) := by
  rw [round_fin h, toU32_int]

/-- A coordinate at most `n` is turned into a pixel index at most `n`. -/
theorem round_toU32_le {a : ℚ} {n : Nat} (h : |a| ≤ 2 ^ 52) (hn : a ≤ n) :
    (fin a).round.toU32 ≤ n := by
  rw [round_toU32 h]
  have := roundAway_mono hn
  rw [roundAway_nat] at this
  omega

theorem roundQ_le_nat {q : ℚ} {n : Nat} (hn : n ≤ 2 ^ 53) (h : q ≤ n) : roundQ q ≤ n := by
  have := roundQ_mono h; rwa [roundQ_nat hn] at this

theorem nat_le_roundQ {q : ℚ} {n : Nat} (hn : n ≤ 2 ^ 53) (h : (n : ℚ) ≤ q) : (n : ℚ) ≤ roundQ q := by
  have := roundQ_mono h; rwa [roundQ_nat hn] at this

theorem max_zero_fin (a : ℚ) : (fin a).max (lit 0) = fin (max a 0) := by
  rw [lit_nat (by norm_num)]
  change (if F64.lt (fin a) (fin ((0 : Nat) : ℚ)) then fin ((0 : Nat) : ℚ) else fin a) = _
  rw [lt_fin]
  by_cases h : a < 0
  · have h' : decide (a < ((0 : Nat) : ℚ)) = true := by simpa using h
    rw [if_pos h', max_eq_right (le_of_lt h)]; simp
  · have h' : ¬ decide (a < ((0 : Nat) : ℚ)) = true := by simpa using h
    rw [if_neg h', max_eq_left (not_lt.mp h)]

/-! ### Square root -/

theorem isqrtFrom_spec (n : Nat) (k : Nat) : ∀ r : Nat, r * r ≤ n → n < (r + 2 ^ k) * (r + 2 ^ k) →
    isqrtFrom n k r * isqrtFrom n k r ≤ n ∧
    n < (isqrtFrom n k r + 1) * (isqrtFrom n k r + 1) := by
  induction k with
  | zero => intro r h1 h2; exact ⟨h1, by simpa [isqrtFrom] using h2⟩
  | succ k ih =>
    intro r h1 h2
    unfold isqrtFrom
    split
    · rename_i h
      apply ih _ h
      have : r + 2 ^ k + 2 ^ k = r + 2 ^ (k + 1) := by rw [Nat.pow_succ]; omega
      rwa [this]
    · rename_i h
      exact ih r h1 (by omega)

theorem isqrt_spec {n : Nat} (h : n < 2 ^ 106) : isqrt n * isqrt n ≤ n ∧ n < (isqrt n + 1) * (isqrt n + 1) := by
  apply isqrtFrom_spec n 53 0 (by simp)
  calc n < 2 ^ 106 := h
    _ = _ := by norm_num

/-- The computed root is within half a unit of the true root, without mentioning the true root. -/
theorem sqrtQ_spec {q : ℚ} (hq : 0 < q) :
    0 ≤ sqrtQ q ∧
    (sqrtQ q - pow2 (expo q / 2 - 53)) ^ 2 ≤ q ∧ q ≤ (sqrtQ q + pow2 (expo q / 2 - 53)) ^ 2 ∧
    pow2 (expo q / 2) ≤ sqrtQ q := by
  obtain ⟨e1, e2⟩ := expo_spec (ne_of_gt hq)
  rw [abs_of_pos hq] at e1 e2
  generalize hE : expo q = E at *
  have hu : 0 < pow2 (E / 2 - 52) := pow2_pos _
  have huu : pow2 (E / 2 - 52) * pow2 (E / 2 - 52) = pow2 (2 * (E / 2) - 104) := by
    rw [← pow2_add]; congr 1; ring
  generalize hs : q / (pow2 (E / 2 - 52) * pow2 (E / 2 - 52)) = s
  have hsq : q = s * (pow2 (E / 2 - 52) * pow2 (E / 2 - 52)) := by
    rw [← hs]; field_simp
  have hs2 : s < 2 ^ 106 := by
    rw [← hs, div_lt_iff₀ (by positivity), huu]
    refine lt_of_lt_of_le e2 ?_
    rw [show (2 ^ 106 : ℚ) = pow2 106 by rw [pow2_eq]; norm_num, ← pow2_add]
    apply pow2_le
    have := Int.emod_add_mul_ediv E 2
    have := Int.emod_lt_of_pos E (show (0 : Int) < 2 by norm_num)
    omega
  have hs1 : (2 : ℚ) ^ 104 ≤ s := by
    rw [← hs, le_div_iff₀ (by positivity), huu]
    refine le_trans ?_ e1
    rw [show (2 ^ 104 : ℚ) = pow2 104 by rw [pow2_eq]; norm_num, ← pow2_add]
    apply pow2_le
    have := Int.emod_add_mul_ediv E 2
    have := Int.emod_nonneg E (show (2 : Int) ≠ 0 by norm_num)
    omega
  have hfl1 : ((s.floor.toNat : Nat) : ℚ) ≤ s := by
    have h0 : (0 : Int) ≤ s.floor := by rw [floor_eq, Int.floor_nonneg]; positivity
    have h1 : ((s.floor.toNat : Nat) : ℚ) = ((s.floor : Int) : ℚ) := by
      exact_mod_cast congrArg (Int.cast (R := ℚ)) (Int.toNat_of_nonneg h0)
    rw [h1]; exact Int.floor_le s
  have hfl2 : s < ((s.floor.toNat : Nat) : ℚ) + 1 := by
    have h0 : (0 : Int) ≤ s.floor := by rw [floor_eq, Int.floor_nonneg]; positivity
    have h1 : ((s.floor.toNat : Nat) : ℚ) = ((s.floor : Int) : ℚ) := by
      exact_mod_cast congrArg (Int.cast (R := ℚ)) (Int.toNat_of_nonneg h0)
    rw [h1]; exact Int.lt_floor_add_one s
  have hlt : s.floor.toNat < 2 ^ 106 := by
    have : ((s.floor.toNat : Nat) : ℚ) < ((2 ^ 106 : Nat) : ℚ) := by
      push_cast; exact lt_of_le_of_lt hfl1 hs2
    exact_mod_cast this
  obtain ⟨r1, r2⟩ := isqrt_spec hlt
  generalize hn : isqrt s.floor.toNat = n at *
  have hn1 : (n : ℚ) * n ≤ s := by
    have : ((n * n : Nat) : ℚ) ≤ ((s.floor.toNat : Nat) : ℚ) := by exact_mod_cast r1
    push_cast at this; linarith
  have hn2 : s < ((n : ℚ) + 1) * (n + 1) := by
    have : ((s.floor.toNat + 1 : Nat) : ℚ) ≤ (((n + 1) * (n + 1) : Nat) : ℚ) := by
      exact_mod_cast r2
    push_cast at this; linarith
  have hn52 : (2 : ℚ) ^ 52 ≤ n := by
    have : 2 ^ 52 ≤ n := by
      by_contra hc
      have hc : n + 1 ≤ 2 ^ 52 := by omega
      have h1 := Nat.mul_le_mul hc hc
      have h2 : (((n + 1) * (n + 1) : Nat) : ℚ) ≤ ((2 ^ 52 * 2 ^ 52 : Nat) : ℚ) := by exact_mod_cast h1
      push_cast at h2
      linarith
    exact_mod_cast this
  -- the chosen multiple of the unit
  have hroot : sqrtQ q = ((if ((2 * n + 1) * (2 * n + 1) : Nat) < 4 * s then n + 1 else n : Nat) : ℚ)
      * pow2 (E / 2 - 52) := by
    unfold sqrtQ
    simp only [hE, hs, hn]
  have hhalf : pow2 (E / 2 - 53) = pow2 (E / 2 - 52) / 2 := by
    rw [show E / 2 - 52 = (E / 2 - 53) + 1 by ring, pow2_add, pow2_one]; ring
  have key : ∃ m : ℚ, sqrtQ q = m * pow2 (E / 2 - 52) ∧ (m - 1 / 2) ^ 2 ≤ s ∧ s ≤ (m + 1 / 2) ^ 2 ∧
      2 ^ 52 ≤ m := by
    by_cases hc : (((2 * n + 1) * (2 * n + 1) : Nat) : ℚ) < 4 * s
    · refine ⟨(n : ℚ) + 1, ?_, ?_, ?_, by linarith⟩
      · rw [hroot, if_pos hc]; push_cast; rfl
      · push_cast at hc; nlinarith
      · nlinarith
    · refine ⟨(n : ℚ), ?_, ?_, ?_, hn52⟩
      · rw [hroot, if_neg hc]
      · nlinarith
      · push_cast at hc; nlinarith
  obtain ⟨m, hm, h1, h2, h3⟩ := key
  rw [hm, hhalf, hsq]
  have e52 : pow2 (E / 2) = 2 ^ 52 * pow2 (E / 2 - 52) := by
    have h := pow2_add 52 (E / 2 - 52)
    rw [show 52 + (E / 2 - 52) = E / 2 by ring, show pow2 52 = 2 ^ 52 by rw [pow2_eq]; norm_num] at h
    exact h
  rw [e52]
  generalize pow2 (E / 2 - 52) = u at *
  refine ⟨by positivity, ?_, ?_, ?_⟩
  · have : (m * u - u / 2) ^ 2 = (m - 1 / 2) ^ 2 * (u * u) := by ring
    rw [this]; exact mul_le_mul_of_nonneg_right h1 (by positivity)
  · have : (m * u + u / 2) ^ 2 = (m + 1 / 2) ^ 2 * (u * u) := by ring
    rw [this]; exact mul_le_mul_of_nonneg_right h2 (by positivity)
  · exact mul_le_mul_of_nonneg_right h3 (le_of_lt hu)

end Verif.F64
