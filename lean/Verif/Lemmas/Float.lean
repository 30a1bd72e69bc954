import Verif.Model.Float
import Mathlib.Data.Rat.Floor
import Mathlib.Algebra.Order.Field.Power
import Mathlib.Tactic.Linarith
import Mathlib.Tactic.Positivity
import Mathlib.Tactic.FieldSimp
import Mathlib.Tactic.Ring
import Mathlib.Tactic.NormNum

/-!
# Facts about the `f64` model: rounding is monotone, exact on representable numbers, and close.
-/
namespace Verif.F64

theorem pow2_eq (e : Int) : pow2 e = (2 : ℚ) ^ e := by
  cases e with
  | ofNat n => simp [pow2]
  | negSucc n =>
    rw [zpow_negSucc]
    simp [pow2, Rat.mkRat_eq_div]

theorem pow2_pos (e : Int) : 0 < pow2 e := by rw [pow2_eq]; positivity

theorem pow2_le {a b : Int} (h : a ≤ b) : pow2 a ≤ pow2 b := by
  rw [pow2_eq, pow2_eq]; exact zpow_le_zpow_right₀ (by norm_num) h

theorem pow2_lt {a b : Int} : pow2 a < pow2 b ↔ a < b := by
  rw [pow2_eq, pow2_eq]; exact zpow_lt_zpow_iff_right₀ (by norm_num)

theorem pow2_le_iff {a b : Int} : pow2 a ≤ pow2 b ↔ a ≤ b := by
  rw [pow2_eq, pow2_eq]; exact zpow_le_zpow_iff_right₀ (by norm_num)

theorem pow2_add (a b : Int) : pow2 (a + b) = pow2 a * pow2 b := by
  rw [pow2_eq, pow2_eq, pow2_eq]; exact zpow_add₀ (by norm_num) a b

theorem pow2_zero : pow2 0 = 1 := by rw [pow2_eq]; simp

theorem pow2_natCast (n : Nat) : pow2 (n : Int) = 2 ^ n := by rw [pow2_eq]; simp

theorem pow2_one : pow2 1 = 2 := by rw [pow2_eq]; norm_num

theorem pow2_52 : pow2 52 = 2 ^ 52 := by rw [pow2_eq]; norm_num

theorem pow2_53 : pow2 53 = 2 ^ 53 := by rw [pow2_eq]; norm_num

theorem rat_abs (q : ℚ) : q.abs = |q| := by
  unfold Rat.abs
  split
  · rename_i h; rw [abs_of_nonneg h]
  · rename_i h; rw [abs_of_neg (not_le.mp h)]

theorem expo_spec {q : ℚ} (hq : q ≠ 0) : pow2 (expo q) ≤ |q| ∧ |q| < pow2 (expo q + 1) := by
  have hn : q.num.natAbs ≠ 0 := by simpa using hq
  have hd : q.den ≠ 0 := q.den_nz
  have habs : |q| = (q.num.natAbs : ℚ) / (q.den : ℚ) := by
    conv_lhs => rw [← Rat.num_div_den q]
    rw [abs_div]
    congr 1
    · rw [← Int.cast_abs, Int.abs_eq_natAbs]; simp
    · simp
  have a1 := Nat.log2_self_le hn
  have a2 := Nat.lt_log2_self (n := q.num.natAbs)
  have b1 := Nat.log2_self_le hd
  have b2 := Nat.lt_log2_self (n := q.den)
  have a1' : (2 : ℚ) ^ q.num.natAbs.log2 ≤ (q.num.natAbs : ℚ) := by exact_mod_cast a1
  have a2' : (q.num.natAbs : ℚ) < (2 : ℚ) ^ (q.num.natAbs.log2 + 1) := by exact_mod_cast a2
  have b1' : (2 : ℚ) ^ q.den.log2 ≤ (q.den : ℚ) := by exact_mod_cast b1
  have b2' : (q.den : ℚ) < (2 : ℚ) ^ (q.den.log2 + 1) := by exact_mod_cast b2
  have hdpos : (0 : ℚ) < q.den := by exact_mod_cast Nat.pos_of_ne_zero hd
  have hup : |q| < pow2 ((q.num.natAbs.log2 : Int) - (q.den.log2 : Int) + 1) := by
    rw [habs, div_lt_iff₀ hdpos, pow2_eq]
    calc (q.num.natAbs : ℚ) < 2 ^ (q.num.natAbs.log2 + 1) := a2'
      _ = (2 : ℚ) ^ ((q.num.natAbs.log2 : Int) - (q.den.log2 : Int) + 1) * 2 ^ q.den.log2 := by
        rw [← zpow_natCast, ← zpow_natCast, ← zpow_add₀ (by norm_num)]
        congr 1; push_cast; ring
      _ ≤ _ := by gcongr
  have hlo : pow2 ((q.num.natAbs.log2 : Int) - (q.den.log2 : Int) - 1) ≤ |q| := by
    rw [habs, le_div_iff₀ hdpos, pow2_eq]
    calc (2 : ℚ) ^ ((q.num.natAbs.log2 : Int) - (q.den.log2 : Int) - 1) * q.den
        ≤ (2 : ℚ) ^ ((q.num.natAbs.log2 : Int) - (q.den.log2 : Int) - 1) * 2 ^ (q.den.log2 + 1) := by
          gcongr
      _ = 2 ^ q.num.natAbs.log2 := by
        rw [← zpow_natCast, ← zpow_natCast, ← zpow_add₀ (by norm_num)]
        congr 1; push_cast; ring
      _ ≤ _ := a1'
  unfold expo
  simp only [rat_abs]
  split
  · rename_i h; exact ⟨h, hup⟩
  · rename_i h
    refine ⟨hlo, ?_⟩
    rw [sub_add_cancel]; exact not_le.mp h

theorem expo_mono {a b : ℚ} (ha : a ≠ 0) (h : |a| ≤ |b|) : expo a ≤ expo b := by
  have hb : b ≠ 0 := by
    rintro rfl; exact ha (abs_eq_zero.mp (le_antisymm (by simpa using h) (abs_nonneg a)))
  have h1 := (expo_spec ha).1
  have h2 := (expo_spec hb).2
  have := pow2_lt.mp (lt_of_le_of_lt (le_trans h1 h) h2)
  omega

theorem le_expo {q : ℚ} {e : Int} (h : pow2 e ≤ |q|) : e ≤ expo q := by
  have hq : q ≠ 0 := by
    rintro rfl; have := pow2_pos e; simp at h; linarith
  have := pow2_lt.mp (lt_of_le_of_lt h (expo_spec hq).2)
  omega

theorem expo_lt {q : ℚ} {e : Int} (hq : q ≠ 0) (h : |q| < pow2 e) : expo q < e :=
  pow2_lt.mp (lt_of_le_of_lt (expo_spec hq).1 h)

theorem expo_neg (q : ℚ) : expo (-q) = expo q := by
  unfold expo
  simp only [rat_abs, abs_neg, Rat.neg_num, Int.natAbs_neg, Rat.neg_den]

theorem ulp_pos (q : ℚ) : 0 < ulp q := pow2_pos _

theorem ulp_neg (q : ℚ) : ulp (-q) = ulp q := by unfold ulp; rw [expo_neg]

/-! ### Nearest integer, ties to even -/

theorem floor_eq (q : ℚ) : q.floor = ⌊q⌋ := rfl

theorem nearestEven_spec (q : ℚ) : |(nearestEven q : ℚ) - q| ≤ 1 / 2 := by
  unfold nearestEven
  have h1 : ((q.floor : ℤ) : ℚ) ≤ q := Rat.floor_le q
  have h2 : q < (q.floor : ℚ) + 1 := by
    have := Rat.lt_floor_add_one q; push_cast at this; exact this
  simp only
  split
  · rename_i h; rw [abs_le]; constructor <;> linarith
  · split
    · rename_i h; push_cast; rw [abs_le]; constructor <;> linarith
    · split
      · rw [abs_le]; constructor <;> linarith
      · push_cast; rw [abs_le]; constructor <;> linarith

theorem nearestEven_int (n : Int) : nearestEven (n : ℚ) = n := by
  unfold nearestEven
  rw [floor_eq, Int.floor_intCast]
  norm_num

theorem nearestEven_mono {a b : ℚ} (h : a ≤ b) : nearestEven a ≤ nearestEven b := by
  by_contra hlt
  have hlt : nearestEven b + 1 ≤ nearestEven a := by omega
  have ha := abs_le.mp (nearestEven_spec a)
  have hb := abs_le.mp (nearestEven_spec b)
  have hc : (nearestEven b : ℚ) + 1 ≤ nearestEven a := by exact_mod_cast hlt
  have e1 : a = b := by linarith
  subst e1; omega

theorem nearestEven_neg (q : ℚ) : nearestEven (-q) = -nearestEven q := by
  by_cases hi : ∃ n : Int, q = n
  · obtain ⟨n, rfl⟩ := hi
    rw [nearestEven_int, ← Int.cast_neg, nearestEven_int]
  · have hf : ⌊-q⌋ = -⌊q⌋ - 1 := by
      rw [Int.floor_eq_iff]
      have h1 := Int.floor_le q
      have h2 := Int.lt_floor_add_one q
      have h3 : (⌊q⌋ : ℚ) ≠ q := fun h => hi ⟨⌊q⌋, h.symm⟩
      have h4 : (⌊q⌋ : ℚ) < q := lt_of_le_of_ne h1 h3
      push_cast
      constructor <;> linarith
    unfold nearestEven
    simp only [floor_eq, hf]
    push_cast
    have e : (-q - (-(⌊q⌋ : ℚ) - 1)) = 1 - (q - ⌊q⌋) := by ring
    rw [e]
    by_cases c1 : q - (⌊q⌋ : ℚ) < 1 / 2
    · have : ¬ (1 - (q - (⌊q⌋ : ℚ)) < 1 / 2) := by linarith
      have h2 : 1 / 2 < 1 - (q - (⌊q⌋ : ℚ)) := by linarith
      simp only [c1, this, h2, if_true, if_false]; ring
    · by_cases c2 : 1 / 2 < q - (⌊q⌋ : ℚ)
      · have : 1 - (q - (⌊q⌋ : ℚ)) < 1 / 2 := by linarith
        simp only [c1, c2, this, if_true, if_false]; ring
      · have h1 : ¬ (1 - (q - (⌊q⌋ : ℚ)) < 1 / 2) := by linarith
        have h2 : ¬ (1 / 2 < 1 - (q - (⌊q⌋ : ℚ))) := by linarith
        simp only [c1, c2, h1, h2, if_false]
        by_cases hev : ⌊q⌋ % 2 = 0
        · have ho : ¬ (-⌊q⌋ - 1) % 2 = 0 := by omega
          simp only [hev, ho, if_true, if_false]; ring
        · have ho : (-⌊q⌋ - 1) % 2 = 0 := by omega
          simp only [hev, ho, if_true, if_false]; ring

/-! ### Rounding to binary64 -/

theorem roundQ_zero : roundQ 0 = 0 := by simp [roundQ]

theorem roundQ_neg (q : ℚ) : roundQ (-q) = -roundQ q := by
  unfold roundQ
  by_cases h : q = 0
  · simp [h]
  · simp only [h, neg_eq_zero, if_false]
    rw [ulp_neg, neg_div, nearestEven_neg]; push_cast; ring

theorem roundQ_err_ulp (q : ℚ) : |roundQ q - q| ≤ ulp q / 2 := by
  unfold roundQ
  by_cases h : q = 0
  · simp only [h, if_true, sub_self, abs_zero]; have := ulp_pos 0; linarith
  · simp only [h, if_false]
    have hu := ulp_pos q
    have h1 := nearestEven_spec (q / ulp q)
    have e : (nearestEven (q / ulp q) : ℚ) * ulp q - q
        = ((nearestEven (q / ulp q) : ℚ) - q / ulp q) * ulp q := by
      field_simp
    rw [e, abs_mul, abs_of_pos hu]
    nlinarith

/-- Relative error of rounding, away from the subnormal numbers. -/
theorem roundQ_err_rel {q : ℚ} (h : pow2 (-1022) ≤ |q|) : |roundQ q - q| ≤ |q| * pow2 (-53) := by
  refine le_trans (roundQ_err_ulp q) ?_
  have hq : q ≠ 0 := by
    rintro rfl; have := pow2_pos (-1022); simp at h; linarith
  have h1 := le_expo h
  unfold ulp
  rw [max_eq_left h1]
  have h2 := (expo_spec hq).1
  have e : pow2 (expo q - 52) = pow2 (expo q) * pow2 (-53) * 2 := by
    rw [show expo q - 52 = expo q + (-53) + 1 by ring, pow2_add, pow2_add, pow2_one]
  rw [e]
  have := pow2_pos (-53)
  nlinarith

/-- Error of rounding in terms of any bound on the number. -/
theorem roundQ_err {q B : ℚ} (hB : pow2 (-1022) ≤ B) (h : |q| ≤ B) :
    |roundQ q - q| ≤ B * pow2 (-53) := by
  by_cases h1 : pow2 (-1022) ≤ |q|
  · refine le_trans (roundQ_err_rel h1) ?_
    have := pow2_pos (-53)
    nlinarith
  · by_cases hq : q = 0
    · subst hq; rw [roundQ_zero]; simp only [sub_self, abs_zero]
      exact mul_nonneg (le_trans (le_of_lt (pow2_pos (-1022))) hB) (le_of_lt (pow2_pos (-53)))
    · refine le_trans (roundQ_err_ulp q) ?_
      have h2 := expo_lt hq (not_le.mp h1)
      unfold ulp
      rw [max_eq_right (by omega)]
      have e : pow2 (-1022 - 52) = pow2 (-1022) * pow2 (-53) * 2 := by
        rw [show (-1022 - 52 : Int) = -1022 + (-53) + 1 by ring, pow2_add, pow2_add, pow2_one]
      rw [e]
      have := pow2_pos (-53)
      nlinarith

theorem roundQ_nonneg {q : ℚ} (h : 0 ≤ q) : 0 ≤ roundQ q := by
  unfold roundQ
  split
  · exact le_refl _
  · have hu := ulp_pos q
    have : (0 : Int) ≤ nearestEven (q / ulp q) := by
      have := nearestEven_mono (a := ((0 : Int) : ℚ)) (b := q / ulp q) (by push_cast; positivity)
      rwa [nearestEven_int] at this
    have : (0 : ℚ) ≤ (nearestEven (q / ulp q) : ℚ) := by exact_mod_cast this
    positivity

theorem roundQ_le_binade {q : ℚ} (hq : 0 < q) :
    roundQ q ≤ pow2 (max (expo q) (-1022) + 1) := by
  have hu := ulp_pos q
  have h1 : q / ulp q ≤ ((2 ^ 53 : Int) : ℚ) := by
    rw [div_le_iff₀ hu]
    have h2 := (expo_spec (ne_of_gt hq)).2
    rw [abs_of_pos hq] at h2
    refine le_trans (le_of_lt h2) ?_
    refine le_trans (pow2_le (show expo q + 1 ≤ max (expo q) (-1022) + 1 by omega)) ?_
    unfold ulp
    rw [show max (expo q) (-1022) + 1 = 53 + (max (expo q) (-1022) - 52) by ring, pow2_add]
    apply mul_le_mul_of_nonneg_right _ (le_of_lt (pow2_pos _))
    rw [pow2_53]; norm_num
  have h2 := nearestEven_mono h1
  rw [nearestEven_int] at h2
  unfold roundQ
  rw [if_neg (ne_of_gt hq)]
  have h3 : ((nearestEven (q / ulp q) : Int) : ℚ) ≤ ((2 ^ 53 : Int) : ℚ) := by exact_mod_cast h2
  calc _ ≤ ((2 ^ 53 : Int) : ℚ) * ulp q := mul_le_mul_of_nonneg_right h3 (le_of_lt hu)
    _ = _ := by
      unfold ulp
      rw [show max (expo q) (-1022) + 1 = 53 + (max (expo q) (-1022) - 52) by ring, pow2_add, pow2_53]
      norm_num

theorem binade_le_roundQ {q : ℚ} (hq : 0 < q) (h : -1022 ≤ expo q) :
    pow2 (expo q) ≤ roundQ q := by
  have hu := ulp_pos q
  have eu : ulp q = pow2 (expo q - 52) := by unfold ulp; rw [max_eq_left h]
  have e2 : pow2 (expo q) = ((2 ^ 52 : Int) : ℚ) * ulp q := by
    rw [eu, show expo q = 52 + (expo q - 52) by ring, pow2_add]
    rw [show 52 + (expo q - 52) - 52 = expo q - 52 by ring, pow2_52]
    norm_num
  have h1 : ((2 ^ 52 : Int) : ℚ) ≤ q / ulp q := by
    rw [le_div_iff₀ hu, ← e2]
    have h2 := (expo_spec (ne_of_gt hq)).1
    rwa [abs_of_pos hq] at h2
  have h2 := nearestEven_mono h1
  rw [nearestEven_int] at h2
  unfold roundQ
  rw [if_neg (ne_of_gt hq), e2]
  have h3 : ((2 ^ 52 : Int) : ℚ) ≤ ((nearestEven (q / ulp q) : Int) : ℚ) := by exact_mod_cast h2
  exact mul_le_mul_of_nonneg_right h3 (le_of_lt hu)

theorem roundQ_mono_pos {a b : ℚ} (ha : 0 < a) (h : a ≤ b) : roundQ a ≤ roundQ b := by
  have hb : 0 < b := lt_of_lt_of_le ha h
  have he : expo a ≤ expo b := expo_mono (ne_of_gt ha) (by rwa [abs_of_pos ha, abs_of_pos hb])
  by_cases hE : max (expo a) (-1022) = max (expo b) (-1022)
  · have hu : ulp a = ulp b := by unfold ulp; rw [hE]
    unfold roundQ
    rw [if_neg (ne_of_gt ha), if_neg (ne_of_gt hb), hu]
    have hp := ulp_pos b
    have := nearestEven_mono (a := a / ulp b) (b := b / ulp b) (by gcongr)
    have : (nearestEven (a / ulp b) : ℚ) ≤ nearestEven (b / ulp b) := by exact_mod_cast this
    exact mul_le_mul_of_nonneg_right this (le_of_lt hp)
  · refine le_trans (roundQ_le_binade ha) (le_trans (pow2_le ?_) (binade_le_roundQ hb ?_)) <;> omega

theorem roundQ_nonpos {q : ℚ} (h : q ≤ 0) : roundQ q ≤ 0 := by
  have := roundQ_nonneg (q := -q) (by linarith)
  rw [roundQ_neg] at this; linarith

/-- Rounding is monotone. -/
theorem roundQ_mono {a b : ℚ} (h : a ≤ b) : roundQ a ≤ roundQ b := by
  rcases lt_trichotomy a 0 with ha | ha | ha
  · rcases lt_or_ge b 0 with hb | hb
    · have := roundQ_mono_pos (a := -b) (b := -a) (by linarith) (by linarith)
      rw [roundQ_neg, roundQ_neg] at this; linarith
    · exact le_trans (roundQ_nonpos (le_of_lt ha)) (roundQ_nonneg hb)
  · subst ha; rw [roundQ_zero]; exact roundQ_nonneg h
  · exact roundQ_mono_pos ha h

/-- The numbers binary64 represents (with the exponent unbounded above). -/
def Representable (q : ℚ) : Prop := ∃ (m : Int) (k : Int), q = m * pow2 k ∧ |m| ≤ 2 ^ 53 ∧ -1074 ≤ k

theorem roundQ_of_repr {q : ℚ} (h : Representable q) : roundQ q = q := by
  obtain ⟨m, k, rfl, hm, hk⟩ := h
  by_cases h0 : (m : ℚ) * pow2 k = 0
  · rw [h0, roundQ_zero]
  have hm0 : m ≠ 0 := by rintro rfl; simp at h0
  -- it suffices that `q` is an integer multiple of its ulp
  suffices hs : ∃ n : Int, (m : ℚ) * pow2 k = n * ulp (m * pow2 k) by
    obtain ⟨n, hn⟩ := hs
    unfold roundQ
    rw [if_neg h0]
    have hu := ulp_pos ((m : ℚ) * pow2 k)
    have : (m : ℚ) * pow2 k / ulp (m * pow2 k) = n := by
      rw [div_eq_iff (ne_of_gt hu)]; exact hn
    rw [this, nearestEven_int]; exact hn.symm
  have hspec := (expo_spec h0).1
  have habs : |(m : ℚ) * pow2 k| = (|m| : Int) * pow2 k := by
    rw [abs_mul, abs_of_pos (pow2_pos k), Int.cast_abs]
  by_cases hlt : |m| < 2 ^ 53
  · have h2 : |(m : ℚ) * pow2 k| < pow2 (53 + k) := by
      rw [habs, pow2_add]
      apply mul_lt_mul_of_pos_right _ (pow2_pos k)
      have : ((|m| : Int) : ℚ) < ((2 ^ 53 : Int) : ℚ) := by exact_mod_cast hlt
      refine lt_of_lt_of_le this ?_
      rw [pow2_53]; norm_num
    have he := expo_lt h0 h2
    have hge : max (expo ((m : ℚ) * pow2 k)) (-1022) - 52 ≤ k := by omega
    refine ⟨m * 2 ^ (k - (max (expo ((m : ℚ) * pow2 k)) (-1022) - 52)).toNat, ?_⟩
    unfold ulp
    generalize max (expo ((m : ℚ) * pow2 k)) (-1022) - 52 = E at hge
    push_cast
    rw [mul_assoc]
    congr 1
    rw [← pow2_natCast, ← pow2_add, Int.toNat_of_nonneg (by omega)]
    congr 1; ring
  · have hm2 : |m| = 2 ^ 53 := by omega
    have h2 : |(m : ℚ) * pow2 k| = pow2 (53 + k) := by
      rw [habs, hm2, pow2_add, pow2_53]
      norm_num
    have he : expo ((m : ℚ) * pow2 k) = 53 + k := by
      have h3 := le_expo (le_of_eq h2.symm)
      have h4 : expo ((m : ℚ) * pow2 k) < 53 + k + 1 := expo_lt h0 (by rw [h2]; exact pow2_lt.mpr (by omega))
      omega
    have hE : max (expo ((m : ℚ) * pow2 k)) (-1022) - 52 = k + 1 := by omega
    unfold ulp
    rw [hE]
    rcases abs_choice m with hc | hc
    · refine ⟨2 ^ 52, ?_⟩
      have : m = 2 ^ 53 := by omega
      rw [this, pow2_add]; push_cast
      rw [pow2_one]; ring
    · refine ⟨-2 ^ 52, ?_⟩
      have : m = -2 ^ 53 := by omega
      rw [this, pow2_add]; push_cast
      rw [pow2_one]; ring

theorem representable_int {n : Int} (h : |n| ≤ 2 ^ 53) : Representable (n : ℚ) :=
  ⟨n, 0, by rw [pow2_zero, mul_one], h, by norm_num⟩

theorem roundQ_int {n : Int} (h : |n| ≤ 2 ^ 53) : roundQ (n : ℚ) = n :=
  roundQ_of_repr (representable_int h)

theorem roundQ_nat {n : Nat} (h : n ≤ 2 ^ 53) : roundQ (n : ℚ) = n := by
  have := roundQ_int (n := (n : Int)) (by rw [abs_of_nonneg (by omega)]; exact_mod_cast h)
  simpa using this

/-- The result of rounding is representable. -/
theorem representable_roundQ (q : ℚ) : Representable (roundQ q) := by
  by_cases h : q = 0
  · subst h; rw [roundQ_zero]; exact ⟨0, 0, by simp, by norm_num, by norm_num⟩
  refine ⟨nearestEven (q / ulp q), max (expo q) (-1022) - 52, ?_, ?_, by omega⟩
  · unfold roundQ; rw [if_neg h]; rfl
  · have hu := ulp_pos q
    have h1 : |q / ulp q| ≤ ((2 ^ 53 : Int) : ℚ) := by
      rw [abs_div, abs_of_pos hu, div_le_iff₀ hu]
      refine le_trans (le_of_lt (expo_spec h).2) ?_
      refine le_trans (pow2_le (show expo q + 1 ≤ max (expo q) (-1022) + 1 by omega)) ?_
      unfold ulp
      rw [show max (expo q) (-1022) + 1 = 53 + (max (expo q) (-1022) - 52) by ring, pow2_add]
      apply mul_le_mul_of_nonneg_right _ (le_of_lt (pow2_pos _))
      rw [pow2_53]; norm_num
    rw [abs_le] at h1 ⊢
    have h2 := nearestEven_mono h1.2
    have h3 := nearestEven_mono h1.1
    rw [nearestEven_int] at h2
    rw [← Int.cast_neg, nearestEven_int] at h3
    exact ⟨h3, h2⟩

theorem roundQ_roundQ (q : ℚ) : roundQ (roundQ q) = roundQ q := roundQ_of_repr (representable_roundQ q)

/-- Anything at most a representable number rounds to at most that number. -/
theorem roundQ_le {q r : ℚ} (hr : Representable r) (h : q ≤ r) : roundQ q ≤ r := by
  have := roundQ_mono h; rwa [roundQ_of_repr hr] at this

theorem le_roundQ {q r : ℚ} (hr : Representable r) (h : r ≤ q) : r ≤ roundQ q := by
  have := roundQ_mono h; rwa [roundQ_of_repr hr] at this

theorem representable_pow2 {k : Int} (h : -1074 ≤ k) : Representable (pow2 k) :=
  ⟨1, k, by simp, by norm_num, h⟩

theorem Representable.neg {q : ℚ} (h : Representable q) : Representable (-q) := by
  obtain ⟨m, k, rfl, hm, hk⟩ := h
  exact ⟨-m, k, by push_cast; ring, by rwa [abs_neg], hk⟩

theorem ofExact_fin {q : ℚ} (h : |q| ≤ pow2 1023) : ofExact q = .fin (roundQ q) := by
  rw [abs_le] at h
  have h1 := roundQ_le (representable_pow2 (by norm_num)) h.2
  have h2 := le_roundQ (representable_pow2 (k := 1023) (by norm_num)).neg h.1
  have h3 : pow2 1023 < pow2 1024 := pow2_lt.mpr (by norm_num)
  unfold ofExact
  simp only
  rw [if_neg (by linarith), if_neg (by linarith)]

theorem ofNat_fin {n : Nat} (h : n ≤ 2 ^ 53) : ofNat n = .fin n := by
  unfold ofNat
  rw [ofExact_fin, roundQ_nat h]
  rw [abs_of_nonneg (by positivity)]
  have : (n : ℚ) ≤ pow2 53 := by
    rw [show (53 : Int) = ((53 : Nat) : Int) from rfl, pow2_natCast]; exact_mod_cast h
  exact le_trans this (pow2_le (by norm_num))

end Verif.F64
