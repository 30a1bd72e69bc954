import Verif.Lemmas.Detect
import Verif.Spec.ClearGeometry

/-!
# Clear geometries are located
-/
namespace Verif
open F64 LineScan Spec

/-- A relative difference clearly below the limit. -/
theorem diff_not_gt {a b τ : ℚ} (ha : 0 ≤ a) (hb : 0 ≤ b) (ha' : a ≤ 2 ^ 60) (hb' : b ≤ 2 ^ 60)
    (h1 : 1 ≤ max a b) (h : |a - b| ≤ (τ - 3 * uQ) * max a b) :
    F64.gt (diff (.fin a) (.fin b)) (.fin τ) = false := by
  have key : ∀ a b : ℚ, 0 ≤ b → b ≤ a → a ≤ 2 ^ 60 → 1 ≤ a →
      a - b ≤ (τ - 3 * uQ) * a → F64.gt ((F64.fin a - .fin b) / .fin a) (.fin τ) = false := by
    intro a b hb hba ha' h1 h
    have hd : |a - b| ≤ a := by rw [abs_le]; constructor <;> linarith
    have hr := round_u h1 hd
    rw [sub_fin (by linarith)]
    have hu := uQ_pos
    have hu1 := uQ_small
    generalize roundQ (a - b) = d at *
    have hau : a * uQ ≤ a := by nlinarith
    have hq : |d / a| ≤ 2 := by
      rw [abs_div, abs_of_pos (show 0 < a by linarith), div_le_iff₀ (by linarith)]
      rw [abs_le] at *; constructor <;> linarith [hr.1, hr.2]
    rw [div_fin (by linarith) (by linarith), gt_fin, decide_eq_false_iff_not, not_lt]
    have hr2 := round_u (q := d / a) (B := 2) (by norm_num) hq
    have h2 : d / a ≤ τ - 2 * uQ := by
      rw [div_le_iff₀ (by linarith)]
      rw [abs_le] at hr
      linarith [hr.2]
    rw [abs_le] at hr2
    linarith [hr2.2]
  unfold diff
  rw [gt_fin]
  by_cases hab : b < a
  · simp only [hab, decide_true, if_true]
    rw [max_eq_left (le_of_lt hab)] at *
    rw [abs_of_pos (by linarith)] at h
    exact key a b hb (le_of_lt hab) ha' h1 h
  · simp only [hab, decide_false, Bool.false_eq_true, if_false]
    have hab := not_lt.mp hab
    rw [max_eq_right hab] at *
    rw [abs_sub_comm, abs_of_nonneg (by linarith)] at h
    exact key b a ha hab hb' h1 h

/-- The perpendicularity test is passed by a clear angle. -/
theorem perp_not_gt {c L K M : ℚ} (hM : 1 ≤ M) (hM' : M ≤ 2 ^ 40) (hL : 8 / 10 * M ≤ L) (hK : 8 / 10 * M ≤ K)
    (hc : |c| ≤ 3 * M ^ 2) (h1 : 952 / 1000 * (L * K) ≤ |c|) (h2 : |c| ≤ 101 / 100 * (L * K)) :
    F64.gt ((F64.fin (-c) / .fin L / .fin K).abs - F64.lit 1).abs (F64.lit 5 100) = false := by
  have hu := uQ_pos
  have hu1 := uQ_small
  have hL0 : 0 < L := by linarith
  have hK0 : 0 < K := by linarith
  have b1 : |(-c) / L| ≤ 4 * M := by
    rw [abs_div, abs_neg, abs_of_pos hL0, div_le_iff₀ hL0]; nlinarith
  have r1 := round_u (q := (-c) / L) (B := 4 * M) (by linarith) b1
  rw [div_fin (ne_of_gt hL0) (by linarith)]
  have e1 : |(-c) / L| = |c| / L := by rw [abs_div, abs_neg, abs_of_pos hL0]
  have l1 : 952 / 1000 * K ≤ |(-c) / L| := by
    rw [e1, le_div_iff₀ hL0]; linarith
  have l2 : |(-c) / L| ≤ 101 / 100 * K := by
    rw [e1, div_le_iff₀ hL0]; linarith
  have hMu : 4 * M * uQ ≤ K / 10 ^ 6 := by
    have : M * uQ ≤ M / 10 ^ 15 := by nlinarith
    linarith
  generalize roundQ (-c / L) = P1 at *
  generalize -c / L = P0 at *
  have g1 : |P0| ≤ |P1| + K / 10 ^ 6 := by
    have e : P0 = P1 - (P1 - P0) := by ring
    calc |P0| = |P1 - (P1 - P0)| := by rw [← e]
      _ ≤ _ := abs_sub _ _
      _ ≤ _ := by linarith
  have g2 : |P1| ≤ |P0| + K / 10 ^ 6 := by
    have e : P1 = P0 + (P1 - P0) := by ring
    calc |P1| = |P0 + (P1 - P0)| := by rw [← e]
      _ ≤ _ := abs_add_le _ _
      _ ≤ _ := by linarith
  have e2 : |P1 / K| = |P1| / K := by rw [abs_div, abs_of_pos hK0]
  have l3 : 951 / 1000 ≤ |P1 / K| := by rw [e2, le_div_iff₀ hK0]; linarith
  have l4 : |P1 / K| ≤ 102 / 100 := by rw [e2, div_le_iff₀ hK0]; linarith
  have r2 := round_u (q := P1 / K) (B := 2) (by norm_num) (by linarith)
  rw [div_fin (ne_of_gt hK0) (by linarith)]
  generalize roundQ (P1 / K) = P at *
  generalize P1 / K = P2 at *
  have g3 : |P2| ≤ |P| + 2 * uQ := by
    have e : P2 = P - (P - P2) := by ring
    calc |P2| = |P - (P - P2)| := by rw [← e]
      _ ≤ _ := abs_sub _ _
      _ ≤ _ := by linarith
  have g4 : |P| ≤ |P2| + 2 * uQ := by
    have e : P = P2 + (P - P2) := by ring
    calc |P| = |P2 + (P - P2)| := by rw [← e]
      _ ≤ _ := abs_add_le _ _
      _ ≤ _ := by linarith
  have b3 : |(|P| - 1)| ≤ 495 / 10000 := by
    rw [abs_le]; constructor <;> linarith
  obtain ⟨τ, hτ, hτ'⟩ := lit_05
  rw [abs_fin, lit_nat (by norm_num), Nat.cast_one, sub_fin (by linarith), abs_fin, hτ, gt_fin,
    decide_eq_false_iff_not, not_lt]
  have r3 := round_u (q := |P| - 1) (B := 1) (by norm_num) (by linarith)
  rw [abs_le] at *
  constructor <;> linarith [r3.1, r3.2, hτ'.1, hτ'.2, b3.1, b3.2]

/-- Two versions that fit the same distance are the same. -/
theorem version_unique {d2 m : ℚ} {v w : Nat} (hm : 0 < m) (hv : ClearlyFits d2 m v) (hw : FitsVersion d2 m w) :
    w = v := by
  obtain ⟨a, b⟩ := hv
  obtain ⟨c, d⟩ := hw
  have h0 : (0 : ℚ) ≤ v := Nat.cast_nonneg _
  have h0' : (0 : ℚ) ≤ w := Nat.cast_nonneg _
  have e1 : (4 * v + 10 - 19 / 10) * m < (4 * w + 10 + 21 / 10) * m :=
    lt_of_pow_lt_pow_left₀ 2 (by positivity) (lt_of_lt_of_le a d)
  have e2 : (4 * w + 10 - 21 / 10) * m < (4 * v + 10 + 19 / 10) * m :=
    lt_of_pow_lt_pow_left₀ 2 (by positivity) (lt_of_le_of_lt c b)
  have f1 := lt_of_mul_lt_mul_right e1 (le_of_lt hm)
  have f2 := lt_of_mul_lt_mul_right e2 (le_of_lt hm)
  have g1 : (v : ℚ) < w + 1 := by linarith
  have g2 : (w : ℚ) < v + 1 := by linarith
  have g1' : v < w + 1 := by exact_mod_cast g1
  have g2' : w < v + 1 := by exact_mod_cast g2
  omega

/-- Computed lengths of clearly similar legs. -/
theorem legs_conv {A B L K M : ℚ} (hM : 1 ≤ M) (hL0 : 0 ≤ L) (hK0 : 0 ≤ K)
    (hL : |L ^ 2 - A| ≤ 25 * (M ^ 2 * uQ)) (hK : |K ^ 2 - B| ≤ 25 * (M ^ 2 * uQ))
    (hAB : 73 * A ≤ 100 * B) (hBA : 73 * B ≤ 100 * A) (hA : 100 ≤ A) (hB : 100 ≤ B)
    (hM' : M ^ 2 ≤ A ∨ M ^ 2 ≤ B ∨ M = 1) :
    |L - K| ≤ 1499 / 10000 * max L K ∧ 2 ≤ max L K := by
  have hu := uQ_pos
  have hu1 := uQ_small
  have hMu : M ^ 2 * uQ ≤ M ^ 2 / 10 ^ 15 := by
    have := mul_le_mul_of_nonneg_left hu1 (show 0 ≤ M ^ 2 by positivity)
    linarith
  have hMA : M ^ 2 ≤ 2 * A := by
    rcases hM' with h | h | h
    · linarith
    · linarith
    · rw [h]; linarith
  have hMB : M ^ 2 ≤ 2 * B := by
    rcases hM' with h | h | h
    · linarith
    · linarith
    · rw [h]; linarith
  rw [abs_le] at hL hK
  have a1 : 9999 / 10000 * A ≤ L ^ 2 := by linarith [hL.1]
  have a2 : L ^ 2 ≤ 10001 / 10000 * A := by linarith [hL.2]
  have b1 : 9999 / 10000 * B ≤ K ^ 2 := by linarith [hK.1]
  have b2 : K ^ 2 ≤ 10001 / 10000 * B := by linarith [hK.2]
  have hL2 : 2 ≤ L := le_of_sq_le_sq (by linarith) hL0
  have k1 : 8501 / 10000 * L ≤ K := le_of_sq_le_sq (by rw [mul_pow]; linarith) hK0
  have k2 : 8501 / 10000 * K ≤ L := le_of_sq_le_sq (by rw [mul_pow]; linarith) hL0
  refine ⟨?_, le_trans hL2 (le_max_left _ _)⟩
  rcases le_total K L with h | h
  · rw [max_eq_left h, abs_of_nonneg (by linarith)]; linarith
  · rw [max_eq_right h, abs_sub_comm, abs_of_nonneg (by linarith)]; linarith

theorem abs_near {a b e : ℚ} (h : |a - b| ≤ e) : |a| ≤ |b| + e ∧ |b| ≤ |a| + e := by
  constructor
  · have e' : a = b + (a - b) := by ring
    calc |a| = |b + (a - b)| := by rw [← e']
      _ ≤ _ := abs_add_le _ _
      _ ≤ _ := by linarith
  · have e' : b = a - (a - b) := by ring
    calc |b| = |a - (a - b)| := by rw [← e']
      _ ≤ _ := abs_sub _ _
      _ ≤ _ := by linarith

/-- The computed cross product of a clear angle. -/
theorem cross_conv {A B C L K c : ℚ} (hLK : 0 < L * K) (hA : 0 ≤ A) (hB : 0 ≤ B)
    (l4 : |L ^ 2 - A| ≤ L ^ 2 / 10 ^ 13) (l5 : |K ^ 2 - B| ≤ K ^ 2 / 10 ^ 13) (hcC : |c - C| ≤ L * K / 10 ^ 8)
    (hperp : 91 * (A * B) ≤ 100 * C ^ 2) (hlag : C ^ 2 ≤ A * B) :
    952 / 1000 * (L * K) ≤ |c| ∧ |c| ≤ 101 / 100 * (L * K) := by
  have hAB : A * B ≤ 10001 / 10000 * (L * K) ^ 2 := near_prod hA hB l4 l5
  have hAB' : 9999 / 10000 * (L * K) ^ 2 ≤ A * B := by
    rw [abs_le] at l4 l5
    have g1 : 99999 / 100000 * L ^ 2 ≤ A := by
      have : 0 ≤ L ^ 2 := by positivity
      linarith [l4.2]
    have g2 : 99999 / 100000 * K ^ 2 ≤ B := by
      have : 0 ≤ K ^ 2 := by positivity
      linarith [l5.2]
    have := mul_le_mul g1 g2 (by positivity) hA
    have e : 99999 / 100000 * L ^ 2 * (99999 / 100000 * K ^ 2) = (99999 / 100000) ^ 2 * (L * K) ^ 2 := by ring
    rw [e] at this
    have h0 : 0 ≤ (L * K) ^ 2 := by positivity
    linarith
  have h0 : 0 ≤ (L * K) ^ 2 := by positivity
  have hC1 : 953 / 1000 * (L * K) ≤ |C| := by
    refine le_of_sq_le_sq ?_ (abs_nonneg _)
    rw [sq_abs, mul_pow]
    linarith
  have hC2 : |C| ≤ 1001 / 1000 * (L * K) := by
    refine le_of_sq_le_sq ?_ (by positivity)
    rw [sq_abs, mul_pow]
    linarith
  obtain ⟨g1, g2⟩ := abs_near hcC
  constructor <;> linarith

/-- A computed length is about the true one. -/
theorem len_bound {K B M W : ℚ} (hW : 0 ≤ W) (hM : M ^ 2 ≤ W ^ 2) (hB : B ≤ 2 * M ^ 2)
    (hK : |K ^ 2 - B| ≤ 25 * (M ^ 2 * uQ)) : K ≤ 3 / 2 * W := by
  have hu1 := uQ_small
  have hMu : M ^ 2 * uQ ≤ M ^ 2 / 10 ^ 15 := by
    have := mul_le_mul_of_nonneg_left hu1 (show 0 ≤ M ^ 2 by positivity)
    linarith
  apply le_of_sq (by positivity)
  rw [abs_le] at hK
  have : K ^ 2 ≤ 9 / 4 * M ^ 2 := by linarith [hK.2]
  refine le_trans this ?_
  rw [mul_pow]
  linarith

/-- `find_qr_internal` finds what is clear. -/
theorem findQrInternal_some {one two three : Pt} {m : ℚ} {v : Nat} (hv : 1 ≤ v) (hm : 1 ≤ m)
    (h2x : |two.1 - one.1| ≤ 2 ^ 31) (h2y : |two.2 - one.2| ≤ 2 ^ 31)
    (h3x : |three.1 - one.1| ≤ 2 ^ 31) (h3y : |three.2 - one.2| ≤ 2 ^ 31)
    (hperp : 91 * (dist2 one two * dist2 one three) ≤ 100 * cross one two three ^ 2)
    (hs1 : 73 * dist2 one two ≤ 100 * dist2 one three) (hs2 : 73 * dist2 one three ≤ 100 * dist2 one two)
    (hf2 : ClearlyFits (dist2 one two) m v) (hf3 : ClearlyFits (dist2 one three) m v) :
    findQrInternal ⟨.fin one.1, .fin one.2⟩ ⟨.fin two.1, .fin two.2⟩ ⟨.fin three.1, .fin three.2⟩ (.fin m)
      ≠ .ret none := by
  obtain ⟨x1, y1⟩ := one
  obtain ⟨x2, y2⟩ := two
  obtain ⟨x3, y3⟩ := three
  unfold dist2 at *
  unfold cross at hperp
  simp only at *
  obtain ⟨M, hM, ma, mb, mc, md, hMat, hMle⟩ := le_max4 (x2 - x1) (y2 - y1) (x3 - x1) (y3 - y1)
  have hM31 : M ≤ 2 ^ 31 := hMle _ (by norm_num) h2x h2y h3x h3y
  have hM40 : M ≤ 2 ^ 40 := by linarith
  have hMM : M ^ 2 ≤ (2 ^ 31) ^ 2 := pow_le_pow_left₀ (by linarith) hM31 2
  obtain ⟨L, eL, -, hL0, hL⟩ := len_fin hM hM40 ma mb
  obtain ⟨K, eK, eK', hK0, hK⟩ := len_fin hM hM40 mc md
  obtain ⟨c, ec, hc⟩ := cross_fin hM hM40 ma mb mc md
  have hv1 : (1 : ℚ) ≤ v := by exact_mod_cast hv
  have hbig : ∀ d2 : ℚ, ClearlyFits d2 m v → (121 / 10 * m) ^ 2 ≤ d2 := by
    intro d2 h
    refine le_trans (pow_le_pow_left₀ (by positivity) ?_ 2) (le_of_lt h.1)
    apply mul_le_mul_of_nonneg_right _ (by linarith)
    linarith
  have hA := hbig _ hf2
  have hB := hbig _ hf3
  clear hbig hf2 hf3 hMle
  have hm2 : 1 ≤ m ^ 2 := one_le_pow₀ hm
  rw [mul_pow] at hA hB
  have hsq : ∀ z : ℚ, |z| ≤ M → z ^ 2 ≤ M ^ 2 := by
    intro z hz
    exact sq_le_sq' (by rw [abs_le] at hz; linarith [hz.1]) (le_of_abs_le hz)
  have hAM : (x2 - x1) ^ 2 + (y2 - y1) ^ 2 ≤ 2 * M ^ 2 := by linarith [hsq _ ma, hsq _ mb]
  have hBM : (x3 - x1) ^ 2 + (y3 - y1) ^ 2 ≤ 2 * M ^ 2 := by linarith [hsq _ mc, hsq _ md]
  have hKb : K ≤ 3 / 2 * 2 ^ 31 := len_bound (by norm_num) hMM hBM hK
  have hLb : L ≤ 3 / 2 * 2 ^ 31 := len_bound (by norm_num) hMM hAM hL
  have hcb : |c| ≤ 3 * M ^ 2 := by
    have b1 : |(x2 - x1) * (y3 - y1)| ≤ M ^ 2 := by
      rw [abs_mul, pow_two]; exact mul_le_mul ma md (abs_nonneg _) (by linarith)
    have b2 : |(y2 - y1) * (x3 - x1)| ≤ M ^ 2 := by
      rw [abs_mul, pow_two]; exact mul_le_mul mb mc (abs_nonneg _) (by linarith)
    have hu := uQ_pos
    have hMu : M ^ 2 * uQ ≤ M ^ 2 / 10 ^ 15 := by
      have := mul_le_mul_of_nonneg_left uQ_small (show 0 ≤ M ^ 2 by positivity)
      linarith
    rw [abs_le] at *
    constructor <;> linarith [hc.1, hc.2, b1.1, b1.2, b2.1, b2.2]
  have hlag : ((x2 - x1) * (y3 - y1) - (y2 - y1) * (x3 - x1)) ^ 2 ≤
      ((x2 - x1) ^ 2 + (y2 - y1) ^ 2) * ((x3 - x1) ^ 2 + (y3 - y1) ^ 2) := by
    have := sq_nonneg ((x2 - x1) * (x3 - x1) + (y2 - y1) * (y3 - y1))
    linarith
  have hA0 : 0 ≤ (x2 - x1) ^ 2 + (y2 - y1) ^ 2 := by positivity
  have hB0 : 0 ≤ (x3 - x1) ^ 2 + (y3 - y1) ^ 2 := by positivity
  obtain ⟨n, hn, hnn⟩ := modules_spec hK0 (by linarith) hm
  unfold findQrInternal
  simp only [dist]
  rw [eL, eK, eK', ec, hn]
  clear eL eK eK' ec hn ma mb mc md h2x h2y h3x h3y hsq
  generalize (x2 - x1) * (y3 - y1) - (y2 - y1) * (x3 - x1) = C at *
  generalize (x2 - x1) ^ 2 + (y2 - y1) ^ 2 = A at *
  generalize (x3 - x1) ^ 2 + (y3 - y1) ^ 2 = B at *
  obtain ⟨hdiff, hmax⟩ := legs_conv hM hL0 hK0 hL hK hs1 hs2 (by linarith) (by linarith) hMat
  obtain ⟨-, l1, l2, l3, l4, l5⟩ := legs hM hL0 hK0 hL hK
    (le_trans hdiff (mul_le_mul_of_nonneg_right (by norm_num) (by linarith))) hMat hmax
  obtain ⟨τ, hτ, hτ'⟩ := lit_15
  have hu1 := uQ_small
  have t1 : F64.gt (diff (F64.fin L) (F64.fin K)) (F64.lit 15 100) = false := by
    rw [hτ]
    refine diff_not_gt hL0 hK0 (by linarith) (by linarith) (by linarith) (le_trans hdiff ?_)
    apply mul_le_mul_of_nonneg_right _ (by linarith)
    rw [abs_le] at hτ'
    linarith [hτ'.1]
  have hLp : 0 < L := by linarith
  have hKp : 0 < K := by linarith
  have hLK : 0 < L * K := mul_pos hLp hKp
  have hcC : |c - C| ≤ L * K / 10 ^ 8 := by
    refine le_trans hc ?_; linarith
  obtain ⟨c1, c2⟩ := cross_conv hLK hA0 hB0 l4 l5 hcC hperp hlag
  have t2 := perp_not_gt hM hM40 l1 l2 hcb c1 c2
  have hm0 : 0 < m := by linarith
  have hK12 : 1205 / 100 * m ≤ K := by
    refine le_of_sq_le_sq ?_ hK0
    rw [abs_le] at l5
    rw [mul_pow]
    have : 0 ≤ K ^ 2 := by positivity
    linarith [l5.1, l5.2]
  have hKm : 1205 / 100 ≤ K / m := by rw [le_div_iff₀ hm0]; exact hK12
  have hKm' : K / m ≤ K := by rw [div_le_iff₀ hm0]; nlinarith
  rw [abs_le] at hnn
  have hn4 : (4 : ℚ) < n := by linarith [hnn.2]
  have hn4 : 4 < n := by exact_mod_cast hn4
  have hn2 : (4 * (n : ℚ)) + 1 < 2 ^ 32 := by linarith [hnn.1]
  have hn2 : 4 * n + 1 < 2 ^ 32 := by exact_mod_cast hn2
  simp only [t1, t2, Bool.false_eq_true, if_false]
  have e1 : mulU32 4 n = .ret (4 * n) := by unfold mulU32; rw [if_pos (by omega)]
  rw [e1, Run.ret_bind, addU32_ret hn2, Run.ret_bind, if_neg (show ¬ 4 * n + 1 < 20 by omega)]
  have e2 : checkedSub (4 * n + 1) 17 = .ret (4 * n + 1 - 17) := by
    unfold checkedSub; rw [if_pos (by omega)]
  rw [e2, Run.ret_bind]
  split
  · intro h; cases h
  · intro h; cases h

end Verif
