import Verif.Lemmas.Scan
import Mathlib.Tactic.Positivity

/-!
# Lengths, cross products and angles in floating point

`u` is the unit roundoff `2^-53`, `M` a bound on the coordinate differences.
-/
namespace Verif
open F64

/-- Unit roundoff. -/
def uQ : ℚ := 1 / 2 ^ 53

theorem uQ_pos : 0 < uQ := by unfold uQ; norm_num
theorem uQ_small : uQ ≤ 1 / 10 ^ 15 := by unfold uQ; norm_num

theorem round_u {q B : ℚ} (hB : 1 ≤ B) (h : |q| ≤ B) : |roundQ q - q| ≤ B * uQ := by
  have := round_near hB h
  unfold uQ
  refine le_trans this (le_of_eq ?_); ring

theorem sqrt_rel {q : ℚ} (hq : 0 < q) :
    0 < sqrtQ q ∧ sqrtQ q ^ 2 * (1 - uQ) ^ 2 ≤ q ∧ q ≤ sqrtQ q ^ 2 * (1 + uQ) ^ 2 := by
  obtain ⟨h0, h1, h2, h3⟩ := sqrtQ_spec hq
  have hp : 0 < pow2 (expo q / 2) := pow2_pos _
  have he : pow2 (expo q / 2 - 53) = pow2 (expo q / 2) * uQ := by
    rw [sub_eq_add_neg, pow2_add]
    congr 1
    rw [pow2_eq]; unfold uQ; norm_num
  rw [he] at h1 h2
  generalize sqrtQ q = s at *
  generalize pow2 (expo q / 2) = w at *
  have hu := uQ_pos
  have hu1 := uQ_small
  generalize uQ = u at *
  have hs : 0 < s := lt_of_lt_of_le hp h3
  refine ⟨hs, ?_, ?_⟩
  · refine le_trans ?_ h1
    rw [← mul_pow]
    apply pow_le_pow_left₀
    · exact mul_nonneg h0 (by linarith)
    · nlinarith
  · refine le_trans h2 ?_
    rw [← mul_pow]
    apply pow_le_pow_left₀
    · nlinarith
    · nlinarith

theorem prod_near {a b p q M u : ℚ} (hM : 0 ≤ M) (hu : 0 ≤ u) (hu1 : u ≤ 1 / 8) (ha : |a - p| ≤ M * u)
    (hb : |b - q| ≤ M * u) (hp : |p| ≤ M) (hq : |q| ≤ M) :
    |a * b - p * q| ≤ 3 * (M ^ 2 * u) ∧ |a * b| ≤ 2 * M ^ 2 := by
  have hMu : M * u ≤ M / 8 := by nlinarith
  have h1 : |a| ≤ 9 / 8 * M := by
    have : a = (a - p) + p := by ring
    rw [this]
    refine le_trans (abs_add_le _ _) ?_
    linarith
  have h2 : |b| ≤ 9 / 8 * M := by
    have : b = (b - q) + q := by ring
    rw [this]
    refine le_trans (abs_add_le _ _) ?_
    linarith
  constructor
  · have : a * b - p * q = a * (b - q) + q * (a - p) := by ring
    rw [this]
    refine le_trans (abs_add_le _ _) ?_
    rw [abs_mul, abs_mul]
    have g1 := mul_le_mul h1 hb (abs_nonneg _) (by linarith)
    have g2 := mul_le_mul hq ha (abs_nonneg _) hM
    have : 0 ≤ M ^ 2 * u := by positivity
    nlinarith
  · rw [abs_mul]
    have g1 := mul_le_mul h1 h2 (abs_nonneg _) (by linarith)
    nlinarith

/-- Product of two rounded differences. -/
theorem prod_round {a b p q M : ℚ} (hM : 1 ≤ M) (ha : |a - p| ≤ M * uQ) (hb : |b - q| ≤ M * uQ) (hp : |p| ≤ M)
    (hq : |q| ≤ M) : |roundQ (a * b) - p * q| ≤ 5 * (M ^ 2 * uQ) ∧ |a * b| ≤ 2 * M ^ 2 := by
  have hu := uQ_pos
  have hu1 := uQ_small
  obtain ⟨h1, h2⟩ := prod_near (by linarith) (le_of_lt hu) (by linarith) ha hb hp hq
  refine ⟨?_, h2⟩
  have h3 := round_u (q := a * b) (B := 2 * M ^ 2) (by nlinarith) h2
  have : roundQ (a * b) - p * q = (roundQ (a * b) - a * b) + (a * b - p * q) := by ring
  rw [this]
  refine le_trans (abs_add_le _ _) ?_
  linarith

/-- Sum or difference of two such products (`σ = 1` or `-1`). -/
theorem comb_round {a b c d p q r s M : ℚ} (hM : 1 ≤ M) (ha : |a - p| ≤ M * uQ) (hb : |b - q| ≤ M * uQ)
    (hc : |c - r| ≤ M * uQ) (hd : |d - s| ≤ M * uQ)
    (hp : |p| ≤ M) (hq : |q| ≤ M) (hr : |r| ≤ M) (hs : |s| ≤ M) :
    (|roundQ (roundQ (a * b) + roundQ (c * d)) - (p * q + r * s)| ≤ 13 * (M ^ 2 * uQ) ∧
      |roundQ (a * b) + roundQ (c * d)| ≤ 3 * M ^ 2) ∧
    (|roundQ (roundQ (a * b) - roundQ (c * d)) - (p * q - r * s)| ≤ 13 * (M ^ 2 * uQ) ∧
      |roundQ (a * b) - roundQ (c * d)| ≤ 3 * M ^ 2) := by
  obtain ⟨h1, h1'⟩ := prod_round hM ha hb hp hq
  obtain ⟨h2, h2'⟩ := prod_round hM hc hd hr hs
  have hu := uQ_pos
  have hu1 := uQ_small
  have hMM : 0 ≤ M ^ 2 := by positivity
  have hpq : |p * q| ≤ M ^ 2 := by
    rw [abs_mul, pow_two]; exact mul_le_mul hp hq (abs_nonneg _) (by linarith)
  have hrs : |r * s| ≤ M ^ 2 := by
    rw [abs_mul, pow_two]; exact mul_le_mul hr hs (abs_nonneg _) (by linarith)
  have hMu : M ^ 2 * uQ ≤ M ^ 2 / 20 := by
    have : uQ ≤ 1 / 20 := by linarith
    nlinarith
  generalize roundQ (a * b) = A at *
  generalize roundQ (c * d) = B at *
  have b1 : |A + B| ≤ 3 * M ^ 2 := by
    rw [abs_le] at *; constructor <;> linarith [h1.1, h1.2, h2.1, h2.2, hpq.1, hpq.2, hrs.1, hrs.2]
  have b2 : |A - B| ≤ 3 * M ^ 2 := by
    rw [abs_le] at *; constructor <;> linarith [h1.1, h1.2, h2.1, h2.2, hpq.1, hpq.2, hrs.1, hrs.2]
  have r1 := round_u (q := A + B) (B := 3 * M ^ 2) (by nlinarith) b1
  have r2 := round_u (q := A - B) (B := 3 * M ^ 2) (by nlinarith) b2
  refine ⟨⟨?_, b1⟩, ⟨?_, b2⟩⟩
  · rw [abs_le] at *; constructor <;> linarith [h1.1, h1.2, h2.1, h2.2, r1.1, r1.2]
  · rw [abs_le] at *; constructor <;> linarith [h1.1, h1.2, h2.1, h2.2, r2.1, r2.2]

theorem sqrt_near {a A M : ℚ} (hM : 1 ≤ M) (ha0 : 0 ≤ a) (ha : |a - A| ≤ 13 * (M ^ 2 * uQ)) (hA : A ≤ 2 * M ^ 2) :
    ∃ L : ℚ, (F64.fin a).sqrt = .fin L ∧ 0 ≤ L ∧ |L ^ 2 - A| ≤ 25 * (M ^ 2 * uQ) := by
  have hu := uQ_pos
  have hu1 := uQ_small
  have hMM : 1 ≤ M ^ 2 := by nlinarith
  rcases eq_or_lt_of_le ha0 with h0 | h0
  · subst h0
    refine ⟨0, ?_, le_refl _, ?_⟩
    · change (if (0 : ℚ) < 0 then F64.nan else if (0 : ℚ) = 0 then F64.fin 0 else F64.fin (sqrtQ 0)) = _
      simp
    · have : (0 : ℚ) ^ 2 - A = 0 - A := by ring
      rw [this]
      have : 0 ≤ M ^ 2 * uQ := by positivity
      linarith
  · refine ⟨sqrtQ a, ?_, ?_⟩
    · change (if a < 0 then F64.nan else if a = 0 then F64.fin 0 else F64.fin (sqrtQ a)) = _
      rw [if_neg (by linarith), if_neg (ne_of_gt h0)]
    · obtain ⟨s0, s1, s2⟩ := sqrt_rel h0
      refine ⟨le_of_lt s0, ?_⟩
      generalize sqrtQ a = L at *
      have hMu : M ^ 2 * uQ ≤ M ^ 2 / 1000 := by
        have : uQ ≤ 1 / 1000 := by linarith
        nlinarith
      have hL : L ^ 2 ≤ 3 * M ^ 2 := by
        have h1 : L ^ 2 * (1 - uQ) ^ 2 ≥ L ^ 2 * (9 / 10) := by
          apply mul_le_mul_of_nonneg_left _ (by positivity)
          nlinarith
        rw [abs_le] at ha
        linarith [ha.1, ha.2]
      have k1 : L ^ 2 * uQ ≤ 3 * (M ^ 2 * uQ) := by nlinarith
      have k2 : 0 ≤ L ^ 2 * uQ := by positivity
      have k3 : L ^ 2 * uQ ^ 2 ≤ M ^ 2 * uQ := by
        have : L ^ 2 * uQ ^ 2 = (L ^ 2 * uQ) * uQ := by ring
        rw [this]
        have : uQ ≤ 1 / 3 := by linarith
        nlinarith
      have k4 : 0 ≤ L ^ 2 * uQ ^ 2 := by positivity
      have e1 : L ^ 2 * (1 - uQ) ^ 2 = L ^ 2 - 2 * (L ^ 2 * uQ) + L ^ 2 * uQ ^ 2 := by ring
      have e2 : L ^ 2 * (1 + uQ) ^ 2 = L ^ 2 + 2 * (L ^ 2 * uQ) + L ^ 2 * uQ ^ 2 := by ring
      rw [e1] at s1
      rw [e2] at s2
      rw [abs_le] at *
      constructor <;> linarith [ha.1, ha.2]

/-- The length of a difference vector. -/
theorem len_fin {x1 y1 x2 y2 M : ℚ} (hM : 1 ≤ M) (hM' : M ≤ 2 ^ 40) (hx : |x2 - x1| ≤ M) (hy : |y2 - y1| ≤ M) :
    ∃ L : ℚ, (((F64.fin x2 - .fin x1) * (F64.fin x2 - .fin x1)) +
        ((F64.fin y2 - .fin y1) * (F64.fin y2 - .fin y1))).sqrt = .fin L ∧
      (((F64.fin x1 - .fin x2) * (F64.fin x1 - .fin x2)) +
        ((F64.fin y1 - .fin y2) * (F64.fin y1 - .fin y2))).sqrt = .fin L ∧
      0 ≤ L ∧ |L ^ 2 - ((x2 - x1) ^ 2 + (y2 - y1) ^ 2)| ≤ 25 * (M ^ 2 * uQ) := by
  have rx := round_u hM hx
  have ry := round_u hM hy
  obtain ⟨⟨c1, c2⟩, -⟩ := comb_round hM rx rx ry ry hx hx hy hy
  have hMM : M ^ 2 ≤ 2 ^ 80 := by nlinarith
  have p1 := (prod_round hM rx rx hx hx).2
  have p2 := (prod_round hM ry ry hy hy).2
  have hA : (x2 - x1) * (x2 - x1) + (y2 - y1) * (y2 - y1) ≤ 2 * M ^ 2 := by
    rw [← pow_two, ← pow_two]
    have h1 : (x2 - x1) ^ 2 ≤ M ^ 2 := sq_le_sq' (by rw [abs_le] at hx; linarith [hx.1]) (le_of_abs_le hx)
    have h2 : (y2 - y1) ^ 2 ≤ M ^ 2 := sq_le_sq' (by rw [abs_le] at hy; linarith [hy.1]) (le_of_abs_le hy)
    linarith
  obtain ⟨L, l1, l2, l3⟩ := sqrt_near hM (by
    apply roundQ_nonneg
    apply add_nonneg <;> apply roundQ_nonneg <;> exact mul_self_nonneg _) c1 hA
  have e1 : (F64.fin x2 - .fin x1) = .fin (roundQ (x2 - x1)) := sub_fin (by linarith)
  have e2 : (F64.fin y2 - .fin y1) = .fin (roundQ (y2 - y1)) := sub_fin (by linarith)
  have e1' : (F64.fin x1 - .fin x2) = .fin (-roundQ (x2 - x1)) := by
    rw [sub_fin (by rw [abs_sub_comm]; linarith), ← roundQ_neg]; congr 2; ring
  have e2' : (F64.fin y1 - .fin y2) = .fin (-roundQ (y2 - y1)) := by
    rw [sub_fin (by rw [abs_sub_comm]; linarith), ← roundQ_neg]; congr 2; ring
  refine ⟨L, ?_, ?_, l2, ?_⟩
  · rw [e1, e2, mul_fin (by linarith), mul_fin (by linarith), add_fin (by linarith), l1]
  · rw [e1', e2', mul_fin (by rw [neg_mul_neg]; linarith), mul_fin (by rw [neg_mul_neg]; linarith),
      neg_mul_neg, neg_mul_neg, add_fin (by linarith), l1]
  · rw [pow_two (x2 - x1), pow_two (y2 - y1)]; exact l3

/-- The cross product of two difference vectors. -/
theorem cross_fin {x1 y1 x2 y2 x3 y3 M : ℚ} (hM : 1 ≤ M) (hM' : M ≤ 2 ^ 40) (hx : |x2 - x1| ≤ M)
    (hy : |y2 - y1| ≤ M) (hx3 : |x3 - x1| ≤ M) (hy3 : |y3 - y1| ≤ M) :
    ∃ c : ℚ, -((F64.fin x2 - .fin x1) * (F64.fin y3 - .fin y1) -
        (F64.fin y2 - .fin y1) * (F64.fin x3 - .fin x1)) = .fin (-c) ∧
      |c - ((x2 - x1) * (y3 - y1) - (y2 - y1) * (x3 - x1))| ≤ 13 * (M ^ 2 * uQ) := by
  have rx := round_u hM hx
  have ry := round_u hM hy
  have rx3 := round_u hM hx3
  have ry3 := round_u hM hy3
  obtain ⟨-, ⟨c1, c2⟩⟩ := comb_round hM rx ry3 ry rx3 hx hy3 hy hx3
  have hMM : M ^ 2 ≤ 2 ^ 80 := by nlinarith
  have p1 := (prod_round hM rx ry3 hx hy3).2
  have p2 := (prod_round hM ry rx3 hy hx3).2
  refine ⟨_, ?_, c1⟩
  rw [sub_fin (by linarith), sub_fin (by linarith), sub_fin (by linarith), sub_fin (by linarith),
    mul_fin (by linarith), mul_fin (by linarith), sub_fin (by linarith), neg_fin]

/-- Twice the area of a triangle in a rectangle is at most the area of the rectangle. -/
theorem triangle_area {x1 y1 x2 y2 x3 y3 W H : ℚ} (a1 : 0 ≤ x1) (a2 : x1 ≤ W) (a3 : 0 ≤ y1) (a4 : y1 ≤ H)
    (b1 : 0 ≤ x2) (b2 : x2 ≤ W) (b3 : 0 ≤ y2) (b4 : y2 ≤ H) (c1 : 0 ≤ x3) (c2 : x3 ≤ W) (c3 : 0 ≤ y3)
    (c4 : y3 ≤ H) : |(x2 - x1) * (y3 - y1) - (y2 - y1) * (x3 - x1)| ≤ W * H := by
  have hW : 0 ≤ W := by linarith
  have key : ∀ x d : ℚ, 0 ≤ x → x ≤ W → x * d ≤ W * max d 0 ∧ -(W * max (-d) 0) ≤ x * d := by
    intro x d h1 h2
    have m1 := le_max_left d 0
    have m2 := le_max_right d 0
    have m3 := le_max_left (-d) 0
    have m4 := le_max_right (-d) 0
    constructor
    · nlinarith
    · nlinarith
  have e : (x2 - x1) * (y3 - y1) - (y2 - y1) * (x3 - x1) =
      x1 * (y2 - y3) + x2 * (y3 - y1) + x3 * (y1 - y2) := by ring
  obtain ⟨k1, k1'⟩ := key x1 (y2 - y3) a1 a2
  obtain ⟨k2, k2'⟩ := key x2 (y3 - y1) b1 b2
  obtain ⟨k3, k3'⟩ := key x3 (y1 - y2) c1 c2
  have s1 : max (y2 - y3) 0 + max (y3 - y1) 0 + max (y1 - y2) 0 ≤ H := by
    rcases max_choice (y2 - y3) 0 with h | h <;> rcases max_choice (y3 - y1) 0 with h' | h' <;>
      rcases max_choice (y1 - y2) 0 with h'' | h'' <;> rw [h, h', h''] <;> linarith
  have s2 : max (-(y2 - y3)) 0 + max (-(y3 - y1)) 0 + max (-(y1 - y2)) 0 ≤ H := by
    rcases max_choice (-(y2 - y3)) 0 with h | h <;> rcases max_choice (-(y3 - y1)) 0 with h' | h' <;>
      rcases max_choice (-(y1 - y2)) 0 with h'' | h'' <;> rw [h, h', h''] <;> linarith
  have t1 := mul_le_mul_of_nonneg_left s1 hW
  have t2 := mul_le_mul_of_nonneg_left s2 hW
  rw [e, abs_le]
  constructor <;> linarith

end Verif
