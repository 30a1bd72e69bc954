import Verif.Lemmas.ExactQr
import Verif.Spec.Turned

/-!
# Three finder patterns at a right angle, in any position
-/
namespace Verif
namespace LineScan
open F64 FinderPattern Spec

theorem root_near {L d : ℚ} (hd : 1 ≤ d) (h0 : 0 ≤ L) (hn : |L ^ 2 - d ^ 2| ≤ 25 * (d ^ 2 * uQ)) :
    |L - d| ≤ 25 * (d * uQ) := by
  have hfac : L ^ 2 - d ^ 2 = (L - d) * (L + d) := by ring
  rw [hfac, abs_mul, abs_of_nonneg (show 0 ≤ L + d by linarith)] at hn
  by_contra hcon
  rw [not_le] at hcon
  have : 25 * (d * uQ) * d < |L - d| * (L + d) := by
    calc 25 * (d * uQ) * d < |L - d| * d := mul_lt_mul_of_pos_right hcon (by linarith)
      _ ≤ |L - d| * (L + d) := mul_le_mul_of_nonneg_left (by linarith) (abs_nonneg _)
  nlinarith

theorem lit_15_100 : ∃ τ : ℚ, F64.lit 15 100 = .fin τ ∧ 14 / 100 ≤ τ ∧ τ ≤ 16 / 100 := by
  refine ⟨_, lit_eq (by norm_num) (by norm_num), ?_⟩
  have := round_near (q := ((15 : Nat) : ℚ) / ((100 : Nat) : ℚ)) (B := 1) (by norm_num) (by norm_num)
  rw [abs_le] at this
  norm_num at this ⊢
  constructor <;> linarith [this.1, this.2]

/-- The quotient in `diff`, of the larger of two lengths and the smaller. -/
theorem diff_quotient {L K : ℚ} (hK : 1 / 2 ≤ K) (hKL : K ≤ L) (hL : L ≤ 2 ^ 41) :
    ∃ r, (F64.fin L - F64.fin K) / F64.fin L = .fin r ∧ |r - (L - K) / L| ≤ 1 / 1000 := by
  have hLp : 0 < L := by linarith
  have hu := uQ_small
  have hb : |L - K| ≤ 2 * L := by rw [abs_le]; constructor <;> linarith
  have r1 := round_u (q := L - K) (B := 2 * L) (by linarith) hb
  rw [sub_fin (by linarith)]
  generalize roundQ (L - K) = z at *
  have hLu : L * uQ ≤ L * (1 / 10 ^ 15) := mul_le_mul_of_nonneg_left hu (by linarith)
  have hz : |z / L - (L - K) / L| ≤ 1 / 10 ^ 4 := by
    rw [← sub_div, abs_div, abs_of_pos hLp, div_le_iff₀ hLp]
    norm_num at hLu ⊢
    linarith
  have hq0 : 0 ≤ (L - K) / L := div_nonneg (by linarith) (by linarith)
  have hq1 : (L - K) / L ≤ 1 := by rw [div_le_one hLp]; linarith
  generalize (L - K) / L = w at *
  rw [abs_le] at hz
  have hzb : |z / L| ≤ 2 := by rw [abs_le]; norm_num at hz ⊢; constructor <;> linarith [hz.1, hz.2]
  rw [div_fin (ne_of_gt hLp) (by linarith)]
  refine ⟨_, rfl, ?_⟩
  have r2 := round_u (q := z / L) (B := 2) (by norm_num) hzb
  generalize roundQ (z / L) = y at *
  rw [abs_le] at r2 ⊢
  norm_num at hz r2 hu ⊢
  constructor <;> linarith [hz.1, hz.2, r2.1, r2.2]

theorem diff_fin {L K : ℚ} (hK : 1 / 2 ≤ K) (hKL : K ≤ L) (hL : L ≤ 2 ^ 41) :
    (∃ r, diff (F64.fin L) (F64.fin K) = .fin r ∧ |r - (L - K) / L| ≤ 1 / 1000) ∧
    ∃ r, diff (F64.fin K) (F64.fin L) = .fin r ∧ |r - (L - K) / L| ≤ 1 / 1000 := by
  obtain ⟨r, hr, hb⟩ := diff_quotient hK hKL hL
  rcases eq_or_lt_of_le hKL with h | h
  · subst h
    rw [diff_self (by linarith)]
    simp
  · unfold diff
    rw [gt_fin, gt_fin, decide_eq_true h, decide_eq_false (by linarith)]
    simp only [if_true, Bool.false_eq_true, if_false]
    exact ⟨⟨r, hr, hb⟩, r, hr, hb⟩

/-- A point with two rational coordinates. -/
def pt (x y : ℚ) : Point := ⟨.fin x, .fin y⟩

/-- The sine of the angle between two sides, computed from their cross product `c`, is near one in absolute value,
with the sign opposite to that of `c`. -/
theorem sine_near {c L K s : ℚ} {d : ℚ} (hdq : 1 ≤ d) (hdu : d ≤ 2 ^ 32) (clockwise : Bool)
    (hs : s = if clockwise then 1 else -1)
    (hc1 : d ^ 2 * (999 / 1000) ≤ s * c) (hc2 : s * c ≤ d ^ 2 * (1001 / 1000)) (hL1 : d * (999 / 1000) ≤ L)
    (hL2 : L ≤ d * (1001 / 1000)) (hK1 : d * (999 / 1000) ≤ K) (hK2 : K ≤ d * (1001 / 1000)) :
    ∃ P, F64.fin (-c) / F64.fin L / F64.fin K = .fin P ∧
      F64.gt ((F64.fin P).abs - F64.lit 1).abs (F64.lit 5 100) = false ∧ F64.gt (F64.fin P) (F64.lit 0) = !clockwise := by
  have hu := uQ_small
  have hu0 := uQ_pos
  have hLpos : 0 < L := by linarith
  have hKpos : 0 < K := by linarith
  have hdu2 : d * uQ ≤ d * (1 / 10 ^ 15) := mul_le_mul_of_nonneg_left hu (by linarith)
  have hq1 : d * (99 / 100) ≤ s * c / L ∧ s * c / L ≤ d * (101 / 100) := by
    constructor
    · rw [le_div_iff₀ hLpos]
      have : d * (99 / 100) * L ≤ d * (99 / 100) * (d * (1001 / 1000)) := mul_le_mul_of_nonneg_left hL2 (by positivity)
      refine le_trans this (le_trans ?_ hc1)
      rw [pow_two]
      have : 0 ≤ d * d := by positivity
      linarith
    · rw [div_le_iff₀ hLpos]
      have : d * (101 / 100) * (d * (999 / 1000)) ≤ d * (101 / 100) * L := mul_le_mul_of_nonneg_left hL1 (by positivity)
      refine le_trans hc2 (le_trans ?_ this)
      rw [pow_two]
      have : 0 ≤ d * d := by positivity
      linarith
  have sabs : |s| = 1 := by rw [hs]; cases clockwise <;> simp
  have absS : ∀ z : ℚ, |s * z| = |z| := fun z => by rw [abs_mul, sabs, one_mul]
  have hqa : |-c / L| ≤ d * (101 / 100) := by
    rw [← absS, show s * (-c / L) = -(s * c / L) by ring, abs_neg, abs_of_nonneg (le_trans (by positivity) hq1.1)]
    exact hq1.2
  have hQr := round_u (q := -c / L) (B := d * (101 / 100)) (by linarith) hqa
  have p1 : F64.fin (-c) / F64.fin L = .fin (roundQ (-c / L)) := div_fin (ne_of_gt hLpos) (by linarith)
  generalize roundQ (-c / L) = Q at *
  rw [← absS, show s * (Q - -c / L) = s * Q + s * c / L by ring] at hQr
  rw [abs_le] at hQr
  have hQ1 : -(d * (102 / 100)) ≤ s * Q := by linarith [hQr.1, hq1.2]
  have hQ2 : s * Q ≤ -(d * (98 / 100)) := by linarith [hQr.2, hq1.1]
  have hP1 : -(103 / 100) ≤ s * (Q / K) ∧ s * (Q / K) ≤ -(97 / 100) := by
    rw [← mul_div_assoc]
    constructor
    · rw [le_div_iff₀ hKpos]; linarith
    · rw [div_le_iff₀ hKpos]; linarith
  have hPa : |Q / K| ≤ 2 := by rw [← absS, abs_le]; constructor <;> linarith [hP1.1, hP1.2]
  have hPr := round_u (q := Q / K) (B := 2) (by norm_num) hPa
  have p2 : F64.fin Q / F64.fin K = .fin (roundQ (Q / K)) := div_fin (ne_of_gt hKpos) (by linarith)
  generalize roundQ (Q / K) = P at *
  rw [← absS, show s * (P - Q / K) = s * P - s * (Q / K) by ring, abs_le] at hPr
  have hP2 : -(103 / 100) - 2 * uQ ≤ s * P := by linarith [hPr.1, hP1.1]
  have hP3 : s * P ≤ -(97 / 100) + 2 * uQ := by linarith [hPr.2, hP1.2]
  obtain ⟨τ, hτ, τ1⟩ := lit_5_100
  have p3 : F64.gt ((F64.fin P).abs - F64.lit 1).abs (F64.lit 5 100) = false := by
    rw [abs_fin, lit_nat (by norm_num), hτ, ← absS, abs_of_neg (by linarith), sub_fin (by
      rw [abs_le]; push_cast; constructor <;> linarith), abs_fin, gt_fin, decide_eq_false_iff_not, not_lt]
    refine le_trans ?_ τ1
    have hPb : |-(s * P) - ((1 : Nat) : ℚ)| ≤ 3 / 100 + 2 * uQ := by
      rw [abs_le]; push_cast; constructor <;> linarith
    generalize -(s * P) - ((1 : Nat) : ℚ) = z at *
    have hr := round_u (q := z) (B := 1) (by norm_num) (le_trans hPb (by linarith))
    rw [abs_le] at hr hPb ⊢
    constructor <;> linarith [hr.1, hr.2, hPb.1, hPb.2]
  have p4 : F64.gt (F64.fin P) (F64.lit 0) = !clockwise := by
    rw [lit_nat (by norm_num), gt_fin]
    cases clockwise
    · simp only [Bool.false_eq_true, if_false] at hs
      subst hs
      rw [decide_eq_true]
      · rfl
      · push_cast; linarith
    · simp only [if_true] at hs
      subst hs
      rw [decide_eq_false]
      · rfl
      · push_cast; linarith
  refine ⟨P, by rw [p1, p2], p3, p4⟩

/-- Two sides of the same length at a right angle are recognised, in every position, with the exact version, and the
other two points are told apart by the sense of rotation. -/
theorem internal_corner {x1 y1 x2 y2 x3 y3 : ℚ} {d m v : Nat} (hd : d = (4 * v + 10) * m)
    (hm : 1 ≤ m) (hd' : d < 2 ^ 32) (hv : 1 ≤ v) (h30 : 4 * v + 17 < 2 ^ 32)
    (h2 : (x2 - x1) ^ 2 + (y2 - y1) ^ 2 = (d : ℚ) ^ 2) (h3 : (x3 - x1) ^ 2 + (y3 - y1) ^ 2 = (d : ℚ) ^ 2)
    (clockwise : Bool)
    (hx : (x2 - x1) * (y3 - y1) - (y2 - y1) * (x3 - x1) = if clockwise then (d : ℚ) ^ 2 else -(d : ℚ) ^ 2) :
    findQrInternal (pt x1 y1) (pt x2 y2) (pt x3 y3) (.fin m) =
      .ret (some (if clockwise then ⟨pt x1 y1, pt x2 y2, pt x3 y3, .fin m, v⟩ else ⟨pt x1 y1, pt x3 y3, pt x2 y2, .fin m, v⟩)) := by
  have hd1 : 1 ≤ d := by
    rw [hd]; exact Nat.mul_pos (by omega) hm
  have hdq : (1 : ℚ) ≤ d := by exact_mod_cast hd1
  have hdu := cast_lt_u32 hd'
  have hu := uQ_small
  have hu0 := uQ_pos
  have bnd : ∀ s t : ℚ, s ^ 2 + t ^ 2 = (d : ℚ) ^ 2 → |s| ≤ d ∧ |t| ≤ d := by
    intro s t h
    exact ⟨abs_le_of_sq_le_sq (by nlinarith [sq_nonneg t]) (by linarith), abs_le_of_sq_le_sq (by nlinarith [sq_nonneg s]) (by linarith)⟩
  obtain ⟨a1, a2⟩ := bnd _ _ h2
  obtain ⟨b1, b2⟩ := bnd _ _ h3
  obtain ⟨L, eL, -, L0, nL⟩ := len_fin hdq (by linarith) a1 a2
  obtain ⟨K, eK, eK', K0, nK⟩ := len_fin hdq (by linarith) b1 b2
  obtain ⟨c, ec, nc⟩ := cross_fin hdq (by linarith) a1 a2 b1 b2
  rw [h2] at nL
  rw [h3] at nK
  rw [hx] at nc
  have hL := root_near hdq L0 nL
  have hK := root_near hdq K0 nK
  have q5 := version_square hd hm hv (by omega) hK
  have hdu2 : (d : ℚ) * uQ ≤ d * (1 / 10 ^ 15) := mul_le_mul_of_nonneg_left hu (by linarith)
  have hddu : (d : ℚ) ^ 2 * uQ ≤ (d : ℚ) ^ 2 * (1 / 10 ^ 15) := mul_le_mul_of_nonneg_left hu (by positivity)
  have hdd : (1 : ℚ) ≤ (d : ℚ) ^ 2 := by nlinarith
  rw [abs_le] at hL hK
  have hL1 : (d : ℚ) * (999 / 1000) ≤ L := by linarith [hL.1]
  have hL2 : L ≤ (d : ℚ) * (1001 / 1000) := by linarith [hL.2]
  have hK1 : (d : ℚ) * (999 / 1000) ≤ K := by linarith [hK.1]
  have hK2 : K ≤ (d : ℚ) * (1001 / 1000) := by linarith [hK.2]
  have hLpos : 0 < L := by linarith
  have hKpos : 0 < K := by linarith
  -- the lengths
  obtain ⟨τ', hτ', τ1', -⟩ := lit_15_100
  have q6 : F64.gt (diff (F64.fin L) (F64.fin K)) (F64.lit 15 100) = false := by
    have fin : ∀ A B r : ℚ, (d : ℚ) * (999 / 1000) ≤ B → A ≤ (d : ℚ) * (1001 / 1000) → 0 < A →
        |r - (A - B) / A| ≤ 1 / 1000 → F64.gt (.fin r) (F64.lit 15 100) = false := by
      intro A B r h1 h2 h3 hr
      have : (A - B) / A ≤ 1 / 100 := by rw [div_le_iff₀ h3]; linarith
      rw [hτ', gt_fin, decide_eq_false_iff_not, not_lt]
      rw [abs_le] at hr
      linarith [hr.2]
    rcases le_total K L with h | h
    · obtain ⟨⟨r, hr, hb⟩, -⟩ := diff_fin (K := K) (L := L) (by linarith) h (by linarith)
      rw [hr]; exact fin L K r hK1 hL2 hLpos hb
    · obtain ⟨-, ⟨r, hr, hb⟩⟩ := diff_fin (K := L) (L := K) (by linarith) h (by linarith)
      rw [hr]; exact fin K L r hL1 hK2 hKpos hb
  -- the sine of the angle
  obtain ⟨s, hs, hc1, hc2⟩ : ∃ s : ℚ, (s = if clockwise then 1 else -1) ∧ (d : ℚ) ^ 2 * (999 / 1000) ≤ s * c ∧
      s * c ≤ (d : ℚ) ^ 2 * (1001 / 1000) := by
    refine ⟨_, rfl, ?_⟩
    rw [abs_le] at nc
    cases clockwise
    · simp only [Bool.false_eq_true, if_false] at nc ⊢; constructor <;> linarith [nc.1, nc.2]
    · simp only [if_true] at nc ⊢; constructor <;> linarith [nc.1, nc.2]
  obtain ⟨P, hP, p3, p4⟩ := sine_near hdq (by linarith) clockwise hs hc1 hc2 hL1 hL2 hK1 hK2
  have q7 : checkedSub (4 * (v + 4) + 1) 17 = .ret (4 * v) := by
    unfold checkedSub; rw [if_pos (by omega)]; congr 1
  have q8 : mulU32 4 (v + 4) = .ret (4 * (v + 4)) := by
    unfold mulU32; rw [if_pos (by omega)]
  unfold findQrInternal dist pt
  simp only
  rw [eL, eK, eK', q6, ec, hP, p3, p4]
  simp only [Bool.false_eq_true, if_false]
  rw [q5, q8, Run.ret_bind, addU32_ret (by omega), Run.ret_bind, if_neg (by omega), q7, Run.ret_bind]
  rw [show 4 * v / 4 = v by omega]
  cases clockwise <;> rfl

/-- Two sides of which one is the diagonal of a square on the other are not taken for the sides of a symbol. -/
theorem internal_skew {x1 y1 x2 y2 x3 y3 : ℚ} {d : Nat} {ms : F64} (hd1 : 1 ≤ d) (hd' : d < 2 ^ 32)
    (h : (x2 - x1) ^ 2 + (y2 - y1) ^ 2 = 2 * (d : ℚ) ^ 2 ∧ (x3 - x1) ^ 2 + (y3 - y1) ^ 2 = (d : ℚ) ^ 2 ∨
      (x2 - x1) ^ 2 + (y2 - y1) ^ 2 = (d : ℚ) ^ 2 ∧ (x3 - x1) ^ 2 + (y3 - y1) ^ 2 = 2 * (d : ℚ) ^ 2)
    (m2 : |x2 - x1| ≤ d ∧ |y2 - y1| ≤ d) (m3 : |x3 - x1| ≤ d ∧ |y3 - y1| ≤ d) :
    findQrInternal (pt x1 y1) (pt x2 y2) (pt x3 y3) ms = .ret none := by
  have hdq : (1 : ℚ) ≤ d := by exact_mod_cast hd1
  have hdu := cast_lt_u32 hd'
  have hu := uQ_small
  have hu0 := uQ_pos
  obtain ⟨L, eL, -, L0, nL⟩ := len_fin hdq (by linarith) m2.1 m2.2
  obtain ⟨K, eK, -, K0, nK⟩ := len_fin hdq (by linarith) m3.1 m3.2
  have hddu : (d : ℚ) ^ 2 * uQ ≤ (d : ℚ) ^ 2 * (1 / 10 ^ 15) := mul_le_mul_of_nonneg_left hu (by positivity)
  have hdd : (1 : ℚ) ≤ (d : ℚ) ^ 2 := by nlinarith
  obtain ⟨τ', hτ', -, τ1'⟩ := lit_15_100
  have low : ∀ A : ℚ, 0 ≤ A → |A ^ 2 - 2 * (d : ℚ) ^ 2| ≤ 25 * ((d : ℚ) ^ 2 * uQ) →
      d * (14 / 10) ≤ A ∧ A ≤ d * (15 / 10) := by
    intro A h0 hA
    rw [abs_le] at hA
    constructor
    · apply le_of_sq_le_sq _ h0
      rw [mul_pow]; norm_num at hddu ⊢; linarith [hA.1]
    · apply le_of_sq_le_sq _ (by linarith)
      rw [mul_pow]; norm_num at hddu ⊢; linarith [hA.2]
  have near : ∀ A : ℚ, 0 ≤ A → |A ^ 2 - (d : ℚ) ^ 2| ≤ 25 * ((d : ℚ) ^ 2 * uQ) →
      d * (9 / 10) ≤ A ∧ A ≤ d * (11 / 10) := by
    intro A h0 hA
    rw [abs_le] at hA
    constructor
    · apply le_of_sq_le_sq _ h0
      rw [mul_pow]; norm_num at hddu ⊢; linarith [hA.1]
    · apply le_of_sq_le_sq _ (by linarith)
      rw [mul_pow]; norm_num at hddu ⊢; linarith [hA.2]
  have fin : ∀ A B r : ℚ, B ≤ (d : ℚ) * (11 / 10) → (d : ℚ) * (14 / 10) ≤ A →
      |r - (A - B) / A| ≤ 1 / 1000 → F64.gt (.fin r) (F64.lit 15 100) = true := by
    intro A B r h1 h2 hr
    have : 2 / 10 ≤ (A - B) / A := by rw [le_div_iff₀ (by linarith)]; linarith
    rw [hτ', gt_fin, decide_eq_true_eq]
    rw [abs_le] at hr
    linarith [hr.1]
  have q6 : F64.gt (diff (F64.fin L) (F64.fin K)) (F64.lit 15 100) = true := by
    rcases h with ⟨h, h'⟩ | ⟨h, h'⟩
    · rw [h] at nL
      rw [h'] at nK
      obtain ⟨l1, l2⟩ := low L L0 nL
      obtain ⟨k1, k2⟩ := near K K0 nK
      obtain ⟨⟨r, hr, hb⟩, -⟩ := diff_fin (K := K) (L := L) (by linarith) (by linarith) (by linarith)
      rw [hr]; exact fin L K r k2 l1 hb
    · rw [h] at nL
      rw [h'] at nK
      obtain ⟨l1, l2⟩ := low K K0 nK
      obtain ⟨k1, k2⟩ := near L L0 nL
      obtain ⟨-, ⟨r, hr, hb⟩⟩ := diff_fin (K := L) (L := K) (by linarith) (by linarith) (by linarith)
      rw [hr]; exact fin K L r k2 l1 hb
  unfold findQrInternal pt
  simp only
  rw [eL, eK, q6]
  rfl

theorem findQr_of {one two three : Point} {ms : F64} {a b c : Option QRLocation} {qr : QRLocation}
    (h1 : findQrInternal one two three ms = .ret a) (h2 : findQrInternal two one three ms = .ret b)
    (h3 : findQrInternal three one two ms = .ret c) (h : (a <|> b <|> c) = some qr) :
    findQr one two three ms = .ret (some qr) := by
  unfold findQr
  rw [h1, Run.ret_bind]
  cases a with
  | some _ => simp only; rw [← h]; rfl
  | none =>
    simp only
    rw [h2, Run.ret_bind]
    cases b with
    | some _ => simp only; rw [← h]; rfl
    | none => simp only; rw [h3, ← h]; rfl

/-- One of the corners of an axis-parallel square, `d` wide, with upper left corner (x, y). -/
def corner (x y d : ℚ) (c : Bool × Bool) : Point := pt (x + if c.1 then d else 0) (y + if c.2 then d else 0)

/-- Three corners of an axis-parallel square in the order of the scan are recognised. The corner opposite to the missing
one comes first; the others follow clockwise. -/
theorem findQr_corners {x y : ℚ} {d m v : Nat} (hd : d = (4 * v + 10) * m) (hm : 1 ≤ m) (hd' : d < 2 ^ 32) (hv : 1 ≤ v)
    (h30 : 4 * v + 17 < 2 ^ 32) :
    findQr (corner x y d (false, false)) (corner x y d (true, false)) (corner x y d (false, true)) (.fin m) =
      .ret (some ⟨corner x y d (false, false), corner x y d (true, false), corner x y d (false, true), .fin m, v⟩) ∧
    findQr (corner x y d (false, false)) (corner x y d (true, false)) (corner x y d (true, true)) (.fin m) =
      .ret (some ⟨corner x y d (true, false), corner x y d (true, true), corner x y d (false, false), .fin m, v⟩) ∧
    findQr (corner x y d (false, false)) (corner x y d (false, true)) (corner x y d (true, true)) (.fin m) =
      .ret (some ⟨corner x y d (false, true), corner x y d (false, false), corner x y d (true, true), .fin m, v⟩) ∧
    findQr (corner x y d (true, false)) (corner x y d (false, true)) (corner x y d (true, true)) (.fin m) =
      .ret (some ⟨corner x y d (true, true), corner x y d (false, true), corner x y d (true, false), .fin m, v⟩) := by
  have hd1 : 1 ≤ d := by
    rw [hd]; exact Nat.mul_pos (by omega) hm
  have hdq : (1 : ℚ) ≤ d := by exact_mod_cast hd1
  have a1 : ∀ z : ℚ, z = 0 ∨ z = d ∨ z = -d → |z| ≤ d := by
    rintro z (rfl | rfl | rfl)
    · rw [abs_zero]; linarith
    · rw [abs_of_nonneg (by linarith)]
    · rw [abs_neg, abs_of_nonneg (by linarith)]
  have skew : ∀ p q r : Bool × Bool, (p.1 ≠ q.1 ∧ p.2 ≠ q.2) ∧ (p.1 = r.1 ∧ p.2 ≠ r.2 ∨ p.1 ≠ r.1 ∧ p.2 = r.2) ∨
      (p.1 ≠ r.1 ∧ p.2 ≠ r.2) ∧ (p.1 = q.1 ∧ p.2 ≠ q.2 ∨ p.1 ≠ q.1 ∧ p.2 = q.2) →
      findQrInternal (corner x y d p) (corner x y d q) (corner x y d r) (.fin m) = .ret none := by
    rintro ⟨p1, p2⟩ ⟨q1, q2⟩ ⟨r1, r2⟩ h
    unfold corner
    refine internal_skew hd1 hd' ?_ ⟨?_, ?_⟩ ⟨?_, ?_⟩
    · simp only at h
      rcases h with ⟨⟨h1, h2⟩, h⟩ | ⟨⟨h1, h2⟩, h⟩
      · left
        cases p1 <;> cases p2 <;> cases q1 <;> cases q2 <;> cases r1 <;> cases r2 <;> simp at h1 h2 h <;>
          (simp only [if_true, Bool.false_eq_true, if_false]; constructor <;> ring)
      · right
        cases p1 <;> cases p2 <;> cases q1 <;> cases q2 <;> cases r1 <;> cases r2 <;> simp at h1 h2 h <;>
          (simp only [if_true, Bool.false_eq_true, if_false]; constructor <;> ring)
    all_goals
      apply a1
      simp only
      split <;> split <;> simp
  have right : ∀ (p q r : Bool × Bool) (w : Bool), p.1 = q.1 ∧ p.2 ≠ q.2 ∧ p.1 ≠ r.1 ∧ p.2 = r.2 ∧ w = (p.1 != p.2) ∨
        p.1 ≠ q.1 ∧ p.2 = q.2 ∧ p.1 = r.1 ∧ p.2 ≠ r.2 ∧ w = (p.1 == p.2) →
      findQrInternal (corner x y d p) (corner x y d q) (corner x y d r) (.fin m) =
        .ret (some (if w then ⟨corner x y d p, corner x y d q, corner x y d r, .fin m, v⟩
          else ⟨corner x y d p, corner x y d r, corner x y d q, .fin m, v⟩)) := by
    rintro ⟨p1, p2⟩ ⟨q1, q2⟩ ⟨r1, r2⟩ w h
    unfold corner
    apply internal_corner hd hm hd' hv h30
    · cases p1 <;> cases p2 <;> cases q1 <;> cases q2 <;> cases r1 <;> cases r2 <;> simp at h <;>
        (simp only [if_true, Bool.false_eq_true, if_false]; ring)
    · cases p1 <;> cases p2 <;> cases q1 <;> cases q2 <;> cases r1 <;> cases r2 <;> simp at h <;>
        (simp only [if_true, Bool.false_eq_true, if_false]; ring)
    · cases p1 <;> cases p2 <;> cases q1 <;> cases q2 <;> cases r1 <;> cases r2 <;> simp at h <;>
        (subst h; simp only [if_true, Bool.false_eq_true, if_false]; ring)
  refine ⟨?_, ?_, ?_, ?_⟩
  · exact findQr_of (right _ _ _ true (by decide)) (skew _ _ _ (by decide)) (skew _ _ _ (by decide)) rfl
  · exact findQr_of (skew _ _ _ (by decide)) (right _ _ _ false (by decide)) (skew _ _ _ (by decide)) rfl
  · exact findQr_of (skew _ _ _ (by decide)) (right _ _ _ true (by decide)) (skew _ _ _ (by decide)) rfl
  · exact findQr_of (skew _ _ _ (by decide)) (skew _ _ _ (by decide)) (right _ _ _ false (by decide)) rfl

end LineScan
end Verif
