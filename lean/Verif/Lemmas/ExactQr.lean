import Verif.Lemmas.ExactScan

/-!
# Three finder patterns in the corners of an axis-parallel square
-/
namespace Verif
namespace LineScan
open F64 FinderPattern Spec

theorem lit_5_100 : ∃ τ : ℚ, F64.lit 5 100 = .fin τ ∧ 4 / 100 ≤ τ := by
  refine ⟨_, lit_eq (by norm_num) (by norm_num), ?_⟩
  have := round_near (q := ((5 : Nat) : ℚ) / ((100 : Nat) : ℚ)) (B := 1) (by norm_num) (by norm_num)
  rw [abs_le] at this
  norm_num at this ⊢
  linarith [this.1]

theorem lit_pos {n d : Nat} (hn : 0 < n) (hd : 0 < d) (h : n ≤ d) (h' : d ≤ 1000) : ∃ τ : ℚ, F64.lit n d = .fin τ ∧ 0 ≤ τ := by
  refine ⟨_, lit_eq hd (by omega), roundQ_nonneg (by positivity)⟩

theorem diff_self {q : ℚ} (h : q ≠ 0) : diff (F64.fin q) (F64.fin q) = F64.fin 0 := by
  unfold diff
  rw [gt_fin, decide_eq_false (lt_irrefl _)]
  simp only [Bool.false_eq_true, if_false]
  rw [sub_fin (by rw [sub_self]; norm_num), sub_self, roundQ_zero, div_fin h (by rw [zero_div]; norm_num),
    zero_div, roundQ_zero]

/-- The version, from the distance of two finder patterns in pixels and the size of a module. -/
theorem version_square {d m v : Nat} {L : ℚ} (hd : d = (4 * v + 10) * m) (hm : 1 ≤ m) (hv : 1 ≤ v) (h30 : v < 2 ^ 30)
    (hLd : |L - d| ≤ 25 * (d * uQ)) :
    (((F64.fin L / F64.fin (m : ℚ)) + F64.lit 7 - F64.lit 1) / F64.lit 4).round.toU32 = v + 4 := by
  have hm1 : (1 : ℚ) ≤ m := by exact_mod_cast hm
  have hu := uQ_small
  have hDm : (d : ℚ) = (4 * v + 10) * m := by rw [hd]; push_cast; ring
  have hdu2 : (d : ℚ) * uQ ≤ d * (1 / 10 ^ 15) := mul_le_mul_of_nonneg_left hu (Nat.cast_nonneg d)
  have hvq : (1 : ℚ) ≤ v := by exact_mod_cast hv
  have hv30 : (v : ℚ) ≤ 2 ^ 30 := by exact_mod_cast (le_of_lt h30)
  have hmpos : (0 : ℚ) < m := by linarith
  have hw1 : |L / m - (4 * v + 10)| ≤ 1 / 10 ^ 3 := by
    have : L / m - (4 * v + 10) = (L - d) / m := by rw [hDm]; field_simp
    rw [this, abs_div, abs_of_pos hmpos, div_le_iff₀ hmpos]
    have h1 : (d : ℚ) * uQ ≤ (4 * v + 10) * m * (1 / 10 ^ 15) := by rw [← hDm]; exact hdu2
    have h2 : (4 * (v : ℚ) + 10) * m ≤ 2 ^ 33 * m := mul_le_mul_of_nonneg_right (by linarith) (by linarith)
    norm_num at h1 h2 ⊢
    linarith
  rw [abs_le] at hw1
  have hlm : |L / m| ≤ 2 ^ 33 := by rw [abs_le]; constructor <;> norm_num at hw1 ⊢ <;> linarith [hw1.1, hw1.2]
  have q1 : F64.fin L / F64.fin (m : ℚ) = .fin (roundQ (L / m)) := div_fin (by linarith) (by linarith)
  have r1 := round_near (q := L / m) (B := 2 ^ 33) (by norm_num) hlm
  generalize roundQ (L / m) = A at *
  rw [abs_le] at r1
  have hA1 : |A + ((7 : Nat) : ℚ)| ≤ 2 ^ 34 := by
    rw [abs_le]; push_cast; norm_num at r1 hw1 ⊢; constructor <;> linarith [hw1.1, hw1.2, r1.1, r1.2]
  have q2 : F64.fin A + F64.lit 7 = .fin (roundQ (A + ((7 : Nat) : ℚ))) := by
    rw [lit_nat (by norm_num), add_fin (by linarith)]
  have r2 := round_near (q := A + ((7 : Nat) : ℚ)) (B := 2 ^ 34) (by norm_num) hA1
  generalize roundQ (A + ((7 : Nat) : ℚ)) = B at *
  rw [abs_le] at r2
  have hB1 : |B - ((1 : Nat) : ℚ)| ≤ 2 ^ 34 := by
    rw [abs_le]; push_cast at *; norm_num at r1 r2 hw1 ⊢; constructor <;> linarith [hw1.1, hw1.2, r1.1, r1.2, r2.1, r2.2]
  have q3 : F64.fin B - F64.lit 1 = .fin (roundQ (B - ((1 : Nat) : ℚ))) := by
    rw [lit_nat (by norm_num), sub_fin (by linarith)]
  have r3 := round_near (q := B - ((1 : Nat) : ℚ)) (B := 2 ^ 34) (by norm_num) hB1
  generalize roundQ (B - ((1 : Nat) : ℚ)) = C at *
  rw [abs_le] at r3
  have hC1 : |C / ((4 : Nat) : ℚ)| ≤ 2 ^ 34 := by
    rw [abs_le]; push_cast at *; norm_num at r1 r2 r3 hw1 ⊢
    constructor <;> linarith [hw1.1, hw1.2, r1.1, r1.2, r2.1, r2.2, r3.1, r3.2]
  have q4 : F64.fin C / F64.lit 4 = .fin (roundQ (C / ((4 : Nat) : ℚ))) := by
    rw [lit_nat (by norm_num), div_fin (by norm_num) (by linarith)]
  have r4 := round_near (q := C / ((4 : Nat) : ℚ)) (B := 2 ^ 34) (by norm_num) hC1
  generalize roundQ (C / ((4 : Nat) : ℚ)) = E at *
  rw [abs_le] at r4
  have hE : ((v + 4 : Nat) : ℚ) - 1 / 100 ≤ E ∧ E ≤ ((v + 4 : Nat) : ℚ) + 1 / 100 := by
    push_cast at *; norm_num at r1 r2 r3 r4 hw1 ⊢
    constructor <;> linarith [hw1.1, hw1.2, r1.1, r1.2, r2.1, r2.2, r3.1, r3.2, r4.1, r4.2]
  rw [q1, q2, q3, q4, round_of_near (N := v + 4)]
  · omega
  · linarith [hE.1]
  · linarith [hE.2]
  · have := hE.1; push_cast at this; linarith
  · have := hE.2; push_cast at this; linarith

/-- The three corners of an axis-parallel square are recognised, with their exact version. -/
theorem findQr_square {a b : Int} {d m v : Nat} (ha : |a| ≤ 2 ^ 40) (hb : |b| ≤ 2 ^ 40) (hd : d = (4 * v + 10) * m)
    (hm : 1 ≤ m) (hd' : d < 2 ^ 32) (hv : 1 ≤ v) (h30 : 4 * v + 17 < 2 ^ 32) :
    findQr ⟨hf a, hf b⟩ ⟨hf (a + 2 * d), hf b⟩ ⟨hf a, hf (b + 2 * d)⟩ (.fin m) =
      .ret (some ⟨⟨hf a, hf b⟩, ⟨hf (a + 2 * d), hf b⟩, ⟨hf a, hf (b + 2 * d)⟩, .fin m, v⟩) := by
  have hm1 : (1 : ℚ) ≤ m := by exact_mod_cast hm
  have hd1 : 1 ≤ d := by
    rw [hd]; exact Nat.mul_pos (by omega) hm
  have hdq : (1 : ℚ) ≤ d := by exact_mod_cast hd1
  have hdu := cast_lt_u32 hd'
  have hu := uQ_small
  have hu0 := uQ_pos
  -- the differences
  have e0 : ∀ c : Int, |c| ≤ 2 ^ 40 → hf c - hf c = .fin 0 := by
    intro c hc
    rw [hf_sub (by rw [sub_self, abs_zero]; norm_num), sub_self]
    unfold hf; norm_num
  have e1 : ∀ c : Int, |c| ≤ 2 ^ 40 → hf (c + 2 * d) - hf c = .fin (d : ℚ) := by
    intro c hc
    rw [hf_sub (by rw [abs_le]; constructor <;> omega), hf_nat]
    congr 1; ring
  have e2 : ∀ c : Int, |c| ≤ 2 ^ 40 → hf c - hf (c + 2 * d) = .fin (-(d : ℚ)) := by
    intro c hc
    rw [hf_sub (by rw [abs_le]; constructor <;> omega)]
    unfold hf; congr 1; push_cast; ring
  have hdd : |(d : ℚ) * d| ≤ 2 ^ 64 := by
    rw [abs_of_nonneg (by positivity)]; nlinarith
  -- the square
  obtain ⟨R, hR⟩ : ∃ R, R = roundQ ((d : ℚ) * d) := ⟨_, rfl⟩
  have hRR : roundQ R = R := by rw [hR, roundQ_roundQ]
  have hRn : |R - (d : ℚ) * d| ≤ (d : ℚ) * d * uQ := by
    rw [hR]
    exact round_u (by nlinarith) (le_of_eq (abs_of_nonneg (by positivity)))
  have hd2 : (1 : ℚ) ≤ (d : ℚ) * d := by nlinarith
  have hddu : (d : ℚ) * d * uQ ≤ (d : ℚ) * d * (1 / 10 ^ 15) := mul_le_mul_of_nonneg_left hu (by positivity)
  have hddu0 : 0 < (d : ℚ) * d * uQ := by positivity
  rw [abs_le] at hRn
  have hR0 : 0 < R := by linarith [hRn.1]
  have hR64 : R ≤ 2 ^ 65 := by rw [abs_le] at hdd; linarith [hRn.2, hdd.2]
  have m1 : F64.fin (d : ℚ) * F64.fin (d : ℚ) = .fin R := by rw [mul_fin (by linarith), hR]
  have m2 : F64.fin (-(d : ℚ)) * F64.fin (-(d : ℚ)) = .fin R := by
    rw [mul_fin (by rw [neg_mul_neg]; linarith), neg_mul_neg, hR]
  have m0 : F64.fin 0 * F64.fin 0 = .fin 0 := by rw [mul_fin (by norm_num), mul_zero, roundQ_zero]
  have s1 : F64.fin R + F64.fin 0 = .fin R := by
    rw [add_fin (by rw [add_zero, abs_of_pos hR0]; linarith), add_zero, hRR]
  have s2 : F64.fin 0 + F64.fin R = .fin R := by
    rw [add_fin (by rw [zero_add, abs_of_pos hR0]; linarith), zero_add, hRR]
  have s3 : F64.fin R - F64.fin 0 = .fin R := by
    rw [sub_fin (by rw [sub_zero, abs_of_pos hR0]; linarith), sub_zero, hRR]
  -- its root
  obtain ⟨L, hL, L0, hn⟩ := sqrt_near (a := R) (A := (d : ℚ) * d) (M := d) hdq (le_of_lt hR0)
    (by rw [abs_le, pow_two]; constructor <;> linarith [hRn.1, hRn.2]) (by rw [pow_two]; linarith)
  have hLd : |L - d| ≤ 25 * (d * uQ) := by
    have hfac : L ^ 2 - (d : ℚ) * d = (L - d) * (L + d) := by ring
    rw [hfac, abs_mul, abs_of_nonneg (show 0 ≤ L + d by linarith)] at hn
    by_contra hcon
    rw [not_le] at hcon
    have : 25 * (d * uQ) * d < |L - d| * (L + d) := by
      calc 25 * (d * uQ) * d < |L - d| * d := mul_lt_mul_of_pos_right hcon (by linarith)
        _ ≤ |L - d| * (L + d) := mul_le_mul_of_nonneg_left (by linarith) (abs_nonneg _)
    nlinarith
  have q5 := version_square hd hm hv (by omega) hLd
  have hdu2 : (d : ℚ) * uQ ≤ d * (1 / 10 ^ 15) := mul_le_mul_of_nonneg_left hu (by linarith)
  have hdu0 : 0 < (d : ℚ) * uQ := by positivity
  rw [abs_le] at hLd
  have hL1 : (d : ℚ) * (999 / 1000) ≤ L := by linarith [hLd.1]
  have hL2 : L ≤ (d : ℚ) * (1001 / 1000) := by linarith [hLd.2]
  have hLpos : 0 < L := by linarith
  -- the cosine of the angle between the sides
  have hq1 : (d : ℚ) * (99 / 100) ≤ R / L ∧ R / L ≤ d * (101 / 100) := by
    constructor
    · rw [le_div_iff₀ hLpos]
      have : (d : ℚ) * (99 / 100) * L ≤ d * (99 / 100) * (d * (1001 / 1000)) := mul_le_mul_of_nonneg_left hL2 (by positivity)
      nlinarith [hRn.1]
    · rw [div_le_iff₀ hLpos]
      have : (d : ℚ) * (101 / 100) * (d * (999 / 1000)) ≤ d * (101 / 100) * L := mul_le_mul_of_nonneg_left hL1 (by positivity)
      nlinarith [hRn.2]
  have hqa : |-R / L| ≤ d * (101 / 100) := by
    rw [neg_div, abs_neg, abs_of_nonneg (by positivity)]; exact hq1.2
  have hQr := round_u (q := -R / L) (B := d * (101 / 100)) (by linarith) hqa
  have p1 : F64.fin (-R) / F64.fin L = .fin (roundQ (-R / L)) := div_fin (ne_of_gt hLpos) (by linarith)
  generalize roundQ (-R / L) = Q at *
  rw [neg_div] at hQr
  rw [abs_le] at hQr
  have hQ1 : -(d * (102 / 100)) ≤ Q := by linarith [hQr.1, hq1.2]
  have hQ2 : Q ≤ -(d * (98 / 100)) := by linarith [hQr.2, hq1.1]
  have hP1 : -(103 / 100) ≤ Q / L ∧ Q / L ≤ -(97 / 100) := by
    constructor
    · rw [le_div_iff₀ hLpos]; linarith
    · rw [div_le_iff₀ hLpos]; linarith
  have hPr := round_u (q := Q / L) (B := 2) (by norm_num) (by rw [abs_le]; constructor <;> linarith [hP1.1, hP1.2])
  have p2 : F64.fin Q / F64.fin L = .fin (roundQ (Q / L)) := div_fin (ne_of_gt hLpos) (by
    rw [abs_le]; constructor <;> linarith [hP1.1, hP1.2])
  generalize roundQ (Q / L) = P at *
  rw [abs_le] at hPr
  have hP2 : -(104 / 100) ≤ P := by linarith [hPr.1, hP1.1]
  have hP3 : P ≤ -(96 / 100) := by linarith [hPr.2, hP1.2]
  obtain ⟨τ, hτ, τ1⟩ := lit_5_100
  have p3 : F64.gt ((F64.fin P).abs - F64.lit 1).abs (F64.lit 5 100) = false := by
    rw [abs_fin, lit_nat (by norm_num), hτ, abs_of_neg (by linarith), sub_fin (by
      rw [abs_le]; push_cast; constructor <;> linarith), abs_fin, gt_fin, decide_eq_false_iff_not, not_lt]
    have hle : |-P - ((1 : Nat) : ℚ)| ≤ 4 / 100 := by
      rw [abs_le]; push_cast; constructor <;> linarith
    refine le_trans ?_ τ1
    -- rounding cannot leave the interval because of the exact bounds above
    have hPb : |-P - ((1 : Nat) : ℚ)| ≤ 3 / 100 + 2 * uQ := by
      rw [abs_le]; push_cast; constructor <;> linarith [hPr.1, hPr.2, hP1.1, hP1.2]
    generalize -P - ((1 : Nat) : ℚ) = z at *
    have hr := round_u (q := z) (B := 1) (by norm_num) (le_trans hPb (by linarith))
    rw [abs_le] at hr hPb ⊢
    constructor <;> linarith [hr.1, hr.2, hPb.1, hPb.2]
  have p4 : F64.gt (F64.fin P) (F64.lit 0) = false := by
    rw [lit_nat (by norm_num), gt_fin, decide_eq_false_iff_not, not_lt]; push_cast; linarith
  obtain ⟨τ', hτ', τ0⟩ := lit_pos (n := 15) (d := 100) (by norm_num) (by norm_num) (by norm_num) (by norm_num)
  have q6 : F64.gt (diff (F64.fin L) (F64.fin L)) (F64.lit 15 100) = false := by
    rw [diff_self (ne_of_gt hLpos), hτ', gt_fin, decide_eq_false_iff_not, not_lt]; exact τ0
  have q7 : checkedSub (4 * (v + 4) + 1) 17 = .ret (4 * v) := by
    unfold checkedSub; rw [if_pos (by omega)]; congr 1
  have q8 : mulU32 4 (v + 4) = .ret (4 * (v + 4)) := by
    unfold mulU32; rw [if_pos (by omega)]
  have hint : findQrInternal ⟨hf a, hf b⟩ ⟨hf (a + 2 * d), hf b⟩ ⟨hf a, hf (b + 2 * d)⟩ (.fin m) =
      .ret (some ⟨⟨hf a, hf b⟩, ⟨hf (a + 2 * d), hf b⟩, ⟨hf a, hf (b + 2 * d)⟩, .fin m, v⟩) := by
    unfold findQrInternal dist
    simp only
    rw [e0 a ha, e0 b hb, e1 a ha, e1 b hb, e2 b hb, m0, m1, m2, s1, s2, s3, hL, q6]
    simp only [Bool.false_eq_true, if_false]
    rw [neg_fin, p1, p2, p3, p4]
    simp only [Bool.false_eq_true, if_false]
    rw [q5, q8, Run.ret_bind, addU32_ret (by omega), Run.ret_bind, if_neg (by omega), q7, Run.ret_bind]
    rw [show 4 * v / 4 = v by omega]
    rfl
  unfold findQr
  rw [hint, Run.ret_bind]
  rfl

theorem same_size {m : Nat} (hm : 1 ≤ m) :
    F64.gt (diff (F64.fin (m : ℚ)) (F64.fin (m : ℚ))) (F64.lit 1 10) = false := by
  obtain ⟨τ, hτ, τ0⟩ := lit_pos (n := 1) (d := 10) (by norm_num) (by norm_num) (by norm_num) (by norm_num)
  rw [diff_same hm, hτ, gt_fin, decide_eq_false_iff_not, not_lt]; exact τ0

/-- The location of three candidates that are those of a symbol. -/
theorem findQr_exact {ox oy m v : Nat} (hm : 1 ≤ m) (hv : 1 ≤ v)
    (h1 : ox + (4 * v + 17) * m < 2 ^ 32) (h2 : oy + (4 * v + 17) * m < 2 ^ 32) :
    findQr (exactCandidate m ox oy).location (exactCandidate m (ox + (4 * v + 10) * m) oy).location
        (exactCandidate m ox (oy + (4 * v + 10) * m)).location (.fin m) =
      .ret (some ⟨(exactCandidate m ox oy).location, (exactCandidate m (ox + (4 * v + 10) * m) oy).location,
        (exactCandidate m ox (oy + (4 * v + 10) * m)).location, .fin m, v⟩) := by
  obtain ⟨d, hd⟩ : ∃ d, d = (4 * v + 10) * m := ⟨_, rfl⟩
  have hsplit : (4 * v + 17) * m = d + 7 * m := by rw [hd]; ring
  rw [← hd]
  have hvd : 4 * v + 17 ≤ (4 * v + 17) * m := Nat.le_mul_of_pos_right _ hm
  have hq := findQr_square (a := 2 * ox + 7 * m) (b := 2 * (oy + (7 * m - 1) / 2 : Nat)) (m := m) (v := v) (d := d)
    (by rw [abs_le]; constructor <;> omega) (by rw [abs_le]; constructor <;> omega) hd hm (by omega) hv
  have l1 : (exactCandidate m ox oy).location = ⟨hf (2 * ox + 7 * m), hf (2 * (oy + (7 * m - 1) / 2 : Nat))⟩ := by
    unfold exactCandidate; simp only; rw [hf_ofNat (by omega)]
  have l2 : (exactCandidate m (ox + d) oy).location =
      ⟨hf (2 * ox + 7 * m + 2 * d), hf (2 * (oy + (7 * m - 1) / 2 : Nat))⟩ := by
    unfold exactCandidate; simp only; rw [hf_ofNat (by omega)]
    congr 2
    push_cast; ring
  have l3 : (exactCandidate m ox (oy + d)).location =
      ⟨hf (2 * ox + 7 * m), hf (2 * (oy + (7 * m - 1) / 2 : Nat) + 2 * d)⟩ := by
    unfold exactCandidate; simp only; rw [hf_ofNat (by omega)]
    congr 2
    push_cast; ring
  rw [l1, l2, l3, hq (by omega)]

/-- Three candidates in the corners of a square, in the order in which the scan meets them. -/
theorem locations_square {ox oy m v : Nat} (hm : 1 ≤ m) (hv : 1 ≤ v)
    (h1 : ox + (4 * v + 17) * m < 2 ^ 32) (h2 : oy + (4 * v + 17) * m < 2 ^ 32) :
    locations [exactCandidate m ox oy, exactCandidate m (ox + (4 * v + 10) * m) oy,
        exactCandidate m ox (oy + (4 * v + 10) * m)] =
      .ret [⟨(exactCandidate m ox oy).location, (exactCandidate m (ox + (4 * v + 10) * m) oy).location,
        (exactCandidate m ox (oy + (4 * v + 10) * m)).location, .fin m, v⟩] := by
  obtain ⟨d, hd⟩ : ∃ d, d = (4 * v + 10) * m := ⟨_, rfl⟩
  have hsplit : (4 * v + 17) * m = d + 7 * m := by rw [hd]; ring
  rw [← hd]
  have hvd : 4 * v + 17 ≤ (4 * v + 17) * m := Nat.le_mul_of_pos_right _ hm
  have hq := findQr_square (a := 2 * ox + 7 * m) (b := 2 * (oy + (7 * m - 1) / 2 : Nat)) (m := m) (v := v) (d := d)
    (by rw [abs_le]; constructor <;> omega) (by rw [abs_le]; constructor <;> omega) hd hm (by omega) hv
  obtain ⟨τ, hτ, τ0⟩ := lit_pos (n := 1) (d := 10) (by norm_num) (by norm_num) (by norm_num) (by norm_num)
  have hdiff : F64.gt (diff (F64.fin (m : ℚ)) (F64.fin (m : ℚ))) (F64.lit 1 10) = false := by
    rw [diff_same hm, hτ, gt_fin, decide_eq_false_iff_not, not_lt]; exact τ0
  have l1 : (exactCandidate m ox oy).location = ⟨hf (2 * ox + 7 * m), hf (2 * (oy + (7 * m - 1) / 2 : Nat))⟩ := by
    unfold exactCandidate; simp only; rw [hf_ofNat (by omega)]
  have l2 : (exactCandidate m (ox + d) oy).location =
      ⟨hf (2 * ox + 7 * m + 2 * d), hf (2 * (oy + (7 * m - 1) / 2 : Nat))⟩ := by
    unfold exactCandidate; simp only; rw [hf_ofNat (by omega)]
    congr 2
    push_cast; ring
  have l3 : (exactCandidate m ox (oy + d)).location =
      ⟨hf (2 * ox + 7 * m), hf (2 * (oy + (7 * m - 1) / 2 : Nat) + 2 * d)⟩ := by
    unfold exactCandidate; simp only; rw [hf_ofNat (by omega)]
    congr 2
    push_cast; ring
  have hs : ∀ fx fy, (exactCandidate m fx fy).module_size = .fin (m : ℚ) := fun _ _ => rfl
  have empty3 : ∀ c1 c2, locations3 c1 c2 [] = .ret [] := fun _ _ => rfl
  have empty2 : ∀ c1, locations2 c1 [] = .ret [] := fun _ => rfl
  have empty1 : locations [] = .ret [] := rfl
  have three : locations3 (exactCandidate m ox oy) (exactCandidate m (ox + d) oy) [exactCandidate m ox (oy + d)] =
      .ret [⟨(exactCandidate m ox oy).location, (exactCandidate m (ox + d) oy).location,
        (exactCandidate m ox (oy + d)).location, .fin m, v⟩] := by
    unfold locations3
    rw [hs, hs, hdiff]
    simp only [Bool.false_eq_true, if_false]
    rw [l1, l2, l3, hq (by omega), Run.ret_bind]
    simp only
    rw [empty3, Run.ret_bind]
    rfl
  have two2 : ∀ a b c d : Nat, locations2 (exactCandidate m a b) [exactCandidate m c d] = .ret [] := by
    intro a b c d
    unfold locations2
    rw [hs, hs, hdiff]
    simp only [Bool.false_eq_true, if_false]
    rw [empty3, Run.ret_bind, empty2, Run.ret_bind]
    rfl
  have two3 : locations2 (exactCandidate m ox oy) [exactCandidate m (ox + d) oy, exactCandidate m ox (oy + d)] =
      .ret [⟨(exactCandidate m ox oy).location, (exactCandidate m (ox + d) oy).location,
        (exactCandidate m ox (oy + d)).location, .fin m, v⟩] := by
    rw [locations2, hs, hs, hdiff]
    simp only [Bool.false_eq_true, if_false]
    rw [three, Run.ret_bind, two2, Run.ret_bind]
    rfl
  rw [locations, two3, Run.ret_bind, locations, two2, Run.ret_bind, locations, empty2, Run.ret_bind, empty1, Run.ret_bind]
  rfl

end LineScan
end Verif
