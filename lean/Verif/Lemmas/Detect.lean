import Verif.Lemmas.Geometry
import Verif.Spec.Geometry

/-!
# From candidates to locations
-/
namespace Verif
open F64 LineScan Spec

/-- A relative difference that is not above the limit. -/
theorem diff_le {a b τ : ℚ} (ha : 0 ≤ a) (hb : 0 ≤ b) (ha' : a ≤ 2 ^ 60) (hb' : b ≤ 2 ^ 60)
    (h1 : 1 ≤ max a b) (h : F64.gt (diff (.fin a) (.fin b)) (.fin τ) = false) :
    |a - b| ≤ (τ + 3 * uQ) * max a b := by
  have key : ∀ a b : ℚ, 0 ≤ b → b ≤ a → a ≤ 2 ^ 60 → 1 ≤ a →
      F64.gt ((F64.fin a - .fin b) / .fin a) (.fin τ) = false → a - b ≤ (τ + 3 * uQ) * a := by
    intro a b hb hba ha' h1 h
    have hd : |a - b| ≤ a := by rw [abs_le]; constructor <;> linarith
    have hr := round_u h1 hd
    rw [sub_fin (by linarith)] at h
    have hu := uQ_pos
    have hu1 := uQ_small
    generalize roundQ (a - b) = d at *
    have hau : a * uQ ≤ a := by nlinarith
    have hq : |d / a| ≤ 2 := by
      rw [abs_div, abs_of_pos (show 0 < a by linarith), div_le_iff₀ (by linarith)]
      rw [abs_le] at *; constructor <;> linarith [hr.1, hr.2]
    rw [div_fin (by linarith) (by linarith), gt_fin, decide_eq_false_iff_not, not_lt] at h
    have hr2 := round_u (q := d / a) (B := 2) (by norm_num) hq
    have h2 : d / a ≤ τ + 2 * uQ := by rw [abs_le] at hr2; linarith [hr2.1]
    rw [div_le_iff₀ (by linarith)] at h2
    rw [abs_le] at hr
    linarith [hr.1]
  unfold diff at h
  rw [gt_fin] at h
  by_cases hab : b < a
  · simp only [hab, decide_true, if_true] at h
    rw [max_eq_left (le_of_lt hab)] at *
    rw [abs_of_pos (by linarith)]
    exact key a b hb (le_of_lt hab) ha' h1 h
  · simp only [hab, decide_false, Bool.false_eq_true, if_false] at h
    have hab := not_lt.mp hab
    rw [max_eq_right hab] at *
    rw [abs_sub_comm, abs_of_nonneg (by linarith)]
    exact key b a ha hab hb' h1 h

theorem lit_15 : ∃ τ : ℚ, F64.lit 15 100 = .fin τ ∧ |τ - 15 / 100| ≤ uQ := by
  refine ⟨_, lit_eq (by norm_num) (by norm_num), ?_⟩
  have := round_u (q := ((15 : Nat) : ℚ) / (100 : Nat)) (B := 1) (by norm_num) (by norm_num)
  push_cast at this ⊢; rw [one_mul] at this; exact this

theorem lit_05 : ∃ τ : ℚ, F64.lit 5 100 = .fin τ ∧ |τ - 5 / 100| ≤ uQ := by
  refine ⟨_, lit_eq (by norm_num) (by norm_num), ?_⟩
  have := round_u (q := ((5 : Nat) : ℚ) / (100 : Nat)) (B := 1) (by norm_num) (by norm_num)
  push_cast at this ⊢; rw [one_mul] at this; exact this

/-- Two legs of similar computed lengths are similar, and comparable with `M`. -/
theorem legs {A B L K M : ℚ} (hM : 1 ≤ M) (hL0 : 0 ≤ L) (hK0 : 0 ≤ K)
    (hL : |L ^ 2 - A| ≤ 25 * (M ^ 2 * uQ)) (hK : |K ^ 2 - B| ≤ 25 * (M ^ 2 * uQ))
    (hd : |L - K| ≤ 1501 / 10000 * max L K) (hM' : M ^ 2 ≤ A ∨ M ^ 2 ≤ B ∨ M = 1) (h2 : 2 ≤ max L K) :
    (72 * A ≤ 100 * B ∧ 72 * B ≤ 100 * A) ∧ 8 / 10 * M ≤ L ∧ 8 / 10 * M ≤ K ∧
      M ^ 2 * uQ ≤ L * K / 10 ^ 12 ∧ (|L ^ 2 - A| ≤ L ^ 2 / 10 ^ 13 ∧ |K ^ 2 - B| ≤ K ^ 2 / 10 ^ 13) := by
  have hu := uQ_pos
  have hu1 := uQ_small
  have key : ∀ A B L K : ℚ, 0 ≤ L → 0 ≤ K → |L ^ 2 - A| ≤ 25 * (M ^ 2 * uQ) → |K ^ 2 - B| ≤ 25 * (M ^ 2 * uQ) →
      L - K ≤ 1501 / 10000 * L → K ≤ L → (M ^ 2 ≤ A ∨ M ^ 2 ≤ B ∨ M = 1) → 2 ≤ L →
      (72 * A ≤ 100 * B ∧ 72 * B ≤ 100 * A) ∧ 8 / 10 * M ≤ L ∧ 8 / 10 * M ≤ K ∧
      M ^ 2 * uQ ≤ L * K / 10 ^ 12 ∧ (|L ^ 2 - A| ≤ L ^ 2 / 10 ^ 13 ∧ |K ^ 2 - B| ≤ K ^ 2 / 10 ^ 13) := by
    intro A B L K hL0 hK0 hL hK hd hKL hM' h2
    have hMu : M ^ 2 * uQ ≤ M ^ 2 / 10 ^ 15 := by
      have := mul_le_mul_of_nonneg_left hu1 (show 0 ≤ M ^ 2 by positivity)
      linarith
    have hKL2 : K ^ 2 ≤ L ^ 2 := pow_le_pow_left₀ hK0 hKL 2
    have hL' := hL
    have hK' := hK
    rw [abs_le] at hL hK
    have hML : M ^ 2 ≤ 101 / 100 * L ^ 2 := by
      rcases hM' with h | h | h
      · linarith [hL.1, hL.2]
      · linarith [hK.1, hK.2]
      · subst h; nlinarith
    have hK3 : (8499 / 10000 * L) ^ 2 ≤ K ^ 2 := pow_le_pow_left₀ (by positivity) (by linarith) 2
    have hK4 : 7223 / 10000 * L ^ 2 ≤ K ^ 2 := by nlinarith
    have hLK : L * K ≥ 8499 / 10000 * L ^ 2 := by nlinarith
    have hMsq : (8 / 10 * M) ^ 2 ≤ K ^ 2 := by nlinarith
    have hMK : 8 / 10 * M ≤ K := le_of_sq_le_sq hMsq hK0
    refine ⟨⟨by linarith [hL.1, hL.2, hK.1, hK.2], by linarith [hL.1, hL.2, hK.1, hK.2]⟩, by linarith, hMK, ?_, ?_, ?_⟩
    · linarith
    · refine le_trans hL' ?_; linarith
    · refine le_trans hK' ?_; linarith
  rcases le_total K L with h | h
  · rw [max_eq_left h] at *
    rw [abs_of_nonneg (by linarith)] at hd
    exact key A B L K hL0 hK0 hL hK hd h hM' h2
  · rw [max_eq_right h] at *
    rw [abs_sub_comm, abs_of_nonneg (by linarith)] at hd
    obtain ⟨⟨a, b⟩, c, d, e, f, g⟩ := key B A K L hK0 hL0 hK hL hd h (by tauto) h2
    exact ⟨⟨b, a⟩, d, c, by rw [mul_comm L K]; exact e, g, f⟩

/-- The perpendicularity test, passed. -/
theorem perp_spec {c L K M : ℚ} (hM : 1 ≤ M) (hM' : M ≤ 2 ^ 40) (hL : 8 / 10 * M ≤ L) (hK : 8 / 10 * M ≤ K)
    (hc : |c| ≤ 3 * M ^ 2)
    (h : F64.gt ((F64.fin (-c) / .fin L / .fin K).abs - F64.lit 1).abs (F64.lit 5 100) = false) :
    949 / 1000 * (L * K) ≤ |c| ∧ (F64.gt (F64.fin (-c) / .fin L / .fin K) (F64.lit 0) = decide (c < 0)) ∧ c ≠ 0 := by
  have hu := uQ_pos
  have hu1 := uQ_small
  have hL0 : 0 < L := by linarith
  have hK0 : 0 < K := by linarith
  have b1 : |(-c) / L| ≤ 4 * M := by
    rw [abs_div, abs_neg, abs_of_pos hL0, div_le_iff₀ hL0]; nlinarith
  have r1 := round_u (q := (-c) / L) (B := 4 * M) (by linarith) b1
  rw [div_fin (ne_of_gt hL0) (by linarith)] at h ⊢
  have s1 : 0 < -c → 0 ≤ roundQ (-c / L) := fun h => roundQ_nonneg (by positivity)
  have s2 : -c ≤ 0 → roundQ (-c / L) ≤ 0 := fun h => roundQ_nonpos (div_nonpos_of_nonpos_of_nonneg h (le_of_lt hL0))
  generalize roundQ (-c / L) = P1 at *
  have b2 : |P1 / K| ≤ 7 := by
    rw [abs_div, abs_of_pos hK0, div_le_iff₀ hK0]
    have : M * uQ ≤ M / 100 := by nlinarith
    rw [abs_le] at *; constructor <;> linarith [r1.1, r1.2, b1.1, b1.2]
  have r2 := round_u (q := P1 / K) (B := 7) (by norm_num) b2
  rw [div_fin (ne_of_gt hK0) (by linarith)] at h ⊢
  have s3 : 0 ≤ P1 → 0 ≤ roundQ (P1 / K) := fun h => roundQ_nonneg (by positivity)
  have s4 : P1 ≤ 0 → roundQ (P1 / K) ≤ 0 := fun h => roundQ_nonpos (div_nonpos_of_nonpos_of_nonneg h (le_of_lt hK0))
  generalize roundQ (P1 / K) = P at *
  have hPb : |P| ≤ 8 := by
    rw [abs_le] at *; constructor <;> linarith [r2.1, r2.2, b2.1, b2.2]
  have b3 : |(|P| - 1)| ≤ 8 := by
    have := abs_nonneg P
    rw [abs_le]; constructor <;> linarith
  obtain ⟨τ, hτ, hτ'⟩ := lit_05
  rw [abs_fin, lit_nat (by norm_num), Nat.cast_one, sub_fin (by linarith), abs_fin, hτ, gt_fin,
    decide_eq_false_iff_not, not_lt] at h
  have r3 := round_u (q := |P| - 1) (B := 8) (by norm_num) b3
  have hP : 9499 / 10000 ≤ |P| := by
    rw [abs_le] at h r3 hτ'
    linarith [h.1, r3.1, r3.2, hτ'.1, hτ'.2]
  have hP0 : P ≠ 0 := by intro h0; rw [h0] at hP; norm_num at hP
  have hP1 : 94989 / 100000 * K ≤ |P1| := by
    have h1 : |P| ≤ |P1 / K| + 7 * uQ := by
      have : P = P1 / K + (P - P1 / K) := by ring
      calc |P| = |P1 / K + (P - P1 / K)| := by rw [← this]
        _ ≤ _ := abs_add_le _ _
        _ ≤ _ := by linarith
    rw [abs_div, abs_of_pos hK0] at h1
    have h2 : 94989 / 100000 ≤ |P1| / K := by linarith
    rwa [le_div_iff₀ hK0] at h2
  have hcl : 949 / 1000 * (L * K) ≤ |c| := by
    have h1 : |P1| ≤ |-c / L| + 4 * M * uQ := by
      have : P1 = -c / L + (P1 - -c / L) := by ring
      calc |P1| = |-c / L + (P1 - -c / L)| := by rw [← this]
        _ ≤ _ := abs_add_le _ _
        _ ≤ _ := by linarith
    rw [abs_div, abs_neg, abs_of_pos hL0] at h1
    have hMu : 4 * M * uQ ≤ K / 10 ^ 6 := by
      have : M * uQ ≤ M / 10 ^ 15 := by nlinarith
      linarith
    have h2 : 9497 / 10000 * K ≤ |c| / L := by linarith
    rw [le_div_iff₀ hL0] at h2
    nlinarith
  have hc0 : c ≠ 0 := by
    intro h0
    rw [h0, abs_zero] at hcl
    have : 0 < L * K := by positivity
    linarith
  refine ⟨hcl, ?_, hc0⟩
  rw [lit_nat (by norm_num), Nat.cast_zero, gt_fin]
  rw [decide_eq_decide]
  constructor
  · intro hp
    by_contra hcn
    have := s2 (by linarith)
    have := s4 this
    linarith
  · intro hcn
    have := s1 (by linarith)
    have := s3 this
    exact lt_of_le_of_ne this (Ne.symm hP0)

/-- The number of modules computed from a distance. -/
theorem modules_spec {L m : ℚ} (hL : 0 ≤ L) (hL' : L ≤ 2 ^ 33) (hm : 1 ≤ m) :
    ∃ n : Nat, (((F64.fin L / .fin m + F64.lit 7) - F64.lit 1) / F64.lit 4).round.toU32 = n ∧
      |L / m + 6 - 4 * n| ≤ 2 + 1 / 1000 := by
  have hm0 : 0 < m := by linarith
  have hq0 : 0 ≤ L / m := by positivity
  have hq1 : L / m ≤ 2 ^ 33 := by rw [div_le_iff₀ hm0]; nlinarith
  have r1 := round_near (q := L / m) (B := 2 ^ 33) (by norm_num) (by rw [abs_of_nonneg hq0]; exact hq1)
  rw [div_fin (ne_of_gt hm0) (by rw [abs_of_nonneg hq0]; linarith), lit_nat (by norm_num), lit_nat (by norm_num),
    lit_nat (by norm_num)]
  generalize roundQ (L / m) = e1 at *
  rw [abs_le] at r1
  have b2 : |e1 + ((7 : Nat) : ℚ)| ≤ 2 ^ 34 := by
    push_cast; rw [abs_le]; constructor <;> linarith [r1.1, r1.2]
  have r2 := round_near (q := e1 + ((7 : Nat) : ℚ)) (B := 2 ^ 34) (by norm_num) b2
  rw [add_fin (by linarith)]
  generalize roundQ (e1 + ((7 : Nat) : ℚ)) = e2 at *
  rw [abs_le] at r2
  push_cast at r2
  have b3 : |e2 - ((1 : Nat) : ℚ)| ≤ 2 ^ 34 := by
    push_cast; rw [abs_le]; constructor <;> linarith [r1.1, r1.2, r2.1, r2.2]
  have r3 := round_near (q := e2 - ((1 : Nat) : ℚ)) (B := 2 ^ 34) (by norm_num) b3
  rw [sub_fin (by linarith)]
  generalize roundQ (e2 - ((1 : Nat) : ℚ)) = e3 at *
  rw [abs_le] at r3
  push_cast at r3
  have b4 : |e3 / ((4 : Nat) : ℚ)| ≤ 2 ^ 32 := by
    push_cast
    rw [abs_le]; constructor <;> linarith [r1.1, r1.2, r2.1, r2.2, r3.1, r3.2]
  have r4 := round_near (q := e3 / ((4 : Nat) : ℚ)) (B := 2 ^ 32) (by norm_num) b4
  rw [div_fin (by norm_num) (by linarith)]
  generalize roundQ (e3 / ((4 : Nat) : ℚ)) = e4 at *
  rw [abs_le] at r4
  push_cast at r4
  have hb : 0 ≤ e4 ∧ e4 ≤ 2 ^ 31 + 10 := by
    constructor <;> linarith [r1.1, r1.2, r2.1, r2.2, r3.1, r3.2, r4.1, r4.2]
  rw [round_toU32 (by rw [abs_of_nonneg hb.1]; linarith [hb.2])]
  have hn := roundAway_near e4
  have g1 := roundAway_mono hb.1
  have g2 := roundAway_mono hb.2
  rw [show (0 : ℚ) = ((0 : Int) : ℚ) by norm_num, roundAway_int] at g1
  rw [show (2 ^ 31 + 10 : ℚ) = ((2 ^ 31 + 10 : Int) : ℚ) by norm_num, roundAway_int] at g2
  refine ⟨_, rfl, ?_⟩
  generalize roundAway e4 = z at *
  have hz : ((min z.toNat (2 ^ 32 - 1) : Nat) : ℚ) = (z : ℚ) := by
    have h1 : ((min z.toNat (2 ^ 32 - 1) : Nat) : Int) = z := by omega
    exact_mod_cast congrArg (Int.cast (R := ℚ)) h1
  rw [hz]
  rw [abs_le] at hn ⊢
  constructor <;> linarith [r1.1, r1.2, r2.1, r2.2, r3.1, r3.2, r4.1, r4.2, hn.1, hn.2]

/-- The location stands for three points that make a QR symbol. -/
def LocatedAt (qr : QRLocation) (tl tr bl : Pt) (m : ℚ) : Prop :=
  qr.top_left = ⟨.fin tl.1, .fin tl.2⟩ ∧ qr.top_right = ⟨.fin tr.1, .fin tr.2⟩ ∧
  qr.bottom_left = ⟨.fin bl.1, .fin bl.2⟩ ∧ qr.module_size = .fin m

theorem le_max4 (a b c d : ℚ) : ∃ M : ℚ, 1 ≤ M ∧ |a| ≤ M ∧ |b| ≤ M ∧ |c| ≤ M ∧ |d| ≤ M ∧
    (M ^ 2 ≤ a ^ 2 + b ^ 2 ∨ M ^ 2 ≤ c ^ 2 + d ^ 2 ∨ M = 1) ∧ (∀ W : ℚ, 1 ≤ W → |a| ≤ W → |b| ≤ W →
      |c| ≤ W → |d| ≤ W → M ≤ W) := by
  refine ⟨max 1 (max (max |a| |b|) (max |c| |d|)), le_max_left _ _, ?_, ?_, ?_, ?_, ?_, ?_⟩
  · exact le_trans (le_max_left _ _) (le_trans (le_max_left _ _) (le_max_right _ _))
  · exact le_trans (le_max_right _ _) (le_trans (le_max_left _ _) (le_max_right _ _))
  · exact le_trans (le_max_left _ _) (le_trans (le_max_right _ _) (le_max_right _ _))
  · exact le_trans (le_max_right _ _) (le_trans (le_max_right _ _) (le_max_right _ _))
  · have ha := sq_nonneg a
    have hb := sq_nonneg b
    have hc := sq_nonneg c
    have hd := sq_nonneg d
    rcases max_choice 1 (max (max |a| |b|) (max |c| |d|)) with h | h
    · exact Or.inr (Or.inr h)
    · rw [h]
      rcases max_choice (max |a| |b|) (max |c| |d|) with h | h
      · rw [h]
        rcases max_choice |a| |b| with h | h
        · rw [h, sq_abs]; left; linarith
        · rw [h, sq_abs]; left; linarith
      · rw [h]
        rcases max_choice |c| |d| with h | h
        · rw [h, sq_abs]; right; left; linarith
        · rw [h, sq_abs]; right; left; linarith
  · intro W h1 h2 h3 h4 h5
    exact max_le h1 (max_le (max_le h2 h3) (max_le h4 h5))

theorem le_of_sq {L W : ℚ} (hW : 0 ≤ W) (h : L ^ 2 ≤ W ^ 2) : L ≤ W := le_of_sq_le_sq h hW

theorem near_prod {A B L K : ℚ} (hA : 0 ≤ A) (hB : 0 ≤ B) (h1 : |L ^ 2 - A| ≤ L ^ 2 / 10 ^ 13)
    (h2 : |K ^ 2 - B| ≤ K ^ 2 / 10 ^ 13) : A * B ≤ 10001 / 10000 * (L * K) ^ 2 := by
  rw [abs_le] at h1 h2
  have g1 : A ≤ 100001 / 100000 * L ^ 2 := by
    have : 0 ≤ L ^ 2 := by positivity
    linarith [h1.1]
  have g2 : B ≤ 100001 / 100000 * K ^ 2 := by
    have : 0 ≤ K ^ 2 := by positivity
    linarith [h2.1]
  have h := mul_le_mul g1 g2 hB (by positivity)
  refine le_trans h ?_
  have e : 100001 / 100000 * L ^ 2 * (100001 / 100000 * K ^ 2) = (100001 / 100000) ^ 2 * (L * K) ^ 2 := by ring
  rw [e]
  exact mul_le_mul_of_nonneg_right (by norm_num) (by positivity)

theorem fits_version {B K m : ℚ} {n : Nat} (hm : 1 ≤ m) (hn5 : 5 ≤ n) (hnb : n ≤ 2 ^ 30) (hK0 : 0 ≤ K)
    (hnn : |K / m + 6 - 4 * n| ≤ 2 + 1 / 1000) (h : |K ^ 2 - B| ≤ K ^ 2 / 10 ^ 13) :
    FitsVersion B m (n - 4) := by
  have hcast : ((n - 4 : Nat) : ℚ) = (n : ℚ) - 4 := by push_cast [show 4 ≤ n by omega]; ring
  have hn5' : (5 : ℚ) ≤ n := by exact_mod_cast hn5
  have hnb' : (n : ℚ) ≤ 2 ^ 30 := by exact_mod_cast hnb
  unfold FitsVersion
  rw [hcast]
  generalize (n : ℚ) = n at *
  rw [abs_le] at h hnn
  have hK1 : K / m * m = K := by field_simp
  have k1 : (4 * n - 8002 / 1000) * m ≤ K := by
    rw [← hK1]; apply mul_le_mul_of_nonneg_right _ (by linarith); linarith [hnn.1]
  have k2 : K ≤ (4 * n - 3998 / 1000) * m := by
    rw [← hK1]; apply mul_le_mul_of_nonneg_right _ (by linarith); linarith [hnn.2]
  have k1' := pow_le_pow_left₀ (mul_nonneg (by linarith) (by linarith)) k1 2
  have k2' := pow_le_pow_left₀ hK0 k2 2
  rw [mul_pow] at k1' k2' ⊢
  rw [mul_pow]
  have hm2 : 0 < m ^ 2 := by positivity
  have hK2 : 0 ≤ K ^ 2 := by positivity
  constructor
  · have h1 : (4 * (n - 4) + 10 - 21 / 10) ^ 2 ≤ (1 - 1 / 10 ^ 12) * (4 * n - 8002 / 1000) ^ 2 := by nlinarith
    have h2 := mul_le_mul_of_nonneg_right h1 (le_of_lt hm2)
    rw [mul_assoc] at h2
    linarith [h.2]
  · have h1 : (1 + 1 / 10 ^ 12) * (4 * n - 3998 / 1000) ^ 2 ≤ (4 * (n - 4) + 10 + 21 / 10) ^ 2 := by nlinarith
    have h2 := mul_le_mul_of_nonneg_right h1 (le_of_lt hm2)
    rw [mul_assoc] at h2
    linarith [h.1]

/-- `find_qr_internal` returns, and what it finds is a proper geometry. -/
theorem findQrInternal_ret {one two three : Pt} {m : ℚ} (hm : 1 ≤ m)
    (h2x : |two.1 - one.1| ≤ 2 ^ 32) (h2y : |two.2 - one.2| ≤ 2 ^ 32)
    (h3x : |three.1 - one.1| ≤ 2 ^ 32) (h3y : |three.2 - one.2| ≤ 2 ^ 32)
    (hC63 : |(two.1 - one.1) * (three.2 - one.2) - (two.2 - one.2) * (three.1 - one.1)| ≤ 2 ^ 63) :
    ∃ r, findQrInternal ⟨.fin one.1, .fin one.2⟩ ⟨.fin two.1, .fin two.2⟩ ⟨.fin three.1, .fin three.2⟩ (.fin m)
        = .ret r ∧
      ∀ qr, r = some qr → ∃ tr bl, ((tr = two ∧ bl = three) ∨ (tr = three ∧ bl = two)) ∧
        LocatedAt qr one tr bl m ∧ ProperGeometry one tr bl m qr.version := by
  obtain ⟨x1, y1⟩ := one
  obtain ⟨x2, y2⟩ := two
  obtain ⟨x3, y3⟩ := three
  simp only at h2x h2y h3x h3y hC63
  obtain ⟨M, hM, ma, mb, mc, md, hMat, hMle⟩ := le_max4 (x2 - x1) (y2 - y1) (x3 - x1) (y3 - y1)
  have hM31 : M ≤ 2 ^ 32 := hMle _ (by norm_num) h2x h2y h3x h3y
  have hM40 : M ≤ 2 ^ 40 := by linarith
  have hMM : M ^ 2 ≤ (2 ^ 32) ^ 2 := pow_le_pow_left₀ (by linarith) hM31 2
  have hu := uQ_pos
  have hu1 := uQ_small
  have hMu : M ^ 2 * uQ ≤ M ^ 2 / 10 ^ 15 := by
    have := mul_le_mul_of_nonneg_left hu1 (show 0 ≤ M ^ 2 by positivity)
    linarith
  obtain ⟨L, eL, -, hL0, hL⟩ := len_fin hM hM40 ma mb
  obtain ⟨K, eK, eK', hK0, hK⟩ := len_fin hM hM40 mc md
  obtain ⟨c, ec, hc⟩ := cross_fin hM hM40 ma mb mc md
  have hsq : ∀ z : ℚ, |z| ≤ M → z ^ 2 ≤ M ^ 2 := by
    intro z hz
    exact sq_le_sq' (by rw [abs_le] at hz; linarith [hz.1]) (le_of_abs_le hz)
  have hK' := hK
  have hL' := hL
  rw [abs_le] at hK' hL'
  have hKb : K ≤ 3 / 2 * 2 ^ 32 := by
    apply le_of_sq (by norm_num)
    have a1 := hsq _ mc
    have a2 := hsq _ md
    have : K ^ 2 ≤ 9 / 4 * M ^ 2 := by linarith [hK'.2]
    refine le_trans this ?_
    rw [mul_pow]
    linarith
  have hLb : L ≤ 3 / 2 * 2 ^ 32 := by
    apply le_of_sq (by norm_num)
    have a1 := hsq _ ma
    have a2 := hsq _ mb
    have : L ^ 2 ≤ 9 / 4 * M ^ 2 := by linarith [hL'.2]
    refine le_trans this ?_
    rw [mul_pow]
    linarith
  obtain ⟨n, hn, hnn⟩ := modules_spec hK0 (by linarith) hm
  unfold findQrInternal
  simp only [dist]
  rw [eL, eK, eK', ec, hn]
  have hm0 : 0 < m := by linarith
  have hKm : K / m ≤ K := by rw [div_le_iff₀ hm0]; nlinarith
  by_cases t1 : F64.gt (diff (F64.fin L) (F64.fin K)) (F64.lit 15 100) = true
  · rw [t1]
    exact ⟨none, rfl, by simp⟩
  · rw [Bool.not_eq_true] at t1
    simp only [t1, Bool.false_eq_true, if_false]
    by_cases t2 : F64.gt ((F64.fin (-c) / F64.fin L / F64.fin K).abs - F64.lit 1).abs (F64.lit 5 100) = true
    · rw [t2]
      exact ⟨none, rfl, by simp⟩
    · rw [Bool.not_eq_true] at t2
      simp only [t2, Bool.false_eq_true, if_false]
      by_cases hn5 : n < 5
      · have e1 : mulU32 4 n = .ret (4 * n) := by unfold mulU32; rw [if_pos (by omega)]
        rw [e1, Run.ret_bind, addU32_ret (by omega), Run.ret_bind, if_pos (by omega)]
        exact ⟨none, rfl, by simp⟩
      · have hn5 : 5 ≤ n := by omega
        -- sizes
        have hn5' : (5 : ℚ) ≤ n := by exact_mod_cast hn5
        have hnn' := hnn
        rw [abs_le] at hnn
        have hKm11 : 11 ≤ K / m := by linarith [hnn.1]
        have hK11 : 11 ≤ K := by linarith
        obtain ⟨τ, hτ, hτ'⟩ := lit_15
        rw [hτ] at t1
        have hdiff := diff_le hL0 hK0 (by linarith) (by linarith)
          (le_trans (by linarith) (le_max_right L K)) t1
        have hmax : 2 ≤ max L K := le_trans (by linarith) (le_max_right L K)
        have hdiff' : |L - K| ≤ 1501 / 10000 * max L K := by
          refine le_trans hdiff (mul_le_mul_of_nonneg_right ?_ (by linarith))
          rw [abs_le] at hτ'
          linarith [hτ'.2]
        obtain ⟨⟨s1, s2⟩, l1, l2, l3, l4, l5⟩ := legs hM hL0 hK0 hL hK hdiff' hMat hmax
        have hcb : |c| ≤ 3 * M ^ 2 := by
          have b1 : |(x2 - x1) * (y3 - y1)| ≤ M ^ 2 := by
            rw [abs_mul, pow_two]; exact mul_le_mul ma md (abs_nonneg _) (by linarith)
          have b2 : |(y2 - y1) * (x3 - x1)| ≤ M ^ 2 := by
            rw [abs_mul, pow_two]; exact mul_le_mul mb mc (abs_nonneg _) (by linarith)
          rw [abs_le] at *
          constructor <;> linarith [hc.1, hc.2, b1.1, b1.2, b2.1, b2.2]
        obtain ⟨p1, p2, p3⟩ := perp_spec hM hM40 l1 l2 hcb t2
        -- the exact cross product
        have hLK : 0 < L * K := by
          have : 0 < L := by linarith
          have : 0 < K := by linarith
          positivity
        have hcC : |c - ((x2 - x1) * (y3 - y1) - (y2 - y1) * (x3 - x1))| ≤ L * K / 10 ^ 8 := by
          refine le_trans hc ?_; linarith
        have hn2 : 4 * n + 1 < 2 ^ 32 := by
          have hLK8 : 848 / 1000 * K ≤ L := by
            apply le_of_sq hL0
            rw [abs_le] at l4 l5
            have : 0 ≤ K ^ 2 := by positivity
            have : 0 ≤ L ^ 2 := by positivity
            rw [mul_pow]
            linarith [l4.1, l4.2, l5.1, l5.2]
          have hcK : 949 / 1000 * (848 / 1000 * K ^ 2) ≤ |c| := by
            refine le_trans ?_ p1
            have := mul_le_mul_of_nonneg_right hLK8 hK0
            linarith
          have hcc : |c| ≤ 2 ^ 63 + K ^ 2 / 10 ^ 7 := by
            have e : c = ((x2 - x1) * (y3 - y1) - (y2 - y1) * (x3 - x1)) +
              (c - ((x2 - x1) * (y3 - y1) - (y2 - y1) * (x3 - x1))) := by ring
            have hLK2 : L * K ≤ 2 * K ^ 2 := by
              have : L ≤ 2 * K := by
                apply le_of_sq (by linarith)
                rw [abs_le] at l4 l5
                have : 0 ≤ K ^ 2 := by positivity
                have : 0 ≤ L ^ 2 := by positivity
                rw [mul_pow]
                linarith [l4.1, l4.2, l5.1, l5.2]
              have := mul_le_mul_of_nonneg_right this hK0
              linarith
            calc |c| = |((x2 - x1) * (y3 - y1) - (y2 - y1) * (x3 - x1)) +
              (c - ((x2 - x1) * (y3 - y1) - (y2 - y1) * (x3 - x1)))| := by rw [← e]
              _ ≤ _ := abs_add_le _ _
              _ ≤ _ := by linarith
          have hK35 : K ≤ 35 * 10 ^ 8 := by
            apply le_of_sq (by norm_num)
            linarith
          have : (4 * (n : ℚ)) + 1 < 2 ^ 32 := by linarith [hnn.1]
          exact_mod_cast this
        have e1 : mulU32 4 n = .ret (4 * n) := by unfold mulU32; rw [if_pos (by omega)]
        rw [e1, Run.ret_bind, addU32_ret hn2, Run.ret_bind, if_neg (show ¬ 4 * n + 1 < 20 by omega)]
        have e2 : checkedSub (4 * n + 1) 17 = .ret (4 * n + 1 - 17) := by
          unfold checkedSub; rw [if_pos (by omega)]
        rw [e2, Run.ret_bind]
        have hv : (4 * n + 1 - 17) / 4 = n - 4 := by omega
        rw [hv, p2]
        -- sine
        have hAB : ((x2 - x1) ^ 2 + (y2 - y1) ^ 2) * ((x3 - x1) ^ 2 + (y3 - y1) ^ 2) ≤
            10001 / 10000 * (L * K) ^ 2 := near_prod (by positivity) (by positivity) l4 l5
        have hsize : FitsVersion ((x3 - x1) ^ 2 + (y3 - y1) ^ 2) m (n - 4) := fits_version hm hn5 (by omega) hK0 hnn' l5
        generalize hC : (x2 - x1) * (y3 - y1) - (y2 - y1) * (x3 - x1) = C at *
        have hCabs : 9489 / 10000 * (L * K) ≤ |C| := by
          have : |c| ≤ |C| + L * K / 10 ^ 8 := by
            have e : c = C + (c - C) := by ring
            calc |c| = |C + (c - C)| := by rw [← e]
              _ ≤ _ := abs_add_le _ _
              _ ≤ _ := by linarith
          linarith
        have hperp : 9 * (((x2 - x1) ^ 2 + (y2 - y1) ^ 2) * ((x3 - x1) ^ 2 + (y3 - y1) ^ 2)) ≤ 10 * C ^ 2 := by
          have := pow_le_pow_left₀ (by positivity) hCabs 2
          rw [sq_abs, mul_pow] at this
          have : 0 ≤ (L * K) ^ 2 := by positivity
          linarith
        by_cases hneg : c < 0
        · simp only [hneg, decide_true, if_true]
          refine ⟨_, rfl, ?_⟩
          intro qr hqr
          injection hqr with hqr
          subst hqr
          have hCneg : C < 0 := by
            rw [abs_le] at hcC
            rw [abs_of_neg hneg] at p1
            linarith [hcC.1]
          refine ⟨(x3, y3), (x2, y2), Or.inr ⟨rfl, rfl⟩, ⟨rfl, rfl, rfl, rfl⟩, ?_⟩
          have hcr : cross (x1, y1) (x3, y3) (x2, y2) = -C := by
            unfold cross; rw [← hC]; simp only; ring
          refine ⟨?_, hm, ?_, ?_, ⟨s2, s1⟩, Or.inl hsize⟩
          · change 1 ≤ n - 4; omega
          · rw [hcr]; linarith
          · rw [hcr, neg_pow_two]; unfold dist2; simp only; rw [mul_comm ((x3 - x1) ^ 2 + _)]; exact hperp
        · simp only [hneg, decide_false, Bool.false_eq_true, if_false]
          refine ⟨_, rfl, ?_⟩
          intro qr hqr
          injection hqr with hqr
          subst hqr
          have hcpos : 0 < c := lt_of_le_of_ne (not_lt.mp hneg) (Ne.symm p3)
          have hCpos : 0 < C := by
            rw [abs_le] at hcC
            rw [abs_of_pos hcpos] at p1
            linarith [hcC.2]
          refine ⟨(x2, y2), (x3, y3), Or.inl ⟨rfl, rfl⟩, ⟨rfl, rfl, rfl, rfl⟩, ?_⟩
          have hcr : cross (x1, y1) (x2, y2) (x3, y3) = C := by
            unfold cross; rw [← hC]
          refine ⟨?_, hm, ?_, ?_, ⟨s1, s2⟩, Or.inr hsize⟩
          · change 1 ≤ n - 4; omega
          · rw [hcr]; exact hCpos
          · rw [hcr]; exact hperp

end Verif
