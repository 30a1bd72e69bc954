import Verif.Lemmas.Ruled

/-!
# All refinements at a finder pattern whose modules differ by a pixel
-/
namespace Verif
namespace LineScan
open F64 FinderPattern Spec

theorem round_val {q : ℚ} (h0 : 0 ≤ q) (hb : q ≤ 2 ^ 31) : |((F64.fin q).round.toU32 : ℚ) - q| ≤ 1 / 2 := by
  have f1 := Nat.floor_le (show 0 ≤ q + 1 / 2 by linarith)
  have f2 := Nat.lt_floor_add_one (q + 1 / 2)
  have hN : ⌊q + 1 / 2⌋₊ ≤ 2 ^ 32 - 1 := by
    have hb2 : q ≤ 2147483648 := by norm_num at hb; exact hb
    have : ((⌊q + 1 / 2⌋₊ : Nat) : ℚ) ≤ 4294967295 := by linarith
    have : ⌊q + 1 / 2⌋₊ ≤ 4294967295 := by exact_mod_cast this
    exact this
  rw [round_of_near (N := ⌊q + 1 / 2⌋₊) (by linarith) (by linarith) h0 (by norm_num at hb ⊢; linarith), min_eq_left hN, abs_le]
  constructor <;> linarith

theorem mean_val {a : ℚ} {t : Nat} (ha : 1 ≤ a) (ha' : a ≤ 2 ^ 29) (h7 : 7 ≤ t) (ht : t < 2 ^ 28) :
    ∃ r : ℚ, (F64.fin a + .fin (modQ t)) / F64.lit 2 = .fin r ∧ |r - (a + t / 7) / 2| ≤ 1 / 2 ^ 20 ∧ 1 ≤ r ∧ r ≤ 2 ^ 29 := by
  have hm := modQ_near (t := t) (by omega)
  have hm1 := modQ_ge_one h7
  have htq : (t : ℚ) < 268435456 := by
    norm_num at ht
    exact_mod_cast ht
  rw [abs_le] at hm
  norm_num at hm
  have hs : |a + modQ t| ≤ 2 ^ 30 := by
    rw [abs_of_nonneg (by linarith)]; norm_num at ha' ⊢; linarith [hm.2]
  have hr := round_near (B := 2 ^ 30) (by norm_num) hs
  have s1 : (2 : ℚ) ≤ roundQ (a + modQ t) := by
    have := nat_le_roundQ (n := 2) (by norm_num) (q := a + modQ t) (by push_cast; linarith)
    exact_mod_cast this
  have s2 : roundQ (a + modQ t) ≤ 2 ^ 30 := by
    have := roundQ_le_nat (n := 2 ^ 30) (by norm_num) (q := a + modQ t) (by push_cast; rw [abs_le] at hs; norm_num at hs ⊢; linarith [hs.2])
    exact_mod_cast this
  have hd : |roundQ (a + modQ t) / ((2 : Nat) : ℚ)| ≤ 2 ^ 29 := by
    rw [abs_of_nonneg (by positivity), div_le_iff₀ (by norm_num)]; push_cast; norm_num at s2 ⊢; linarith
  have hr2 := round_near (B := 2 ^ 29) (by norm_num) hd
  refine ⟨roundQ (roundQ (a + modQ t) / ((2 : Nat) : ℚ)), ?_, ?_, ?_, ?_⟩
  · rw [lit_nat (by norm_num), add_fin (by norm_num at hs ⊢; linarith), div_fin (by norm_num) (by norm_num at hd ⊢; linarith)]
  · rw [abs_le] at *
    norm_num at hr hr2 ⊢
    constructor <;> linarith [hr.1, hr.2, hr2.1, hr2.2, hm.1, hm.2]
  · have := nat_le_roundQ (n := 1) (by norm_num) (q := roundQ (a + modQ t) / ((2 : Nat) : ℚ))
      (by rw [le_div_iff₀ (by norm_num)]; push_cast; linarith)
    exact_mod_cast this
  · have := roundQ_le_nat (n := 2 ^ 29) (by norm_num) (q := roundQ (a + modQ t) / ((2 : Nat) : ℚ))
      (by rw [div_le_iff₀ (by norm_num)]; push_cast; norm_num at s2 ⊢; linarith)
    exact_mod_cast this

/-- Five modules. -/
theorem side_val {μ : ℚ} (h1 : 1 ≤ μ) (h2 : μ ≤ 2 ^ 25) :
    ∃ q : ℚ, F64.lit 5 * F64.fin μ = .fin q ∧ |q - 5 * μ| ≤ 1 / 2 ^ 20 ∧ 5 ≤ q ∧ q ≤ 2 ^ 28 := by
  have hb : |((5 : Nat) : ℚ) * μ| ≤ 2 ^ 28 := by
    rw [abs_of_nonneg (by positivity)]; push_cast; norm_num at h2 ⊢; linarith
  have hr := round_near (B := 2 ^ 28) (by norm_num) hb
  refine ⟨roundQ (((5 : Nat) : ℚ) * μ), ?_, ?_, ?_, ?_⟩
  · rw [lit_nat (by norm_num), mul_fin (by norm_num at hb ⊢; linarith)]
  · push_cast at hr ⊢
    refine le_trans hr ?_
    norm_num
  · have := nat_le_roundQ (n := 5) (by norm_num) (q := ((5 : Nat) : ℚ) * μ) (by push_cast; linarith)
    exact_mod_cast this
  · have := roundQ_le_nat (n := 2 ^ 28) (by norm_num) (q := ((5 : Nat) : ℚ) * μ) (by rw [abs_le] at hb; exact_mod_cast hb.2)
    exact_mod_cast this

/-- The pixel `s` before `p`, at least 0. -/
theorem lower_val {p s : ℚ} (hp : 0 ≤ p) (hp' : p ≤ 2 ^ 28) (hs : 0 ≤ s) (hs' : s ≤ 2 ^ 28) :
    |((((F64.fin p - .fin s).max (F64.lit 0)).round.toU32 : Nat) : ℚ) - max (p - s) 0| ≤ 51 / 100 := by
  have hb : |p - s| ≤ 2 ^ 28 := by rw [abs_le]; constructor <;> linarith
  have hr := round_near (B := 2 ^ 28) (by norm_num) hb
  rw [sub_fin (by norm_num at hb ⊢; linarith), max_zero_fin]
  rw [abs_le] at hr hb
  norm_num at hr hb hp' hs'
  have hv := round_val (q := max (roundQ (p - s)) 0) (le_max_right _ _) (max_le (by norm_num; linarith [hr.2, hb.2]) (by norm_num))
  have hd : |max (roundQ (p - s)) 0 - max (p - s) 0| ≤ 1 / 1000 := by
    rw [abs_le]
    constructor
    · have := max_le_max (show p - s ≤ roundQ (p - s) + 1 / 1000 by linarith [hr.1]) (show (0 : ℚ) ≤ 0 + 1 / 1000 by norm_num)
      rw [max_add_add_right] at this
      linarith
    · have := max_le_max (show roundQ (p - s) ≤ (p - s) + 1 / 1000 by linarith [hr.2]) (show (0 : ℚ) ≤ 0 + 1 / 1000 by norm_num)
      rw [max_add_add_right] at this
      linarith
  rw [abs_le] at *
  constructor <;> linarith [hv.1, hv.2, hd.1, hd.2]

/-- The pixel `s` behind `p`. -/
theorem upper_val {p s : ℚ} (hp : 0 ≤ p) (hp' : p ≤ 2 ^ 28) (hs : 0 ≤ s) (hs' : s ≤ 2 ^ 28) :
    |(((F64.fin p + .fin s).round.toU32 : Nat) : ℚ) - (p + s)| ≤ 51 / 100 := by
  have hb : |p + s| ≤ 2 ^ 29 := by rw [abs_of_nonneg (by linarith)]; norm_num at *; linarith
  have hr := round_near (B := 2 ^ 29) (by norm_num) hb
  rw [add_fin (by norm_num at hb ⊢; linarith)]
  rw [abs_le] at hr hb
  norm_num at hr hb hp' hs'
  have hv := round_val (q := roundQ (p + s)) (roundQ_nonneg (by linarith)) (by norm_num; linarith [hr.2, hb.2])
  rw [abs_le] at *
  constructor <;> linarith [hv.1, hv.2, hr.1, hr.2]

/-- The pixel `s` before `p`, where that is inside. -/
theorem before_val {p s : ℚ} (hs : 0 ≤ s) (hp' : p ≤ 2 ^ 28) (hps : s ≤ p) :
    |(((F64.fin p - .fin s).round.toU32 : Nat) : ℚ) - (p - s)| ≤ 51 / 100 := by
  have hb : |p - s| ≤ 2 ^ 28 := by rw [abs_of_nonneg (by linarith)]; linarith
  have hr := round_near (B := 2 ^ 28) (by norm_num) hb
  rw [sub_fin (by norm_num at hb ⊢; linarith)]
  rw [abs_le] at hr hb
  norm_num at hr hb hp'
  have hv := round_val (q := roundQ (p - s)) (roundQ_nonneg (by linarith)) (by norm_num; linarith [hr.2, hb.2])
  rw [abs_le] at *
  constructor <;> linarith [hv.1, hv.2, hr.1, hr.2]

theorem vertical_window {n d5 d7 T y0 y2 y7 H : Nat} (hn : 8 ≤ n) (h7 : 7 * n ≤ d7) (h7' : d7 ≤ 7 * n + 6)
    (h5 : 7 * d5 ≤ 5 * d7 + 4) (hT1 : d7 ≤ T) (hy : y2 ≤ y0 + 2 * n + 2)
    (hy7 : y7 ≤ y2 + d5 + 1) (hH : y7 + n ≤ H) (hH' : H < 2 ^ 28) :
    (14 * y2 + 7 - 10 * T) / 14 ≤ y0 ∧ 100 * y2 + 100 ≤ 100 * ((14 * y2 + 7 - 10 * T) / 14) + 79 * T ∧
    y7 ≤ min (min ((14 * y2 + 7 + 10 * T) / 14) (2 ^ 32 - 1)) H + 2 := by
  refine ⟨?_, ?_, ?_⟩
  · clear h5 hy7 hH hH'; omega
  · clear h5 hy7 hH hH' hy; omega
  · clear hy h7'; omega

section
variable {img : GrayImage} {x y : Lines} {n d3 d5 d7 : Nat}

/-- The vertical refinement ends at the lower edge, or up to two pixels above it. -/
theorem ruled_vertical (hv : img.Valid) (h : Ruled img x y n d3 d5 d7) (hb : img.width < 2 ^ 28)
    (hb' : img.height < 2 ^ 28) :
    ∃ c ye t, refineVertical img ⟨.fin (centreQ x.a7 (x.a7 - x.a0)), F64.ofNat y.a2⟩ (.fin (modQ (x.a7 - x.a0))) =
        .ret (some (found (.fin (modQ (x.a7 - x.a0))) c ye t)) ∧
      (x.a0 + x.a7 ≤ 2 * c + 1 ∧ 2 * c ≤ x.a0 + x.a7 + 1) ∧
      (ye = y.a7 ∧ t = y.a7 - y.a0 ∨ ye < y.a7 ∧ y.a7 ≤ ye + 3 ∧ t = ye + 1 - y.a0) := by
  obtain ⟨⟨f1, f2, f3, f4, f5, f6, f7, f8, f9, f10, f11⟩, ⟨g1, g2, g3, g4, g5, g6, g7, g8, g9, g10, g11, g12⟩,
    ⟨k1, k2, k3, k4, k5, k6, k7, k8, k9, k10, k11, k12, k13, k14⟩⟩ := h.facts
  obtain ⟨T, hT⟩ : ∃ T, x.a7 = x.a0 + T := ⟨x.a7 - x.a0, by omega⟩
  have hTs : x.a7 - x.a0 = T := by omega
  rw [hTs]
  have T1 : d7 ≤ T := by linarith
  have T2 : T ≤ d7 + 1 := by linarith
  obtain ⟨cc1, cc2⟩ := centre_column (x := x.a7) (t := T) (by linarith) (by linarith) (by linarith)
  obtain ⟨w1, w2, w3⟩ := vertical_window (y0 := y.a0) (y2 := y.a2) (y7 := y.a7) (H := img.height) f1 f4 f5 f6 T1
    (by linarith) k14 f11 hb'
  unfold refineVertical
  simp only
  rw [window_top (by linarith) (by linarith), window_bottom (by linarith) (by linarith)]
  generalize (F64.fin (centreQ x.a7 T)).round.toU32 = c at *
  generalize (14 * y.a2 + 7 - 10 * T) / 14 = top at *
  generalize hbot : min (min ((14 * y.a2 + 7 + 10 * T) / 14) (2 ^ 32 - 1)) img.height = bot at *
  have hbh : bot ≤ img.height := by rw [← hbot]; exact min_le_right _ _
  have hTq := modQ_near (t := T) (by linarith)
  have ms1 : 1 ≤ modQ T := modQ_ge_one (by linarith)
  have ms2 := (modQ_bounds (t := T) (by linarith)).2
  rw [ruled_column hv h (c := c) (by linarith) (by linarith) hbh ms1 ms2 (T := T) (le_trans hTq (by norm_num))
    (by linarith) (by linarith) w1 w2 w3]
  refine ⟨c, _, _, rfl, ⟨by linarith, by linarith⟩, ?_⟩
  have hbp : 1 ≤ bot := by linarith
  clear k1 k2 k3 k4 k5 k6 k7 k8 k9 k10 k11 k12 k13 k14 g1 g2 g3 g4 g5 g6 g7 g8 g9 g10 g11 g12 f2 f3 f4 f5 f6 f7 f8 f9 f10 f11
    hT hTs T1 T2 cc1 cc2 w1 w2 hbot hTq ms1 ms2
  rcases Nat.lt_or_ge y.a7 bot with hlt | hge
  · left
    rw [min_eq_left (by omega), min_eq_right (by omega)]
    exact ⟨rfl, rfl⟩
  · right
    rw [min_eq_right (by omega), min_eq_left hge]
    refine ⟨by omega, by omega, by omega⟩

/-- The horizontal refinement ends at the right edge. -/
theorem ruled_horizontal (hv : img.Valid) (h : Ruled img x y n d3 d5 d7) (hb : img.width < 2 ^ 26) {μ : ℚ} {T c : Nat}
    {fy : F64} (hμ : |μ - (T : ℚ) / 7| ≤ 1 / 8) (hT1 : d7 ≤ T + 1) (hT2 : T ≤ d7 + 1)
    (hc1 : x.a0 + x.a7 ≤ 2 * c + 1) (hc2 : 2 * c ≤ x.a0 + x.a7 + 1)
    (hr1 : y.a2 ≤ fy.round.toU32) (hr2 : fy.round.toU32 < y.a5) :
    refineHorizontal img ⟨.fin c, fy⟩ (.fin μ) =
      .ret (some (found (.fin μ) x.a7 fy.round.toU32 (x.a7 - x.a0))) := by
  obtain ⟨⟨f1, f2, f3, f4, f5, -, -, f8, f9, f10, f11⟩, ⟨g1, g2, g3, g4, g5, g6, g7, g8, g9, g10, g11, g12⟩, -⟩ := h.facts
  have hTb : T ≤ 2 ^ 26 := by linarith
  have hTq : (T : ℚ) ≤ 67108864 := by
    norm_num at hTb
    exact_mod_cast hTb
  have hT56 : (56 : ℚ) ≤ T + 1 := by
    have : 56 ≤ T + 1 := by linarith
    exact_mod_cast this
  have hμ' := hμ
  rw [abs_le] at hμ
  have m1 : 1 ≤ μ := by linarith [hμ.1]
  have m2 : μ ≤ 2 ^ 25 := by norm_num; linarith [hμ.2]
  obtain ⟨s, hs, hs1, hs2, hs3⟩ := side_val m1 m2
  have hcb : (c : ℚ) ≤ 2 ^ 26 := by
    have : c ≤ 2 ^ 26 := by linarith
    exact_mod_cast this
  have hc0 : (0 : ℚ) ≤ c := Nat.cast_nonneg c
  have lo := lower_val (p := c) (s := s) hc0 (by norm_num at hcb ⊢; linarith) (by linarith) hs3
  have up := upper_val (p := c) (s := s) hc0 (by norm_num at hcb ⊢; linarith) (by linarith) hs3
  unfold refineHorizontal
  simp only
  rw [hs]
  generalize ((F64.fin (c : ℚ) - F64.fin s).max (F64.lit 0)).round.toU32 = top at *
  generalize (F64.fin (c : ℚ) + F64.fin s).round.toU32 = bt at *
  rw [abs_le] at lo up hs1
  norm_num at lo up hs1
  have hsT : |s - 5 * (T : ℚ) / 7| ≤ 65 / 100 := by rw [abs_le]; constructor <;> linarith [hs1.1, hs1.2, hμ.1, hμ.2]
  rw [abs_le] at hsT
  -- the window in integers
  have q1 : (x.a0 : ℚ) + x.a7 ≤ 2 * c + 1 := by exact_mod_cast hc1
  have q2 : 2 * (c : ℚ) ≤ x.a0 + x.a7 + 1 := by exact_mod_cast hc2
  have q3 : (x.a0 : ℚ) + d7 ≤ x.a7 := by exact_mod_cast g11
  have q4 : (x.a7 : ℚ) ≤ x.a0 + d7 + 1 := by exact_mod_cast g12
  have q5 : (d7 : ℚ) ≤ T + 1 := by exact_mod_cast hT1
  have q6 : (T : ℚ) ≤ d7 + 1 := by exact_mod_cast hT2
  have q7 : 8 * (n : ℚ) ≥ 64 := by
    have : 8 * n ≥ 64 := by linarith
    exact_mod_cast this
  have q8 : 7 * (n : ℚ) ≤ d7 := by exact_mod_cast f4
  have q9 : (d7 : ℚ) ≤ 7 * n + 6 := by exact_mod_cast f5
  have q10 : (n : ℚ) ≤ x.a0 := by exact_mod_cast f8
  have q11 : (x.a2 : ℚ) ≤ x.a0 + 2 * n + 2 := by
    have : x.a2 ≤ x.a0 + 2 * n + 2 := by linarith
    exact_mod_cast this
  have t1 : top ≤ x.a0 := by
    have : (top : ℚ) ≤ x.a0 := by
      refine le_trans (show (top : ℚ) ≤ max ((c : ℚ) - s) 0 + 51 / 100 by linarith [lo.2]) ?_
      rw [← le_sub_iff_add_le]
      apply max_le <;> linarith [hsT.1]
    exact_mod_cast this
  have t2 : 100 * x.a2 + 100 ≤ 100 * top + 79 * T := by
    have : 100 * (x.a2 : ℚ) + 100 ≤ 100 * top + 79 * T := by
      have := le_max_left ((c : ℚ) - s) 0
      linarith [lo.1, hsT.2]
    exact_mod_cast this
  have t3 : x.a7 + 1 ≤ bt := by
    have : (x.a7 : ℚ) + 1 ≤ bt := by linarith [up.1, hsT.1]
    exact_mod_cast this
  have t3' : x.a7 + 1 ≤ min bt img.width := le_min t3 (by linarith)
  rw [ruled_row hv h (r := fy.round.toU32) hr1 hr2 (min_le_right _ _) m1 (le_trans m2 (by norm_num)) (T := T)
    (le_trans hμ' (by norm_num)) (by linarith) hT2 t1 t2 (by linarith)]
  rw [min_eq_left (by omega), min_eq_right (by omega)]

end
end LineScan
end Verif
