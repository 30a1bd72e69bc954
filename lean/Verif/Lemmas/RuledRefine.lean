import Verif.Lemmas.RuledDiagonal
import Verif.Lemmas.Halves
import Verif.Lemmas.Moves

/-!
# A finder pattern whose modules differ by a pixel is confirmed
-/
namespace Verif
namespace LineScan
open F64 FinderPattern Spec

theorem zero_round : (F64.lit 0).round.toU32 = 0 := by
  rw [hf_lit0, hf_round (by omega) (by omega)]
  rfl

/-- The start of the diagonal. -/
theorem diagonal_start {fx fy s : ℚ} (x0 : 0 ≤ fx) (x1 : fx ≤ 2 ^ 27) (y0 : 0 ≤ fy) (y1 : fy ≤ 2 ^ 27) (s0 : 0 ≤ s) :
    ∃ p q : ℚ, |((diagonalStart ⟨.fin fx, .fin fy⟩ (.fin s)).1.round.toU32 : ℚ) - p| ≤ 51 / 100 ∧
      |((diagonalStart ⟨.fin fx, .fin fy⟩ (.fin s)).2.round.toU32 : ℚ) - q| ≤ 51 / 100 ∧ p - q = fx - fy ∧
      fx - s ≤ p ∧ fy - s ≤ q ∧
      (p = 0 ∧ q = fy - fx ∨ p = fx - fy ∧ q = 0 ∨ p = fx - s ∧ q = fy - s) := by
  have hz : |(((F64.lit 0).round.toU32 : Nat) : ℚ) - 0| ≤ 51 / 100 := by rw [zero_round]; norm_num
  unfold diagonalStart
  simp only
  rw [lt_fin, lt_fin, lt_fin]
  simp only [Bool.and_eq_true, decide_eq_true_eq]
  norm_num at x1 y1
  split
  · rename_i h
    split
    · rename_i h'
      simp only
      exact ⟨0, fy - fx, hz, before_val x0 (by norm_num; linarith) (le_of_lt h'), by ring, by linarith [h.1],
        by linarith [h.1], .inl ⟨rfl, rfl⟩⟩
    · rename_i h'
      rw [not_lt] at h'
      simp only
      exact ⟨fx - fy, 0, before_val y0 (by norm_num; linarith) h', hz, by ring, by linarith [h.2],
        by linarith [h.2], .inr (.inl ⟨rfl, rfl⟩)⟩
  · rename_i h
    split
    · rename_i h'
      have h2 : s ≤ fy := by
        by_contra hc
        exact h ⟨h', not_le.mp hc⟩
      simp only
      exact ⟨0, fy - fx, hz, before_val x0 (by norm_num; linarith) (by linarith), by ring, by linarith,
        by linarith, .inl ⟨rfl, rfl⟩⟩
    · rename_i h1
      split
      · rename_i h2
        simp only
        exact ⟨fx - fy, 0, before_val y0 (by norm_num; linarith) (by linarith), hz, by ring, by linarith,
          by linarith, .inr (.inl ⟨rfl, rfl⟩)⟩
      · rename_i h2
        rw [not_lt] at h1 h2
        simp only
        exact ⟨fx - s, fy - s, before_val s0 (by norm_num; linarith) h1, before_val s0 (by norm_num; linarith) h2, by ring,
          le_refl _, le_refl _, .inr (.inr ⟨rfl, rfl⟩)⟩

theorem nat_le_of_lt {a b : Nat} (h : (a : ℚ) < b + 1) : a ≤ b := by
  have : a < b + 1 := by exact_mod_cast h
  omega

section
variable {img : GrayImage} {x y : Lines} {n d3 d5 d7 : Nat}

/-- The diagonal refinement succeeds. -/
theorem ruled_diagonal (hv : img.Valid) (h : Ruled img x y n d3 d5 d7) (hb : img.width < 2 ^ 26)
    (hb' : img.height < 2 ^ 26) {fx μ : ℚ} {r : Nat} (hfx : |fx - ((x.a0 : ℚ) + x.a7) / 2| ≤ 1 / 100)
    (hr1 : y.a0 + y.a7 ≤ 2 * r + 5) (hr2 : 2 * r ≤ y.a0 + y.a7 + 1) (hμ1 : (d7 : ℚ) / 7 - 1 / 8 ≤ μ)
    (hμ2 : μ ≤ ((d7 : ℚ) + 1) / 7 + 1 / 100) :
    ∃ pos, refineDiagonal img ⟨.fin fx, .fin (r : ℚ)⟩ (.fin μ) = .ret (some pos) := by
  have q1 : (8 : ℚ) ≤ n := by exact_mod_cast h.big
  have q2 : 7 * (n : ℚ) ≤ d7 := by exact_mod_cast h.seven.1
  have q3 : (d7 : ℚ) ≤ 7 * n + 6 := by exact_mod_cast h.seven.2
  have q4 : (n : ℚ) ≤ x.a0 := by exact_mod_cast h.left
  have q5 : (n : ℚ) ≤ y.a0 := by exact_mod_cast h.above
  have q6 : (x.a0 : ℚ) + d7 ≤ x.a7 := by exact_mod_cast h.cols.s07.1
  have q7 : (x.a7 : ℚ) ≤ x.a0 + d7 + 1 := by exact_mod_cast h.cols.s07.2
  have q8 : (y.a0 : ℚ) + d7 ≤ y.a7 := by exact_mod_cast h.rows.s07.1
  have q9 : (y.a7 : ℚ) ≤ y.a0 + d7 + 1 := by exact_mod_cast h.rows.s07.2
  have q10 : (x.a2 : ℚ) + d5 ≤ x.a7 := by exact_mod_cast h.cols.s27.1
  have q11 : (x.a7 : ℚ) ≤ x.a2 + d5 + 1 := by exact_mod_cast h.cols.s27.2
  have q12 : (y.a2 : ℚ) + d5 ≤ y.a7 := by exact_mod_cast h.rows.s27.1
  have q13 : (y.a7 : ℚ) ≤ y.a2 + d5 + 1 := by exact_mod_cast h.rows.s27.2
  have q14 : (x.a0 : ℚ) + 2 * n ≤ x.a2 := by
    have : x.a0 + 2 * n ≤ x.a2 := by linarith [h.cols.s01.1, h.cols.s12.1]
    exact_mod_cast this
  have q15 : (x.a2 : ℚ) ≤ x.a0 + 2 * n + 2 := by
    have : x.a2 ≤ x.a0 + 2 * n + 2 := by linarith [h.cols.s01.2, h.cols.s12.2]
    exact_mod_cast this
  have q16 : (y.a0 : ℚ) + 2 * n ≤ y.a2 := by
    have : y.a0 + 2 * n ≤ y.a2 := by linarith [h.rows.s01.1, h.rows.s12.1]
    exact_mod_cast this
  have q17 : (y.a2 : ℚ) ≤ y.a0 + 2 * n + 2 := by
    have : y.a2 ≤ y.a0 + 2 * n + 2 := by linarith [h.rows.s01.2, h.rows.s12.2]
    exact_mod_cast this
  have q18 : (y.a0 : ℚ) + y.a7 ≤ 2 * r + 5 := by exact_mod_cast hr1
  have q19 : 2 * (r : ℚ) ≤ y.a0 + y.a7 + 1 := by exact_mod_cast hr2
  have hright := h.right
  have hbelow := h.below
  have hbig := h.big
  have b1 : (x.a7 : ℚ) ≤ 67108864 := by
    have : x.a7 ≤ 67108864 := by linarith
    exact_mod_cast this
  have b2 : (y.a7 : ℚ) ≤ 67108864 := by
    have : y.a7 ≤ 67108864 := by linarith
    exact_mod_cast this
  have rq : (r : ℚ) ≤ 67108864 := by linarith
  rw [abs_le] at hfx
  obtain ⟨hf1, hf2⟩ := hfx
  obtain ⟨s, hs, hs1, hs2, hs3⟩ := side_val (μ := μ) (by linarith) (by norm_num; linarith)
  rw [abs_le] at hs1
  norm_num at hs1 hs3
  obtain ⟨hs1, hs1'⟩ := hs1
  have sT1 : 5 * (d7 : ℚ) / 7 - 63 / 100 ≤ s := by linarith
  have sT2 : s ≤ 5 * ((d7 : ℚ) + 1) / 7 + 6 / 100 := by linarith
  have upx := upper_val (p := fx) (s := s) (by linarith) (by norm_num; linarith) (by linarith) (by norm_num; linarith)
  have upy := upper_val (p := r) (s := s) (Nat.cast_nonneg r) (le_trans rq (by norm_num)) (by linarith) (by norm_num; linarith)
  obtain ⟨p, q, hp, hq, hpq, hpl, hql, hcase⟩ := diagonal_start (fx := fx) (fy := r) (s := s) (by linarith)
    (by norm_num; linarith) (Nat.cast_nonneg r) (le_trans rq (by norm_num)) (by linarith)
  unfold refineDiagonal
  simp only
  rw [hs]
  generalize (diagonalStart ⟨F64.fin fx, F64.fin (r : ℚ)⟩ (F64.fin s)).1.round.toU32 = sx at *
  generalize (diagonalStart ⟨F64.fin fx, F64.fin (r : ℚ)⟩ (F64.fin s)).2.round.toU32 = sy at *
  generalize (F64.fin fx + F64.fin s).round.toU32 = ex at *
  generalize (F64.fin (r : ℚ) + F64.fin s).round.toU32 = ey at *
  rw [abs_le] at hp hq upx upy
  obtain ⟨hp1, hp2⟩ := hp
  obtain ⟨hq1, hq2⟩ := hq
  obtain ⟨upx, -⟩ := upx
  obtain ⟨upy, -⟩ := upy
  clear hs hs1 hs1' hs2 hs3 b1 b2
  have p1 : p ≤ x.a0 - 52 / 100 := by
    rcases hcase with ⟨hc, -⟩ | ⟨hc, -⟩ | ⟨hc, -⟩ <;> rw [hc] <;> linarith
  have p2 : q ≤ y.a0 - 52 / 100 := by
    rcases hcase with ⟨-, hc⟩ | ⟨-, hc⟩ | ⟨-, hc⟩ <;> rw [hc] <;> linarith
  clear hcase
  apply ruled_diagonal_walk hv h
  · exact nat_le_of_lt (by linarith)
  · exact nat_le_of_lt (by linarith)
  · exact nat_le_of_lt (by push_cast; linarith)
  · exact nat_le_of_lt (by push_cast; linarith)
  · exact nat_le_of_lt (by push_cast; linarith)
  · exact nat_le_of_lt (by push_cast; linarith)
  · exact le_min (nat_le_of_lt (by linarith)) (by linarith)
  · exact min_le_right _ _
  · exact le_min (nat_le_of_lt (by linarith)) (by linarith)
  · exact min_le_right _ _

/-- What is known of a confirmed finder pattern. -/
structure Confirmed (x y : Lines) (d7 r : Nat) (μ : ℚ) : Prop where
  row1 : y.a0 + y.a7 ≤ 2 * r + 5
  row2 : 2 * r ≤ y.a0 + y.a7 + 1
  size1 : ((d7 : ℚ) - 1 / 2) / 7 - 1 / 1000 ≤ μ
  size2 : μ ≤ ((d7 : ℚ) + 1) / 7 + 1 / 1000

set_option maxHeartbeats 2000000 in
/-- All refinements succeed in the first row of the inner square. -/
theorem ruled_refineAll (hv : img.Valid) (h : Ruled img x y n d3 d5 d7) (hb : img.width < 2 ^ 26)
    (hb' : img.height < 2 ^ 26) :
    ∃ (r : Nat) (μ : ℚ), refineAll img ⟨.fin (centreQ x.a7 (x.a7 - x.a0)), F64.ofNat y.a2⟩ (.fin (modQ (x.a7 - x.a0))) =
        .ret (some (⟨.fin (centreQ x.a7 (x.a7 - x.a0)), .fin (r : ℚ)⟩, .fin μ)) ∧ Confirmed x y d7 r μ := by
  obtain ⟨c, ye, t, hver, ⟨hc1, hc2⟩, hyt⟩ := ruled_vertical hv h (by linarith) (by linarith)
  have hbig := h.big
  have v1 := h.seven.1
  have v2 := h.cols.s07.1
  have v3 := h.cols.s07.2
  have v4 := h.rows.s07.1
  have v5 := h.rows.s07.2
  have v6 := h.right
  have v7 := h.below
  obtain ⟨T, hT⟩ : ∃ T, x.a7 = x.a0 + T := ⟨x.a7 - x.a0, by clear hver hyt; omega⟩
  have hTs : x.a7 - x.a0 = T := by rw [hT, Nat.add_sub_cancel_left]
  rw [hTs] at hver ⊢
  have T1 : d7 ≤ T := by linarith
  have T2 : T ≤ d7 + 1 := by linarith
  -- the vertical position
  obtain ⟨u1, u2, u3, u4, u5, u6⟩ : d7 ≤ t + 2 ∧ t ≤ d7 + 1 ∧ t ≤ ye + 1 ∧ ye ≤ y.a7 ∧
      y.a0 + y.a7 + t ≤ 2 * ye + 4 ∧ 2 * ye ≤ y.a0 + y.a7 + t := by
    clear hver hc1 hc2 T1 T2 hTs hT v2 v3 v6 v7
    rcases hyt with ⟨e1, e2⟩ | ⟨e1, e2, e3⟩
    · subst e1 e2
      refine ⟨?_, ?_, ?_, ?_, ?_, ?_⟩ <;> omega
    · subst e3
      refine ⟨?_, ?_, ?_, ?_, ?_, ?_⟩ <;> omega
  clear hyt
  have yc := centreQ_near (x := ye) (t := t) (by linarith) (by linarith)
  have yb := centreQ_bounds (x := ye) (t := t) (by linarith) (by linarith) u3
  have yeq : (ye : ℚ) ≤ 67108864 := by
    have : ye ≤ 67108864 := by linarith
    exact_mod_cast this
  have hround := round_val (q := centreQ ye t) yb.1 (by norm_num; linarith [yb.2])
  obtain ⟨r, hrdef⟩ : ∃ r, (F64.fin (centreQ ye t)).round.toU32 = r := ⟨_, rfl⟩
  rw [hrdef] at hround
  rw [abs_le] at hround yc
  have r1 : y.a0 + y.a7 ≤ 2 * r + 5 := by
    have u5q : (y.a0 : ℚ) + y.a7 + t ≤ 2 * ye + 4 := by exact_mod_cast u5
    exact nat_le_of_lt (by push_cast; linarith [hround.1, hround.2, yc.1, yc.2])
  have r2 : 2 * r ≤ y.a0 + y.a7 + 1 := by
    have u6q : 2 * (ye : ℚ) ≤ y.a0 + y.a7 + t := by exact_mod_cast u6
    exact nat_le_of_lt (by push_cast; linarith [hround.1, hround.2, yc.1, yc.2])
  have w1 := h.rows.s01
  have w2 := h.rows.s12
  have w3 := h.rows.s25
  have w4 := h.rows.s56
  have w5 := h.rows.s67
  have w6 := h.thrice.1
  -- the sizes
  have mT := modQ_near (t := T) (by linarith)
  have mT1 := modQ_ge_one (t := T) (by linarith)
  have Tq : (T : ℚ) ≤ 67108864 := by
    have : T ≤ 67108864 := by linarith
    exact_mod_cast this
  rw [abs_le] at mT
  norm_num at mT
  obtain ⟨μ1, hμ1, n1, m1, m1'⟩ := mean_val (a := modQ T) (t := t) mT1 (by norm_num; linarith [mT.2]) (by linarith) (by linarith)
  obtain ⟨μ2, hμ2, n2, m2, m2'⟩ := mean_val (a := μ1) (t := T) m1 m1' (by linarith) (by linarith)
  rw [abs_le] at n1 n2
  norm_num at n1 n2
  have d1 : (d7 : ℚ) ≤ t + 2 := by exact_mod_cast u1
  have d2 : (t : ℚ) ≤ d7 + 1 := by exact_mod_cast u2
  have d3' : (d7 : ℚ) ≤ T := by exact_mod_cast T1
  have d4 : (T : ℚ) ≤ d7 + 1 := by exact_mod_cast T2
  have hcf : Confirmed x y d7 r μ2 :=
    ⟨r1, r2, by linarith [n1.1, n1.2, n2.1, n2.2, mT.1, mT.2], by linarith [n1.1, n1.2, n2.1, n2.2, mT.1, mT.2]⟩
  -- the mean of the two sizes, as a whole number
  obtain ⟨T', hT', T'1, T'2⟩ : ∃ T' : Nat, |μ1 - (T' : ℚ) / 7| ≤ 1 / 8 ∧ d7 ≤ T' + 1 ∧ T' ≤ d7 + 1 := by
    refine ⟨(T + t) / 2, ?_, ?_, ?_⟩
    · have e1 : 2 * ((T + t) / 2) ≤ T + t := by clear hver; omega
      have e2 : T + t ≤ 2 * ((T + t) / 2) + 1 := by clear hver; omega
      have e1q : 2 * (((T + t) / 2 : Nat) : ℚ) ≤ T + t := by exact_mod_cast e1
      have e2q : (T : ℚ) + t ≤ 2 * (((T + t) / 2 : Nat) : ℚ) + 1 := by exact_mod_cast e2
      generalize (((T + t) / 2 : Nat) : ℚ) = z at *
      rw [abs_le]
      constructor <;> linarith [n1.1, n1.2, mT.1, mT.2]
    · clear * - T1 T2 u1 u2; omega
    · clear * - T1 T2 u1 u2; omega
  have hhor := ruled_horizontal hv h hb (μ := μ1) (T := T') (c := c) (fy := .fin (centreQ ye t)) hT' T'1 T'2 hc1 hc2
    (by rw [hrdef]; linarith [w1.2, w2.2, w3.1, w4.1, w5.1]) (by rw [hrdef]; linarith [w1.1, w2.1, w3.1, w4.2, w5.2])
  rw [hrdef, hTs] at hhor
  have cT := centreQ_near (x := x.a7) (t := T) (by linarith) (by linarith)
  have hTq : (x.a7 : ℚ) = x.a0 + T := by exact_mod_cast hT
  obtain ⟨pos, hdiag⟩ := ruled_diagonal hv h hb hb' (fx := centreQ x.a7 T) (μ := μ2) (r := r)
    (by rw [abs_le] at cT ⊢; constructor <;> linarith [cT.1, cT.2]) r1 r2 (by linarith [hcf.size1]) (by linarith [hcf.size2])
  refine ⟨r, μ2, ?_, hcf⟩
  unfold refineAll
  rw [hver, Run.ret_bind]
  simp only [found]
  rw [(centre_eq (x := c) (t := t) (by linarith) (by linarith)).2.2.2,
    (centre_eq (x := ye) (t := t) (by linarith) (by linarith)).2.2.1, hμ1]
  rw [hhor, Run.ret_bind]
  simp only [found]
  rw [(centre_eq (x := x.a7) (t := T) (by linarith) (by linarith)).2.2.1,
    (centre_eq (x := r) (t := T) (by linarith) (by linarith)).2.2.2, hμ2]
  rw [hdiag, Run.ret_bind]
  rfl

end
end LineScan
end Verif
