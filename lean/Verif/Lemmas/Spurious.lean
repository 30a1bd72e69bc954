import Verif.Lemmas.Hits

/-!
# Rows that look like a finder pattern where there is none
-/
namespace Verif
namespace LineScan
open F64 FinderPattern Spec

section
variable {img : GrayImage}

theorem upFrom_succ (img : GrayImage) {x top i : Nat} (h : top ≤ i) :
    upFrom img x top (i + 1) = grey img x i :: upFrom img x top i := by
  unfold upFrom
  rw [show i + 1 - top = (i - top) + 1 by omega, List.range'_1_concat, List.reverse_append]
  simp [show top + (i - top) = i by omega]

theorem upFrom_runs_sum (img : GrayImage) (x top i : Nat) : (runs (upFrom img x top i)).sum = i - top := by
  rw [runs_sum]; unfold upFrom; simp

theorem range_cons {i b : Nat} (h : i < b) : rangeList i b = i :: rangeList (i + 1) b := by
  unfold rangeList
  rw [show b - i = b - (i + 1) + 1 by omega, List.range'_succ]

theorem zero_rejected : (FinderPattern.mk 0 0 0 0 0 0 0).looksLikeFinder = .ret false :=
  Props.missing_run_rejected _ (by norm_num) (by simp)

/-- A column that does not confirm a finder pattern of `t` pixels. -/
theorem column_none (hv : img.Valid) {c top bottom t : Nat} (hc : c < img.width) (hb : bottom ≤ img.height)
    (ht : t < 2 ^ 32) (ht7 : 7 ≤ t)
    (h : ∀ i ≤ bottom, top < i → (i = bottom ∨ grey img c (i - 1) ≠ grey img c i) →
      (i < bottom → Steady (runs (upFrom img c top i))) ∧
      ∀ u, finderEnd (runs (upFrom img c top i)) = some u → ¬ Similar t u) :
    refine img (.fin (modQ t)) ((rangeList top bottom).map fun y => (c, y)) false = .ret none := by
  have hh := hv.2.2
  -- nothing is accepted at the end of a run
  have noaccept : ∀ i ≤ bottom, top < i → (i = bottom ∨ grey img c (i - 1) ≠ grey img c i) → ∀ x y,
      accept (.fin (modQ t)) false (of (runs (upFrom img c top i))) x y = .ret none := by
    intro i h1 h2 h3 x y
    have hsum := upFrom_runs_sum img c top i
    have htot := of_total (runs (upFrom img c top i))
    rcases looks_cases (s := of (runs (upFrom img c top i))) (by omega) with hl | hl
    · exact accept_none hl
    · apply accept_not_similar (by omega)
      have he := of_accepted (by omega) hl
      have hns := (h i h1 h2 h3).2 _ he
      have h7 : 7 ≤ (of (runs (upFrom img c top i))).five := by
        obtain ⟨b, hb, hb7⟩ := looks_ret (s := of (runs (upFrom img c top i))) (by omega)
        rw [hl] at hb
        exact hb7 (Run.ret.inj hb).symm
      apply diff_large ht (by have := five_le (of (runs (upFrom img c top i))); omega) ht7 h7
      unfold Similar at hns
      omega
  have loop : ∀ n i, bottom - i = n → top < i → i ≤ bottom → ∀ lx ly,
      refineLoop img (.fin (modQ t)) false ((rangeList i bottom).map fun y => (c, y)) (pix img c (i - 1))
        (of (runs (upFrom img c top i))) lx ly = .ret none := by
    intro n
    induction n with
    | zero =>
      intro i hn h1 h2 lx ly
      have : i = bottom := by omega
      subst this
      have e : rangeList i i = [] := by unfold rangeList; simp
      rw [e]
      exact noaccept i (le_refl _) h1 (Or.inl rfl) lx ly
    | succ n ih =>
      intro i hn h1 h2 lx ly
      have hlt : i < bottom := by omega
      rw [range_cons hlt, List.map_cons]
      have hp := getPixel_pix hv hc (show i < img.height by omega)
      have hsum := upFrom_runs_sum img c top i
      have htot := of_total (runs (upFrom img c top i))
      obtain ⟨j, rfl⟩ : ∃ j, i = j + 1 := ⟨i - 1, by omega⟩
      by_cases hch : grey img c (j + 1 - 1) = grey img c (j + 1)
      · rw [loop_same (by rw [hp, pix_eq_iff.mpr hch.symm]) (by omega)]
        have := ih (j + 1 + 1) (by omega) (by omega) (by omega) c (j + 1)
        rw [Nat.add_sub_cancel] at hch
        rw [upFrom_succ img (show top ≤ j + 1 by omega)] at this
        rw [upFrom_succ img (show top ≤ j by omega)] at this ⊢
        obtain ⟨k, ks, e⟩ := runs_ne_nil (grey img c j) (upFrom img c top j)
        rw [← hch, runs_same e, of_grow, ← e, Nat.add_sub_cancel, ← pix_eq_iff.mpr hch] at this
        exact this
      · have hsl := slide_of (rs := runs (upFrom img c top (j + 1))) (by omega)
          ((h (j + 1) h2 h1 (Or.inr hch)).1 hlt)
        rw [loop_move hp (by rw [Ne, pix_eq_iff]; exact Ne.symm hch)
          (noaccept (j + 1) h2 h1 (Or.inr hch) c (j + 1)) hsl]
        have := ih (j + 1 + 1) (by omega) (by omega) (by omega) c (j + 1)
        rw [Nat.add_sub_cancel] at hch
        rw [upFrom_succ img (show top ≤ j + 1 by omega)] at this
        rw [upFrom_succ img (show top ≤ j by omega)] at this ⊢
        rw [runs_diff (Ne.symm hch), Nat.add_sub_cancel] at this
        exact this
  unfold refine
  by_cases hlt : top < bottom
  · rw [range_cons hlt, List.map_cons]
    have hp := getPixel_pix hv hc (show top < img.height by omega)
    have e1 : runs (upFrom img c top (top + 1)) = [1] := by
      rw [upFrom_succ img (le_refl _)]; unfold upFrom; simp [runs]
    have := loop _ (top + 1) rfl (by omega) (by omega) c top
    rw [e1, Nat.add_sub_cancel] at this
    by_cases h127 : pix img c top = 127#8
    · rw [loop_same (by rw [hp, h127]) (by simp [total])]
      rw [h127] at this
      exact this
    · rw [loop_move hp h127 (accept_none zero_rejected) (s' := of [1])]
      · exact this
      · rw [slide_regular (by simp [total]) (by simp)]; rfl
  · have e : rangeList top bottom = [] := by unfold rangeList; simp; omega
    rw [e]
    exact accept_none zero_rejected

/-! ### The window -/

theorem five_modules {t : Nat} (ht : t < 2 ^ 32) :
    ∃ q : ℚ, F64.lit 5 * F64.fin (modQ t) = .fin q ∧ |q - 5 * (t : ℚ) / 7| ≤ 1 / 2 ^ 19 ∧ 0 ≤ q ∧ q ≤ 2 ^ 33 := by
  obtain ⟨b1, b2⟩ := modQ_bounds ht
  have hm := modQ_near ht
  have hb : |((5 : Nat) : ℚ) * modQ t| ≤ 2 ^ 33 := by
    rw [abs_of_nonneg (by positivity)]; push_cast; linarith
  refine ⟨roundQ (((5 : Nat) : ℚ) * modQ t), ?_, ?_, roundQ_nonneg (by positivity), ?_⟩
  · rw [lit_nat (by norm_num), mul_fin (by linarith)]
  · have hr := round_near (B := 2 ^ 33) (by norm_num) hb
    push_cast at hr ⊢
    rw [abs_le] at *
    norm_num at hm hr ⊢
    constructor <;> linarith [hr.1, hr.2, hm.1, hm.2]
  · have := roundQ_le_nat (n := 2 ^ 33) (by norm_num) (le_trans (le_abs_self _) (le_trans hb (by norm_num)))
    exact_mod_cast this

theorem round_of_near {q : ℚ} {N : Nat} (h1 : (N : ℚ) - 1 / 2 ≤ q) (h2 : q < (N : ℚ) + 1 / 2) (h0 : 0 ≤ q)
    (hb : q ≤ 2 ^ 40) : (F64.fin q).round.toU32 = min N (2 ^ 32 - 1) := by
  rw [round_toU32 (by rw [abs_of_nonneg h0]; linarith)]
  have : roundAway q = (N : Int) := by
    unfold roundAway
    rw [if_pos h0, floor_eq, Int.floor_eq_iff]
    push_cast
    constructor <;> linarith
  rw [this]
  rfl

theorem window_top {y t : Nat} (hy : y < 2 ^ 32) (ht : t < 2 ^ 32) :
    ((F64.ofNat y - F64.lit 5 * F64.fin (modQ t)).max (F64.lit 0)).round.toU32 = (14 * y + 7 - 10 * t) / 14 := by
  obtain ⟨q, hq, hn, q0, q1⟩ := five_modules ht
  have hy' := cast_lt_u32 hy
  have hy0 : (0 : ℚ) ≤ y := Nat.cast_nonneg y
  have hb : |(y : ℚ) - q| ≤ 2 ^ 34 := by rw [abs_le]; constructor <;> linarith
  have hr := round_near (B := 2 ^ 34) (by norm_num) hb
  rw [hq, ofNat_fin (u32_53 hy), sub_fin (by linarith), max_zero_fin]
  generalize roundQ ((y : ℚ) - q) = r at *
  generalize hN : (14 * y + 7 - 10 * t) / 14 = N
  have hrn : |r - ((y : ℚ) - 5 * t / 7)| ≤ 1 / 2 ^ 17 := by
    rw [abs_le] at *
    norm_num at hn hr ⊢
    constructor <;> linarith [hn.1, hn.2, hr.1, hr.2]
  have hN32 : N < 2 ^ 32 := by omega
  rw [abs_le] at hrn
  norm_num at hrn
  have hrb : max r 0 ≤ 2 ^ 40 := by
    apply max_le _ (by norm_num)
    rw [abs_le] at hr hb
    norm_num at hr hb ⊢
    linarith [hr.2, hb.2]
  by_cases hpos : 10 * t ≤ 14 * y
  · have l1 : 14 * N + 1 ≤ 14 * y + 7 - 10 * t := by omega
    have l2 : 14 * y + 7 - 10 * t ≤ 14 * N + 13 := by omega
    have l1' : 14 * (N : ℚ) + 1 ≤ 14 * y + 7 - 10 * t := by
      have : 14 * N + 1 + 10 * t ≤ 14 * y + 7 := by omega
      have : (14 * (N : ℚ) + 1 + 10 * t) ≤ 14 * y + 7 := by exact_mod_cast this
      linarith
    have l2' : 14 * (y : ℚ) + 7 - 10 * t ≤ 14 * N + 13 := by
      have : 14 * y + 7 ≤ 14 * N + 13 + 10 * t := by omega
      have : 14 * (y : ℚ) + 7 ≤ 14 * N + 13 + 10 * t := by exact_mod_cast this
      linarith
    have hN0 : (0 : ℚ) ≤ N := Nat.cast_nonneg N
    rw [round_of_near (N := N) _ _ (le_max_right _ _) hrb]
    · omega
    · refine le_trans ?_ (le_max_left _ _); linarith [hrn.1]
    · apply max_lt
      · linarith [hrn.2]
      · linarith
  · have hN0 : N = 0 := by omega
    have hl : (14 * (y : ℚ) + 1) ≤ 10 * t := by
      have : 14 * y + 1 ≤ 10 * t := by omega
      exact_mod_cast this
    rw [hN0, round_of_near (N := 0) _ _ (le_max_right _ _) hrb]
    · rfl
    · push_cast; refine le_trans ?_ (le_max_right _ _); norm_num
    · push_cast
      apply max_lt
      · linarith [hrn.2]
      · norm_num

theorem window_bottom {y t : Nat} (hy : y < 2 ^ 32) (ht : t < 2 ^ 32) :
    (F64.ofNat y + F64.lit 5 * F64.fin (modQ t)).round.toU32 = min ((14 * y + 7 + 10 * t) / 14) (2 ^ 32 - 1) := by
  obtain ⟨q, hq, hn, q0, q1⟩ := five_modules ht
  have hy' := cast_lt_u32 hy
  have hy0 : (0 : ℚ) ≤ y := Nat.cast_nonneg y
  have hb : |(y : ℚ) + q| ≤ 2 ^ 34 := by rw [abs_le]; constructor <;> linarith
  have hr := round_near (B := 2 ^ 34) (by norm_num) hb
  have h0 := roundQ_nonneg (q := (y : ℚ) + q) (by linarith)
  rw [hq, ofNat_fin (u32_53 hy), add_fin (by linarith)]
  generalize roundQ ((y : ℚ) + q) = r at *
  generalize hN : (14 * y + 7 + 10 * t) / 14 = N
  have hrn : |r - ((y : ℚ) + 5 * t / 7)| ≤ 1 / 2 ^ 17 := by
    rw [abs_le] at *
    norm_num at hn hr ⊢
    constructor <;> linarith [hn.1, hn.2, hr.1, hr.2]
  rw [abs_le] at hrn
  norm_num at hrn
  have l1' : 14 * (N : ℚ) + 1 ≤ 14 * y + 7 + 10 * t := by
    have : 14 * N + 1 ≤ 14 * y + 7 + 10 * t := by omega
    exact_mod_cast this
  have l2' : 14 * (y : ℚ) + 7 + 10 * t ≤ 14 * N + 13 := by
    have : 14 * y + 7 + 10 * t ≤ 14 * N + 13 := by omega
    exact_mod_cast this
  apply round_of_near _ _ h0
  · rw [abs_le] at hr hb
    norm_num at hr hb ⊢
    linarith [hr.2, hb.2]
  · linarith [hrn.1]
  · linarith [hrn.2]

theorem centre_column {x t : Nat} (hx : x + 1 < 2 ^ 32) (ht7 : 7 ≤ t) (ht : t ≤ x + 1) :
    2 * x ≤ 2 * (F64.fin (centreQ x t)).round.toU32 + t + 1 ∧
    2 * (F64.fin (centreQ x t)).round.toU32 + t ≤ 2 * x + 1 := by
  obtain ⟨c1, c2⟩ := centreQ_bounds hx ht7 ht
  obtain ⟨q, -, -, hn, hq⟩ := half_finder (t := t) (by omega)
  have hx' := cast_lt_u32 (show x < 2 ^ 32 by omega)
  have ht' := cast_lt_u32 (show t < 2 ^ 32 by omega)
  have hx0 : (0 : ℚ) ≤ x := Nat.cast_nonneg x
  have ht0 : (0 : ℚ) ≤ t := Nat.cast_nonneg t
  have hb : |(x : ℚ) - q| ≤ 2 ^ 34 := by
    rw [abs_le] at *; norm_num at hn ⊢; constructor <;> linarith [hn.1, hn.2]
  have hr := round_near (B := 2 ^ 34) (by norm_num) hb
  have he : centreQ x t = roundQ ((x : ℚ) - q) := by unfold centreQ; rw [← hq]
  rw [← he] at hr
  rw [round_toU32 (by rw [abs_of_nonneg c1]; linarith)]
  have ra := roundAway_near (centreQ x t)
  have ra0 : 0 ≤ roundAway (centreQ x t) := by
    have := roundAway_mono c1; rwa [show ((0 : ℚ)) = ((0 : Nat) : ℚ) by norm_num, roundAway_nat] at this
  have rax : roundAway (centreQ x t) ≤ x := by
    have := roundAway_mono c2; rwa [roundAway_nat] at this
  generalize centreQ x t = cq at *
  generalize hR : roundAway cq = R at *
  have k1 : |2 * (R : ℚ) - 2 * x + t| < 2 := by
    rw [abs_le] at *
    norm_num at hn hr ra ⊢
    rw [abs_lt]
    constructor <;> linarith [hn.1, hn.2, hr.1, hr.2, ra.1, ra.2]
  have k2 : |2 * R - 2 * x + t| < 2 := by exact_mod_cast k1
  rw [abs_lt] at k2
  omega

/-- A row that looks like a finder pattern without a column that confirms it. -/
theorem refineAll_none (hv : img.Valid) {x y t : Nat} (hx : x < img.width) (hy : y < img.height)
    (ht7 : 7 ≤ t) (ht : t ≤ x + 1)
    (hn : ∀ c < img.width, 2 * x ≤ 2 * c + t + 1 → 2 * c + t ≤ 2 * x + 1 → NotConfirmed img c y t) :
    refineAll img ⟨.fin (centreQ x t), F64.ofNat y⟩ (.fin (modQ t)) = .ret none := by
  have hw := hv.2.1
  have hh := hv.2.2
  have hcx := centre_index (x := x) (t := t) (by omega) ht7 ht hx
  obtain ⟨k1, k2⟩ := centre_column (x := x) (t := t) (by omega) ht7 ht
  have hnc := hn _ hcx k1 k2
  unfold NotConfirmed at hnc
  simp only at hnc
  have : refineVertical img ⟨.fin (centreQ x t), F64.ofNat y⟩ (.fin (modQ t)) = .ret none := by
    unfold refineVertical
    simp only
    rw [window_top (by omega) (by omega), window_bottom (by omega) (by omega)]
    rw [show min (min ((14 * y + 7 + 10 * t) / 14) (2 ^ 32 - 1)) img.height =
      min ((14 * y + 7 + 10 * t) / 14) img.height by omega]
    exact column_none hv hcx (by omega) (by omega) ht7 hnc
  unfold refineAll
  rw [this, Run.ret_bind]
  rfl

end
end LineScan
end Verif
