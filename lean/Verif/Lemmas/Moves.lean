import Verif.Lemmas.ExactScan

/-!
# How far the refinements move a candidate
-/
namespace Verif
namespace LineScan
open F64 FinderPattern Spec

section
variable {img : GrayImage}

theorem accept_similar {ms : F64} {s : FinderPattern} {x y : Nat} {pos : FinderPosition}
    (h : accept ms false s x y = .ret (some pos)) : F64.lt (diff ms pos.last_module_size) (F64.lit 2 10) = true := by
  unfold accept at h
  cases hl : s.looksLikeFinder with
  | panic => rw [hl] at h; cases h
  | ret b =>
    rw [hl, Run.ret_bind] at h
    cases b with
    | false => cases h
    | true =>
      simp only [if_true] at h
      cases he : s.estModSize with
      | panic => rw [he] at h; cases h
      | ret est =>
        rw [he, Run.ret_bind] at h
        split at h
        · rename_i hc
          rw [Bool.or_false] at hc
          have h := Run.ret.inj h
          injection h with h
          rw [← h]
          exact hc
        · cases h

theorem refineLoop_similar {ms : F64} : ∀ (l : List (Nat × Nat)) {lp : U8} {s : FinderPattern} {lx ly : Nat}
    {pos : FinderPosition}, refineLoop img ms false l lp s lx ly = .ret (some pos) →
    F64.lt (diff ms pos.last_module_size) (F64.lit 2 10) = true := by
  intro l
  induction l with
  | nil => intro lp s lx ly pos h; exact accept_similar h
  | cons q l ih =>
    intro lp s lx ly pos h
    obtain ⟨x, y⟩ := q
    unfold refineLoop at h
    cases hp : img.getPixel x y with
    | panic => rw [hp] at h; cases h
    | ret p =>
      rw [hp, Run.ret_bind] at h
      split at h
      · cases ha : addU32 s.p6 1 with
        | panic => rw [ha] at h; cases h
        | ret n => rw [ha, Run.ret_bind] at h; exact ih h
      · cases ha : accept ms false s x y with
        | panic => rw [ha] at h; cases h
        | ret r =>
          rw [ha, Run.ret_bind] at h
          cases r with
          | some pos' =>
            simp only at h
            have h := Run.ret.inj h
            injection h with h
            subst h
            exact accept_similar ha
          | none =>
            simp only at h
            cases hs : s.slide with
            | panic => rw [hs] at h; cases h
            | ret s' => rw [hs, Run.ret_bind] at h; exact ih h

/-- A finder pattern found in a column lies inside the window that was searched. -/
theorem column_found (hv : img.Valid) {ms : F64} {c a b : Nat} (hc : c < img.width) (hb : b ≤ img.height)
    {pos : FinderPosition} (h : refine img ms ((rangeList a b).map fun y => (c, y)) false = .ret (some pos)) :
    ∃ y t, y < b ∧ 7 ≤ t ∧ a + t ≤ y + 1 ∧ pos = found ms c y t ∧
      F64.lt (diff ms (.fin (modQ t))) (F64.lit 2 10) = true := by
  have hsim := refineLoop_similar _ h
  obtain ⟨r, hr, hspec⟩ := refine_ret (ms := ms) (diag := false) hv
    (all := (rangeList a b).map fun y => (c, y)) (by
      intro q hq
      rw [List.mem_map] at hq
      obtain ⟨x, hx', rfl⟩ := hq
      have := mem_rangeList hx'
      exact ⟨hc, by simp only; omega⟩) (by
      rw [List.length_map]; have := rangeList_length a b; have := hv.2.2; omega)
  rw [h] at hr
  obtain ⟨i, x, y, t, hi, h7, ht, e⟩ := hspec pos (Run.ret.inj hr).symm
  rw [List.getElem?_map, Option.map_eq_some_iff] at hi
  obtain ⟨n, hn, hxy⟩ := hi
  injection hxy with h1 h2
  subst h1; subst h2
  obtain ⟨g1, g2⟩ := rangeList_get hn
  refine ⟨n, t, by omega, h7, by omega, e, ?_⟩
  rw [e] at hsim
  exact hsim

/-- The same for a row. -/
theorem row_found (hv : img.Valid) {ms : F64} {r0 a b : Nat} (hc : r0 < img.height) (hb : b ≤ img.width)
    {pos : FinderPosition} (h : refine img ms ((rangeList a b).map fun x => (x, r0)) false = .ret (some pos)) :
    ∃ x t, x < b ∧ 7 ≤ t ∧ a + t ≤ x + 1 ∧ pos = found ms x r0 t ∧
      F64.lt (diff ms (.fin (modQ t))) (F64.lit 2 10) = true := by
  have hsim := refineLoop_similar _ h
  obtain ⟨r, hr, hspec⟩ := refine_ret (ms := ms) (diag := false) hv
    (all := (rangeList a b).map fun x => (x, r0)) (by
      intro q hq
      rw [List.mem_map] at hq
      obtain ⟨x, hx', rfl⟩ := hq
      have := mem_rangeList hx'
      exact ⟨by simp only; omega, hc⟩) (by
      rw [List.length_map]; have := rangeList_length a b; have := hv.2.1; omega)
  rw [h] at hr
  obtain ⟨i, x, y, t, hi, h7, ht, e⟩ := hspec pos (Run.ret.inj hr).symm
  rw [List.getElem?_map, Option.map_eq_some_iff] at hi
  obtain ⟨n, hn, hxy⟩ := hi
  injection hxy with h1 h2
  subst h1; subst h2
  obtain ⟨g1, g2⟩ := rangeList_get hn
  refine ⟨n, t, by omega, h7, by omega, e, ?_⟩
  rw [e] at hsim
  exact hsim

theorem centreQ_near {x t : Nat} (hx : x < 2 ^ 32) (ht : t < 2 ^ 32) : |centreQ x t - (x - (t : ℚ) / 2)| ≤ 1 / 100 := by
  obtain ⟨q, -, -, hn, hq⟩ := half_finder ht
  have hx' := cast_lt_u32 hx
  have ht' := cast_lt_u32 ht
  have hx0 : (0 : ℚ) ≤ x := Nat.cast_nonneg x
  have ht0 : (0 : ℚ) ≤ t := Nat.cast_nonneg t
  have hb : |(x : ℚ) - q| ≤ 2 ^ 34 := by
    rw [abs_le] at *; norm_num at hn ⊢; constructor <;> linarith [hn.1, hn.2]
  have hr := round_near (B := 2 ^ 34) (by norm_num) hb
  have he : centreQ x t = roundQ ((x : ℚ) - q) := by unfold centreQ; rw [← hq]
  rw [he]
  rw [abs_le] at *
  norm_num at hn hr ⊢
  constructor <;> linarith [hn.1, hn.2, hr.1, hr.2]

theorem round_index {q : ℚ} (h0 : 0 ≤ q) (h : q ≤ ((2 ^ 32 - 1 : Nat) : ℚ)) :
    |((F64.fin q).round.toU32 : ℚ) - q| ≤ 1 / 2 := by
  rw [round_toU32 (by rw [abs_of_nonneg h0]; refine le_trans h ?_; norm_num)]
  have ra := roundAway_near q
  have ra0 : 0 ≤ roundAway q := by
    have := roundAway_mono h0; rwa [show ((0 : ℚ)) = ((0 : Nat) : ℚ) by norm_num, roundAway_nat] at this
  have rax : roundAway q ≤ ((2 ^ 32 - 1 : Nat) : Int) := by
    have := roundAway_mono h; rwa [roundAway_nat] at this
  have e : (((min (roundAway q).toNat (2 ^ 32 - 1) : Nat)) : ℚ) = (roundAway q : ℚ) := by
    have : ((min (roundAway q).toNat (2 ^ 32 - 1) : Nat) : Int) = roundAway q := by omega
    exact_mod_cast congrArg (Int.cast (R := ℚ)) this
  rw [e]; exact ra

theorem round_index_le {q : ℚ} (h0 : 0 ≤ q) (h : q ≤ 2 ^ 52) : ((F64.fin q).round.toU32 : ℚ) ≤ q + 1 / 2 := by
  rw [round_toU32 (by rw [abs_of_nonneg h0]; exact h)]
  have ra := roundAway_near q
  have ra0 : 0 ≤ roundAway q := by
    have := roundAway_mono h0; rwa [show ((0 : ℚ)) = ((0 : Nat) : ℚ) by norm_num, roundAway_nat] at this
  have e : ((min (roundAway q).toNat (2 ^ 32 - 1) : Nat) : Int) ≤ roundAway q := by omega
  have e' : (((min (roundAway q).toNat (2 ^ 32 - 1) : Nat)) : ℚ) ≤ (roundAway q : ℚ) := by exact_mod_cast e
  exact le_trans e' (by linarith [(abs_le.mp ra).2])

/-- The module size after the vertical refinement. -/
theorem mean_near {t u : Nat} (ht : t < 2 ^ 32) (hu : u < 2 ^ 32) :
    ∃ q : ℚ, (F64.fin (modQ t) + .fin (modQ u)) / F64.lit 2 = .fin q ∧ |q - ((t : ℚ) + u) / 14| ≤ 1 / 2 ^ 10 ∧ 0 ≤ q ∧ q ≤ 2 ^ 31 := by
  obtain ⟨b1, b2⟩ := modQ_bounds ht
  obtain ⟨d1, d2⟩ := modQ_bounds hu
  have n1 := modQ_near ht
  have n2 := modQ_near hu
  have hb : |modQ t + modQ u| ≤ 2 ^ 31 := by rw [abs_of_nonneg (by positivity)]; linarith
  have r1 := round_near (B := 2 ^ 31) (by norm_num) hb
  have p1 := roundQ_nonneg (q := modQ t + modQ u) (by positivity)
  have p2 : roundQ (modQ t + modQ u) ≤ 2 ^ 31 := by
    have := roundQ_le_nat (n := 2 ^ 31) (by norm_num) (q := modQ t + modQ u) (by push_cast; linarith)
    exact_mod_cast this
  rw [add_fin (by linarith), lit_nat (by norm_num)]
  generalize roundQ (modQ t + modQ u) = r at *
  have hb2 : |r / ((2 : Nat) : ℚ)| ≤ 2 ^ 31 := by
    rw [abs_of_nonneg (by positivity), div_le_iff₀ (by norm_num)]; push_cast; linarith
  rw [div_fin (by norm_num) (by linarith)]
  have r2 := round_near (B := 2 ^ 31) (by norm_num) hb2
  refine ⟨_, rfl, ?_, roundQ_nonneg (by positivity), ?_⟩
  · push_cast at r2 ⊢
    rw [abs_le] at *
    norm_num at r1 r2 n1 n2 ⊢
    constructor <;> linarith [r1.1, r1.2, r2.1, r2.2, n1.1, n1.2, n2.1, n2.2]
  · have := roundQ_le_nat (n := 2 ^ 31) (by norm_num) (q := r / ((2 : Nat) : ℚ)) (by rw [abs_of_nonneg (by positivity)] at hb2; push_cast at *; exact hb2)
    exact_mod_cast this

/-- A similar finder pattern is not much smaller. -/
theorem diff_small {a b : ℚ} (ha : 99 / 100 ≤ a) (ha' : a ≤ 2 ^ 31) (hb : 1 ≤ b) (hb' : b ≤ 2 ^ 30)
    (h : F64.lt (diff (.fin a) (.fin b)) (F64.lit 2 10) = true) : 78 * a ≤ 100 * b := by
  by_contra hlt
  rw [not_le] at hlt
  obtain ⟨q, hq, hqn⟩ := two_tenths
  have hbd : |a - b| ≤ 2 ^ 31 := by rw [abs_le]; constructor <;> linarith
  have hs := round_near (q := a - b) (B := 2 ^ 31) (by norm_num) hbd
  have hs2 : |roundQ (a - b)| ≤ 2 ^ 31 := by
    have := round_abs_le (n := 2 ^ 31) (q := a - b) (by norm_num) (by push_cast; linarith)
    exact_mod_cast this
  have hge : (207 / 1000) * a ≤ roundQ (a - b) := by
    rw [abs_le] at hs
    norm_num at hs ⊢
    linarith [hs.1, hs.2]
  have hdb : |roundQ (a - b) / a| ≤ 2 ^ 32 := by
    rw [abs_div, abs_of_pos (show 0 < a by linarith), div_le_iff₀ (by linarith)]
    nlinarith
  unfold diff at h
  rw [gt_fin, decide_eq_true (show b < a by linarith), if_pos rfl, hq, sub_fin (by linarith),
    div_fin (by linarith) (by linarith), lt_fin, decide_eq_true_eq] at h
  have h1 := roundQ_mono (show (207 : ℚ) / 1000 ≤ roundQ (a - b) / a by rw [le_div_iff₀ (by linarith)]; exact hge)
  have h2 := round_near (q := (207 : ℚ) / 1000) (B := 1) (by norm_num) (by rw [abs_le]; constructor <;> norm_num)
  rw [abs_le] at h2 hqn
  norm_num at h2 hqn
  linarith [h2.1, hqn.2]

/-- The window of a refinement around `x` with modules of about `s` pixels. -/
theorem window_near {x : Nat} (hx : x < 2 ^ 32) {q : ℚ} (q0 : 0 ≤ q) (q1 : q ≤ 2 ^ 31) :
    (x : ℚ) - 5 * q - 1 ≤ (((F64.fin (x : ℚ) - F64.lit 5 * .fin q).max (F64.lit 0)).round.toU32 : ℚ) ∧
    ((F64.fin (x : ℚ) + F64.lit 5 * .fin q).round.toU32 : ℚ) ≤ x + 5 * q + 1 := by
  have hx' := cast_lt_u32 hx
  have hx1 : (x : ℚ) ≤ ((2 ^ 32 - 1 : Nat) : ℚ) := by exact_mod_cast (by omega : x ≤ 2 ^ 32 - 1)
  have hx0 : (0 : ℚ) ≤ x := Nat.cast_nonneg x
  have hb5 : |((5 : Nat) : ℚ) * q| ≤ 2 ^ 34 := by
    rw [abs_of_nonneg (by positivity)]; push_cast; linarith
  have r5 := round_near (B := 2 ^ 34) (by norm_num) hb5
  have p5 := roundQ_nonneg (q := ((5 : Nat) : ℚ) * q) (by positivity)
  rw [lit_nat (n := 5) (by norm_num), mul_fin (by linarith)]
  push_cast at r5 p5 ⊢
  generalize roundQ (5 * q) = s at *
  rw [abs_le] at r5
  norm_num at r5
  have hbm : |(x : ℚ) - s| ≤ 2 ^ 35 := by rw [abs_le]; constructor <;> linarith [r5.1, r5.2]
  have hbp : |(x : ℚ) + s| ≤ 2 ^ 35 := by rw [abs_le]; constructor <;> linarith [r5.1, r5.2]
  have rm := round_near (B := 2 ^ 35) (by norm_num) hbm
  have rp := round_near (B := 2 ^ 35) (by norm_num) hbp
  rw [sub_fin (by linarith), add_fin (by linarith), max_zero_fin]
  have pp := roundQ_nonneg (q := (x : ℚ) + s) (by linarith)
  have pm : roundQ ((x : ℚ) - s) ≤ ((2 ^ 32 - 1 : Nat) : ℚ) := by
    refine le_trans (roundQ_le_nat (n := x) (u32_53 hx) (by linarith)) hx1
  rw [abs_le] at rm rp
  norm_num at rm rp
  constructor
  · have := round_index (q := max (roundQ ((x : ℚ) - s)) 0) (le_max_right _ _) (max_le pm (by norm_num))
    have hl := le_max_left (roundQ ((x : ℚ) - s)) 0
    rw [abs_le] at this
    linarith [this.1, rm.1, rm.2, r5.1, r5.2]
  · have := round_index_le pp (by linarith [rp.2, r5.2])
    linarith [rp.1, rp.2, r5.1, r5.2]

/-- A candidate is not far from the row that led to it. -/
theorem refineAll_moves (hv : img.Valid) {x y t : Nat} (hx : x < img.width) (hy : y < img.height)
    (ht7 : 7 ≤ t) (ht : t ≤ x + 1) {p : Point} {ms : F64}
    (h : refineAll img ⟨.fin (centreQ x t), F64.ofNat y⟩ (.fin (modQ t)) = .ret (some (p, ms))) :
    ∃ px py : ℚ, p = ⟨.fin px, .fin py⟩ ∧ x - 7 * (t : ℚ) / 8 - 13 / 5 ≤ px ∧
      px ≤ x - (t : ℚ) / 8 + 1 ∧ py ≤ y + (t : ℚ) / 3 := by
  have hw := hv.2.1
  have hh := hv.2.2
  have ht7q : (7 : ℚ) ≤ t := by exact_mod_cast ht7
  have hcx := centre_index (x := x) (t := t) (by omega) ht7 ht hx
  have hcb := centreQ_bounds (x := x) (t := t) (by omega) ht7 ht
  have hcn := centreQ_near (x := x) (t := t) (by omega) (by omega)
  have hxq : (x : ℚ) ≤ ((2 ^ 32 - 1 : Nat) : ℚ) := by exact_mod_cast (by omega : x ≤ 2 ^ 32 - 1)
  have hvx := round_index hcb.1 (le_trans hcb.2 hxq)
  unfold refineAll at h
  cases hr : refineVertical img ⟨.fin (centreQ x t), F64.ofNat y⟩ (.fin (modQ t)) with
  | panic => rw [hr] at h; cases h
  | ret r =>
    rw [hr, Run.ret_bind] at h
    cases r with
    | none => cases h
    | some v =>
      unfold refineVertical at hr
      simp only at hr h
      rw [window_top (by omega) (by omega), window_bottom (by omega) (by omega)] at hr
      obtain ⟨vy, u, g1, g2, g3, rfl, g5⟩ := column_found hv hcx (by omega) hr
      generalize hvxe : (F64.fin (centreQ x t)).round.toU32 = vx at *
      have hsim : 100 * max t u ≤ 21 * max t u + 100 * min t u := by
        by_contra hns
        have := diff_large (t := t) (u := u) (by omega) (by omega) ht7 g2 (by omega)
        rw [this] at g5; cases g5
      have hcy := centre_index (x := vy) (t := u) (n := img.height) (by omega) g2 (by omega) (by omega)
      have hyb := centreQ_bounds (x := vy) (t := u) (by omega) g2 (by omega)
      have hyn := centreQ_near (x := vy) (t := u) (by omega) (by omega)
      have hvq : (vy : ℚ) ≤ ((2 ^ 32 - 1 : Nat) : ℚ) := by exact_mod_cast (by omega : vy ≤ 2 ^ 32 - 1)
      have hvy := round_index hyb.1 (le_trans hyb.2 hvq)
      simp only [found] at h
      rw [(centre_eq (x := vx) (t := u) (by omega) (by omega)).2.2.2,
        (centre_eq (x := vy) (t := u) (by omega) (by omega)).2.2.1] at h
      obtain ⟨μ, e1, e2, e3, e4⟩ := mean_near (t := t) (u := u) (by omega) (by omega)
      rw [e1] at h
      cases hr2 : refineHorizontal img ⟨.fin vx, .fin (centreQ vy u)⟩ (.fin μ) with
      | panic => rw [hr2] at h; cases h
      | ret r =>
        rw [hr2, Run.ret_bind] at h
        cases r with
        | none => cases h
        | some v =>
          unfold refineHorizontal at hr2
          simp only at hr2 h
          obtain ⟨wl, wr⟩ := window_near (x := vx) (by omega) e3 e4
          generalize hA : ((F64.fin (vx : ℚ) - F64.lit 5 * .fin μ).max (F64.lit 0)).round.toU32 = A at *
          generalize hB : (F64.fin (vx : ℚ) + F64.lit 5 * .fin μ).round.toU32 = B at *
          obtain ⟨hx', u', k1, k2, k3, rfl, k4⟩ := row_found hv hcy (by omega) hr2
          generalize hyy : (F64.fin (centreQ vy u)).round.toU32 = y' at *
          simp only [found] at h
          rw [(centre_eq (x := hx') (t := u') (by omega) (by omega)).2.2.1,
            (centre_eq (x := y') (t := u') (by omega) (by omega)).2.2.2] at h
          have hxn := centreQ_near (x := hx') (t := u') (by omega) (by omega)
          obtain ⟨r, hr⟩ := refineDiagonal_ret (f := ⟨.fin (centreQ hx' u'), .fin y'⟩)
            (ms := (F64.fin μ + F64.fin (modQ u')) / F64.lit 2) hv
          rw [hr, Run.ret_bind] at h
          cases r with
          | none => cases h
          | some v =>
            simp only at h
            have h := Run.ret.inj h
            injection h with h
            injection h with h1 h2
            refine ⟨_, _, h1.symm, ?_⟩
            have hsq : 79 * (u : ℚ) ≤ 100 * t := by exact_mod_cast (by omega : 79 * u ≤ 100 * t)
            have hsq2 : 79 * (t : ℚ) ≤ 100 * u := by exact_mod_cast (by omega : 79 * t ≤ 100 * u)
            have g2' : (7 : ℚ) ≤ u := by exact_mod_cast g2
            have hnu := modQ_near (t := u') (by omega)
            have hd := diff_small (a := μ) (b := modQ u')
              (by rw [abs_le] at e2; norm_num at e2; linarith [e2.1]) e4 (modQ_ge_one k2) (modQ_bounds (by omega)).2 k4
            have k1' : (hx' : ℚ) + 1 ≤ B := by exact_mod_cast (by omega : hx' + 1 ≤ B)
            have k3' : (A : ℚ) + u' ≤ hx' + 1 := by exact_mod_cast k3
            have g1' : 14 * (vy : ℚ) + 14 ≤ 14 * y + 7 + 10 * t := by
              exact_mod_cast (by omega : 14 * vy + 14 ≤ 14 * y + 7 + 10 * t)
            rw [abs_le] at e2 hxn hcn hvx hyn hvy hnu
            norm_num at e2 hxn hcn hvx hyn hvy hnu
            refine ⟨?_, ?_, ?_⟩
            · linarith [e2.1, e2.2, hxn.1, hxn.2, hcn.1, hcn.2, hvx.1, hvx.2, hnu.1, hnu.2]
            · linarith [e2.1, e2.2, hxn.1, hxn.2, hcn.1, hcn.2, hvx.1, hvx.2, hnu.1, hnu.2]
            · linarith [hyn.1, hyn.2, hvy.1, hvy.2]

end
end LineScan
end Verif
