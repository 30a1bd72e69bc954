import Verif.Lemmas.Walk
import Verif.Lemmas.Halves

/-!
# The refinements at a clean finder pattern
-/
namespace Verif
namespace LineScan
open F64 FinderPattern Spec

/-- Pixels of a finder pattern, from its upper left corner. -/
theorem finderModule_iff {m a b : Nat} (hm : 0 < m) :
    finderModule (a / m) (b / m) = true ↔ a < 7 * m ∧ b < 7 * m ∧
      (a < m ∨ 6 * m ≤ a ∨ b < m ∨ 6 * m ≤ b ∨ (2 * m ≤ a ∧ a < 5 * m ∧ 2 * m ≤ b ∧ b < 5 * m)) := by
  have lt : ∀ c k, c / m < k ↔ c < k * m := fun c k => Nat.div_lt_iff_lt_mul hm
  have a1 := lt a 1; have a2 := lt a 2; have a5 := lt a 5; have a6 := lt a 6; have a7 := lt a 7
  have b1 := lt b 1; have b2 := lt b 2; have b5 := lt b 5; have b6 := lt b 6; have b7 := lt b 7
  unfold finderModule
  simp only [Bool.and_eq_true, Bool.or_eq_true, decide_eq_true_eq, beq_iff_eq]
  generalize a / m = i at *
  generalize b / m = j at *
  omega

section
variable {img : GrayImage} {m fx fy : Nat}

theorem clean_dark (hc : CleanFinder img m fx fy) (hm : 0 < m) {x y : Nat} (hx : fx ≤ x) (hy : fy ≤ y)
    (hx7 : x < fx + 7 * m) (hy7 : y < fy + 7 * m)
    (h : x < fx + m ∨ fx + 6 * m ≤ x ∨ y < fy + m ∨ fy + 6 * m ≤ y ∨
      (fx + 2 * m ≤ x ∧ x < fx + 5 * m ∧ fy + 2 * m ≤ y ∧ y < fy + 5 * m)) : pix img x y = 0#8 := by
  have := hc.2.2 x (by have := hc.1; omega) y (by have := hc.2.1; omega) (by omega) (by omega) (by omega) (by omega)
  rw [if_pos ⟨hx, hy, (finderModule_iff hm).2 (by omega)⟩, grey_pix] at this
  exact BitVec.eq_of_toNat_eq this

theorem clean_light (hc : CleanFinder img m fx fy) (hm : 0 < m) {x y : Nat} (hw : x < img.width)
    (hh : y < img.height) (hx : fx ≤ x + m) (hy : fy ≤ y + m) (hx7 : x < fx + 8 * m) (hy7 : y < fy + 8 * m)
    (h : x < fx ∨ y < fy ∨ fx + 7 * m ≤ x ∨ fy + 7 * m ≤ y ∨
      (fx + m ≤ x ∧ x < fx + 6 * m ∧ fy + m ≤ y ∧ y < fy + 6 * m ∧
        (x < fx + 2 * m ∨ fx + 5 * m ≤ x ∨ y < fy + 2 * m ∨ fy + 5 * m ≤ y))) : pix img x y = 255#8 := by
  have := hc.2.2 x hw y hh hx hx7 hy hy7
  rw [if_neg (by rw [finderModule_iff hm]; omega), grey_pix] at this
  exact BitVec.eq_of_toNat_eq this

/-- Nothing is accepted before the finder pattern is complete. -/
theorem early_none {m k : Nat} (hm : 0 < m) (hm' : 7 * m < 2 ^ 32) (hk : k ≤ 3 * m) {s : FinderPattern} {x y : Nat}
    (ht : s.total < 2 ^ 32) (he : Early m (3 * m) k s) : accept (.fin (m : ℚ)) false s x y = .ret none := by
  have h5 := five_le s
  rcases looks_cases ht with hl | hl
  · exact accept_none hl
  · have hsh := Props.accepted_is_finder_shaped s (by unfold total at ht; omega) hl
    unfold FinderShaped at hsh
    simp only at hsh
    rcases he with he | ⟨h6, he⟩ | ⟨h5', h6, he⟩
    · apply accept_not_similar ht
      rw [← modQ_seven (m := m) (by omega)]
      apply diff_large hm' (by omega) (by omega) (by unfold five; omega)
      rw [max_eq_left (by omega), min_eq_right (by omega)]
      omega
    · unfold total at he; omega
    · unfold total at he; omega

theorem perfect_accepted {m p0 p1 : Nat} (hm : 0 < m) (hm' : 7 * m < 2 ^ 32)
    (ht : (FinderPattern.mk p0 p1 m m (3 * m) m m).total < 2 ^ 32) (diag : Bool) (x y : Nat) :
    accept (.fin (m : ℚ)) diag ⟨p0, p1, m, m, 3 * m, m, m⟩ x y = .ret (some (found (.fin (m : ℚ)) x y (7 * m))) := by
  have h7 : (FinderPattern.mk p0 p1 m m (3 * m) m m).five = 7 * m := by unfold five; simp only; omega
  rw [accept_some ht (Props.perfect_finder_accepted m p0 p1 hm hm').1, h7]
  rw [h7, modQ_seven (by omega), diff_same hm]
  obtain ⟨q, hq, hn⟩ := two_tenths
  rw [hq, lt_fin, decide_eq_true, Bool.true_or]
  rw [abs_le] at hn
  norm_num at hn
  linarith [hn.1]

theorem found_perfect {x y m : Nat} (hm : 7 * m < 2 ^ 32) :
    found (.fin (m : ℚ)) x y (7 * m) = ⟨⟨F64.ofNat x, F64.ofNat y⟩, .fin (m : ℚ), .fin (modQ (7 * m))⟩ := by
  unfold found
  rw [modQ_seven (by omega), mean_same (by omega)]

/-- The vertical refinement finds the lower end. -/
theorem vertical_hit (hv : img.Valid) (hc : CleanFinder img m fx fy) (hm : 2 ≤ m) :
    refineVertical img ⟨hf (2 * fx + 7 * m), F64.ofNat (fy + 2 * m)⟩ (.fin (m : ℚ)) =
      .ret (some ⟨⟨F64.ofNat ((2 * fx + 7 * m + 1) / 2), F64.ofNat (fy + 7 * m - 1)⟩, .fin (m : ℚ),
        .fin (modQ (7 * m))⟩) := by
  have hw := hv.2.1
  have hh := hv.2.2
  have c1 := hc.1
  have c2 := hc.2.1
  have hm0 : 0 < m := by omega
  unfold refineVertical
  simp only
  rw [hf_five (by omega), hf_ofNat (by omega), hf_sub (by rw [abs_le]; constructor <;> omega), hf_max,
    hf_add (by rw [abs_le]; constructor <;> omega), hf_round (by omega) (by omega), hf_round (by omega) (by omega),
    hf_round (by omega) (by omega)]
  rw [show ((max (2 * ((fy + 2 * m : Nat) : Int) - 10 * m) 0 + 1) / 2).toNat = fy - 3 * m by omega]
  rw [show min ((2 * ((fy + 2 * m : Nat) : Int) + 10 * m + 1) / 2).toNat img.height = fy + 7 * m by omega]
  rw [show ((2 * (fx : Int) + 7 * m + 1) / 2).toNat = (2 * fx + 7 * m + 1) / 2 by omega]
  generalize hxc : (2 * fx + 7 * m + 1) / 2 = xc
  generalize hn : fy + 7 * m - (fy - 3 * m) = n
  have hlist : (rangeList (fy - 3 * m) (fy + 7 * m)).map (fun y => (xc, y)) =
      (List.range' 0 (n - 0)).map fun t => (xc, fy - 3 * m + t) := by
    unfold rangeList
    rw [hn, Nat.sub_zero, List.range'_eq_map_range, ← List.range_eq_range', List.map_map]
    rfl
  unfold refine
  rw [hlist]
  have hp : ∀ t < n, img.getPixel ((fun t => (xc, fy - 3 * m + t)) t).1 ((fun t => (xc, fy - 3 * m + t)) t).2 =
      .ret (pix img xc (fy - 3 * m + t)) := by
    intro t ht
    exact getPixel_pix hv (by simp only; omega) (by simp only; omega)
  have hk : min fy (3 * m) + 4 * m + 3 * m = n := by omega
  have := walk_finder (ms := .fin (m : ℚ)) (diag := false) hp (by omega) (m := m) (c := 3 * m) (k := min fy (3 * m))
    (by omega) (by omega) (by omega) (by omega) (by omega) (by omega)
    (fun t h1 h2 => clean_light hc hm0 (by omega) (by omega) (by omega) (by omega) (by omega) (by omega) (by omega))
    (fun t h1 h2 => clean_dark hc hm0 (by omega) (by omega) (by omega) (by omega) (by omega))
    (fun t h1 h2 => clean_light hc hm0 (by omega) (by omega) (by omega) (by omega) (by omega) (by omega) (by omega))
    (fun t h1 h2 => clean_dark hc hm0 (by omega) (by omega) (by omega) (by omega) (by omega))
    (fun t h1 h2 => clean_light hc hm0 (by omega) (by omega) (by omega) (by omega) (by omega) (by omega) (by omega))
    (fun t h1 h2 => clean_dark hc hm0 (by omega) (by omega) (by omega) (by omega) (by omega))
    (fun h => absurd h (by omega))
    (fun p0 p1 ht x y => ⟨_, perfect_accepted hm0 (by omega) ht false x y⟩)
  rcases this with ⟨s, x, y, pos, ht, he, ha, -⟩ | ⟨p0, p1, ht, h⟩
  · rw [early_none hm0 (by omega) (by omega) ht he] at ha
    simp at ha
  · unfold walk at h
    rw [h, perfect_accepted hm0 (by omega) ht, found_perfect (by omega)]
    simp only
    rw [show fy - 3 * m + min (min fy (3 * m) + 4 * m + 3 * m) (n - 1) = fy + 7 * m - 1 by omega]

/-- The horizontal refinement finds the right end. -/
theorem horizontal_hit (hv : img.Valid) (hc : CleanFinder img m fx fy) (hm : 2 ≤ m) {fyh : Int}
    (hy : ((fyh + 1) / 2).toNat = fy + (7 * m - 1) / 2) (hy0 : 0 ≤ fyh) :
    refineHorizontal img ⟨F64.ofNat ((2 * fx + 7 * m + 1) / 2), hf fyh⟩ (.fin (m : ℚ)) =
      .ret (some ⟨⟨F64.ofNat (fx + 7 * m), F64.ofNat (fy + (7 * m - 1) / 2)⟩, .fin (m : ℚ),
        .fin (modQ (7 * m))⟩) := by
  have hw := hv.2.1
  have hh := hv.2.2
  have c1 := hc.1
  have c2 := hc.2.1
  have hm0 : 0 < m := by omega
  unfold refineHorizontal
  simp only
  rw [hf_five (by omega), hf_ofNat (by omega), hf_sub (by rw [abs_le]; constructor <;> omega), hf_max,
    hf_add (by rw [abs_le]; constructor <;> omega), hf_round_min (a := max _ _) (by omega) (by omega),
    hf_round_min (a := _ + _) (by omega) (by omega), hf_round (a := fyh) (by omega) (by omega), hy]
  generalize hxc : (2 * fx + 7 * m + 1) / 2 = xc
  generalize hry : fy + (7 * m - 1) / 2 = ry
  rw [show min ((max (2 * (xc : Int) - 10 * m) 0 + 1) / 2).toNat (2 ^ 32 - 1) = xc - 5 * m by omega]
  rw [show min (min ((2 * (xc : Int) + 10 * m + 1) / 2).toNat (2 ^ 32 - 1)) img.width = min (xc + 5 * m) img.width by
    omega]
  generalize hn : min (xc + 5 * m) img.width - (xc - 5 * m) = n
  have hlist : (rangeList (xc - 5 * m) (min (xc + 5 * m) img.width)).map (fun x => (x, ry)) =
      (List.range' 0 (n - 0)).map fun t => (xc - 5 * m + t, ry) := by
    unfold rangeList
    rw [hn, Nat.sub_zero, List.range'_eq_map_range, ← List.range_eq_range', List.map_map]
    rfl
  unfold refine
  rw [hlist]
  have hp : ∀ t < n, img.getPixel ((fun t => (xc - 5 * m + t, ry)) t).1 ((fun t => (xc - 5 * m + t, ry)) t).2 =
      .ret (pix img (xc - 5 * m + t) ry) := by
    intro t ht
    exact getPixel_pix hv (by simp only; omega) (by simp only; omega)
  have := walk_finder (ms := .fin (m : ℚ)) (diag := false) hp (by omega) (m := m) (c := 3 * m) (k := fx - (xc - 5 * m))
    (by omega) (by omega) (by omega) (by omega) (by omega) (by omega)
    (fun t h1 h2 => clean_light hc hm0 (by omega) (by omega) (by omega) (by omega) (by omega) (by omega) (by omega))
    (fun t h1 h2 => clean_dark hc hm0 (by omega) (by omega) (by omega) (by omega) (by omega))
    (fun t h1 h2 => clean_light hc hm0 (by omega) (by omega) (by omega) (by omega) (by omega) (by omega) (by omega))
    (fun t h1 h2 => clean_dark hc hm0 (by omega) (by omega) (by omega) (by omega) (by omega))
    (fun t h1 h2 => clean_light hc hm0 (by omega) (by omega) (by omega) (by omega) (by omega) (by omega) (by omega))
    (fun t h1 h2 => clean_dark hc hm0 (by omega) (by omega) (by omega) (by omega) (by omega))
    (fun h => clean_light hc hm0 (by omega) (by omega) (by omega) (by omega) (by omega) (by omega) (by omega))
    (fun p0 p1 ht x y => ⟨_, perfect_accepted hm0 (by omega) ht false x y⟩)
  rcases this with ⟨s, x, y, pos, ht, he, ha, -⟩ | ⟨p0, p1, ht, h⟩
  · rw [early_none hm0 (by omega) (by omega) ht he] at ha
    simp at ha
  · unfold walk at h
    rw [h, perfect_accepted hm0 (by omega) ht, found_perfect (by omega)]
    simp only
    rw [show xc - 5 * m + min (fx - (xc - 5 * m) + 4 * m + 3 * m) (n - 1) = fx + 7 * m by omega]

/-- On the diagonal, possibly one pixel off. -/
theorem nearly_perfect_accepted {m c p0 p1 : Nat} (hm : 2 ≤ m) (hm' : 7 * m < 2 ^ 32) (hc : c = 3 * m ∨ c + 1 = 3 * m)
    (ht : (FinderPattern.mk p0 p1 m m c m m).total < 2 ^ 32) (ms : F64) (x y : Nat) :
    ∃ pos, accept ms true ⟨p0, p1, m, m, c, m, m⟩ x y = .ret (some pos) := by
  refine ⟨_, accept_some ht ?_ (by simp)⟩
  rw [Props.finder_test_is_exact _ (by simp only; omega) (Or.inl (by simp only; omega))]
  congr 1
  rw [decide_eq_true_eq]
  unfold FinderShaped
  simp only
  omega

/-- The diagonal refinement, given its start: `d` is how far the columns are ahead of the rows. -/
theorem diagonal_walk (hv : img.Valid) (hc : CleanFinder img m fx fy) (hm : 2 ≤ m) {sx sy ex ey d : Nat}
    (hd : d ≤ 1) (h1 : sx + fy = sy + fx + d) (h2 : sy ≤ fy) (h3 : fy ≤ sy + 10 * m)
    (hex : fx + 7 * m < ex) (hex' : ex ≤ img.width) (hey : fy + 7 * m < ey) (hey' : ey ≤ img.height) (ms : F64) :
    ∃ pos, refine img ms ((rangeList sx ex).zip (rangeList sy ey)) true = .ret (some pos) := by
  have hw := hv.2.1
  have hh := hv.2.2
  have c1 := hc.1
  have c2 := hc.2.1
  have hm0 : 0 < m := by omega
  generalize hn : min (ex - sx) (ey - sy) = n
  have hlist : (rangeList sx ex).zip (rangeList sy ey) =
      (List.range' 0 (n - 0)).map fun t => (sx + t, sy + t) := by
    unfold rangeList
    apply List.ext_getElem
    · simp [hn]
    · intro i h1 h2
      simp
  have hp : ∀ t < n, img.getPixel ((fun t => (sx + t, sy + t)) t).1 ((fun t => (sx + t, sy + t)) t).2 =
      .ret (pix img (sx + t) (sy + t)) := by
    intro t ht
    exact getPixel_pix hv (by simp only; omega) (by simp only; omega)
  have := walk_finder (ms := ms) (diag := true) hp (by omega) (m := m) (c := 3 * m - d) (k := fy - sy)
    (by omega) (by omega) (by omega) (by omega) (by omega) (by omega)
    (fun t h1 h2 => clean_light hc hm0 (by omega) (by omega) (by omega) (by omega) (by omega) (by omega) (by omega))
    (fun t h1 h2 => clean_dark hc hm0 (by omega) (by omega) (by omega) (by omega) (by omega))
    (fun t h1 h2 => clean_light hc hm0 (by omega) (by omega) (by omega) (by omega) (by omega) (by omega) (by omega))
    (fun t h1 h2 => clean_dark hc hm0 (by omega) (by omega) (by omega) (by omega) (by omega))
    (fun t h1 h2 => clean_light hc hm0 (by omega) (by omega) (by omega) (by omega) (by omega) (by omega) (by omega))
    (fun t h1 h2 => clean_dark hc hm0 (by omega) (by omega) (by omega) (by omega) (by omega))
    (fun h => clean_light hc hm0 (by omega) (by omega) (by omega) (by omega) (by omega) (by omega) (by omega))
    (fun p0 p1 ht x y => nearly_perfect_accepted hm (by omega) (by omega) ht ms x y)
  unfold refine
  rw [hlist]
  unfold walk at this
  rcases this with ⟨s, x, y, pos, ht, he, ha, h⟩ | ⟨p0, p1, ht, h⟩
  · exact ⟨pos, h⟩
  · rw [h]
    exact nearly_perfect_accepted hm (by omega) (by omega) ht ms _ _

theorem diagonal_hit (hv : img.Valid) (hc : CleanFinder img m fx fy) (hm : 2 ≤ m) :
    ∃ pos, refineDiagonal img ⟨hf (2 * fx + 7 * m), F64.ofNat (fy + (7 * m - 1) / 2)⟩ (.fin (m : ℚ)) =
      .ret (some pos) := by
  have hw := hv.2.1
  have hh := hv.2.2
  have c1 := hc.1
  have c2 := hc.2.1
  unfold refineDiagonal diagonalStart
  simp only
  rw [hf_five (by omega), hf_ofNat (by omega), hf_sub (by rw [abs_le]; constructor <;> omega),
    hf_sub (by rw [abs_le]; constructor <;> omega), hf_sub (by rw [abs_le]; constructor <;> omega),
    hf_sub (by rw [abs_le]; constructor <;> omega), hf_add (by rw [abs_le]; constructor <;> omega),
    hf_add (by rw [abs_le]; constructor <;> omega), hf_lt, hf_lt, hf_lt, hf_lit0]
  rw [hf_round_min (a := 2 * fx + 7 * m + 10 * m) (by omega) (by omega),
    hf_round_min (a := 2 * ((fy + (7 * m - 1) / 2 : Nat) : Int) + 10 * m) (by omega) (by omega)]
  simp only [Bool.and_eq_true, decide_eq_true_eq]
  split
  · split
    · simp only
      rw [hf_round (by omega) (by omega), hf_round (by omega) (by omega)]
      rcases Nat.even_or_odd' m with ⟨k, hk | hk⟩
      · exact diagonal_walk hv hc hm (d := 1) (by omega) (by omega) (by omega) (by omega) (by omega) (by omega)
          (by omega) (by omega) _
      · exact diagonal_walk hv hc hm (d := 0) (by omega) (by omega) (by omega) (by omega) (by omega) (by omega)
          (by omega) (by omega) _
    · simp only
      rw [hf_round (by omega) (by omega), hf_round (by omega) (by omega)]
      exact diagonal_walk hv hc hm (d := 1) (by omega) (by omega) (by omega) (by omega) (by omega) (by omega)
        (by omega) (by omega) _
  · split
    · simp only
      rw [hf_round (by omega) (by omega), hf_round (by omega) (by omega)]
      rcases Nat.even_or_odd' m with ⟨k, hk | hk⟩
      · exact diagonal_walk hv hc hm (d := 1) (by omega) (by omega) (by omega) (by omega) (by omega) (by omega)
          (by omega) (by omega) _
      · exact diagonal_walk hv hc hm (d := 0) (by omega) (by omega) (by omega) (by omega) (by omega) (by omega)
          (by omega) (by omega) _
    · split
      · simp only
        rw [hf_round (by omega) (by omega), hf_round (by omega) (by omega)]
        exact diagonal_walk hv hc hm (d := 1) (by omega) (by omega) (by omega) (by omega) (by omega) (by omega)
          (by omega) (by omega) _
      · simp only
        rw [hf_round (by omega) (by omega), hf_round (by omega) (by omega)]
        exact diagonal_walk hv hc hm (d := 1) (by omega) (by omega) (by omega) (by omega) (by omega) (by omega)
          (by omega) (by omega) _

/-- All refinements at a clean finder pattern hit in the first row of its inner square. -/
theorem refineAll_hit (hv : img.Valid) (hc : CleanFinder img m fx fy) (hm : 2 ≤ m) :
    refineAll img ⟨hf (2 * fx + 7 * m), F64.ofNat (fy + 2 * m)⟩ (.fin (m : ℚ)) =
      .ret (some (⟨hf (2 * fx + 7 * m), F64.ofNat (fy + (7 * m - 1) / 2)⟩, .fin (m : ℚ))) := by
  have hw := hv.2.1
  have hh := hv.2.2
  have c1 := hc.1
  have c2 := hc.2.1
  unfold refineAll
  rw [vertical_hit hv hc hm, Run.ret_bind]
  simp only
  rw [(centre_eq (x := (2 * fx + 7 * m + 1) / 2) (t := 7 * m) (by omega) (by omega)).2.2.2,
    (centre_eq (x := fy + 7 * m - 1) (t := 7 * m) (by omega) (by omega)).2.2.1,
    centre_half (by omega) (by omega), ← ofNat_fin (show (2 * fx + 7 * m + 1) / 2 ≤ 2 ^ 53 by omega)]
  rw [horizontal_hit hv hc hm (by omega) (by omega), Run.ret_bind]
  simp only
  rw [(centre_eq (x := fx + 7 * m) (t := 7 * m) (by omega) (by omega)).2.2.1,
    (centre_eq (x := fy + (7 * m - 1) / 2) (t := 7 * m) (by omega) (by omega)).2.2.2,
    centre_half (by omega) (by omega), ← ofNat_fin (show fy + (7 * m - 1) / 2 ≤ 2 ^ 53 by omega)]
  rw [show 2 * ((fx + 7 * m : Nat) : Int) - 7 * m = 2 * fx + 7 * m by omega]
  obtain ⟨pos, h⟩ := diagonal_hit hv hc hm
  rw [h, Run.ret_bind]
  rfl

end
end LineScan
end Verif
