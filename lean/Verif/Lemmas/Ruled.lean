import Verif.Lemmas.RuledWalk
import Verif.Lemmas.DiffVal
import Verif.Lemmas.Spurious

/-!
# The refinements at a finder pattern whose modules differ by a pixel
-/
namespace Verif
namespace LineScan
open F64 FinderPattern Spec

/-- Where the modules 0, 1, 2, 5, 6 and 7 of a finder pattern begin. -/
structure Lines where
  a0 : Nat
  a1 : Nat
  a2 : Nat
  a5 : Nat
  a6 : Nat
  a7 : Nat

/-- One module is `n` or `n + 1` pixels wide, three are `d3` or `d3 + 1`, and so on. -/
structure Spaced (l : Lines) (n d3 d5 d7 : Nat) : Prop where
  s01 : l.a0 + n ≤ l.a1 ∧ l.a1 ≤ l.a0 + n + 1
  s12 : l.a1 + n ≤ l.a2 ∧ l.a2 ≤ l.a1 + n + 1
  s25 : l.a2 + d3 ≤ l.a5 ∧ l.a5 ≤ l.a2 + d3 + 1
  s56 : l.a5 + n ≤ l.a6 ∧ l.a6 ≤ l.a5 + n + 1
  s67 : l.a6 + n ≤ l.a7 ∧ l.a7 ≤ l.a6 + n + 1
  s07 : l.a0 + d7 ≤ l.a7 ∧ l.a7 ≤ l.a0 + d7 + 1
  s27 : l.a2 + d5 ≤ l.a7 ∧ l.a7 ≤ l.a2 + d5 + 1

/-- A finder pattern with columns `x` and rows `y`, and at least `n` light pixels around it. -/
structure Ruled (img : GrayImage) (x y : Lines) (n d3 d5 d7 : Nat) : Prop where
  big : 8 ≤ n
  thrice : 3 * n ≤ d3 ∧ d3 ≤ 3 * n + 2
  seven : 7 * n ≤ d7 ∧ d7 ≤ 7 * n + 6
  five : 7 * d5 ≤ 5 * d7 + 4 ∧ 5 * d7 ≤ 7 * d5 + 6
  cols : Spaced x n d3 d5 d7
  rows : Spaced y n d3 d5 d7
  left : n ≤ x.a0
  above : n ≤ y.a0
  right : x.a7 + n ≤ img.width
  below : y.a7 + n ≤ img.height
  dark : ∀ i j, x.a0 ≤ i → i < x.a7 → y.a0 ≤ j → j < y.a7 →
    (i < x.a1 ∨ x.a6 ≤ i ∨ j < y.a1 ∨ y.a6 ≤ j ∨ (x.a2 ≤ i ∧ i < x.a5 ∧ y.a2 ≤ j ∧ j < y.a5)) → pix img i j = 0#8
  light : ∀ i j, x.a0 ≤ i + n → i < x.a7 + n → y.a0 ≤ j + n → j < y.a7 + n →
    (i < x.a0 ∨ j < y.a0 ∨ x.a7 ≤ i ∨ y.a7 ≤ j ∨
      (x.a1 ≤ i ∧ i < x.a6 ∧ y.a1 ≤ j ∧ j < y.a6 ∧ (i < x.a2 ∨ x.a5 ≤ i ∨ j < y.a2 ∨ y.a5 ≤ j))) → pix img i j = 255#8

/-- The sizes of the columns and of the rows of a finder pattern, for linear arithmetic. -/
theorem Ruled.facts {img : GrayImage} {x y : Lines} {n d3 d5 d7 : Nat} (h : Ruled img x y n d3 d5 d7) :
    (8 ≤ n ∧ 3 * n ≤ d3 ∧ d3 ≤ 3 * n + 2 ∧ 7 * n ≤ d7 ∧ d7 ≤ 7 * n + 6 ∧ 7 * d5 ≤ 5 * d7 + 4 ∧ 5 * d7 ≤ 7 * d5 + 6 ∧
      n ≤ x.a0 ∧ n ≤ y.a0 ∧ x.a7 + n ≤ img.width ∧ y.a7 + n ≤ img.height) ∧
    (x.a0 + n ≤ x.a1 ∧ x.a1 ≤ x.a0 + n + 1 ∧ x.a1 + n ≤ x.a2 ∧ x.a2 ≤ x.a1 + n + 1 ∧ x.a2 + d3 ≤ x.a5 ∧
      x.a5 ≤ x.a2 + d3 + 1 ∧ x.a5 + n ≤ x.a6 ∧ x.a6 ≤ x.a5 + n + 1 ∧ x.a6 + n ≤ x.a7 ∧ x.a7 ≤ x.a6 + n + 1 ∧
      x.a0 + d7 ≤ x.a7 ∧ x.a7 ≤ x.a0 + d7 + 1) ∧
    (y.a0 + n ≤ y.a1 ∧ y.a1 ≤ y.a0 + n + 1 ∧ y.a1 + n ≤ y.a2 ∧ y.a2 ≤ y.a1 + n + 1 ∧ y.a2 + d3 ≤ y.a5 ∧
      y.a5 ≤ y.a2 + d3 + 1 ∧ y.a5 + n ≤ y.a6 ∧ y.a6 ≤ y.a5 + n + 1 ∧ y.a6 + n ≤ y.a7 ∧ y.a7 ≤ y.a6 + n + 1 ∧
      y.a0 + d7 ≤ y.a7 ∧ y.a7 ≤ y.a0 + d7 + 1 ∧ y.a2 + d5 ≤ y.a7 ∧ y.a7 ≤ y.a2 + d5 + 1) :=
  ⟨⟨h.big, h.thrice.1, h.thrice.2, h.seven.1, h.seven.2, h.five.1, h.five.2, h.left, h.above, h.right, h.below⟩,
   ⟨h.cols.s01.1, h.cols.s01.2, h.cols.s12.1, h.cols.s12.2, h.cols.s25.1, h.cols.s25.2, h.cols.s56.1, h.cols.s56.2,
    h.cols.s67.1, h.cols.s67.2, h.cols.s07.1, h.cols.s07.2⟩,
   ⟨h.rows.s01.1, h.rows.s01.2, h.rows.s12.1, h.rows.s12.2, h.rows.s25.1, h.rows.s25.2, h.rows.s56.1, h.rows.s56.2,
    h.rows.s67.1, h.rows.s67.2, h.rows.s07.1, h.rows.s07.2, h.rows.s27.1, h.rows.s27.2⟩⟩

/-- Five runs with the shape of a finder pattern. -/
theorem shaped_looks {p0 p1 a b c d e : Nat} (ht : (FinderPattern.mk p0 p1 a b c d e).total < 2 ^ 32)
    (hs : FinderShaped a b c d e) (hn : a + b + c + d + e ≠ 3 * c) :
    (FinderPattern.mk p0 p1 a b c d e).looksLikeFinder = .ret true := by
  rw [Props.finder_test_is_exact _ (by unfold total at ht; simp only at ht ⊢; omega) (Or.inl hn)]
  congr 1
  rw [decide_eq_true_eq]
  exact hs

theorem shaped_accepted {ms : ℚ} (h1 : 1 ≤ ms) (h2 : ms ≤ 2 ^ 30) {p0 p1 a b c d e : Nat}
    (ht : (FinderPattern.mk p0 p1 a b c d e).total < 2 ^ 32) (hs : FinderShaped a b c d e)
    (hn : a + b + c + d + e ≠ 3 * c) (l1 : 81 * ms ≤ 100 * modQ (a + b + c + d + e))
    (l2 : 81 * modQ (a + b + c + d + e) ≤ 100 * ms) (i j : Nat) :
    accept (.fin ms) false ⟨p0, p1, a, b, c, d, e⟩ i j = .ret (some (found (.fin ms) i j (a + b + c + d + e))) := by
  have h7 : 7 ≤ a + b + c + d + e := by unfold FinderShaped at hs; simp only at hs; omega
  have h5 := five_le (FinderPattern.mk p0 p1 a b c d e)
  have he : (FinderPattern.mk p0 p1 a b c d e).five = a + b + c + d + e := rfl
  rw [accept_some ht (shaped_looks ht hs hn), he]
  rw [he, Bool.or_false]
  rw [he] at h5
  exact diff_close h1 h2 (modQ_ge_one h7) (modQ_bounds (by omega)).2 l1 l2

/-- What is too small is not accepted. -/
theorem small_none {ms : ℚ} (h1 : 1 ≤ ms) (h2 : ms ≤ 2 ^ 30) {s : FinderPattern} {i j : Nat} (ht : s.total < 2 ^ 32)
    (h : 100 * modQ s.five ≤ 79 * ms) : accept (.fin ms) false s i j = .ret none := by
  rcases looks_cases ht with hl | hl
  · exact accept_none hl
  · obtain ⟨b, hb, hb7⟩ := looks_ret ht
    rw [hl] at hb
    have h7 := hb7 (Run.ret.inj hb).symm
    have h5 := five_le s
    exact accept_not_similar ht (diff_far h1 h2 (modQ_ge_one h7) (modQ_bounds (by omega)).2 h)

/-- Nothing is accepted before the five runs are complete. -/
theorem early5_none {ms : ℚ} (h1 : 1 ≤ ms) (h2 : ms ≤ 2 ^ 30) {k a b c d : Nat} (hk : k + a + b + c + d < 2 ^ 32)
    (hsmall : 100 * ((k + a + b : Nat) : ℚ) / 7 + 1 ≤ 79 * ms) (hc : 5 * (k + a + b + c + d) < 21 * c)
    {s : FinderPattern} {i j : Nat} (ht : s.total < 2 ^ 32) (he : Early5 k a b c d s) :
    accept (.fin ms) false s i j = .ret none := by
  have h5 := five_le s
  rcases he with he | ⟨h6, he⟩ | ⟨h6, he⟩
  · apply small_none h1 h2 ht
    have hm := modQ_near (t := s.five) (by omega)
    have : (s.five : ℚ) ≤ ((k + a + b : Nat) : ℚ) := by exact_mod_cast (le_trans h5 he)
    rw [abs_le] at hm
    norm_num at hm
    linarith [hm.2]
  all_goals
    rcases looks_cases ht with hl | hl
    · exact accept_none hl
    · have hsh := Props.accepted_is_finder_shaped s (by unfold total at ht; omega) hl
      unfold FinderShaped at hsh
      simp only at hsh
      obtain ⟨-, -, -, -, ⟨-, q1⟩, ⟨-, q2⟩⟩ := hsh
      unfold total at he
      clear hsmall h1 h2 ht hl h5 hk
      first | (clear q2; omega) | (clear q1; omega)

theorem shaped_pos {a b c d e : Nat} (h : FinderShaped a b c d e) :
    7 ≤ a + b + c + d + e ∧ 1 ≤ a ∧ 1 ≤ b ∧ 1 ≤ c ∧ 1 ≤ d ∧ 1 ≤ e ∧ b ≤ 10 * c ∧ c ≤ 11 * d := by
  unfold FinderShaped at h
  simp only at h
  obtain ⟨h7, ⟨a1, a2⟩, ⟨b1, b2⟩, ⟨c1, c2⟩, ⟨d1, d2⟩, ⟨e1, e2⟩⟩ := h
  refine ⟨h7, ?_, ?_, ?_, ?_, ?_, ?_, ?_⟩ <;> linarith

/-- Modules of `n` or `n + 1` pixels, the last one possibly shortened by two. -/
theorem spaced_shape {n d3 a b c d e : Nat} (hn : 8 ≤ n) (h3 : 3 * n ≤ d3) (h3' : d3 ≤ 3 * n + 2) (a1 : n ≤ a)
    (a2 : a ≤ n + 1) (b1 : n ≤ b) (b2 : b ≤ n + 1) (c1 : d3 ≤ c) (c2 : c ≤ d3 + 1) (d1 : n ≤ d) (d2 : d ≤ n + 1)
    (e1 : n ≤ e + 2) (e2 : e ≤ n + 1) : FinderShaped a b c d e ∧ a + b + c + d + e < 3 * c := by
  unfold FinderShaped
  simp only
  refine ⟨⟨?_, ⟨?_, ?_⟩, ⟨?_, ?_⟩, ⟨?_, ?_⟩, ⟨?_, ?_⟩, ⟨?_, ?_⟩⟩, ?_⟩ <;> linarith

/-- A line through a finder pattern: `k` positions, of which the last `g` are light, and five runs. Only the five runs
are accepted. -/
theorem line_hit {img : GrayImage} {P : Nat → Nat × Nat} {col : Nat → U8} {N : Nat}
    (hp : ∀ t < N, img.getPixel (P t).1 (P t).2 = .ret (col t)) (hN : N < 2 ^ 32) {ms : ℚ} (h1 : 1 ≤ ms)
    (h2 : ms ≤ 2 ^ 30) {g k a b c d e T : Nat} (hT : |ms - (T : ℚ) / 7| ≤ 1 / 7)
    (hg : 1 ≤ g) (hgk : k ≤ 10 * g) (hka : k ≤ 10 * a) (hab : a ≤ 10 * b)
    (hcd : c ≤ 10 * d) (hsh : FinderShaped a b c d e) (hne : a + b + c + d + e ≠ 3 * c)
    (hlen : k + a + b + c + d + e ≤ N)
    (l1 : 81 * T + 100 ≤ 100 * (a + b + c + d + e)) (l2 : 81 * (a + b + c + d + e) + 114 ≤ 100 * T)
    (l3 : 100 * (k + a + b) + 100 ≤ 79 * T) (l4 : 5 * (k + a + b + c + d) < 21 * c)
    (c0 : ∀ t < k, k ≤ t + g → col t = 255#8)
    (c1 : ∀ t, k ≤ t → t < k + a → col t = 0#8)
    (c2 : ∀ t, k + a ≤ t → t < k + a + b → col t = 255#8)
    (c3 : ∀ t, k + a + b ≤ t → t < k + a + b + c → col t = 0#8)
    (c4 : ∀ t, k + a + b + c ≤ t → t < k + a + b + c + d → col t = 255#8)
    (c5 : ∀ t, k + a + b + c + d ≤ t → t < k + a + b + c + d + e → col t = 0#8)
    (c6 : k + a + b + c + d + e < N → col (k + a + b + c + d + e) = 255#8) :
    walk img (.fin ms) false P N 0 127#8 {} (0, 0) =
      .ret (some (found (.fin ms) (P (min (k + a + b + c + d + e) (N - 1))).1
        (P (min (k + a + b + c + d + e) (N - 1))).2 (a + b + c + d + e))) := by
  obtain ⟨s7, sa, sb, sc, sd, se, sbc, -⟩ := shaped_pos hsh
  have hl32 : a + b + c + d + e < 2 ^ 32 := by linarith
  have hk32 : k + a + b + c + d < 2 ^ 32 := by linarith
  rw [abs_le] at hT
  have hu := modQ_near (t := a + b + c + d + e) hl32
  rw [abs_le] at hu
  norm_num at hu
  have l1' : 81 * (T : ℚ) + 100 ≤ 100 * ((a + b + c + d + e : Nat) : ℚ) := by exact_mod_cast l1
  have l2' : 81 * ((a + b + c + d + e : Nat) : ℚ) + 114 ≤ 100 * (T : ℚ) := by exact_mod_cast l2
  have l3' : 100 * ((k + a + b : Nat) : ℚ) + 100 ≤ 79 * (T : ℚ) := by exact_mod_cast l3
  push_cast at l1' l2' l3'
  have hacc : ∀ p0 p1, (FinderPattern.mk p0 p1 a b c d e).total < 2 ^ 32 → ∀ i j,
      accept (.fin ms) false ⟨p0, p1, a, b, c, d, e⟩ i j = .ret (some (found (.fin ms) i j (a + b + c + d + e))) := by
    intro p0 p1 ht i j
    exact shaped_accepted h1 h2 ht hsh hne (by linarith [hu.1, hT.2]) (by linarith [hu.2, hT.1]) i j
  rcases walk_five (ms := .fin ms) (diag := false) hp hN (g := g) (k := k) (a := a) (b := b) (c := c) (d := d) (e := e)
    hg sa sb sc sd se hgk hka hab sbc hcd hlen c0 c1 c2 c3 c4 c5 c6
    (fun p0 p1 ht i j => ⟨_, hacc p0 p1 ht i j⟩) with ⟨s, i, j, pos, ht, hea, ha, -⟩ | ⟨p0, p1, ht, hw⟩
  · exfalso
    rw [early5_none h1 h2 hk32 (by push_cast; linarith [hT.1]) l4 ht hea] at ha
    simp at ha
  · rw [hw, hacc p0 p1 ht]

section
variable {img : GrayImage} {x y : Lines} {n d3 d5 d7 : Nat}

/-- The rows or columns of a finder pattern as run lengths after `k` positions from `top` on. -/
theorem Spaced.split {l : Lines} (h : Spaced l n d3 d5 d7) {top : Nat} (ht : top ≤ l.a0) :
    ∃ k a b c d e, l.a0 = top + k ∧ l.a1 = top + k + a ∧ l.a2 = top + k + a + b ∧ l.a5 = top + k + a + b + c ∧
      l.a6 = top + k + a + b + c + d ∧ l.a7 = top + k + a + b + c + d + e ∧
      (n ≤ a ∧ a ≤ n + 1 ∧ n ≤ b ∧ b ≤ n + 1 ∧ d3 ≤ c ∧ c ≤ d3 + 1 ∧ n ≤ d ∧ d ≤ n + 1 ∧ n ≤ e ∧ e ≤ n + 1 ∧
        d7 ≤ a + b + c + d + e ∧ a + b + c + d + e ≤ d7 + 1 ∧ d5 ≤ c + d + e ∧ c + d + e ≤ d5 + 1) := by
  obtain ⟨⟨u1, u2⟩, ⟨u3, u4⟩, ⟨u5, u6⟩, ⟨u7, u8⟩, ⟨u9, u10⟩, ⟨u11, u12⟩, ⟨u13, u14⟩⟩ := h
  obtain ⟨k, hk⟩ := Nat.exists_eq_add_of_le ht
  obtain ⟨a, ha⟩ := Nat.exists_eq_add_of_le (show l.a0 ≤ l.a1 by omega)
  obtain ⟨b, hb⟩ := Nat.exists_eq_add_of_le (show l.a1 ≤ l.a2 by omega)
  obtain ⟨c, hc⟩ := Nat.exists_eq_add_of_le (show l.a2 ≤ l.a5 by omega)
  obtain ⟨d, hd⟩ := Nat.exists_eq_add_of_le (show l.a5 ≤ l.a6 by omega)
  obtain ⟨e, he⟩ := Nat.exists_eq_add_of_le (show l.a6 ≤ l.a7 by omega)
  refine ⟨k, a, b, c, d, e, hk, by omega, by omega, by omega, by omega, by omega, ?_⟩
  refine ⟨?_, ?_, ?_, ?_, ?_, ?_, ?_, ?_, ?_, ?_, ?_, ?_, ?_, ?_⟩ <;> omega

set_option maxHeartbeats 1000000 in
/-- A line through the middle of a finder pattern, from `top` on and up to but without `bot`. -/
theorem ruled_line {l : Lines} (hl : Spaced l n d3 d5 d7) (f1 : 8 ≤ n) (f2 : 3 * n ≤ d3) (f3 : d3 ≤ 3 * n + 2)
    (f4 : 7 * n ≤ d7) (f5 : d7 ≤ 7 * n + 6) {P : Nat → Nat × Nat} {col : Nat → U8} {top bot : Nat}
    (hp : ∀ j, top ≤ j → j < bot → img.getPixel (P j).1 (P j).2 = .ret (col j)) (hb : bot < 2 ^ 32)
    (dark : ∀ j, l.a0 ≤ j → j < l.a7 → (j < l.a1 ∨ l.a6 ≤ j ∨ (l.a2 ≤ j ∧ j < l.a5)) → col j = 0#8)
    (light : ∀ j, l.a0 ≤ j + n → j < l.a7 + n →
      (j < l.a0 ∨ l.a7 ≤ j ∨ (l.a1 ≤ j ∧ j < l.a2) ∨ (l.a5 ≤ j ∧ j < l.a6)) → col j = 255#8)
    {ms : ℚ} (h1 : 1 ≤ ms) (h2 : ms ≤ 2 ^ 30) {T : Nat} (hT : |ms - (T : ℚ) / 7| ≤ 1 / 7) (hT1 : d7 ≤ T + 2)
    (hT2 : T ≤ d7 + 1) (ht1 : top ≤ l.a0) (ht2 : 100 * l.a2 + 100 ≤ 100 * top + 79 * T) (hb1 : l.a7 ≤ bot + 2) :
    walk img (.fin ms) false (fun t => P (top + t)) (bot - top) 0 127#8 {} (0, 0) =
      .ret (some (found (.fin ms) (P (min l.a7 (bot - 1))).1 (P (min l.a7 (bot - 1))).2 (min bot l.a7 - l.a0))) := by
  obtain ⟨k, a, b, m, d, e', e0, e1, e2, e5, e6, e7, w1, w2, w3, w4, w5, w6, w7, w8, w9, w10, w11, w12, w13, w14⟩ :=
    hl.split ht1
  obtain ⟨e, he⟩ : ∃ e, min bot l.a7 = top + k + a + b + m + d + e := ⟨min bot l.a7 - (top + k + a + b + m + d), by
    clear hT hT1 hT2 ht1 ht2 f2 f3 f4 f5 w1 w2 w3 w4 w5 w6 w7 w8 w10 w11 w12 w13 w14; omega⟩
  have he1 : e ≤ e' := by
    have := min_le_right bot l.a7
    linarith
  have he2 : e' ≤ e + 2 := by
    rcases min_choice bot l.a7 with h | h <;> rw [h] at he <;> linarith
  obtain ⟨N, hN⟩ : ∃ N, bot = top + N := ⟨bot - top, by
    have := min_le_left bot l.a7
    clear hT hT1 hT2 ht1 ht2 f2 f3 f4 f5 w1 w2 w3 w4 w5 w6 w7 w8 w10 w11 w12 w13 w14; omega⟩
  have hlen : k + a + b + m + d + e ≤ N := by
    have := min_le_left bot l.a7
    linarith
  have hend : k + a + b + m + d + e < N → e = e' := by
    intro hlt
    rcases min_choice bot l.a7 with h | h <;> rw [h] at he
    · exfalso; linarith
    · linarith
  have hkT : 100 * (k + a + b) + 100 ≤ 79 * T := by linarith
  have hN1 : 1 ≤ N := by linarith
  have hr : min l.a7 (bot - 1) = top + min (k + a + b + m + d + e) (N - 1) := by
    clear hp dark light hT hT1 hT2 f1 f2 f3 f4 f5 w1 w2 w3 w4 w5 w6 w7 w8 w9 w10 w11 w12 w13 w14
    rcases le_total bot l.a7 with hle | hle
    · rw [min_eq_left hle] at he
      rw [min_eq_right (by omega), min_eq_right (by omega)]
      omega
    · rw [min_eq_right hle] at he
      have : k + a + b + m + d + e ≤ N := hlen
      rcases Nat.lt_or_ge (k + a + b + m + d + e) N with hlt | hge
      · rw [min_eq_left (by omega), min_eq_left (by omega)]; omega
      · rw [min_eq_right (by omega), min_eq_right (by omega)]; omega
  have hs : min bot l.a7 - l.a0 = a + b + m + d + e := by
    rw [he, e0]
    simp only [Nat.add_assoc]
    rw [← Nat.add_assoc top k, Nat.add_sub_cancel_left]
  rw [hr, hs, hN, Nat.add_sub_cancel_left]
  rw [e0, e1, e2, e5, e6, e7] at dark light
  have hp' : ∀ t < N, img.getPixel ((fun t => P (top + t)) t).1 ((fun t => P (top + t)) t).2 = .ret (col (top + t)) := by
    intro t ht
    exact hp (top + t) (by omega) (by omega)
  clear hr hs ht1 ht2 hb1 e0 e1 e2 e5 e6 e7 he hp
  have hshape := spaced_shape f1 f2 f3 w1 w2 w3 w4 w5 w6 w7 w8 (show n ≤ e + 2 by linarith) (show e ≤ n + 1 by linarith)
  exact line_hit (P := fun t => P (top + t)) (col := fun t => col (top + t)) hp' (by linarith) h1 h2 (g := n) (k := k)
    (a := a) (b := b) (c := m) (d := d) (e := e) hT (by linarith) (by linarith) (by linarith) (by linarith)
    (by linarith) hshape.1 (ne_of_lt hshape.2) hlen (by linarith) (by linarith) (by linarith) (by linarith)
    (fun t t1 t2 => light _ (by linarith) (by linarith) (.inl (by linarith)))
    (fun t t1 t2 => dark _ (by linarith) (by linarith) (.inl (by linarith)))
    (fun t t1 t2 => light _ (by linarith) (by linarith) (.inr (.inr (.inl ⟨by linarith, by linarith⟩))))
    (fun t t1 t2 => dark _ (by linarith) (by linarith) (.inr (.inr ⟨by linarith, by linarith⟩)))
    (fun t t1 t2 => light _ (by linarith) (by linarith) (.inr (.inr (.inr ⟨by linarith, by linarith⟩))))
    (fun t t1 t2 => dark _ (by linarith) (by linarith) (.inr (.inl (by linarith))))
    (fun hlt => by have := hend hlt; exact light _ (by linarith) (by linarith) (.inr (.inl (by linarith))))

theorem range_line (top bot : Nat) (P : Nat → Nat × Nat) :
    (rangeList top bot).map P = (List.range' 0 (bot - top - 0)).map fun t => P (top + t) := by
  unfold rangeList
  rw [Nat.sub_zero, List.range'_eq_map_range, ← List.range_eq_range', List.map_map]
  rfl

/-- A column through the middle. -/
theorem ruled_column (hv : img.Valid) (h : Ruled img x y n d3 d5 d7) {c top bot : Nat} (hc1 : x.a2 ≤ c) (hc2 : c < x.a5)
    (hbot : bot ≤ img.height) {ms : ℚ} (h1 : 1 ≤ ms) (h2 : ms ≤ 2 ^ 30) {T : Nat} (hT : |ms - (T : ℚ) / 7| ≤ 1 / 7)
    (hT1 : d7 ≤ T + 2) (hT2 : T ≤ d7 + 1) (ht1 : top ≤ y.a0) (ht2 : 100 * y.a2 + 100 ≤ 100 * top + 79 * T)
    (hb1 : y.a7 ≤ bot + 2) :
    refine img (.fin ms) ((rangeList top bot).map fun y => (c, y)) false =
      .ret (some (found (.fin ms) c (min y.a7 (bot - 1)) (min bot y.a7 - y.a0))) := by
  have hcx : x.a0 ≤ c ∧ x.a1 ≤ c ∧ c < x.a6 ∧ c < x.a7 := by
    have := h.cols.s01.1; have := h.cols.s12.1; have := h.cols.s56.1; have := h.cols.s67.1
    refine ⟨?_, ?_, ?_, ?_⟩ <;> linarith
  have hw := h.right
  have hw32 := hv.2.2
  have hn := h.left
  rw [range_line]
  exact ruled_line (P := fun j => (c, j)) h.rows h.big h.thrice.1 h.thrice.2 h.seven.1 h.seven.2
    (fun j _ hj => getPixel_pix hv (by simp only; linarith) (by simp only; linarith)) (by linarith)
    (fun j j1 j2 j3 => h.dark c j hcx.1 hcx.2.2.2 j1 j2 (by
      rcases j3 with j3 | j3 | j3
      · exact .inr (.inr (.inl j3))
      · exact .inr (.inr (.inr (.inl j3)))
      · exact .inr (.inr (.inr (.inr ⟨hc1, hc2, j3⟩)))))
    (fun j j1 j2 j3 => h.light c j (by linarith [hcx.1]) (by linarith [hcx.2.2.2]) j1 j2 (by
      have := h.rows.s01.1; have := h.rows.s12.1; have := h.rows.s25.1; have := h.rows.s56.1
      have := h.thrice.1; have := h.big
      rcases j3 with j3 | j3 | j3 | j3
      · exact .inr (.inl j3)
      · exact .inr (.inr (.inr (.inl j3)))
      · exact .inr (.inr (.inr (.inr ⟨hcx.2.1, hcx.2.2.1, j3.1, by linarith, .inr (.inr (.inl j3.2))⟩)))
      · exact .inr (.inr (.inr (.inr ⟨hcx.2.1, hcx.2.2.1, by linarith, j3.2, .inr (.inr (.inr j3.1))⟩)))))
    h1 h2 hT hT1 hT2 ht1 ht2 hb1

/-- A row through the middle. -/
theorem ruled_row (hv : img.Valid) (h : Ruled img x y n d3 d5 d7) {r top bot : Nat} (hc1 : y.a2 ≤ r) (hc2 : r < y.a5)
    (hbot : bot ≤ img.width) {ms : ℚ} (h1 : 1 ≤ ms) (h2 : ms ≤ 2 ^ 30) {T : Nat} (hT : |ms - (T : ℚ) / 7| ≤ 1 / 7)
    (hT1 : d7 ≤ T + 2) (hT2 : T ≤ d7 + 1) (ht1 : top ≤ x.a0) (ht2 : 100 * x.a2 + 100 ≤ 100 * top + 79 * T)
    (hb1 : x.a7 ≤ bot + 2) :
    refine img (.fin ms) ((rangeList top bot).map fun x => (x, r)) false =
      .ret (some (found (.fin ms) (min x.a7 (bot - 1)) r (min bot x.a7 - x.a0))) := by
  have hcx : y.a0 ≤ r ∧ y.a1 ≤ r ∧ r < y.a6 ∧ r < y.a7 := by
    have := h.rows.s01.1; have := h.rows.s12.1; have := h.rows.s56.1; have := h.rows.s67.1
    refine ⟨?_, ?_, ?_, ?_⟩ <;> linarith
  have hw := h.below
  have hw32 := hv.2.1
  rw [range_line]
  exact ruled_line (P := fun j => (j, r)) h.cols h.big h.thrice.1 h.thrice.2 h.seven.1 h.seven.2
    (fun j _ hj => getPixel_pix hv (by simp only; linarith) (by simp only; linarith)) (by linarith)
    (fun j j1 j2 j3 => h.dark j r j1 j2 hcx.1 hcx.2.2.2 (by
      rcases j3 with j3 | j3 | j3
      · exact .inl j3
      · exact .inr (.inl j3)
      · exact .inr (.inr (.inr (.inr ⟨j3.1, j3.2, hc1, hc2⟩)))))
    (fun j j1 j2 j3 => h.light j r j1 j2 (by linarith [hcx.1]) (by linarith [hcx.2.2.2]) (by
      have := h.cols.s01.1; have := h.cols.s12.1; have := h.cols.s25.1; have := h.cols.s56.1
      have := h.thrice.1; have := h.big
      rcases j3 with j3 | j3 | j3 | j3
      · exact .inl j3
      · exact .inr (.inr (.inl j3))
      · exact .inr (.inr (.inr (.inr ⟨j3.1, by linarith, hcx.2.1, hcx.2.2.1, .inl j3.2⟩)))
      · exact .inr (.inr (.inr (.inr ⟨by linarith, j3.2, hcx.2.1, hcx.2.2.1, .inr (.inl j3.1)⟩)))))
    h1 h2 hT hT1 hT2 ht1 ht2 hb1

end
end LineScan
end Verif
