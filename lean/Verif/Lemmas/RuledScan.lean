import Verif.Lemmas.RuledRefine
import Verif.Lemmas.ExactScan

/-!
# The scan of an image with finder patterns whose modules differ by a pixel
-/
namespace Verif
namespace LineScan
open F64 FinderPattern Spec

theorem seven_val {μ : ℚ} (h1 : 1 ≤ μ) (h2 : μ ≤ 2 ^ 27) :
    ∃ s : ℚ, F64.lit 7 * F64.fin μ = .fin s ∧ |s - 7 * μ| ≤ 1 / 1000 := by
  have hb : |((7 : Nat) : ℚ) * μ| ≤ 2 ^ 30 := by
    rw [abs_of_nonneg (by positivity)]; push_cast; norm_num at h2 ⊢; linarith
  have hr := round_near (B := 2 ^ 30) (by norm_num) hb
  refine ⟨roundQ (((7 : Nat) : ℚ) * μ), ?_, ?_⟩
  · rw [lit_nat (by norm_num), mul_fin (by norm_num at hb ⊢; linarith)]
  · push_cast at hr ⊢
    refine le_trans hr ?_
    norm_num

/-- Close points are less than eight modules apart. -/
theorem close_points {px py cx cy μ : ℚ} (h1 : 1 ≤ μ) (h2 : μ ≤ 2 ^ 27) (hx : |cx - px| ≤ 2 ^ 34) (hy : |cy - py| ≤ 2 ^ 34)
    (h : F64.lt (dist ⟨.fin px, .fin py⟩ ⟨.fin cx, .fin cy⟩) (F64.lit 7 * .fin μ) = true) :
    (cx - px) ^ 2 + (cy - py) ^ 2 < (8 * μ) ^ 2 := by
  obtain ⟨s, hs, hs1⟩ := seven_val h1 h2
  obtain ⟨M, hM⟩ : ∃ M, M = max 1 (max |cx - px| |cy - py|) := ⟨_, rfl⟩
  have m1 : 1 ≤ M := by rw [hM]; exact le_max_left _ _
  have m2 : |cx - px| ≤ M := by rw [hM]; exact le_trans (le_max_left _ _) (le_max_right _ _)
  have m3 : |cy - py| ≤ M := by rw [hM]; exact le_trans (le_max_right _ _) (le_max_right _ _)
  have m4 : M ≤ 2 ^ 40 := by
    rw [hM]; apply max_le (by norm_num) (max_le _ _) <;> linarith
  have m5 : M ^ 2 ≤ 1 + ((cx - px) ^ 2 + (cy - py) ^ 2) := by
    have s1 := sq_nonneg (cx - px)
    have s2 := sq_nonneg (cy - py)
    have : M = 1 ∨ M = |cx - px| ∨ M = |cy - py| := by
      rw [hM]
      rcases max_choice 1 (max |cx - px| |cy - py|) with h | h
      · exact Or.inl h
      · rw [h]
        rcases max_choice |cx - px| |cy - py| with h | h
        · exact Or.inr (Or.inl h)
        · exact Or.inr (Or.inr h)
    rcases this with h | h | h <;> rw [h]
    · linarith
    · rw [sq_abs]; linarith
    · rw [sq_abs]; linarith
  obtain ⟨L, -, hL, L0, hn⟩ := len_fin m1 m4 m2 m3
  have hd : dist ⟨.fin px, .fin py⟩ ⟨.fin cx, .fin cy⟩ = .fin L := hL
  rw [hd, hs, lt_fin, decide_eq_true_eq] at h
  have hu := uQ_small
  have hu0 := uQ_pos
  rw [abs_le] at hn hs1
  have hL2 : L ^ 2 < (7001 / 1000 * μ) ^ 2 := pow_lt_pow_left₀ (by linarith [hs1.2]) L0 (by norm_num)
  generalize (cx - px) ^ 2 + (cy - py) ^ 2 = d at *
  have : M ^ 2 * uQ ≤ (1 + d) * (1 / 10 ^ 15) := by
    have a : 0 ≤ 1 + d := le_trans (sq_nonneg M) m5
    calc M ^ 2 * uQ ≤ (1 + d) * uQ := mul_le_mul_of_nonneg_right m5 (le_of_lt hu0)
      _ ≤ _ := mul_le_mul_of_nonneg_left hu a
  nlinarith [hn.1, hn.2]

/-- Points up to four modules apart are close. -/
theorem points_close {x y y' μ : ℚ} (h1 : 1 ≤ μ) (h2 : μ ≤ 2 ^ 27) (h : |y' - y| ≤ 4 * μ) :
    F64.lt (dist ⟨.fin x, .fin y⟩ ⟨.fin x, .fin y'⟩) (F64.lit 7 * .fin μ) = true := by
  obtain ⟨s, hs, hs1⟩ := seven_val h1 h2
  obtain ⟨L, -, hL, L0, hn⟩ := len_fin (x1 := x) (x2 := x) (y1 := y) (y2 := y')
    (M := 4 * μ) (by linarith) (by norm_num at h2 ⊢; linarith) (by rw [sub_self, abs_zero]; linarith) h
  have hd : dist ⟨.fin x, .fin y⟩ ⟨.fin x, .fin y'⟩ = .fin L := hL
  rw [hd, hs, lt_fin, decide_eq_true_eq]
  have hu := uQ_small
  have hsq : (y' - y) ^ 2 ≤ (4 * μ) ^ 2 := by
    rw [← sq_abs]; exact pow_le_pow_left₀ (abs_nonneg _) h 2
  rw [abs_le] at hn hs1
  have : (4 * μ) ^ 2 * uQ ≤ (4 * μ) ^ 2 * (1 / 10 ^ 15) := mul_le_mul_of_nonneg_left hu (by positivity)
  rw [sub_self] at hn
  have : L ^ 2 < (6 * μ) ^ 2 := by nlinarith [hn.1, hn.2]
  have := lt_of_pow_lt_pow_left₀ 2 (by positivity) this
  linarith [hs1.1]

section
variable {img : GrayImage} {x y : Lines} {n d3 d5 d7 : Nat}

theorem left_block (a k c r : Nat) : (∀ i, a ≤ i → i < a + k → grey img i r = c) →
    leftOf img (a + k) r = List.replicate k c ++ leftOf img a r := by
  induction k with
  | zero => intro _; rfl
  | succ k ih =>
    intro h
    rw [← Nat.add_assoc, leftOf_succ, h (a + k) (by omega) (by omega), ih (fun x h1 h2 => h x h1 (by omega)),
      List.replicate_succ, List.cons_append]

theorem replicate_head {k c : Nat} (hk : 1 ≤ k) (l : List Nat) (b : Nat)
    (h : (List.replicate k c ++ l).head? = some b) : b = c := by
  obtain ⟨j, rfl⟩ : ∃ j, k = j + 1 := ⟨k - 1, by omega⟩
  rw [List.replicate_succ, List.cons_append, List.head?_cons, Option.some.injEq] at h
  exact h.symm

theorem runs_block {k c : Nat} (hk : 1 ≤ k) (l : List Nat) (h : ∀ b, l.head? = some b → b ≠ c) :
    runs (List.replicate k c ++ l) = k :: runs l := by
  obtain ⟨j, rfl⟩ : ∃ j, k = j + 1 := ⟨k - 1, by omega⟩
  exact runs_replicate c j l (fun b hb => Ne.symm (h b hb))

/-- What a scan line sees at the end of a finder pattern. -/
theorem ruled_runs (h : Ruled img x y n d3 d5 d7) {r : Nat} (h1 : y.a2 ≤ r) (h2 : r < y.a5) :
    ∃ a b c d e rest, runs (leftOf img x.a7 r) = e :: d :: c :: b :: a :: rest ∧ a + b + c + d + e = x.a7 - x.a0 ∧
      (n ≤ a ∧ a ≤ n + 1) ∧ (n ≤ b ∧ b ≤ n + 1) ∧ (d3 ≤ c ∧ c ≤ d3 + 1) ∧ (n ≤ d ∧ d ≤ n + 1) ∧ (n ≤ e ∧ e ≤ n + 1) := by
  have hn := h.big
  have h3 := h.thrice.1
  have hl := h.left
  have r0 : y.a0 ≤ r ∧ y.a1 ≤ r ∧ r < y.a6 ∧ r < y.a7 := by
    have := h.rows.s01.1; have := h.rows.s12.1; have := h.rows.s56.1; have := h.rows.s67.1
    refine ⟨?_, ?_, ?_, ?_⟩ <;> linarith
  have dark : ∀ i, x.a0 ≤ i → i < x.a7 → (i < x.a1 ∨ x.a6 ≤ i ∨ (x.a2 ≤ i ∧ i < x.a5)) → grey img i r = 0 := by
    intro i i1 i2 i3
    rw [grey_pix, h.dark i r i1 i2 r0.1 r0.2.2.2 (by
      rcases i3 with i3 | i3 | i3
      · exact .inl i3
      · exact .inr (.inl i3)
      · exact .inr (.inr (.inr (.inr ⟨i3.1, i3.2, h1, h2⟩))))]
    rfl
  have light : ∀ i, x.a0 ≤ i + n → i < x.a7 → (i < x.a0 ∨ x.a1 ≤ i ∧ i < x.a6 ∧ (i < x.a2 ∨ x.a5 ≤ i)) →
      grey img i r = 255 := by
    intro i i1 i2 i3
    rw [grey_pix, h.light i r i1 (by linarith) (by linarith [r0.1]) (by linarith [r0.2.2.2]) (by
      rcases i3 with i3 | ⟨i3, i4, i5⟩
      · exact .inl i3
      · refine .inr (.inr (.inr (.inr ⟨i3, i4, r0.2.1, r0.2.2.1, ?_⟩)))
        rcases i5 with i5 | i5
        · exact .inl i5
        · exact .inr (.inl i5))]
    rfl
  obtain ⟨k, a, b, c, d, e, e0, e1, e2, e5, e6, e7, w1, w2, w3, w4, w5, w6, w7, w8, w9, w10, -, -, -, -⟩ :=
    h.cols.split (top := 0) (Nat.zero_le _)
  simp only [Nat.zero_add] at e0 e1 e2 e5 e6 e7
  rw [e0, e1, e2, e5, e6, e7] at dark light
  rw [e0] at hl
  refine ⟨a, b, c, d, e, runs (leftOf img k r), ?_, ?_, ⟨w1, w2⟩, ⟨w3, w4⟩, ⟨w5, w6⟩, ⟨w7, w8⟩, ⟨w9, w10⟩⟩
  · rw [e7]
    clear e0 e1 e2 e5 e6 e7 h
    rw [left_block (k + a + b + c + d) e 0 r (fun i i1 i2 => dark i (by linarith) (by linarith) (.inr (.inl (by linarith)))),
      left_block (k + a + b + c) d 255 r (fun i i1 i2 => light i (by linarith) (by linarith)
        (.inr ⟨by linarith, by linarith, .inr (by linarith)⟩)),
      left_block (k + a + b) c 0 r (fun i i1 i2 => dark i (by linarith) (by linarith)
        (.inr (.inr ⟨by linarith, by linarith⟩))),
      left_block (k + a) b 255 r (fun i i1 i2 => light i (by linarith) (by linarith)
        (.inr ⟨by linarith, by linarith, .inl (by linarith)⟩)),
      left_block k a 0 r (fun i i1 i2 => dark i (by linarith) (by linarith) (.inl (by linarith)))]
    rw [runs_block (by linarith), runs_block (by linarith), runs_block (by linarith), runs_block (by linarith),
      runs_block (by linarith)]
    · intro b' hb
      obtain ⟨z, rfl⟩ : ∃ z, k = z + 1 := ⟨k - 1, by clear dark light; omega⟩
      rw [leftOf_succ, List.head?_cons, Option.some.injEq] at hb
      rw [← hb, light z (by linarith) (by linarith) (.inl (by linarith))]
      decide
    · intro b' hb; rw [replicate_head (by linarith) _ _ hb]; decide
    · intro b' hb; rw [replicate_head (by linarith) _ _ hb]; decide
    · intro b' hb; rw [replicate_head (by linarith) _ _ hb]; decide
    · intro b' hb; rw [replicate_head (by linarith) _ _ hb]; decide
  · rw [e7, e0]
    simp only [Nat.add_assoc, Nat.add_sub_cancel_left]

theorem ruled_changes (h : Ruled img x y n d3 d5 d7) {r : Nat} (h1 : y.a2 ≤ r) (h2 : r < y.a5) :
    changesAt img x.a7 r := by
  have hn := h.big
  have u1 := h.rows.s01.1
  have u2 := h.rows.s12.1
  have u3 := h.rows.s56.1
  have u4 := h.rows.s67.1
  have u5 := h.cols.s67.1
  have u6 := h.cols.s07.1
  have u7 := h.seven.1
  have e : x.a7 - 1 + 1 = x.a7 := Nat.sub_add_cancel (by linarith)
  unfold changesAt
  rw [grey_pix, grey_pix, h.dark (x.a7 - 1) r (by linarith) (by linarith) (by linarith) (by linarith) (.inr (.inl (by linarith))),
    h.light x.a7 r (by linarith) (by linarith) (by linarith) (by linarith) (.inr (.inr (.inl (le_refl _))))]
  decide

/-- What the counters say at the end of a finder pattern. -/
theorem ruled_counters (hv : img.Valid) (h : Ruled img x y n d3 d5 d7) {r : Nat} (h1 : y.a2 ≤ r) (h2 : r < y.a5)
    {s : FinderPattern} (hs : s = of (runs (leftOf img x.a7 r))) :
    s.looksLikeFinder = .ret true ∧ s.estModSize = .ret (.fin (modQ (x.a7 - x.a0))) := by
  obtain ⟨a, b, c, d, e, rest, hr, hsum, ⟨a1, a2⟩, ⟨b1, b2⟩, ⟨c1, c2⟩, ⟨d1, d2⟩, ⟨e1, e2⟩⟩ := ruled_runs h h1 h2
  have hw := hv.2.1
  have hx := h.right
  have ht := of_total (runs (leftOf img x.a7 r))
  rw [leftOf_runs_sum] at ht
  have hp : of (runs (leftOf img x.a7 r)) = ⟨rest.getD 1 0, rest.getD 0 0, a, b, c, d, e⟩ := by
    rw [hr]; unfold of; simp
  rw [hp] at ht hs
  subst hs
  obtain ⟨q1, q2⟩ := spaced_shape h.big h.thrice.1 h.thrice.2 a1 a2 b1 b2 c1 c2 d1 d2 (by linarith) e2
  have ht' : (FinderPattern.mk (rest.getD 1 0) (rest.getD 0 0) a b c d e).total < 2 ^ 32 := by linarith
  refine ⟨shaped_looks ht' q1 (ne_of_lt q2), ?_⟩
  rw [est_ret ht', ← hsum]
  rfl

end

/-- The candidate of a finder pattern. -/
def RuledCandidate (d7 : Nat) (f : Lines × Lines) (c : FinderPosition) : Prop :=
  ∃ (r : Nat) (μ : ℚ), c = ⟨⟨.fin (centreQ f.1.a7 (f.1.a7 - f.1.a0)), .fin (r : ℚ)⟩, .fin μ, F64.lit 0⟩ ∧
    Confirmed f.1 f.2 d7 r μ

/-- Finder patterns in the order of the scan, at least fourteen modules apart. -/
def RuledOrder (d7 : Nat) (a b : Lines × Lines) : Prop :=
  (a.2.a2 < b.2.a2 ∨ a.2.a2 = b.2.a2 ∧ a.1.a7 < b.1.a7) ∧
  (a.1.a0 + 2 * d7 ≤ b.1.a0 ∨ b.1.a0 + 2 * d7 ≤ a.1.a0 ∨ a.2.a0 + 2 * d7 ≤ b.2.a0)

/-- Every row that has the shape of a finder pattern passes one of the finder patterns at `fs`. -/
def OnlyRuled (img : GrayImage) (fs : List (Lines × Lines)) : Prop :=
  ∀ y < img.height, ∀ x < img.width, ∀ t, finderEnd (runsAt img x y) = some t →
    ∃ f ∈ fs, x = f.1.a7 ∧ f.2.a2 ≤ y ∧ y < f.2.a5

section
variable {img : GrayImage} {n d3 d5 d7 : Nat}

/-- Is a candidate close to the middle of a finder pattern in row `y`? -/
def nearRuled (f : Lines × Lines) (y : Nat) (cs : List FinderPosition) : Bool :=
  cs.any fun c => F64.lt (dist ⟨.fin (centreQ f.1.a7 (f.1.a7 - f.1.a0)), F64.ofNat y⟩ c.location)
    (F64.lit 7 * .fin (modQ (f.1.a7 - f.1.a0)))

theorem ruled_modQ {f : Lines × Lines} (h : Ruled img f.1 f.2 n d3 d5 d7) (hb : img.width < 2 ^ 26) :
    1 ≤ modQ (f.1.a7 - f.1.a0) ∧ modQ (f.1.a7 - f.1.a0) ≤ 2 ^ 27 ∧
    (d7 : ℚ) / 7 - 1 / 1000 ≤ modQ (f.1.a7 - f.1.a0) ∧ modQ (f.1.a7 - f.1.a0) ≤ ((d7 : ℚ) + 1) / 7 + 1 / 1000 ∧
    |centreQ f.1.a7 (f.1.a7 - f.1.a0) - ((f.1.a0 : ℚ) + f.1.a7) / 2| ≤ 1 / 100 := by
  have h1 := h.cols.s07.1
  have h2 := h.cols.s07.2
  have h3 := h.seven.1
  have h4 := h.big
  have h5 := h.right
  obtain ⟨T, hT⟩ : ∃ T, f.1.a7 = f.1.a0 + T := ⟨f.1.a7 - f.1.a0, by omega⟩
  have hTs : f.1.a7 - f.1.a0 = T := by rw [hT, Nat.add_sub_cancel_left]
  rw [hTs]
  have t1 : d7 ≤ T := by linarith
  have t2 : T ≤ d7 + 1 := by linarith
  have t3 : T ≤ 67108864 := by linarith
  have q1 : (d7 : ℚ) ≤ T := by exact_mod_cast t1
  have q2 : (T : ℚ) ≤ d7 + 1 := by exact_mod_cast t2
  have q3 : (T : ℚ) ≤ 67108864 := by exact_mod_cast t3
  have hm := modQ_near (t := T) (by linarith)
  have hc := centreQ_near (x := f.1.a7) (t := T) (by linarith) (by linarith)
  have hTq : (f.1.a7 : ℚ) = f.1.a0 + T := by exact_mod_cast hT
  rw [abs_le] at hm hc
  norm_num at hm
  refine ⟨modQ_ge_one (by linarith), by norm_num; linarith [hm.2], by linarith [hm.1], by linarith [hm.2], ?_⟩
  rw [abs_le]
  constructor <;> linarith [hc.1, hc.2]

theorem ruled_own {f : Lines × Lines} (h : Ruled img f.1 f.2 n d3 d5 d7) (hb : img.width < 2 ^ 26)
    (hb' : img.height < 2 ^ 26) {y : Nat} (h1 : f.2.a2 ≤ y) (h2 : y < f.2.a5) {cs : List FinderPosition} {c : FinderPosition}
    (hc : RuledCandidate d7 f c) (hm : c ∈ cs) : nearRuled f y cs = true := by
  obtain ⟨m1, m2, m3, m4, m5⟩ := ruled_modQ h hb
  obtain ⟨r, μ, rfl, hcf⟩ := hc
  unfold nearRuled
  rw [List.any_eq_true]
  refine ⟨_, hm, ?_⟩
  simp only
  have v1 := h.rows.s01
  have v2 := h.rows.s12
  have v3 := h.rows.s25
  have v4 := h.rows.s07
  have v5 := h.rows.s56
  have v6 := h.rows.s67
  have v7 := h.seven.1
  have v8 := h.thrice
  have v9 := h.big
  have v10 := h.below
  rw [ofNat_fin (show y ≤ 2 ^ 53 by linarith [v5.1, v6.1])]
  apply points_close m1 m2
  have w1 : y ≤ r + 3 * n := by linarith [hcf.row1, v1.2, v2.2, v3.2, v8.2, v4.1, v7]
  have w2 : r ≤ y + 3 * n := by linarith [hcf.row2, v1.1, v2.1, v4.2, h.seven.2]
  have w1q : (y : ℚ) ≤ r + 3 * n := by exact_mod_cast w1
  have w2q : (r : ℚ) ≤ y + 3 * n := by exact_mod_cast w2
  have v7q : 7 * (n : ℚ) ≤ d7 := by exact_mod_cast v7
  have v9q : (8 : ℚ) ≤ n := by exact_mod_cast v9
  rw [abs_le]
  constructor <;> linarith

theorem ruled_far {f : Lines × Lines} (h : Ruled img f.1 f.2 n d3 d5 d7) (hb : img.width < 2 ^ 26)
    (hb' : img.height < 2 ^ 26) {cs : List FinderPosition}
    (hcs : ∀ c ∈ cs, ∃ g, Ruled img g.1 g.2 n d3 d5 d7 ∧ RuledOrder d7 g f ∧ RuledCandidate d7 g c) :
    nearRuled f f.2.a2 cs = false := by
  obtain ⟨m1, m2, m3, m4, m5⟩ := ruled_modQ h hb
  unfold nearRuled
  rw [List.any_eq_false]
  intro c hc
  obtain ⟨g, hg, ⟨-, ho⟩, r, μ, rfl, hcf⟩ := hcs c hc
  obtain ⟨-, -, -, -, g5⟩ := ruled_modQ hg hb
  intro hlt
  simp only at hlt
  have e1 := h.cols.s07
  have e2 := hg.cols.s07
  have e3 := h.rows.s07
  have e4 := hg.rows.s07
  have e5 := h.right
  have e6 := hg.right
  have e7 := h.below
  have e8 := hg.below
  have e9 := h.rows.s27
  have hn := h.big
  have h7 := h.seven.1
  have e10 : f.2.a0 + 2 * n ≤ f.2.a2 := by linarith [h.rows.s01.1, h.rows.s12.1]
  have r1 := hcf.row2
  have y2b : f.2.a2 ≤ 67108864 := by linarith [e9.1]
  have rb : r ≤ 67108864 := by linarith [e4.1]
  rw [ofNat_fin (show f.2.a2 ≤ 2 ^ 53 by linarith)] at hlt
  have fx : ((f.1.a7 : Nat) : ℚ) ≤ 67108864 := by
    have : f.1.a7 ≤ 67108864 := by linarith
    exact_mod_cast this
  have gx : ((g.1.a7 : Nat) : ℚ) ≤ 67108864 := by
    have : g.1.a7 ≤ 67108864 := by linarith
    exact_mod_cast this
  have y2q : (f.2.a2 : ℚ) ≤ 67108864 := by exact_mod_cast y2b
  have rq : (r : ℚ) ≤ 67108864 := by exact_mod_cast rb
  have y20 : (0 : ℚ) ≤ f.2.a2 := Nat.cast_nonneg _
  have rq0 : (0 : ℚ) ≤ r := Nat.cast_nonneg _
  have x0f : (0 : ℚ) ≤ f.1.a0 := Nat.cast_nonneg _
  have x0g : (0 : ℚ) ≤ g.1.a0 := Nat.cast_nonneg _
  have q1 : (f.1.a0 : ℚ) + d7 ≤ f.1.a7 := by exact_mod_cast e1.1
  have q2 : (f.1.a7 : ℚ) ≤ f.1.a0 + d7 + 1 := by exact_mod_cast e1.2
  have q3 : (g.1.a0 : ℚ) + d7 ≤ g.1.a7 := by exact_mod_cast e2.1
  have q4 : (g.1.a7 : ℚ) ≤ g.1.a0 + d7 + 1 := by exact_mod_cast e2.2
  have q5 : (g.2.a7 : ℚ) ≤ g.2.a0 + d7 + 1 := by exact_mod_cast e4.2
  have q6 : 2 * (r : ℚ) ≤ g.2.a0 + g.2.a7 + 1 := by exact_mod_cast r1
  have q7 : (f.2.a0 : ℚ) + 2 * n ≤ f.2.a2 := by exact_mod_cast e10
  have q8 : 7 * (n : ℚ) ≤ d7 := by exact_mod_cast h7
  have q9 : (8 : ℚ) ≤ n := by exact_mod_cast hn
  have d0 : (0 : ℚ) ≤ d7 := Nat.cast_nonneg _
  rw [abs_le] at m5 g5
  obtain ⟨m5, m5'⟩ := m5
  obtain ⟨g5, g5'⟩ := g5
  have hcl := close_points m1 m2 (by rw [abs_le]; norm_num; constructor <;> linarith)
    (by rw [abs_le]; constructor <;> linarith) hlt
  generalize centreQ f.1.a7 (f.1.a7 - f.1.a0) = cf at *
  generalize centreQ g.1.a7 (g.1.a7 - g.1.a0) = cg at *
  generalize modQ (f.1.a7 - f.1.a0) = M at *
  have s1 := sq_nonneg (cg - cf)
  have s2 := sq_nonneg ((r : ℚ) - f.2.a2)
  have k1 : |cg - cf| < 8 * M := abs_lt_of_sq_lt_sq (by linarith) (by linarith)
  have k2 : |(r : ℚ) - f.2.a2| < 8 * M := abs_lt_of_sq_lt_sq (by linarith) (by linarith)
  rw [abs_lt] at k1 k2
  obtain ⟨k1, k1'⟩ := k1
  obtain ⟨k2, k2'⟩ := k2
  rcases ho with ho | ho | ho
  · have hoq : (g.1.a0 : ℚ) + 2 * d7 ≤ f.1.a0 := by exact_mod_cast ho
    linarith
  · have hoq : (f.1.a0 : ℚ) + 2 * d7 ≤ g.1.a0 := by exact_mod_cast ho
    linarith
  · have hoq : (g.2.a0 : ℚ) + 2 * d7 ≤ f.2.a0 := by exact_mod_cast ho
    linarith

/-- A row through the finder pattern with its candidate nearby. -/
theorem ruled_blocked (hv : img.Valid) {f : Lines × Lines} (h : Ruled img f.1 f.2 n d3 d5 d7) {y : Nat} (h1 : f.2.a2 ≤ y)
    (h2 : y < f.2.a5) {st : Scan} (hst : st.pattern = of (runs (leftOf img f.1.a7 y))) {p : U8}
    (hb : nearRuled f y st.candidates = true) {s' : FinderPattern} (hs : st.pattern.slide = .ret s') :
    atChange img f.1.a7 y p st = .ret { st with last_pixel := p, pattern := s' } := by
  obtain ⟨e1, e2⟩ := ruled_counters hv h h1 h2 hst
  have hw := hv.2.1
  have h5 := h.right
  have h6 := h.big
  unfold atChange
  rw [e1, Run.ret_bind]
  simp only [if_true]
  unfold nearRuled at hb
  rw [e2, Run.ret_bind, (centre_eq (x := f.1.a7) (by linarith) (lt_of_le_of_lt (Nat.sub_le _ _) (by linarith))).2.1,
    if_pos hb, hs, Run.ret_bind]
  rfl

/-- The first row through the inner square, with no candidate nearby. -/
theorem ruled_new (hv : img.Valid) {f : Lines × Lines} (h : Ruled img f.1 f.2 n d3 d5 d7) (hbw : img.width < 2 ^ 26)
    (hbh : img.height < 2 ^ 26) {st : Scan} (hst : st.pattern = of (runs (leftOf img f.1.a7 f.2.a2))) {p : U8}
    (hb : nearRuled f f.2.a2 st.candidates = false) {s' : FinderPattern} (hs : st.pattern.slide = .ret s') :
    ∃ c, RuledCandidate d7 f c ∧ atChange img f.1.a7 f.2.a2 p st = .ret ⟨st.candidates ++ [c], p, s'⟩ := by
  have h7 := h.rows.s25.1
  have h8 := h.thrice.1
  have h6 := h.big
  obtain ⟨e1, e2⟩ := ruled_counters hv h (le_refl _) (by linarith) hst
  have hw := hv.2.1
  have h5 := h.right
  obtain ⟨r, μ, hr, hcf⟩ := ruled_refineAll hv h hbw hbh
  refine ⟨_, ⟨r, μ, rfl, hcf⟩, ?_⟩
  unfold atChange
  rw [e1, Run.ret_bind]
  simp only [if_true]
  unfold nearRuled at hb
  rw [e2, Run.ret_bind, (centre_eq (x := f.1.a7) (by linarith) (lt_of_le_of_lt (Nat.sub_le _ _) (by linarith))).2.1,
    if_neg (by rw [hb]; simp), hr, Run.ret_bind]
  simp only
  rw [hs, Run.ret_bind]
  rfl

/-- A run boundary without the shape of a finder pattern. -/
theorem atChange_quiet (hv : img.Valid) {x y : Nat} (hx : x < img.width) {p : U8} {st : Scan}
    {rs : List Nat} (hst : st.pattern = of rs) (hsum : rs.sum ≤ x + 1) (hn : ∀ t, finderEnd rs ≠ some t) :
    ∃ st', atChange img x y p st = .ret st' ∧ st'.candidates = st.candidates := by
  have hw := hv.2.1
  have htot := of_total rs
  rw [← hst] at htot
  obtain ⟨s', hs', -⟩ := slide_ret (s := st.pattern) (by omega)
  rcases looks_cases (s := st.pattern) (by omega) with hl | hl
  · exact ⟨_, atChange_none hl hs', rfl⟩
  · exact absurd (of_accepted (rs := rs) (by omega) (by rw [← hst]; exact hl)) (hn _)

/-- The pixel at which a finder pattern is noticed. -/
def ruledIndex (w : Nat) (f : Lines × Lines) : Nat := f.2.a2 * w + f.1.a7

theorem ruledIndex_lt {w : Nat} {a b : Lines × Lines} (ha : a.1.a7 < w) (h : RuledOrder d7 a b) :
    ruledIndex w a < ruledIndex w b := by
  unfold ruledIndex
  rcases h.1 with h | ⟨h1, h2⟩
  · have : (a.2.a2 + 1) * w ≤ b.2.a2 * w := Nat.mul_le_mul_right _ (by omega)
    rw [Nat.succ_mul] at this
    omega
  · rw [h1]; omega

/-- What the scan knows before pixel `i`. -/
def RuledInv (img : GrayImage) (d7 : Nat) (fs : List (Lines × Lines)) (i : Nat) (st : Scan) : Prop :=
  ScanInv img i st ∧ (0 < i % img.width → RowState img (i % img.width) (i / img.width) st) ∧
  List.Forall₂ (RuledCandidate d7) (fs.filter fun f => decide (ruledIndex img.width f < i)) st.candidates

theorem forall₂_left {α β : Type} {R : α → β → Prop} {l : List α} {m : List β} (h : List.Forall₂ R l m) {a : α} (ha : a ∈ l) :
    ∃ b ∈ m, R a b := by
  induction h with
  | nil => simp at ha
  | cons h _ ih =>
    rw [List.mem_cons] at ha
    rcases ha with rfl | ha
    · exact ⟨_, List.mem_cons_self, h⟩
    · obtain ⟨b, hb, hr⟩ := ih ha
      exact ⟨b, List.mem_cons_of_mem _ hb, hr⟩

theorem forall₂_right {α β : Type} {R : α → β → Prop} {l : List α} {m : List β} (h : List.Forall₂ R l m) {b : β} (hb : b ∈ m) :
    ∃ a ∈ l, R a b := by
  induction h with
  | nil => simp at hb
  | cons h _ ih =>
    rw [List.mem_cons] at hb
    rcases hb with rfl | hb
    · exact ⟨_, List.mem_cons_self, h⟩
    · obtain ⟨a, ha, hr⟩ := ih hb
      exact ⟨a, List.mem_cons_of_mem _ ha, hr⟩

theorem forall₂_snoc {α β : Type} {R : α → β → Prop} {l : List α} {m : List β} (h : List.Forall₂ R l m) {a : α} {b : β}
    (hr : R a b) : List.Forall₂ R (l ++ [a]) (m ++ [b]) := by
  induction h with
  | nil => exact .cons hr .nil
  | cons h _ ih => exact .cons h ih

theorem ruled_step (hv : img.Valid) (hbw : img.width < 2 ^ 26) (hbh : img.height < 2 ^ 26) {fs : List (Lines × Lines)}
    (hc : ∀ f ∈ fs, Ruled img f.1 f.2 n d3 d5 d7) (ho : fs.Pairwise (RuledOrder d7))
    (hs : ∀ y < img.height, SteadyRow img img.width y) (hn : OnlyRuled img fs)
    {i : Nat} (hi : i < img.width * img.height) {st : Scan} (h : RuledInv img d7 fs i st) :
    ∃ st', scanPixel img st (i % img.width, i / img.width, pix img (i % img.width) (i / img.width)) = .ret st' ∧
      RuledInv img d7 fs (i + 1) st' := by
  have hw := hv.2.1
  have hh := hv.2.2
  have hw0 : 0 < img.width := by
    rcases Nat.eq_zero_or_pos img.width with h | h
    · rw [h] at hi; simp at hi
    · exact h
  have hin : ∀ f ∈ fs, f.1.a7 < img.width := by
    intro f hf
    have := (hc f hf).right
    have := (hc f hf).big
    omega
  have hord : fs.Pairwise fun a b => ruledIndex img.width a < ruledIndex img.width b := by
    apply List.Pairwise.imp_of_mem _ ho
    intro a b ha _ hab
    exact ruledIndex_lt (hin a ha) hab
  obtain ⟨hnext, hskip⟩ := filter_next (ruledIndex img.width) fs i hord
  obtain ⟨h1, h2, h3⟩ := h
  obtain ⟨st', hr, hinv⟩ := scanPixel_ret (p := pix img (i % img.width) (i / img.width)) hv hi h1
  have hyh : i / img.width < img.height := Nat.div_lt_of_lt_mul hi
  have hxw : i % img.width < img.width := Nat.mod_lt _ hw0
  have hie : i = i / img.width * img.width + i % img.width := (Nat.div_add_mod' i img.width).symm
  generalize hx : i % img.width = x at *
  generalize hy : i / img.width = y at *
  refine ⟨st', hr, hinv, ?_, ?_⟩
  · by_cases hend : x + 1 < img.width
    · have hie' : i + 1 = y * img.width + (x + 1) := by omega
      obtain ⟨e1, e2⟩ := row_index (y := y) hend
      rw [← hie'] at e1 e2
      rw [e1, e2]
      intro _
      obtain ⟨st'', hr', hst'⟩ := row_step (x := x) (y := y) hv hend (st := st) h2 h1.1
        (hs y hyh x hxw)
      rw [hr] at hr'
      have := Run.ret.inj hr'
      subst this
      exact hst'
    · intro hpos
      exfalso
      have : i + 1 = (y + 1) * img.width := by rw [Nat.succ_mul]; omega
      rw [this, Nat.mul_mod_left] at hpos
      omega
  · have at_index : ∀ f ∈ fs, ruledIndex img.width f = i → x = f.1.a7 ∧ y = f.2.a2 := by
      intro f hf he
      obtain ⟨e1, e2⟩ := row_index (y := f.2.a2) (hin f hf)
      unfold ruledIndex at he
      rw [he] at e1 e2
      rw [← hx, ← hy]
      exact ⟨e1, e2⟩
    have hrows : ∀ f ∈ fs, f.2.a2 < f.2.a5 := by
      intro f hf
      have := (hc f hf).rows.s25.1
      have := (hc f hf).thrice.1
      have := (hc f hf).big
      omega
    have keep : (∀ f ∈ fs, ruledIndex img.width f ≠ i) → st'.candidates = st.candidates →
        List.Forall₂ (RuledCandidate d7) (fs.filter fun f => decide (ruledIndex img.width f < i + 1)) st'.candidates := by
      intro hne he
      rw [he, hskip hne]
      exact h3
    by_cases h0 : x = 0
    · subst h0
      obtain ⟨st'', hr', he⟩ := scan_first_keeps (y := y) (p := pix img 0 y) hw0 (st := st)
      rw [hr] at hr'
      have := Run.ret.inj hr'
      subst this
      refine keep (fun f hf he => ?_) he
      have e := (at_index f hf he).1
      have := (hc f hf).cols.s07.1
      have := (hc f hf).seven.1
      have := (hc f hf).big
      omega
    have h2 := h2 (by omega)
    have hsum := leftOf_runs_sum img x y
    by_cases hch : changesAt img x y
    · rw [scan_change (by omega) h2 hch] at hr
      have hrun : runsAt img x y = runs (leftOf img x y) := by unfold runsAt; rw [if_pos hch]
      by_cases hhit : ∃ f ∈ fs, ruledIndex img.width f = i
      · obtain ⟨f, hf, he⟩ := hhit
        obtain ⟨rfl, rfl⟩ := at_index f hf he
        have hbl : nearRuled f f.2.a2 st.candidates = false := by
          apply ruled_far (hc f hf) hbw hbh
          intro c hcm
          obtain ⟨g, hg, hgc⟩ := forall₂_right h3 hcm
          rw [List.mem_filter, decide_eq_true_eq] at hg
          refine ⟨g, hc g hg.1, ?_, hgc⟩
          have hne : g ≠ f := by rintro rfl; omega
          rcases pairwise_cases ho hg.1 hf with h | h | h
          · exact h
          · have := ruledIndex_lt (hin f hf) h; omega
          · exact absurd h hne
        have hshape := atChange_shape hr
        obtain ⟨c, hcc, hcr⟩ := ruled_new (p := pix img f.1.a7 f.2.a2) hv (hc f hf) hbw hbh h2.1 hbl hshape.2.1
        rw [hcr] at hr
        rw [← Run.ret.inj hr, hnext f hf he]
        exact forall₂_snoc h3 hcc
      · have hne : ∀ f ∈ fs, ruledIndex img.width f ≠ i := fun f hf he => hhit ⟨f, hf, he⟩
        apply keep hne
        by_cases hin' : ∃ f ∈ fs, x = f.1.a7 ∧ f.2.a2 ≤ y ∧ y < f.2.a5
        · obtain ⟨f, hf, rfl, b1, b2⟩ := hin'
          have hshape := atChange_shape hr
          have hlt : f.2.a2 < y := by
            rcases Nat.lt_or_eq_of_le b1 with h | h
            · exact h
            · exfalso
              apply hne f hf
              unfold ruledIndex
              rw [h]
              exact hie.symm
          have hmem : f ∈ fs.filter fun f => decide (ruledIndex img.width f < i) := by
            rw [List.mem_filter, decide_eq_true_eq]
            refine ⟨hf, ?_⟩
            unfold ruledIndex
            have : (f.2.a2 + 1) * img.width ≤ y * img.width := Nat.mul_le_mul_right _ (by omega)
            rw [Nat.succ_mul] at this
            omega
          obtain ⟨c, hcm, hcc⟩ := forall₂_left h3 hmem
          rw [ruled_blocked hv (hc f hf) b1 b2 h2.1 (ruled_own (hc f hf) hbw hbh b1 b2 hcc hcm) hshape.2.1] at hr
          rw [← Run.ret.inj hr]
        · obtain ⟨st'', hr', he⟩ := atChange_quiet (p := pix img x y) (y := y) hv hxw h2.1 (by omega) (by
            intro t ht
            rw [← hrun] at ht
            exact hin' (hn y hyh x hxw t ht))
          rw [hr] at hr'
          rw [Run.ret.inj hr']
          exact he
    · have hne : ∀ f ∈ fs, ¬ (x = f.1.a7 ∧ f.2.a2 ≤ y ∧ y < f.2.a5) := by
        rintro f hf ⟨rfl, b1, b2⟩
        exact hch (ruled_changes (hc f hf) b1 b2)
      have hne' : ∀ f ∈ fs, ruledIndex img.width f ≠ i := by
        intro f hf he
        obtain ⟨e1, e2⟩ := at_index f hf he
        exact hne f hf ⟨e1, by omega, by have := hrows f hf; omega⟩
      apply keep hne'
      by_cases hend : x + 1 < img.width
      · obtain ⟨st'', hr', -, he⟩ := scan_stay hw (by omega) hend h2 hch
        rw [hr] at hr'
        rw [Run.ret.inj hr']
        exact he
      · have hend : x + 1 = img.width := by omega
        rw [scan_last hw (by omega) hend h2 hch] at hr
        have hrun : runsAt img x y = runs (leftOf img img.width y) := by
          unfold runsAt; rw [if_neg hch, if_pos hend]
        obtain ⟨st'', hr', he⟩ := atChange_quiet (p := pix img x y) (rs := runs (leftOf img img.width y)) (y := y)
          (st := { st with pattern := of (runs (leftOf img img.width y)) }) hv hxw rfl
          (by rw [leftOf_runs_sum]; omega) (by
            intro t ht
            rw [← hrun] at ht
            obtain ⟨f, hf, h⟩ := hn y hyh x hxw t ht
            exact hne f hf h)
        rw [hr] at hr'
        rw [Run.ret.inj hr']
        exact he

/-- The candidates are the finder patterns. -/
theorem candidates_ruled (hv : img.Valid) (hbw : img.width < 2 ^ 26) (hbh : img.height < 2 ^ 26)
    {fs : List (Lines × Lines)} (hc : ∀ f ∈ fs, Ruled img f.1 f.2 n d3 d5 d7) (ho : fs.Pairwise (RuledOrder d7))
    (hs : ∀ y < img.height, SteadyRow img img.width y) (hn : OnlyRuled img fs) :
    ∃ cs, candidates img = .ret cs ∧ List.Forall₂ (RuledCandidate d7) fs cs := by
  unfold candidates
  have hl : img.enumeratePixels.length = img.pixels.length := by simp [GrayImage.enumeratePixels]
  obtain ⟨st, hst, hinv⟩ := foldlM_inv (f := scanPixel img) (I := RuledInv img d7 fs) img.enumeratePixels 0
    ⟨[], 127#8, {}⟩ ⟨⟨by simp, by simp⟩, by simp, by simp⟩ (by
      intro i s hi hI'
      rw [enumerate_get hi]
      rw [Nat.zero_add] at hI' ⊢
      exact ruled_step hv hbw hbh hc ho hs hn (by rw [← hv.1]; omega) hI')
  rw [hst, Run.ret_bind]
  refine ⟨_, rfl, ?_⟩
  have : (fs.filter fun f => decide (ruledIndex img.width f < 0 + img.enumeratePixels.length)) = fs := by
    rw [List.filter_eq_self]
    intro f hf
    rw [decide_eq_true_eq, hl, hv.1, Nat.zero_add]
    have c1 := (hc f hf).right
    have c2 := (hc f hf).below
    have c3 := (hc f hf).big
    have c4 := (hc f hf).rows.s27.1
    unfold ruledIndex
    have : (f.2.a2 + 1) * img.width ≤ img.height * img.width := Nat.mul_le_mul_right _ (by omega)
    rw [Nat.mul_comm img.width]
    rw [Nat.succ_mul] at this
    omega
  rw [← this]
  exact hinv.2.2

end
end LineScan
end Verif
