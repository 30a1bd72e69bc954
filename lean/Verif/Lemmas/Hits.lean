import Verif.Lemmas.RowScan
import Verif.Lemmas.Geometry

/-!
# Scan lines through a clean finder pattern
-/
namespace Verif
namespace LineScan
open F64 FinderPattern Spec

/-- The candidate that belongs to a clean finder pattern. -/
def exactCandidate (m fx fy : Nat) : FinderPosition :=
  ⟨⟨hf (2 * fx + 7 * m), F64.ofNat (fy + (7 * m - 1) / 2)⟩, .fin (m : ℚ), F64.lit 0⟩

/-- Is a candidate close to the middle of a finder pattern in row `y`? -/
def blocked (m fx y : Nat) (cs : List FinderPosition) : Bool :=
  cs.any fun c => F64.lt (dist ⟨hf (2 * fx + 7 * m), F64.ofNat y⟩ c.location) (F64.lit 7 * .fin (m : ℚ))

section
variable {img : GrayImage} {m fx fy y : Nat}

theorem hit_estimate (hc : CleanFinder img m fx fy) (hv : img.Valid) (hm : 0 < m) (h1 : fy + 2 * m ≤ y)
    (h2 : y < fy + 5 * m) :
    (of (runs (leftOf img (fx + 7 * m) y))).looksLikeFinder = .ret true ∧
    (of (runs (leftOf img (fx + 7 * m) y))).estModSize = .ret (.fin (m : ℚ)) ∧
    F64.ofNat (fx + 7 * m) - .fin (m : ℚ) * F64.lit 35 10 = hf (2 * fx + 7 * m) := by
  obtain ⟨rest, hr⟩ := finder_row hc hm h1 h2
  have c1 := hc.1
  have hw := hv.2.1
  have hp : of (runs (leftOf img (fx + 7 * m) y)) = ⟨rest.getD 1 0, rest.getD 0 0, m, m, 3 * m, m, m⟩ := by
    rw [hr]; unfold of; simp
  rw [hp]
  refine ⟨(Props.perfect_finder_accepted m _ _ hm (by omega)).1, (Props.perfect_finder_accepted m _ _ hm (by omega)).2, ?_⟩
  have := (centre_eq (x := fx + 7 * m) (t := 7 * m) (by omega) (by omega)).2.1
  rw [modQ_seven (by omega), centre_half (by omega) (by omega)] at this
  rw [this]
  congr 1
  omega

/-- A scan line through the inner square of a finder pattern with a candidate nearby. -/
theorem hit_blocked (hc : CleanFinder img m fx fy) (hv : img.Valid) (hm : 0 < m) (h1 : fy + 2 * m ≤ y)
    (h2 : y < fy + 5 * m) {st : Scan} (hst : st.pattern = of (runs (leftOf img (fx + 7 * m) y))) {p : U8}
    (hb : blocked m fx y st.candidates = true) {s' : FinderPattern} (hs : st.pattern.slide = .ret s') :
    atChange img (fx + 7 * m) y p st = .ret { st with last_pixel := p, pattern := s' } := by
  obtain ⟨e1, e2, e3⟩ := hit_estimate hc hv hm h1 h2
  rw [← hst] at e1 e2
  unfold atChange
  rw [e1, Run.ret_bind]
  simp only [if_true]
  unfold blocked at hb
  rw [e2, Run.ret_bind, e3, if_pos hb, hs, Run.ret_bind]
  rfl

/-- The first scan line through the inner square of a finder pattern, with no candidate nearby. -/
theorem hit_new (hc : CleanFinder img m fx fy) (hv : img.Valid) (hm : 2 ≤ m) {st : Scan}
    (hst : st.pattern = of (runs (leftOf img (fx + 7 * m) (fy + 2 * m)))) {p : U8}
    (hb : blocked m fx (fy + 2 * m) st.candidates = false) {s' : FinderPattern} (hs : st.pattern.slide = .ret s') :
    atChange img (fx + 7 * m) (fy + 2 * m) p st =
      .ret ⟨st.candidates ++ [exactCandidate m fx fy], p, s'⟩ := by
  obtain ⟨e1, e2, e3⟩ := hit_estimate hc hv (show 0 < m by omega) (le_refl _) (by omega)
  rw [← hst] at e1 e2
  unfold atChange
  rw [e1, Run.ret_bind]
  simp only [if_true]
  unfold blocked at hb
  rw [e2, Run.ret_bind, e3, if_neg (by rw [hb]; simp), refineAll_hit hv hc hm, Run.ret_bind]
  simp only
  rw [hs, Run.ret_bind]
  rfl

/-- One step inside a steady row where nothing can be accepted or something may. -/
theorem row_step (hv : img.Valid) {x : Nat} (hx : x + 1 < img.width) {st : Scan}
    (hst : 0 < x → RowState img x y st) (hc : ∀ c ∈ st.candidates, GoodCandidate img c)
    (hs : changesAt img x y → Steady (runs (leftOf img x y))) :
    ∃ st', scanPixel img st (x, y, pix img x y) = .ret st' ∧ RowState img (x + 1) y st' := by
  have hw := hv.2.1
  by_cases h0 : x = 0
  · subst h0
    rw [scan_first (by omega)]
    refine ⟨_, rfl, ?_, rfl⟩
    rw [runs_first]
  · by_cases hch : changesAt img x y
    · rw [scan_change (by omega) (hst (by omega)) hch]
      have hst := hst (by omega)
      have ht := of_total (runs (leftOf img x y))
      rw [leftOf_runs_sum, ← hst.1] at ht
      obtain ⟨st', hr, -, -⟩ := atChange_ret (p := pix img x y) (y := y) hv (show x < img.width by omega) (st := st) (by omega) hc
      refine ⟨st', hr, ?_, ?_⟩
      · have hsl := slide_of (rs := runs (leftOf img x y)) (by rw [leftOf_runs_sum]; omega) (hs hch)
        rw [← hst.1, ← runs_change (by omega) hch] at hsl
        rw [(atChange_shape hr).2.1] at hsl
        exact Run.ret.inj hsl
      · rw [(atChange_shape hr).2.2, Nat.add_sub_cancel]
    · obtain ⟨st', h, h', -⟩ := scan_stay hw (by omega) hx (hst (by omega)) hch
      exact ⟨st', h, h'⟩

/-- Distances below seven modules. -/
theorem near_of_lt_sharp {cx cy : ℚ} {x y : Int} {m : Nat} (hm : 1 ≤ m) (hm' : m < 2 ^ 32)
    (hx : |cx - (x : ℚ) / 2| ≤ 2 ^ 34) (hy : |cy - (y : ℚ) / 2| ≤ 2 ^ 34)
    (h : F64.lt (dist ⟨hf x, hf y⟩ ⟨.fin cx, .fin cy⟩) (F64.lit 7 * .fin (m : ℚ)) = true) :
    (cx - (x : ℚ) / 2) ^ 2 + (cy - (y : ℚ) / 2) ^ 2 < (701 / 100 * m) ^ 2 := by
  have hm1 : (1 : ℚ) ≤ m := by exact_mod_cast hm
  have hmu := cast_lt_u32 hm'
  have h7 : F64.lit 7 * F64.fin (m : ℚ) = .fin ((7 * m : Nat) : ℚ) := by
    rw [lit_nat (by norm_num), mul_fin, ← Nat.cast_mul, roundQ_nat (by omega)]
    rw [abs_of_nonneg (by positivity)]; push_cast; linarith
  obtain ⟨M, hM⟩ : ∃ M, M = max 1 (max |cx - (x : ℚ) / 2| |cy - (y : ℚ) / 2|) := ⟨_, rfl⟩
  have m1 : 1 ≤ M := by rw [hM]; exact le_max_left _ _
  have m2 : |cx - (x : ℚ) / 2| ≤ M := by rw [hM]; exact le_trans (le_max_left _ _) (le_max_right _ _)
  have m3 : |cy - (y : ℚ) / 2| ≤ M := by rw [hM]; exact le_trans (le_max_right _ _) (le_max_right _ _)
  have m4 : M ≤ 2 ^ 40 := by
    rw [hM]; apply max_le (by norm_num) (max_le _ _) <;> linarith
  have m5 : M ^ 2 ≤ 1 + ((cx - (x : ℚ) / 2) ^ 2 + (cy - (y : ℚ) / 2) ^ 2) := by
    have s1 := sq_nonneg (cx - (x : ℚ) / 2)
    have s2 := sq_nonneg (cy - (y : ℚ) / 2)
    have : M = 1 ∨ M = |cx - (x : ℚ) / 2| ∨ M = |cy - (y : ℚ) / 2| := by
      rw [hM]
      rcases max_choice 1 (max |cx - (x : ℚ) / 2| |cy - (y : ℚ) / 2|) with h | h
      · exact Or.inl h
      · rw [h]
        rcases max_choice |cx - (x : ℚ) / 2| |cy - (y : ℚ) / 2| with h | h
        · exact Or.inr (Or.inl h)
        · exact Or.inr (Or.inr h)
    rcases this with h | h | h <;> rw [h]
    · linarith
    · rw [sq_abs]; linarith
    · rw [sq_abs]; linarith
  obtain ⟨L, -, hL, L0, hn⟩ := len_fin m1 m4 m2 m3
  have hd : dist ⟨hf x, hf y⟩ ⟨.fin cx, .fin cy⟩ = .fin L := hL
  rw [hd, h7, lt_fin, decide_eq_true_eq] at h
  push_cast at h
  have hu := uQ_small
  have hu0 := uQ_pos
  rw [abs_le] at hn
  have hL2 : L ^ 2 < (7 * m) ^ 2 := by nlinarith
  generalize (cx - (x : ℚ) / 2) ^ 2 + (cy - (y : ℚ) / 2) ^ 2 = d at *
  have : M ^ 2 * uQ ≤ (1 + d) * (1 / 10 ^ 15) := by
    have a : 0 ≤ 1 + d := le_trans (sq_nonneg M) m5
    calc M ^ 2 * uQ ≤ (1 + d) * uQ := mul_le_mul_of_nonneg_right m5 (le_of_lt hu0)
      _ ≤ _ := mul_le_mul_of_nonneg_left hu a
  nlinarith [hn.1, hn.2]

theorem near_of_lt {cx cy : ℚ} {x y : Int} {m : Nat} (hm : 1 ≤ m) (hm' : m < 2 ^ 32)
    (hx : |cx - (x : ℚ) / 2| ≤ 2 ^ 34) (hy : |cy - (y : ℚ) / 2| ≤ 2 ^ 34)
    (h : F64.lt (dist ⟨hf x, hf y⟩ ⟨.fin cx, .fin cy⟩) (F64.lit 7 * .fin (m : ℚ)) = true) :
    (cx - (x : ℚ) / 2) ^ 2 + (cy - (y : ℚ) / 2) ^ 2 < (8 * m) ^ 2 := by
  refine lt_of_lt_of_le (near_of_lt_sharp hm hm' hx hy h) ?_
  have : (0 : ℚ) ≤ m := Nat.cast_nonneg m
  exact pow_le_pow_left₀ (by positivity) (by linarith) 2

end
end LineScan
end Verif
