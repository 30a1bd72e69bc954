import Verif.Lemmas.Detect
import Verif.Lemmas.Scan

/-!
# Candidates are apart
-/
namespace Verif
open F64 Spec

namespace LineScan
namespace Apart
open FinderPattern

theorem lit_2 : ∃ τ : ℚ, F64.lit 2 10 = .fin τ ∧ |τ - 2 / 10| ≤ uQ := by
  refine ⟨_, lit_eq (by norm_num) (by norm_num), ?_⟩
  have := round_u (q := ((2 : Nat) : ℚ) / (10 : Nat)) (B := 1) (by norm_num) (by norm_num)
  push_cast at this ⊢; rw [one_mul] at this; exact this

theorem lit_1 : ∃ τ : ℚ, F64.lit 1 10 = .fin τ ∧ |τ - 1 / 10| ≤ uQ := by
  refine ⟨_, lit_eq (by norm_num) (by norm_num), ?_⟩
  have := round_u (q := ((1 : Nat) : ℚ) / (10 : Nat)) (B := 1) (by norm_num) (by norm_num)
  push_cast at this ⊢; rw [one_mul] at this; exact this

theorem accept_similar {ms : F64} {s : FinderPattern} {x y : Nat} {pos : FinderPosition}
    (h : accept ms false s x y = .ret (some pos)) :
    F64.lt (diff ms pos.last_module_size) (F64.lit 2 10) = true := by
  unfold accept at h
  cases hl : s.looksLikeFinder with
  | panic => rw [hl] at h; cases h
  | ret b =>
    rw [hl, Run.ret_bind] at h
    cases b with
    | false => cases h
    | true =>
      simp only [if_true] at h
      cases he : s.estModSize with
      | panic => rw [he] at h; cases h
      | ret e =>
        rw [he, Run.ret_bind, Bool.or_false] at h
        split at h
        · rename_i hd
          injection h with h
          injection h with h
          subst h
          exact hd
        · cases h

theorem refineLoop_similar {img : GrayImage} {ms : F64} {pos : FinderPosition} :
    ∀ (rest : List (Nat × Nat)) (lp : U8) (s : FinderPattern) (lx ly : Nat),
      refineLoop img ms false rest lp s lx ly = .ret (some pos) →
      F64.lt (diff ms pos.last_module_size) (F64.lit 2 10) = true := by
  intro rest
  induction rest with
  | nil => intro lp s lx ly h; exact accept_similar h
  | cons q rest ih =>
    intro lp s lx ly h
    obtain ⟨x, y⟩ := q
    unfold refineLoop at h
    cases hp : img.getPixel x y with
    | panic => rw [hp] at h; cases h
    | ret p =>
      rw [hp, Run.ret_bind] at h
      split at h
      · cases ha : addU32 s.p6 1 with
        | panic => rw [ha] at h; cases h
        | ret p6 => rw [ha, Run.ret_bind] at h; exact ih _ _ _ _ h
      · cases ha : accept ms false s x y with
        | panic => rw [ha] at h; cases h
        | ret r =>
          rw [ha, Run.ret_bind] at h
          cases r with
          | some pos' =>
            injection h with h
            injection h with h
            subst h
            exact accept_similar ha
          | none =>
            simp only at h
            cases hs : s.slide with
            | panic => rw [hs] at h; cases h
            | ret s' => rw [hs, Run.ret_bind] at h; exact ih _ _ _ _ h

/-- A horizontal refinement: where in the range it ended. -/
theorem refineHorizontal_range {img : GrayImage} (hv : img.Valid) {f : Point} {ms : F64}
    (hy : f.y.round.toU32 < img.height) {pos : FinderPosition} (h : refineHorizontal img f ms = .ret (some pos)) :
    ∃ x t, x < img.width ∧ 7 ≤ t ∧
      t + ((f.x - F64.lit 5 * ms).max (F64.lit 0)).round.toU32 ≤ x + 1 ∧
      x < (f.x + F64.lit 5 * ms).round.toU32 ∧ pos = found ms x f.y.round.toU32 t ∧
      F64.lt (diff ms (.fin (modQ t))) (F64.lit 2 10) = true := by
  have hsim : F64.lt (diff ms pos.last_module_size) (F64.lit 2 10) = true := by
    unfold refineHorizontal refine at h
    exact refineLoop_similar _ _ _ _ _ h
  unfold refineHorizontal at h
  simp only at h
  generalize hs : ((f.x - F64.lit 5 * ms).max (F64.lit 0)).round.toU32 = a at *
  generalize he : (f.x + F64.lit 5 * ms).round.toU32 = b' at *
  obtain ⟨r, hr, hspec⟩ := refine_ret (ms := ms) (diag := false) hv
    (all := (rangeList a (min b' img.width)).map fun x => (x, f.y.round.toU32)) (by
      intro q hq
      rw [List.mem_map] at hq
      obtain ⟨x, hx, rfl⟩ := hq
      have := mem_rangeList hx
      exact ⟨by simp only; omega, hy⟩) (by
      rw [List.length_map]; have := rangeList_length a (min b' img.width); have := hv.2.1; omega)
  rw [hr] at h
  injection h with h
  obtain ⟨i, x, y, t, hi, h7, ht, e⟩ := hspec pos h
  rw [List.getElem?_map, Option.map_eq_some_iff] at hi
  obtain ⟨n, hn, hxy⟩ := hi
  injection hxy with h1 h2
  subst h1; subst h2
  obtain ⟨g1, g2⟩ := rangeList_get hn
  refine ⟨n, t, by omega, h7, by omega, by omega, e, ?_⟩
  rw [e] at hsim
  exact hsim

/-- A vertical refinement: where in the range it ended. -/
theorem refineVertical_range {img : GrayImage} (hv : img.Valid) {f : Point} {ms : F64}
    (hx : f.x.round.toU32 < img.width) {pos : FinderPosition} (h : refineVertical img f ms = .ret (some pos)) :
    ∃ y t, y < img.height ∧ 7 ≤ t ∧
      t + ((f.y - F64.lit 5 * ms).max (F64.lit 0)).round.toU32 ≤ y + 1 ∧
      y < (f.y + F64.lit 5 * ms).round.toU32 ∧ pos = found ms f.x.round.toU32 y t ∧
      F64.lt (diff ms (.fin (modQ t))) (F64.lit 2 10) = true := by
  have hsim : F64.lt (diff ms pos.last_module_size) (F64.lit 2 10) = true := by
    unfold refineVertical refine at h
    exact refineLoop_similar _ _ _ _ _ h
  unfold refineVertical at h
  simp only at h
  generalize hs : ((f.y - F64.lit 5 * ms).max (F64.lit 0)).round.toU32 = a at *
  generalize he : (f.y + F64.lit 5 * ms).round.toU32 = b' at *
  obtain ⟨r, hr, hspec⟩ := refine_ret (ms := ms) (diag := false) hv
    (all := (rangeList a (min b' img.height)).map fun y => (f.x.round.toU32, y)) (by
      intro q hq
      rw [List.mem_map] at hq
      obtain ⟨x, hx', rfl⟩ := hq
      have := mem_rangeList hx'
      exact ⟨hx, by simp only; omega⟩) (by
      rw [List.length_map]; have := rangeList_length a (min b' img.height); have := hv.2.2; omega)
  rw [hr] at h
  injection h with h
  obtain ⟨i, x, y, t, hi, h7, ht, e⟩ := hspec pos h
  rw [List.getElem?_map, Option.map_eq_some_iff] at hi
  obtain ⟨n, hn, hxy⟩ := hi
  injection hxy with h1 h2
  subst h1; subst h2
  obtain ⟨g1, g2⟩ := rangeList_get hn
  refine ⟨n, t, by omega, h7, by omega, by omega, e, ?_⟩
  rw [e] at hsim
  exact hsim

/-! ### The numbers -/

theorem similar_bounds {M : ℚ} (h1 : 1 ≤ M) (hM : M ≤ 2 ^ 30) {t : Nat} (ht : t < 2 ^ 32)
    (h : F64.lt (diff (.fin M) (.fin (modQ t))) (F64.lit 2 10) = true) :
    799999 / 1000000 * M ≤ modQ t ∧ modQ t ≤ 1250002 / 1000000 * M := by
  obtain ⟨b0, b1⟩ := modQ_bounds ht
  obtain ⟨τ, hτ, hn⟩ := lit_2
  have hu := uQ_small
  have hu0 := uQ_pos
  have hd : |M - modQ t| ≤ (τ + 3 * uQ) * max M (modQ t) := by
    apply diff_le (by linarith) b0 (by linarith) (by linarith) (le_trans h1 (le_max_left _ _))
    rw [hτ] at h
    revert h
    generalize diff (.fin M) (.fin (modQ t)) = d
    cases d <;> simp [F64.lt, F64.gt]
    intro hlt; exact le_of_lt hlt
  rw [abs_le] at hn hd
  have hc : τ + 3 * uQ ≤ 2000001 / 10000000 := by linarith [hn.2]
  rcases le_total M (modQ t) with hle | hle
  · rw [max_eq_right hle] at hd
    have : (τ + 3 * uQ) * modQ t ≤ 2000001 / 10000000 * modQ t := mul_le_mul_of_nonneg_right hc b0
    constructor <;> linarith [hd.1]
  · rw [max_eq_left hle] at hd
    have : (τ + 3 * uQ) * M ≤ 2000001 / 10000000 * M := mul_le_mul_of_nonneg_right hc (by linarith)
    constructor <;> linarith [hd.2]

theorem centreQ_near {x t : Nat} (hx : x < 2 ^ 32) (ht : t < 2 ^ 32) :
    |centreQ x t - ((x : ℚ) - t / 2)| ≤ 1 / 2 ^ 19 := by
  obtain ⟨q, -, -, hn, hq⟩ := half_finder ht
  unfold centreQ
  rw [← hq]
  have hx' := cast_lt_u32 hx
  have hx0 : (0 : ℚ) ≤ x := Nat.cast_nonneg x
  have ht' := cast_lt_u32 ht
  have ht0 : (0 : ℚ) ≤ t := Nat.cast_nonneg t
  have hr := round_near (q := (x : ℚ) - q) (B := 2 ^ 33) (by norm_num) (by
    rw [abs_le] at *; constructor <;> linarith [hn.1, hn.2])
  rw [abs_le] at *
  constructor <;> linarith [hn.1, hn.2, hr.1, hr.2]

/-- How far the centre of an accepted pattern is from the middle of the range searched. -/
theorem axis_near {X M : ℚ} {n x t : Nat} (hn : n + 1 < 2 ^ 32) (hX : 0 ≤ X) (hXn : X ≤ n)
    (h1 : 1 ≤ M) (hM : M ≤ 2 ^ 30) (hx : x < 2 ^ 32) (h7 : 7 ≤ t) (ht32 : t < 2 ^ 32)
    (ha : t + ((F64.fin X - F64.lit 5 * .fin M).max (F64.lit 0)).round.toU32 ≤ x + 1)
    (hb : x < (F64.fin X + F64.lit 5 * .fin M).round.toU32)
    (hs : F64.lt (diff (.fin M) (.fin (modQ t))) (F64.lit 2 10) = true) :
    |centreQ x t - X| ≤ 22002 / 10000 * M + 15001 / 10000 := by
  obtain ⟨s1, s2⟩ := similar_bounds h1 hM ht32 hs
  have hc := centreQ_near hx ht32
  have hm := modQ_near ht32
  have hn' := cast_lt_u32 (show n < 2 ^ 32 by omega)
  have r1 := round_near (q := 5 * M) (B := 2 ^ 33) (by norm_num) (by rw [abs_of_nonneg (by linarith)]; linarith)
  have r1' : 0 ≤ roundQ (5 * M) := roundQ_nonneg (by linarith)
  rw [lit_nat (by norm_num), mul_fin (by push_cast; rw [abs_of_nonneg (by linarith)]; linarith)] at ha hb
  push_cast at ha hb
  generalize roundQ (5 * M) = P at *
  have hP : P ≤ 2 ^ 33 := by rw [abs_le] at r1; linarith [r1.2]
  -- the start
  have b2 : |X - P| ≤ 2 ^ 34 := by rw [abs_le]; constructor <;> linarith
  have r2 := round_near (q := X - P) (B := 2 ^ 34) (by norm_num) b2
  have u2 : roundQ (X - P) ≤ n := roundQ_le_nat (by omega) (by linarith)
  rw [sub_fin (by linarith), max_zero_fin] at ha
  generalize roundQ (X - P) = A at *
  have a0 : |max A 0| ≤ 2 ^ 52 := by
    rw [abs_of_nonneg (le_max_right _ _)]; apply max_le <;> linarith
  rw [round_toU32 a0] at ha
  have n1 := roundAway_near (max A 0)
  have n2 : (0 : ℚ) ≤ n := Nat.cast_nonneg n
  have n3 : roundAway (max A 0) ≤ n := by
    have := roundAway_mono (a := max A 0) (b := (n : ℚ)) (max_le u2 n2)
    rw [roundAway_nat] at this; exact this
  have a1 : (t : ℚ) + A - 1 / 2 ≤ x + 1 := by
    have e : t + (roundAway (max A 0)).toNat ≤ x + 1 := by omega
    have e' : (t : ℤ) + roundAway (max A 0) ≤ x + 1 := by omega
    have e'' : (t : ℚ) + (roundAway (max A 0) : ℚ) ≤ x + 1 := by exact_mod_cast e'
    rw [abs_le] at n1
    have := le_max_left A 0
    linarith [n1.1]
  -- the end
  have b3 : |X + P| ≤ 2 ^ 34 := by rw [abs_of_nonneg (by linarith)]; linarith
  have r3 := round_near (q := X + P) (B := 2 ^ 34) (by norm_num) b3
  rw [add_fin (by linarith)] at hb
  generalize roundQ (X + P) = B at *
  have b4 : |B| ≤ 2 ^ 52 := by rw [abs_le] at *; constructor <;> linarith [r3.1, r3.2]
  rw [round_toU32 b4] at hb
  have n4 := roundAway_near B
  have b5 : (x : ℚ) + 1 ≤ B + 1 / 2 := by
    have e : (x : ℤ) + 1 ≤ roundAway B := by omega
    have e' : (x : ℚ) + 1 ≤ (roundAway B : ℚ) := by exact_mod_cast e
    rw [abs_le] at n4
    linarith [n4.2]
  rw [abs_le] at *
  constructor <;> linarith [hc.1, hc.2, hm.1, hm.2, r1.1, r1.2, r2.1, r2.2, r3.1, r3.2]

theorem mean_le {M : ℚ} (h1 : 1 ≤ M) (hM : M ≤ 2 ^ 30) {t : Nat} (ht : t < 2 ^ 32) (h7 : 7 ≤ t)
    (hs : F64.lt (diff (.fin M) (.fin (modQ t))) (F64.lit 2 10) = true) :
    ∃ M' : ℚ, (F64.fin M + .fin (modQ t)) / F64.lit 2 = .fin M' ∧ 1 ≤ M' ∧ M' ≤ 2 ^ 30 ∧
      M' ≤ 112501 / 100000 * M := by
  obtain ⟨M', e, g1, g2⟩ := goodSize_mean (ms := .fin M) ⟨M, rfl, h1, hM⟩ ht h7
  refine ⟨M', e, g1, g2, ?_⟩
  obtain ⟨s1, s2⟩ := similar_bounds h1 hM ht hs
  have a1 := modQ_ge_one h7
  have a2 := (modQ_bounds ht).2
  have hu := uQ_small
  have hu0 := uQ_pos
  have r1 := round_u (q := M + modQ t) (B := 3 * M) (by linarith) (by rw [abs_of_nonneg (by linarith)]; linarith)
  have hMu : M * uQ ≤ M / 10 ^ 15 := by nlinarith
  rw [lit_nat (by norm_num), add_fin (by rw [abs_of_nonneg (by linarith)]; linarith)] at e
  generalize roundQ (M + modQ t) = S at *
  rw [abs_le] at r1
  have bS : |S / 2| ≤ 3 * M := by
    rw [abs_of_nonneg (by linarith [r1.1])]; linarith [r1.2]
  have r2 := round_u (q := S / 2) (B := 3 * M) (by linarith) bS
  rw [div_fin (by norm_num) (by push_cast; linarith)] at e
  push_cast at e
  injection e with e
  rw [← e]
  rw [abs_le] at r2
  linarith [r1.2, r2.2]

theorem round_index_near {a : ℚ} {n : Nat} (h0 : 0 ≤ a) (hn : n < 2 ^ 32) (ha : a ≤ n) :
    |((F64.fin a).round.toU32 : ℚ) - a| ≤ 1 / 2 := by
  have hn' := cast_lt_u32 hn
  rw [round_toU32 (by rw [abs_of_nonneg h0]; linarith)]
  have n1 := roundAway_near a
  have n3 : roundAway a ≤ n := by
    have := roundAway_mono ha
    rw [roundAway_nat] at this; exact this
  have n4 : 0 ≤ roundAway a := by
    have := roundAway_mono (a := ((0 : Nat) : ℚ)) (b := a) (by simpa using h0)
    rw [roundAway_nat] at this; simpa using this
  have : ((min (roundAway a).toNat (2 ^ 32 - 1) : Nat) : ℚ) = (roundAway a : ℚ) := by
    have : ((min (roundAway a).toNat (2 ^ 32 - 1) : Nat) : ℤ) = roundAway a := by omega
    exact_mod_cast this
  rw [this]; exact n1

/-- What the refinements do to a position and a module size. -/
theorem refineAll_moves {img : GrayImage} (hv : img.Valid) {X M : ℚ} {y : Nat} (hX : 0 ≤ X)
    (hXw : X + 1 ≤ img.width) (hy : y < img.height) (h1 : 1 ≤ M) (hM : M ≤ 2 ^ 30) {p : Point} {ms : F64}
    (h : refineAll img ⟨.fin X, F64.ofNat y⟩ (.fin M) = .ret (some (p, ms))) :
    ∃ x' y' m' : ℚ, p = ⟨.fin x', .fin y'⟩ ∧ ms = .fin m' ∧ |x' - X| ≤ 24754 / 10000 * M + 20002 / 10000 ∧
      |y' - y| ≤ 22002 / 10000 * M + 20002 / 10000 ∧ 1 ≤ m' ∧ m' ≤ 12657 / 10000 * M := by
  have hw := hv.2.1
  have hh := hv.2.2
  have hw1 : X ≤ ((img.width - 1 : Nat) : ℚ) := by
    have : 1 ≤ img.width := by
      by_contra hc
      have : img.width = 0 := by omega
      rw [this] at hXw; simp at hXw; linarith
    push_cast [this]; linarith
  have hwpos : 0 < img.width := by
    by_contra hc
    have : img.width = 0 := by omega
    rw [this] at hXw; simp at hXw; linarith
  have hw' := cast_lt_u32 hw
  have hxi : (F64.fin X).round.toU32 < img.width := by
    have := round_toU32_le (a := X) (n := img.width - 1) (by rw [abs_of_nonneg hX]; linarith) hw1
    omega
  have hxn := round_index_near (n := img.width - 1) hX (by omega) hw1
  unfold refineAll at h
  cases hr : refineVertical img ⟨.fin X, F64.ofNat y⟩ (.fin M) with
  | panic => rw [hr] at h; cases h
  | ret r =>
    rw [hr, Run.ret_bind] at h
    cases r with
    | none => cases h
    | some v =>
      obtain ⟨vy, t, hvy, h7, ha, hb, rfl, hs⟩ := refineVertical_range (f := ⟨.fin X, F64.ofNat y⟩) hv hxi hr
      simp only [found] at h
      simp only at ha hb hxi
      rw [ofNat_fin (u32_53 (show y < 2 ^ 32 by omega))] at ha hb
      have hyn := axis_near (X := (y : ℚ)) (n := y) (by omega) (Nat.cast_nonneg _) (le_refl _) h1 hM
        (show vy < 2 ^ 32 by omega) h7 (by omega) ha hb hs
      generalize (F64.fin X).round.toU32 = vx at *
      have ht : t ≤ vy + 1 := by omega
      obtain ⟨M1, hM1, g1, g2, g3⟩ := mean_le h1 hM (t := t) (by omega) h7 hs
      rw [(centre_eq (x := vx) (t := t) (by omega) (by omega)).2.2.2,
        (centre_eq (x := vy) (t := t) (by omega) (by omega)).2.2.1, hM1] at h
      obtain ⟨c1, c2⟩ := centreQ_bounds (x := vy) (t := t) (by omega) h7 ht
      have hidx := centre_index (by omega) h7 ht hvy
      have hyr := round_index_near (n := vy) c1 (by omega) c2
      cases hr2 : refineHorizontal img ⟨.fin vx, .fin (centreQ vy t)⟩ (.fin M1) with
      | panic => rw [hr2] at h; cases h
      | ret r =>
        rw [hr2, Run.ret_bind] at h
        cases r with
        | none => cases h
        | some v =>
          obtain ⟨hx', t', hlt, h7', ha', hb', rfl, hs'⟩ :=
            refineHorizontal_range (f := ⟨.fin vx, .fin (centreQ vy t)⟩) hv hidx hr2
          simp only [found] at h hidx
          simp only at ha' hb'
          have hxn2 := axis_near (X := (vx : ℚ)) (n := vx) (by omega) (Nat.cast_nonneg _) (le_refl _) g1 g2
            (show hx' < 2 ^ 32 by omega) h7' (by omega) ha' hb' hs'
          obtain ⟨M2, hM2, k1, k2, k3⟩ := mean_le g1 g2 (t := t') (by omega) h7' hs'
          generalize (F64.fin (centreQ vy t)).round.toU32 = y' at *
          rw [(centre_eq (x := hx') (t := t') (by omega) (by omega)).2.2.1,
            (centre_eq (x := y') (t := t') (by omega) (by omega)).2.2.2, hM2] at h
          cases hr3 : refineDiagonal img ⟨.fin (centreQ hx' t'), .fin (y' : ℚ)⟩ (.fin M2) with
          | panic => rw [hr3] at h; cases h
          | ret r =>
            rw [hr3, Run.ret_bind] at h
            cases r with
            | none => cases h
            | some v =>
              injection h with h
              injection h with h
              injection h with e1 e2
              refine ⟨_, _, M2, e1.symm, e2.symm, ?_, ?_, k1, by linarith⟩
              · rw [abs_le] at *
                constructor <;> linarith [hxn.1, hxn.2, hxn2.1, hxn2.2]
              · rw [abs_le] at *
                constructor <;> linarith [hyn.1, hyn.2, hyr.1, hyr.2]

/-- The triangle inequality, for squares. -/
theorem triangle_sq {a b c d A B : ℚ} (hA : 0 ≤ A) (hB : 0 ≤ B) (h1 : a ^ 2 + b ^ 2 ≤ A ^ 2)
    (h2 : c ^ 2 + d ^ 2 ≤ B ^ 2) : (a + c) ^ 2 + (b + d) ^ 2 ≤ (A + B) ^ 2 := by
  have hc : a * c + b * d ≤ A * B := by
    apply le_of_sq_le_sq _ (by positivity)
    calc (a * c + b * d) ^ 2 ≤ (a ^ 2 + b ^ 2) * (c ^ 2 + d ^ 2) := by nlinarith [sq_nonneg (a * d - b * c)]
      _ ≤ A ^ 2 * B ^ 2 := mul_le_mul h1 h2 (by positivity) (by positivity)
      _ = (A * B) ^ 2 := by ring
  nlinarith

/-- Two points whose distance is not below seven modules. -/
theorem far_of_not_lt {x y cx cy M : ℚ} (h1 : 1 ≤ M) (hM : M ≤ 2 ^ 30)
    (hx : |cx - x| ≤ 2 ^ 34) (hy : |cy - y| ≤ 2 ^ 34)
    (h : F64.lt (dist ⟨.fin x, .fin y⟩ ⟨.fin cx, .fin cy⟩) (F64.lit 7 * .fin M) = false) :
    (699 / 100 * M) ^ 2 ≤ (cx - x) ^ 2 + (cy - y) ^ 2 := by
  have hu := uQ_small
  have hu0 := uQ_pos
  have r7 := round_u (q := 7 * M) (B := 7 * M) (by linarith) (le_of_eq (abs_of_nonneg (by linarith)))
  have h7 : F64.lit 7 * F64.fin M = .fin (roundQ (7 * M)) := by
    rw [lit_nat (by norm_num), mul_fin]
    · push_cast; rfl
    · rw [abs_of_nonneg (by positivity)]; push_cast; linarith
  generalize roundQ (7 * M) = S at *
  by_contra hlt
  rw [not_le] at hlt
  obtain ⟨D, m1, m2, m3, -, -, m5, -⟩ := le_max4 (cx - x) (cy - y) (cx - x) (cy - y)
  have m4 : D ^ 2 ≤ (7 * M) ^ 2 := by
    rcases m5 with h | h | h
    · nlinarith
    · nlinarith
    · rw [h]; nlinarith
  have m6 : D ≤ 7 * M := le_of_sq_le_sq m4 (by linarith)
  obtain ⟨L, -, hL, L0, hn⟩ := len_fin m1 (by linarith) m2 m3
  have hd : dist ⟨.fin x, .fin y⟩ ⟨.fin cx, .fin cy⟩ = .fin L := hL
  rw [hd, h7, lt_fin, decide_eq_false_iff_not, not_lt] at h
  have hMu : M * uQ ≤ M / 10 ^ 15 := by nlinarith
  have hDu : D ^ 2 * uQ ≤ 49 * M ^ 2 / 10 ^ 15 := by
    calc D ^ 2 * uQ ≤ (7 * M) ^ 2 * uQ := mul_le_mul_of_nonneg_right m4 (le_of_lt hu0)
      _ ≤ (7 * M) ^ 2 * (1 / 10 ^ 15) := mul_le_mul_of_nonneg_left hu (by positivity)
      _ = _ := by ring
  rw [abs_le] at r7 hn
  have hS : 6999 / 1000 * M ≤ L := by linarith [r7.1]
  have : (6999 / 1000 * M) ^ 2 ≤ L ^ 2 := pow_le_pow_left₀ (by linarith) hS 2
  nlinarith [hn.2]

/-- The later of two candidates is more than three fifths of its module size from the other one. -/
def CandApart (c d : FinderPosition) : Prop :=
  ∀ x y x' y' m : ℚ, c.location = ⟨.fin x, .fin y⟩ → d.location = ⟨.fin x', .fin y'⟩ → d.module_size = .fin m →
    (3 / 5 * m) ^ 2 < (x - x') ^ 2 + (y - y') ^ 2

theorem candApart_new {img : GrayImage} (hv : img.Valid) {X M : ℚ} {y : Nat} (hX : 0 ≤ X)
    (hXw : X + 1 ≤ img.width) (hy : y < img.height) (h1 : 1 ≤ M) (hM : M ≤ 2 ^ 30) {p : Point} {ms l : F64}
    (h : refineAll img ⟨.fin X, F64.ofNat y⟩ (.fin M) = .ret (some (p, ms))) {c : FinderPosition}
    (hc : GoodCandidate img c)
    (hd : F64.lt (dist ⟨.fin X, F64.ofNat y⟩ c.location) (F64.lit 7 * .fin M) = false) :
    CandApart c ⟨p, ms, l⟩ := by
  intro cx cy x' y' m ec ep em
  obtain ⟨px, py, pm, e1, e2, nx, ny, pm1, hpm⟩ := refineAll_moves hv hX hXw hy h1 hM h
  simp only at ep em
  rw [e1] at ep
  rw [e2] at em
  injection ep with ep1 ep2
  injection ep1 with ep1
  injection ep2 with ep2
  injection em with em
  subst ep1; subst ep2; subst em
  obtain ⟨⟨cx', cy', e, c1, c2, c3, c4⟩, -⟩ := hc
  rw [ec] at e
  injection e with e1' e2'
  injection e1' with e1'
  injection e2' with e2'
  subst e1'; subst e2'
  have hw := cast_lt_u32 hv.2.1
  have hh := cast_lt_u32 hv.2.2
  have hyq : (y : ℚ) + 1 ≤ img.height := by exact_mod_cast hy
  have hy0 : (0 : ℚ) ≤ y := Nat.cast_nonneg _
  have hyb : y < 2 ^ 32 := by have := hv.2.2; omega
  rw [ec, ofNat_fin (u32_53 hyb)] at hd
  have hfar := far_of_not_lt h1 hM (by rw [abs_le]; constructor <;> linarith)
    (by rw [abs_le]; constructor <;> linarith) hd
  by_contra hlt
  rw [not_lt] at hlt
  have hmv : (px - X) ^ 2 + (py - y) ^ 2 ≤ (6142 / 1000 * M) ^ 2 := by
    have a1 : |px - X| ≤ 44756 / 10000 * M := by linarith
    have a2 : |py - y| ≤ 42004 / 10000 * M := by linarith
    have b1 : (px - X) ^ 2 ≤ (44756 / 10000 * M) ^ 2 := by rw [← sq_abs]; exact pow_le_pow_left₀ (abs_nonneg _) a1 2
    have b2 : (py - y) ^ 2 ≤ (42004 / 10000 * M) ^ 2 := by rw [← sq_abs]; exact pow_le_pow_left₀ (abs_nonneg _) a2 2
    nlinarith
  have hsm : (cx - px) ^ 2 + (cy - py) ^ 2 ≤ (76 / 100 * M) ^ 2 := by
    refine le_trans hlt (pow_le_pow_left₀ (by linarith) (by linarith) 2)
  have := triangle_sq (by linarith) (by linarith) hsm hmv
  have e : (cx - px + (px - X)) ^ 2 + (cy - py + (py - y)) ^ 2 = (cx - X) ^ 2 + (cy - y) ^ 2 := by ring
  rw [e] at this
  nlinarith

theorem atChange_apart {img : GrayImage} (hv : img.Valid) {x y : Nat} (hx : x < img.width) (hy : y < img.height)
    {p : U8} {st st' : Scan} (ht : st.pattern.total ≤ x + 1) (hc : ∀ c ∈ st.candidates, GoodCandidate img c)
    (hp : st.candidates.Pairwise CandApart) (h : atChange img x y p st = .ret st') :
    st'.candidates.Pairwise CandApart := by
  have hw := hv.2.1
  obtain ⟨s', hs', hts'⟩ := slide_ret (s := st.pattern) (by omega)
  obtain ⟨b, hb, hb7⟩ := looks_ret (s := st.pattern) (by omega)
  unfold atChange at h
  rw [hb, Run.ret_bind] at h
  cases b with
  | false =>
    simp only [Bool.false_eq_true, if_false] at h
    rw [hs', Run.ret_bind] at h
    injection h with h; subst h; exact hp
  | true =>
    simp only [if_true] at h
    have h5 := five_le st.pattern
    have h7 := hb7 rfl
    rw [est_ret (by omega), Run.ret_bind] at h
    rw [(centre_eq (x := x) (t := st.pattern.five) (by omega) (by omega)).2.1] at h
    split at h
    · rw [hs', Run.ret_bind] at h
      injection h with h; subst h; exact hp
    · rename_i hany
      generalize hr : refineAll img ⟨.fin (centreQ x st.pattern.five), F64.ofNat y⟩ (.fin (modQ st.pattern.five)) = rr at h
      cases rr with
      | panic => cases h
      | ret r =>
        rw [Run.ret_bind] at h
        cases r with
        | none =>
          simp only at h
          rw [hs', Run.ret_bind] at h
          injection h with h; subst h; exact hp
        | some r =>
          obtain ⟨f, m⟩ := r
          simp only at h
          rw [hs', Run.ret_bind] at h
          injection h with h; subst h
          simp only
          rw [List.pairwise_append]
          refine ⟨hp, List.pairwise_singleton _ _, ?_⟩
          intro c hcm d hd
          rw [List.mem_singleton] at hd
          subst hd
          obtain ⟨b1, b2⟩ := centreQ_bounds (x := x) (t := st.pattern.five) (by omega) h7 (by omega)
          have hxq : (x : ℚ) + 1 ≤ img.width := by exact_mod_cast hx
          refine candApart_new hv b1 (by linarith) hy (modQ_ge_one h7) (modQ_bounds (by omega)).2 hr (hc c hcm) ?_
          by_contra hne
          rw [Bool.not_eq_false] at hne
          exact hany (List.any_eq_true.mpr ⟨c, hcm, hne⟩)

theorem scanPixel_apart {img : GrayImage} (hv : img.Valid) {i : Nat} (hi : i < img.width * img.height) {p : U8}
    {st st' : Scan} (h : ScanInv img i st) (hp : st.candidates.Pairwise CandApart)
    (hr : scanPixel img st (i % img.width, i / img.width, p) = .ret st') : st'.candidates.Pairwise CandApart := by
  have hw0 : 0 < img.width := by
    rcases Nat.eq_zero_or_pos img.width with h | h
    · rw [h] at hi; simp at hi
    · exact h
  have hw := hv.2.1
  have hx := Nat.mod_lt i hw0
  have hy : i / img.width < img.height := Nat.div_lt_of_lt_mul hi
  generalize hxe : i % img.width = x at *
  generalize i / img.width = y at *
  obtain ⟨st1, hst1, hc1, hp1, ht1⟩ : ∃ st1 : Scan,
      (if x = 0 then { st with last_pixel := 127#8, pattern := {} } else st) = st1 ∧
      (∀ c ∈ st1.candidates, GoodCandidate img c) ∧ st1.candidates.Pairwise CandApart ∧ st1.pattern.total ≤ x := by
    refine ⟨_, rfl, ?_, ?_, ?_⟩
    · split
      · exact h.1
      · exact h.1
    · split
      · exact hp
      · exact hp
    · split
      · simp [total]
      · rename_i hne
        have := h.2
        rw [hxe] at this
        exact this hne
  unfold scanPixel at hr
  simp only at hr
  rw [hst1] at hr
  have hlast : checkedSub img.width 1 = .ret (img.width - 1) := by
    unfold checkedSub; rw [if_pos (by omega)]
  split at hr
  · obtain ⟨g1, g2⟩ := grow_ret (s := st1.pattern) (by omega)
    rw [g1, Run.ret_bind, hlast, Run.ret_bind] at hr
    split at hr
    · injection hr with hr; subst hr; exact hp1
    · exact atChange_apart hv hx hy
        (st := { st1 with pattern := { st1.pattern with p6 := st1.pattern.p6 + 1 } }) (by simp only; omega) hc1 hp1 hr
  · exact atChange_apart hv hx hy (by omega) hc1 hp1 hr

/-- All candidates are inside the image and apart from each other. -/
theorem candidates_apart {img : GrayImage} (hv : img.Valid) :
    ∃ cs, candidates img = .ret cs ∧ (∀ c ∈ cs, GoodCandidate img c) ∧ cs.Pairwise CandApart := by
  unfold candidates
  obtain ⟨st, hst, hI⟩ := foldlM_inv (f := scanPixel img)
    (I := fun i st => ScanInv img i st ∧ st.candidates.Pairwise CandApart) img.enumeratePixels 0
    ⟨[], 127#8, {}⟩ ⟨⟨by simp, by simp⟩, by simp⟩ (by
      intro i s hi hI
      have hl : img.enumeratePixels.length = img.pixels.length := by simp [GrayImage.enumeratePixels]
      have he : img.enumeratePixels[i] = (i % img.width, i / img.width, img.pixels[i]'(by omega)) := by
        simp [GrayImage.enumeratePixels]
      rw [he]
      rw [Nat.zero_add] at hI ⊢
      have hin : i < img.width * img.height := by rw [← hv.1]; omega
      obtain ⟨s', h1, h2⟩ := scanPixel_ret hv hin (p := img.pixels[i]'(by omega)) hI.1
      exact ⟨s', h1, h2, scanPixel_apart hv hin hI.1 hI.2 h1⟩)
  rw [hst, Run.ret_bind]
  exact ⟨_, rfl, hI.1.1, hI.2⟩

end Apart
end LineScan
end Verif
