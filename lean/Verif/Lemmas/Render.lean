import Verif.Lemmas.Reach
import Verif.Spec.Turned

/-!
# Sampling a picture of a symbol in an axis-parallel position

First the exact positions: the bilinear map through centres that are slightly off.
-/
namespace Verif
namespace Extractor
open F64 Spec

theorem bilinear1_swap (side : Nat) (tl tr bl : ℚ) (al : Option ℚ) (i j : Nat) :
    bilinear1 side tl tr bl al i j = bilinear1 side tl bl tr al j i := by
  unfold bilinear1
  cases al <;> simp only <;> ring

theorem abs_mul_le {a b A B : ℚ} (ha : |a| ≤ A) (hb : |b| ≤ B) : |a * b| ≤ A * B := by
  rw [abs_mul]; exact mul_le_mul ha hb (abs_nonneg b) (le_trans (abs_nonneg a) ha)

theorem frac_bounds {N u : ℚ} {c : ℚ} (hN : 0 < N) (h1 : -(c * N) ≤ u) {d : ℚ} (h2 : u ≤ d * N) :
    -c ≤ u / N ∧ u / N ≤ d := by
  constructor
  · rw [le_div_iff₀ hN]; linarith
  · rw [div_le_iff₀ hN]; exact h2

/-- Without an alignment pattern, one coordinate. -/
theorem affine_error {N c0 m s ε tl tr bl u v : ℚ} (hN : 14 ≤ N) (h1 : |tl - (c0 + s)| ≤ ε)
    (h2 : |tr - (c0 + N * m + s)| ≤ ε) (h3 : |bl - (c0 + s)| ≤ ε)
    (u1 : -3 ≤ u) (u2 : u ≤ N + 3) (v1 : -3 ≤ v) (v2 : v ≤ N + 3) :
    |tl + u / N * (tr - tl) + v / N * (bl - tl) - (c0 + u * m)| ≤ |s| + 5 * ε := by
  have hN0 : (0 : ℚ) < N := by linarith
  obtain ⟨a1, a2⟩ := frac_bounds (u := u) (c := 3 / 14) (d := 17 / 14) hN0 (by linarith) (by linarith)
  obtain ⟨b1, b2⟩ := frac_bounds (u := v) (c := 3 / 14) (d := 17 / 14) hN0 (by linarith) (by linarith)
  have hum : u * m = u / N * (N * m) := by field_simp
  rw [hum]
  generalize u / N = α at *
  generalize v / N = β at *
  obtain ⟨e1, rfl⟩ : ∃ e, tl = c0 + s + e := ⟨tl - (c0 + s), by ring⟩
  obtain ⟨e2, rfl⟩ : ∃ e, tr = c0 + N * m + s + e := ⟨tr - (c0 + N * m + s), by ring⟩
  obtain ⟨e3, rfl⟩ : ∃ e, bl = c0 + s + e := ⟨bl - (c0 + s), by ring⟩
  rw [add_sub_cancel_left] at h1 h2 h3
  have e : c0 + s + e1 + α * (c0 + N * m + s + e2 - (c0 + s + e1)) + β * (c0 + s + e3 - (c0 + s + e1)) -
      (c0 + α * (N * m)) = s + ((1 - α - β) * e1 + (α * e2 + β * e3)) := by ring
  rw [e]
  have t1 := abs_mul_le (a := 1 - α - β) (A := 3 / 2) (by rw [abs_le]; constructor <;> linarith) h1
  have t2 := abs_mul_le (a := α) (A := 17 / 14) (by rw [abs_le]; constructor <;> linarith) h2
  have t3 := abs_mul_le (a := β) (A := 17 / 14) (by rw [abs_le]; constructor <;> linarith) h3
  have hε : 0 ≤ ε := le_trans (abs_nonneg _) h1
  have s1 := abs_add_le s ((1 - α - β) * e1 + (α * e2 + β * e3))
  have s2 := abs_add_le ((1 - α - β) * e1) (α * e2 + β * e3)
  have s3 := abs_add_le (α * e2) (β * e3)
  linarith

/-- With an alignment centre that is exact, one coordinate. -/
theorem bilinear_error {N c0 m s ε tl tr bl u v : ℚ} (hN : 18 ≤ N) (h1 : |tl - (c0 + s)| ≤ ε)
    (h2 : |tr - (c0 + N * m + s)| ≤ ε) (h3 : |bl - (c0 + s)| ≤ ε)
    (u1 : -3 ≤ u) (u2 : u ≤ N + 3) (v1 : -3 ≤ v) (v2 : v ≤ N + 3) :
    |tl + u / N * (tr - tl) + v / N * (bl - tl) + u * v / (N - 3) ^ 2 *
      (c0 + (N - 3) * m - (tl + (N - 3) / N * (tr - tl) + (N - 3) / N * (bl - tl))) - (c0 + u * m)| ≤
    13 / 10 * |s| + 5 * ε := by
  have hN0 : (0 : ℚ) < N := by linarith
  have hK0 : (0 : ℚ) < N - 3 := by linarith
  obtain ⟨a1, a2⟩ := frac_bounds (u := u) (c := 1 / 6) (d := 7 / 6) hN0 (by linarith) (by linarith)
  obtain ⟨b1, b2⟩ := frac_bounds (u := v) (c := 1 / 6) (d := 7 / 6) hN0 (by linarith) (by linarith)
  obtain ⟨c1, c2⟩ := frac_bounds (u := u) (c := 1 / 5) (d := 7 / 5) hK0 (by linarith) (by linarith)
  obtain ⟨d1, d2⟩ := frac_bounds (u := v) (c := 1 / 5) (d := 7 / 5) hK0 (by linarith) (by linarith)
  obtain ⟨k1, k2⟩ := frac_bounds (u := 3) (c := 0) (d := 1 / 5) hK0 (by linarith) (by linarith)
  have g1 : u / (N - 3) - u / N = u / N * (3 / (N - 3)) := by field_simp; ring
  have g2 : v / (N - 3) - v / N = v / N * (3 / (N - 3)) := by field_simp; ring
  have hA : |u / N| ≤ 7 / 6 := by rw [abs_le]; constructor <;> linarith
  have hB : |v / N| ≤ 7 / 6 := by rw [abs_le]; constructor <;> linarith
  have hk : |(3 : ℚ) / (N - 3)| ≤ 1 / 5 := by rw [abs_le]; constructor <;> linarith
  have q1 := abs_mul_le hA hk
  have q2 := abs_mul_le hB hk
  rw [← g1] at q1
  rw [← g2] at q2
  obtain ⟨e1, rfl⟩ : ∃ e, tl = c0 + s + e := ⟨tl - (c0 + s), by ring⟩
  obtain ⟨e2, rfl⟩ : ∃ e, tr = c0 + N * m + s + e := ⟨tr - (c0 + N * m + s), by ring⟩
  obtain ⟨e3, rfl⟩ : ∃ e, bl = c0 + s + e := ⟨bl - (c0 + s), by ring⟩
  rw [add_sub_cancel_left] at h1 h2 h3
  have e : c0 + s + e1 + u / N * (c0 + N * m + s + e2 - (c0 + s + e1)) + v / N * (c0 + s + e3 - (c0 + s + e1)) +
      u * v / (N - 3) ^ 2 * (c0 + (N - 3) * m - (c0 + s + e1 + (N - 3) / N * (c0 + N * m + s + e2 - (c0 + s + e1)) +
        (N - 3) / N * (c0 + s + e3 - (c0 + s + e1)))) - (c0 + u * m) =
      (1 - u / (N - 3) * (v / (N - 3))) * s +
      (((1 - u / N) * (1 - v / N) - (u / (N - 3) - u / N) * (v / (N - 3) - v / N)) * e1 +
       (u / N * (1 - v / (N - 3)) * e2 + v / N * (1 - u / (N - 3)) * e3)) := by
    field_simp
    ring
  rw [e]
  have hε : 0 ≤ ε := le_trans (abs_nonneg _) h1
  have hC : |u / (N - 3) * (v / (N - 3)) - 21 / 25| ≤ 28 / 25 := by
    generalize u / (N - 3) = γ at *
    generalize v / (N - 3) = δ at *
    rw [abs_le]
    constructor <;> nlinarith
  have t0 := abs_mul_le (a := 1 - u / (N - 3) * (v / (N - 3))) (A := 13 / 10) (by
    rw [abs_le] at hC ⊢; constructor <;> linarith [hC.1, hC.2]) (le_refl |s|)
  have p1 := abs_mul_le (a := 1 - u / N) (A := 7 / 6) (b := 1 - v / N) (B := 7 / 6)
    (by rw [abs_le]; constructor <;> linarith) (by rw [abs_le]; constructor <;> linarith)
  have p2 := abs_mul_le q1 q2
  have t1 := abs_mul_le (a := (1 - u / N) * (1 - v / N) - (u / (N - 3) - u / N) * (v / (N - 3) - v / N))
    (A := 3 / 2) (by
      refine le_trans (abs_sub _ _) ?_
      refine le_trans (add_le_add p1 p2) ?_
      norm_num) h1
  have p3 := abs_mul_le hA (b := 1 - v / (N - 3)) (B := 6 / 5) (by rw [abs_le]; constructor <;> linarith)
  have p4 := abs_mul_le hB (b := 1 - u / (N - 3)) (B := 6 / 5) (by rw [abs_le]; constructor <;> linarith)
  have t2 := abs_mul_le p3 h2
  have t3 := abs_mul_le p4 h3
  have s1 := abs_add_le ((1 - u / (N - 3) * (v / (N - 3))) * s)
    (((1 - u / N) * (1 - v / N) - (u / (N - 3) - u / N) * (v / (N - 3) - v / N)) * e1 +
       (u / N * (1 - v / (N - 3)) * e2 + v / N * (1 - u / (N - 3)) * e3))
  have s2 := abs_add_le (((1 - u / N) * (1 - v / N) - (u / (N - 3) - u / N) * (v / (N - 3) - v / N)) * e1)
       (u / N * (1 - v / (N - 3)) * e2 + v / N * (1 - u / (N - 3)) * e3)
  have s3 := abs_add_le (u / N * (1 - v / (N - 3)) * e2) (v / N * (1 - u / (N - 3)) * e3)
  linarith

/-! ### Both coordinates -/

theorem centre_shift {m o j : Nat} : moduleCentre m o j = moduleCentre m o 3 + ((j : ℚ) - 3) * m := by
  unfold moduleCentre; push_cast; ring

/-- The step from one module to the next along a direction that may be reversed. -/
def stepSize (f : Bool) (m : Nat) : ℚ := if f then -m else m

theorem centre_flip {f : Bool} {side m o k : Nat} (hk : k < side) (h : 21 ≤ side) :
    moduleCentre m o (flipIndex f side k) = moduleCentre m o (flipIndex f side 3) + ((k : ℚ) - 3) * stepSize f m := by
  unfold flipIndex stepSize
  cases f
  · exact centre_shift
  · simp only [if_true]
    unfold moduleCentre
    have c : ∀ l : Nat, l < side → ((side - 1 - l : Nat) : ℚ) = side - 1 - l := by
      intro l hl
      rw [Nat.cast_sub (by omega), Nat.cast_sub (by omega)]; push_cast; ring
    rw [c k hk, c 3 (by omega)]
    push_cast; ring

/-- The directions of the symbol along which the picture's column and row grow. -/
theorem centre_along {b f : Bool} {side m o i j : Nat} (hi : i < side) (hj : j < side) (h : 21 ≤ side) :
    moduleCentre m o (flipIndex f side (if b then i else j)) = moduleCentre m o (flipIndex f side 3) +
      (if b then (i : ℚ) - 3 else (j : ℚ) - 3) * stepSize f m := by
  rw [centre_flip (by cases b <;> simpa) h]
  cases b <;> rfl

theorem affine_coord {b f : Bool} {side m o : Nat} {s ε tl tr bl u v : ℚ} (h : 21 ≤ side)
    (h1 : |tl - (moduleCentre m o (flipIndex f side (if b then 3 else 3)) + s)| ≤ ε)
    (h2 : |tr - (moduleCentre m o (flipIndex f side (if b then 3 else side - 4)) + s)| ≤ ε)
    (h3 : |bl - (moduleCentre m o (flipIndex f side (if b then side - 4 else 3)) + s)| ≤ ε)
    (u1 : -3 ≤ u) (u2 : u ≤ (side : ℚ) - 7 + 3) (v1 : -3 ≤ v) (v2 : v ≤ (side : ℚ) - 7 + 3) :
    |tl + u / ((side : ℚ) - 7) * (tr - tl) + v / ((side : ℚ) - 7) * (bl - tl) -
      (moduleCentre m o (flipIndex f side 3) + (if b then v else u) * stepSize f m)| ≤ |s| + 5 * ε := by
  have n14 : (14 : ℚ) ≤ (side : ℚ) - 7 := by
    have : (21 : ℚ) ≤ side := by exact_mod_cast h
    linarith
  have far : moduleCentre m o (flipIndex f side (side - 4)) =
      moduleCentre m o (flipIndex f side 3) + ((side : ℚ) - 7) * stepSize f m := by
    rw [centre_flip (by omega) h, Nat.cast_sub (by omega)]; push_cast; ring
  cases b
  · simp only [Bool.false_eq_true, if_false] at h1 h2 h3 ⊢
    rw [far] at h2
    exact affine_error n14 h1 h2 h3 u1 u2 v1 v2
  · simp only [if_true] at h1 h2 h3 ⊢
    rw [far] at h3
    have := affine_error n14 h1 h3 h2 v1 v2 u1 u2
    convert this using 2
    ring

theorem bilinear_coord {b f : Bool} {side m o : Nat} {s ε tl tr bl u v : ℚ} (h : 25 ≤ side)
    (h1 : |tl - (moduleCentre m o (flipIndex f side (if b then 3 else 3)) + s)| ≤ ε)
    (h2 : |tr - (moduleCentre m o (flipIndex f side (if b then 3 else side - 4)) + s)| ≤ ε)
    (h3 : |bl - (moduleCentre m o (flipIndex f side (if b then side - 4 else 3)) + s)| ≤ ε)
    (u1 : -3 ≤ u) (u2 : u ≤ (side : ℚ) - 7 + 3) (v1 : -3 ≤ v) (v2 : v ≤ (side : ℚ) - 7 + 3) :
    |tl + u / ((side : ℚ) - 7) * (tr - tl) + v / ((side : ℚ) - 7) * (bl - tl) + u * v / ((side : ℚ) - 10) ^ 2 *
      (moduleCentre m o (flipIndex f side (side - 7)) -
        (tl + ((side : ℚ) - 10) / ((side : ℚ) - 7) * (tr - tl) + ((side : ℚ) - 10) / ((side : ℚ) - 7) * (bl - tl))) -
      (moduleCentre m o (flipIndex f side 3) + (if b then v else u) * stepSize f m)| ≤ 13 / 10 * |s| + 5 * ε := by
  have n18 : (18 : ℚ) ≤ (side : ℚ) - 7 := by
    have : (25 : ℚ) ≤ side := by exact_mod_cast h
    linarith
  have far : moduleCentre m o (flipIndex f side (side - 4)) =
      moduleCentre m o (flipIndex f side 3) + ((side : ℚ) - 7) * stepSize f m := by
    rw [centre_flip (by omega) (by omega), Nat.cast_sub (by omega)]; push_cast; ring
  have ali : moduleCentre m o (flipIndex f side (side - 7)) =
      moduleCentre m o (flipIndex f side 3) + ((side : ℚ) - 7 - 3) * stepSize f m := by
    rw [centre_flip (by omega) (by omega), Nat.cast_sub (by omega)]; push_cast; ring
  rw [ali, show (side : ℚ) - 10 = (side : ℚ) - 7 - 3 by ring]
  cases b
  · simp only [Bool.false_eq_true, if_false] at h1 h2 h3 ⊢
    rw [far] at h2
    exact bilinear_error n18 h1 h2 h3 u1 u2 v1 v2
  · simp only [if_true] at h1 h2 h3 ⊢
    rw [far] at h3
    have := bilinear_error n18 h1 h3 h2 v1 v2 u1 u2
    convert this using 2
    ring

/-- Exact centre of the alignment pattern. -/
def alignCentre (ρ : Orientation) (side m ox oy : Nat) : Pt :=
  (moduleCentre m ox (ρ.column side (side - 7) (side - 7)), moduleCentre m oy (ρ.row side (side - 7) (side - 7)))

theorem idx_range {side i : Nat} (h : i < side) : -3 ≤ (i : ℚ) - 3 ∧ (i : ℚ) - 3 ≤ (side : ℚ) - 7 + 3 := by
  have h1 : (i : ℚ) + 1 ≤ side := by exact_mod_cast h
  have h2 : (0 : ℚ) ≤ i := Nat.cast_nonneg i
  constructor <;> linarith

/-- Every module position is close to the centre of the module. -/
theorem bilinear_close {tl tr bl : Pt} {ρ : Orientation} {side m ox oy : Nat} {shift : Pt} {ε : ℚ} (hs : 21 ≤ side)
    (hc : CentredAs tl tr bl ρ side m ox oy shift ε) {al : Option Pt}
    (hal : al = none ∨ (25 ≤ side ∧ al = some (alignCentre ρ side m ox oy))) {i j : Nat} (hi : i < side) (hj : j < side) :
    |(bilinear side tl tr bl al i j).1 - moduleCentre m ox (ρ.column side i j)| ≤ 13 / 10 * |shift.1| + 5 * ε ∧
    |(bilinear side tl tr bl al i j).2 - moduleCentre m oy (ρ.row side i j)| ≤ 13 / 10 * |shift.2| + 5 * ε := by
  obtain ⟨⟨a1, a2⟩, ⟨b1, b2⟩, ⟨c1, c2⟩⟩ := hc
  obtain ⟨u1, u2⟩ := idx_range hj
  obtain ⟨v1, v2⟩ := idx_range hi
  unfold Orientation.column at a1 b1 c1
  unfold Orientation.row at a2 b2 c2
  have k1 : moduleCentre m ox (ρ.column side i j) = _ := centre_along hi hj hs
  have k2 : moduleCentre m oy (ρ.row side i j) = _ := centre_along hj hi hs
  rw [k1, k2]
  have h1 := abs_nonneg shift.1
  have h2 := abs_nonneg shift.2
  rcases hal with rfl | ⟨h25, rfl⟩
  · refine ⟨le_trans (affine_coord hs a1 b1 c1 u1 u2 v1 v2) (by linarith), ?_⟩
    unfold bilinear
    simp only [Option.map_none]
    rw [bilinear1_swap]
    exact le_trans (affine_coord hs a2 c2 b2 v1 v2 u1 u2) (by linarith)
  · have ha : ∀ b : Bool, (if b then side - 7 else side - 7) = side - 7 := by intro b; cases b <;> rfl
    have g1 : (alignCentre ρ side m ox oy).1 = moduleCentre m ox (flipIndex ρ.flipX side (side - 7)) := by
      unfold alignCentre Orientation.column; rw [ha]
    have g2 : (alignCentre ρ side m ox oy).2 = moduleCentre m oy (flipIndex ρ.flipY side (side - 7)) := by
      unfold alignCentre Orientation.row; rw [ha]
    constructor
    · unfold bilinear bilinear1
      simp only [Option.map_some]
      rw [g1]
      exact bilinear_coord h25 a1 b1 c1 u1 u2 v1 v2
    · unfold bilinear
      simp only [Option.map_some]
      rw [bilinear1_swap]
      unfold bilinear1
      simp only
      rw [g2]
      exact bilinear_coord h25 a2 c2 b2 v1 v2 u1 u2

/-- Positions around the estimated alignment centre. -/
theorem est_close {tl tr bl : Pt} {ρ : Orientation} {side m ox oy : Nat} {shift : Pt} {ε : ℚ} (hs : 25 ≤ side)
    (hc : CentredAs tl tr bl ρ side m ox oy shift ε) {a b : Int} (ha : -2 ≤ a ∧ a ≤ 2) (hb : -2 ≤ b ∧ b ≤ 2)
    {i j : Nat} (hi : (i : Int) = side - 7 + b) (hj : (j : Int) = side - 7 + a) :
    |(estQ side tl tr bl + (a : ℚ) • stepQ side tl tr + (b : ℚ) • stepQ side tl bl).1 -
      moduleCentre m ox (ρ.column side i j)| ≤ |shift.1| + 5 * ε ∧
    |(estQ side tl tr bl + (a : ℚ) • stepQ side tl tr + (b : ℚ) • stepQ side tl bl).2 -
      moduleCentre m oy (ρ.row side i j)| ≤ |shift.2| + 5 * ε := by
  obtain ⟨⟨a1, a2⟩, ⟨b1, b2⟩, ⟨c1, c2⟩⟩ := hc
  have hsq : (25 : ℚ) ≤ side := by exact_mod_cast hs
  have hn : (side : ℚ) - 7 ≠ 0 := by linarith
  have hi' : (i : ℚ) - 3 = (side : ℚ) - 10 + b := by
    have := congrArg (Int.cast (R := ℚ)) hi
    push_cast at this
    linarith
  have hj' : (j : ℚ) - 3 = (side : ℚ) - 10 + a := by
    have := congrArg (Int.cast (R := ℚ)) hj
    push_cast at this
    linarith
  obtain ⟨u1, u2⟩ := idx_range (side := side) (i := j) (by omega)
  obtain ⟨v1, v2⟩ := idx_range (side := side) (i := i) (by omega)
  unfold Orientation.column at a1 b1 c1
  unfold Orientation.row at a2 b2 c2
  have k1 : moduleCentre m ox (ρ.column side i j) = _ := centre_along (by omega) (by omega) (by omega)
  have k2 : moduleCentre m oy (ρ.row side i j) = _ := centre_along (by omega) (by omega) (by omega)
  rw [k1, k2]
  constructor
  · have := affine_coord (by omega) a1 b1 c1 u1 u2 v1 v2
    convert this using 2
    rw [hi', hj']
    unfold estQ stepQ
    simp only [Prod.fst_add, Prod.fst_sub, Prod.smul_fst, smul_eq_mul]
    field_simp
    ring
  · have := affine_coord (by omega) a2 c2 b2 v1 v2 u1 u2
    convert this using 2
    rw [hi', hj']
    unfold estQ stepQ
    simp only [Prod.snd_add, Prod.snd_sub, Prod.smul_snd, smul_eq_mul]
    field_simp
    ring

/-! ### From a position to the colour of the module -/

theorem centre_abs {m o k n : Nat} (h : o + k * m + m ≤ n) (hn : n ≤ 2 ^ 20) :
    |moduleCentre m o k| ≤ 2 ^ 21 := by
  unfold moduleCentre
  have h1 : (o : ℚ) + k * m + m ≤ n := by exact_mod_cast h
  have h2 : (n : ℚ) ≤ 2 ^ 20 := by exact_mod_cast hn
  have h3 : (0 : ℚ) ≤ (o : ℚ) + k * m := by positivity
  have h4 : (0 : ℚ) ≤ m := Nat.cast_nonneg m
  rw [abs_le]; constructor <;> linarith

theorem index_in_module {a : F64} {q ε : ℚ} (h : Near a q ε) {m o k n : Nat} (hm : 1 ≤ m) (hε : 0 ≤ ε)
    (hq : |q - moduleCentre m o k| + ε < m / 2) (hk : o + k * m + m ≤ n) (hn : n ≤ 2 ^ 20) :
    ∃ z, z < m ∧ a.round.toU32 = o + k * m + z := by
  have hb := centre_abs hk hn
  have h1 : (o : ℚ) + k * m + m ≤ n := by exact_mod_cast hk
  have h2 : (n : ℚ) ≤ 2 ^ 20 := by exact_mod_cast hn
  have hm1 : (1 : ℚ) ≤ m := by exact_mod_cast hm
  have h3 : (0 : ℚ) ≤ (o : ℚ) + k * m := by positivity
  have hqb : |q| + ε ≤ 2 ^ 28 := by
    have e : q = moduleCentre m o k + (q - moduleCentre m o k) := by ring
    have := abs_add_le (moduleCentre m o k) (q - moduleCentre m o k)
    rw [← e] at this
    linarith
  have hlt : |q - moduleCentre m o k| < m / 2 - ε := by linarith
  rw [abs_lt] at hlt
  unfold moduleCentre at hlt
  have hi : ((o + k * m + (m - 1) : Nat) : ℚ) = (o : ℚ) + k * m + (m - 1) := by
    rw [Nat.cast_add, Nat.cast_sub hm]; push_cast; ring
  have := index_near h hqb (lo := o + k * m) (hi := o + k * m + (m - 1)) (by push_cast; linarith [hlt.1])
    (by rw [hi]; linarith [hlt.2]) (by omega)
  exact ⟨a.round.toU32 - (o + k * m), by omega, by omega⟩

theorem flipIndex_lt {f : Bool} {side k : Nat} (h : k < side) : flipIndex f side k < side := by
  unfold flipIndex; split <;> omega

theorem column_lt {ρ : Orientation} {side i j : Nat} (hi : i < side) (hj : j < side) : ρ.column side i j < side := by
  unfold Orientation.column; apply flipIndex_lt; split <;> assumption

theorem row_lt {ρ : Orientation} {side i j : Nat} (hi : i < side) (hj : j < side) : ρ.row side i j < side := by
  unfold Orientation.row; apply flipIndex_lt; split <;> assumption

theorem drawn_fit {img : GrayImage} {q : QRData} {ρ : Orientation} {m ox oy : Nat} (hd : DrawnAs img q ρ m ox oy) {i : Nat}
    (hi : i < q.side) : ox + i * m + m ≤ img.width ∧ oy + i * m + m ≤ img.height := by
  obtain ⟨hw, hh, -⟩ := hd
  have : (i + 1) * m ≤ q.side * m := Nat.mul_le_mul_right m hi
  rw [Nat.succ_mul] at this
  omega

theorem drawn_pixel {img : GrayImage} {q : QRData} {ρ : Orientation} {m ox oy : Nat} (hd : DrawnAs img q ρ m ox oy)
    {i j a b : Nat} (hi : i < q.side) (hj : j < q.side) (ha : a < m) (hb : b < m) {c : U8}
    (hc : q.data[i * q.side + j]? = some c) :
    img.getPixel (ox + ρ.column q.side i j * m + a) (oy + ρ.row q.side i j * m + b) = .ret c := by
  have f1 := (drawn_fit hd (column_lt (ρ := ρ) hi hj)).1
  have f2 := (drawn_fit hd (row_lt (ρ := ρ) hi hj)).2
  obtain ⟨hw, hh, hp⟩ := hd
  unfold GrayImage.getPixel
  rw [if_pos ⟨by omega, by omega⟩, hp i hi j hj a ha b hb, hc]

theorem pixel_in_module {img : GrayImage} {q : QRData} {ρ : Orientation} {m ox oy : Nat} (hd : DrawnAs img q ρ m ox oy)
    (hw : img.width ≤ 2 ^ 20) (hh : img.height ≤ 2 ^ 20) (hm : 1 ≤ m) {i j : Nat} (hi : i < q.side) (hj : j < q.side)
    {p : Point} {Q : Pt} {ε : ℚ} (hp : PNear p Q ε) (hε : 0 ≤ ε)
    (h1 : |Q.1 - moduleCentre m ox (ρ.column q.side i j)| + ε < m / 2)
    (h2 : |Q.2 - moduleCentre m oy (ρ.row q.side i j)| + ε < m / 2) {c : U8}
    (hc : q.data[i * q.side + j]? = some c) : pixelAt img p = .ret c := by
  obtain ⟨a, ha, ea⟩ := index_in_module hp.1 hm hε h1 (drawn_fit hd (column_lt hi hj)).1 hw
  obtain ⟨b, hb, eb⟩ := index_in_module hp.2 hm hε h2 (drawn_fit hd (row_lt hi hj)).2 hh
  unfold pixelAt
  rw [ea, eb]
  exact drawn_pixel hd hi hj ha hb hc

end Extractor
end Verif
