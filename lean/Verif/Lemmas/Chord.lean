import Verif.Spec.Sampling
import Mathlib.Analysis.SpecialFunctions.Trigonometric.Basic
import Mathlib.Tactic.Linarith

/-!
# Chords of a tilted square

A line of pixels through a dark square with a light frame: where its middle is found.
-/
namespace Verif.Tilted
open Verif.Spec

/-- Distance from the centre of a tilted square: the square of side `m` is where this is at most `m / 2`. -/
noncomputable def dist (c s x y : ℝ) : ℝ := max |c * x + s * y| |c * y - s * x|

theorem dist_turn (c s x y : ℝ) : dist s (-c) x y = dist c s x y := by
  unfold dist
  rw [max_comm, show s * y - -c * x = c * x + s * y by ring, ← abs_neg (s * x + -c * y),
    show -(s * x + -c * y) = c * y - s * x by ring]

theorem dist_neg (c s x y : ℝ) : dist (-c) (-s) x y = dist c s x y := by
  unfold dist
  rw [← abs_neg (-c * x + -s * y), ← abs_neg (-c * y - -s * x)]
  congr 1 <;> congr 1 <;> ring

theorem dist_opposite (c s x y : ℝ) : dist c s (-x) (-y) = dist c s x y := by
  unfold dist
  rw [← abs_neg (c * -x + s * -y), ← abs_neg (c * -y - s * -x)]
  congr 1 <;> congr 1 <;> ring

theorem dist_swap (c s x y : ℝ) : dist c (-s) y x = dist c s x y := by
  unfold dist
  rw [max_comm]
  congr 1 <;> congr 1 <;> ring

/-- The sum of two abscissae, one left of the square and one not right of it, for a square tilted by at most 45 degrees. -/
theorem mid_upper_core {c s m y u w x : ℝ} (hs : |s| ≤ c) (hc : 0 < c) (hy : |y| * (|c| + |s|) ≤ m / 2)
    (hx : dist c s x y < m / 2) (hux : u < x) (hu : m / 2 ≤ dist c s u y) (hw : dist c s w y ≤ m / 2) :
    u + w ≤ 2 * |y| := by
  unfold dist at *
  obtain ⟨x1, x2⟩ := max_lt_iff.mp hx
  rw [abs_lt] at x1 x2
  obtain ⟨w1, w2⟩ := max_le_iff.mp hw
  rw [abs_le] at w1 w2
  have hsy : |s * y| ≤ c * |y| := by rw [abs_mul]; exact mul_le_mul_of_nonneg_right hs (abs_nonneg y)
  obtain ⟨sy1, sy2⟩ := abs_le.mp hsy
  have hy0 := abs_nonneg y
  rcases le_max_iff.mp hu with h | h
  · -- left of the square in its own direction
    have h' : c * u + s * y ≤ -(m / 2) := by
      rcases le_abs.mp h with h | h
      · have : c * u < c * x := mul_lt_mul_of_pos_left hux hc
        linarith
      · linarith
    have : c * (u + w) ≤ c * (2 * |y|) := by nlinarith
    exact le_of_mul_le_mul_left this hc
  · -- above or below the square in its own direction
    have key : ∀ s y : ℝ, 0 < s → s ≤ c → |y| * (c + s) ≤ m / 2 → s * u ≤ c * y - m / 2 → c * w + s * y ≤ m / 2 →
        u + w ≤ 2 * |y| := by
      intro s y hs0 hsc hy hu hw
      have e1 : c * (s * u) ≤ c * (c * y - m / 2) := mul_le_mul_of_nonneg_left hu hc.le
      have e2 : s * (c * w) ≤ s * (m / 2 - s * y) := mul_le_mul_of_nonneg_left (by linarith) hs0.le
      have hyy := le_abs_self y
      have e3 : (c * c - s * s) * y ≤ (c * c - s * s) * |y| :=
        mul_le_mul_of_nonneg_left hyy (by nlinarith)
      have e4 : (c - s) * (|y| * (c + s)) ≤ (c - s) * (m / 2) := mul_le_mul_of_nonneg_left hy (by linarith)
      have e5 : 0 ≤ c * s * |y| := by positivity
      have : c * s * (u + w) ≤ c * s * (2 * |y|) := by nlinarith
      exact le_of_mul_le_mul_left this (mul_pos hc hs0)
    rw [abs_of_pos hc] at hy
    rcases lt_trichotomy s 0 with h0 | h0 | h0
    · rw [abs_of_neg h0] at hy hs
      have h' : c * y - s * u ≤ -(m / 2) := by
        rcases le_abs.mp h with h | h
        · have : s * x < s * u := mul_lt_mul_of_neg_left hux h0
          linarith
        · linarith
      have := key (-s) (-y) (by linarith) (by linarith) (by rw [abs_neg]; exact hy) (by linarith) (by linarith)
      rwa [abs_neg] at this
    · subst h0
      simp only [zero_mul, sub_zero] at h x2
      rcases le_abs.mp h with h | h <;> linarith
    · rw [abs_of_pos h0] at hy hs
      have h' : m / 2 ≤ c * y - s * u := by
        rcases le_abs.mp h with h | h
        · exact h
        · have : s * u < s * x := mul_lt_mul_of_pos_left hux h0
          linarith
      exact key s y h0 hs hy (by linarith) (by linarith)

theorem mid_upper {c s m y u w x : ℝ} (hcs : c ^ 2 + s ^ 2 = 1) (hy : |y| * (|c| + |s|) ≤ m / 2)
    (hx : dist c s x y < m / 2) (hux : u < x) (hu : m / 2 ≤ dist c s u y) (hw : dist c s w y ≤ m / 2) :
    u + w ≤ 2 * |y| := by
  have hne : 0 < |c| ∨ 0 < |s| := by
    by_contra h
    push Not at h
    have h1 : c = 0 := abs_nonpos_iff.mp h.1
    have h2 : s = 0 := abs_nonpos_iff.mp h.2
    rw [h1, h2] at hcs
    norm_num at hcs
  rcases le_total |s| |c| with h | h
  · have hc : 0 < |c| := by
      rcases hne with h' | h'
      · exact h'
      · linarith
    rcases abs_cases c with ⟨e, h0⟩ | ⟨e, h0⟩
    · rw [e] at hc h
      exact mid_upper_core h hc hy hx hux hu hw
    · rw [e] at hc h
      rw [← dist_neg] at hx hu hw
      refine mid_upper_core (by rwa [abs_neg]) hc ?_ hx hux hu hw
      rwa [abs_neg, abs_neg]
  · have hc : 0 < |s| := by
      rcases hne with h' | h'
      · linarith
      · exact h'
    rw [← dist_turn] at hx hu hw
    rw [add_comm] at hy
    rcases abs_cases s with ⟨e, h0⟩ | ⟨e, h0⟩
    · rw [e] at hc h
      refine mid_upper_core (by rwa [abs_neg]) hc ?_ hx hux hu hw
      rwa [abs_neg]
    · rw [e] at hc h
      rw [← dist_neg, neg_neg] at hx hu hw
      refine mid_upper_core h hc ?_ hx hux hu hw
      rwa [abs_neg]

theorem mid_lower {c s m y u w x : ℝ} (hcs : c ^ 2 + s ^ 2 = 1) (hy : |y| * (|c| + |s|) ≤ m / 2)
    (hx : dist c s x y < m / 2) (hux : x < u) (hu : m / 2 ≤ dist c s u y) (hw : dist c s w y ≤ m / 2) :
    -(2 * |y|) ≤ u + w := by
  rw [← dist_opposite] at hx hu hw
  have := mid_upper hcs (by rwa [abs_neg]) hx (by linarith : -u < -x) hu hw
  rw [abs_neg] at this
  linarith

theorem abs_le_one {c s : ℝ} (hcs : c ^ 2 + s ^ 2 = 1) : |c| ≤ 1 ∧ |s| ≤ 1 := by
  rw [← sq_le_one_iff_abs_le_one, ← sq_le_one_iff_abs_le_one]
  constructor <;> nlinarith [sq_nonneg c, sq_nonneg s]

/-- One step to the right or left changes the distance by at most one. -/
theorem dist_step {c s x x' y : ℝ} (hcs : c ^ 2 + s ^ 2 = 1) (h : |x' - x| ≤ 1) : dist c s x' y ≤ dist c s x y + 1 := by
  obtain ⟨h1, h2⟩ := abs_le_one hcs
  have k1 : |c * (x' - x)| ≤ 1 := by
    rw [abs_mul]
    calc _ ≤ (1 : ℝ) * 1 := mul_le_mul h1 h (abs_nonneg _) (by norm_num)
      _ = 1 := by norm_num
  have k2 : |s * (x' - x)| ≤ 1 := by
    rw [abs_mul]
    calc _ ≤ (1 : ℝ) * 1 := mul_le_mul h2 h (abs_nonneg _) (by norm_num)
      _ = 1 := by norm_num
  unfold dist
  apply max_le
  · have e : c * x' + s * y = (c * x + s * y) + c * (x' - x) := by ring
    rw [e]
    calc _ ≤ |c * x + s * y| + |c * (x' - x)| := abs_add_le _ _
      _ ≤ _ := add_le_add (le_max_left _ _) k1
  · have e : c * y - s * x' = (c * y - s * x) - s * (x' - x) := by ring
    rw [e]
    calc _ ≤ |c * y - s * x| + |s * (x' - x)| := abs_sub _ _
      _ ≤ _ := add_le_add (le_max_right _ _) k2

/-- The middle of a dark spot on a line of pixels. -/
theorem middle_of_line {c s m y C : ℝ} (hcs : c ^ 2 + s ^ 2 = 1) (hm : 1 < m) (hy : |y| * (|c| + |s|) ≤ m / 2)
    {white : Nat → Prop} {k n l r : Nat} (hk : dist c s (k - C) y < m / 2)
    (hdark : ∀ x < n, dist c s (x - C) y < m / 2 → ¬ white x)
    (hring : ∀ x < n, m / 2 < dist c s (x - C) y → dist c s (x - C) y < 3 * m / 2 → white x)
    (h0 : 3 * m / 2 ≤ dist c s (0 - C) y) (hn : 3 * m / 2 ≤ dist c s (n - C) y) (hkn : k < n)
    (hl : WhiteBefore white k l) (hr : WhiteAfter white k n r) :
    |((l : ℝ) + r) / 2 - C| ≤ |y| + 1 / 2 := by
  -- to the left, the pixels that are not white are in the square
  have left : ∀ d : Nat, d ≤ k → (∀ x, k - d ≤ x → x < k → ¬ white x) → dist c s ((k - d : Nat) - C) y ≤ m / 2 := by
    intro d
    induction d with
    | zero => intro _ _; exact hk.le
    | succ d ih =>
      intro hd hw
      have := ih (by omega) (fun x h1 h2 => hw x (by omega) h2)
      by_contra hgt
      push Not at hgt
      have e : ((k - d : Nat) : ℝ) = (k - (d + 1) : Nat) + 1 := by
        have : k - d = k - (d + 1) + 1 := by omega
        rw [this]; push_cast; ring
      have step := dist_step (c := c) (s := s) (x := (k - d : Nat) - C) (x' := (k - (d + 1) : Nat) - C) (y := y) hcs (by
        rw [e, show ((k - (d + 1) : Nat) : ℝ) - C - ((k - (d + 1) : Nat) + 1 - C) = -1 by ring]; norm_num)
      exact hw (k - (d + 1)) le_rfl (by omega) (hring _ (by omega) hgt (by linarith))
  have right : ∀ d : Nat, k + d < n → (∀ x, k ≤ x → x ≤ k + d → ¬ white x) → dist c s ((k + d : Nat) - C) y ≤ m / 2 := by
    intro d
    induction d with
    | zero => intro _ _; exact hk.le
    | succ d ih =>
      intro hd hw
      have := ih (by omega) (fun x h1 h2 => hw x h1 (by omega))
      by_contra hgt
      push Not at hgt
      have step := dist_step (c := c) (s := s) (x := (k + d : Nat) - C) (x' := (k + (d + 1) : Nat) - C) (y := y) hcs (by
        push_cast
        rw [show (k : ℝ) + (d + 1) - C - (k + d - C) = 1 by ring]; norm_num)
      exact hw (k + (d + 1)) (by omega) le_rfl (hring _ (by omega) hgt (by linarith))
  -- both ends
  have L : l < k ∧ m / 2 ≤ dist c s (l - C) y ∧ dist c s (l + 1 - C) y ≤ m / 2 := by
    rcases hl with ⟨h1, h2, h3⟩ | ⟨h1, h2⟩
    · refine ⟨h1, ?_, ?_⟩
      · by_contra h
        push Not at h
        exact hdark l (by omega) h h2
      · have := left (k - (l + 1)) (by omega) (fun x hx hx' => h3 x (by omega) hx')
        rw [show k - (k - (l + 1)) = l + 1 by omega] at this
        push_cast at this
        exact this
    · exfalso
      have := left k le_rfl (fun x _ hx => h2 x hx)
      rw [Nat.sub_self, Nat.cast_zero] at this
      linarith
  have R : k < r ∧ m / 2 ≤ dist c s (r - C) y ∧ dist c s (r - 1 - C) y ≤ m / 2 := by
    have hkr : ∀ r', k ≤ r' → r' ≤ n → (∀ x, k ≤ x → x < r' → ¬ white x) → white r' ∨ r' = n → k < r' := by
      intro r' h1 h2 h3 h4
      rcases Nat.lt_or_eq_of_le h1 with h | h
      · exact h
      · rcases h4 with h4 | h4
        · rw [← h] at h4; exact absurd h4 (hdark k hkn hk)
        · omega
    rcases hr with ⟨h1, h2, h3, h4⟩ | ⟨h1, h2⟩
    · have hlt := hkr r h1 h2.le h4 (Or.inl h3)
      refine ⟨hlt, ?_, ?_⟩
      · by_contra h
        push Not at h
        exact hdark r h2 h h3
      · have := right (r - 1 - k) (by omega) (fun x hx hx' => h4 x hx (by omega))
        rw [show k + (r - 1 - k) = r - 1 by omega, Nat.cast_sub (by omega)] at this
        push_cast at this
        exact this
    · exfalso
      have := right (n - 1 - k) (by omega) (fun x hx hx' => h2 x hx (by omega))
      rw [show k + (n - 1 - k) = n - 1 by omega] at this
      have step := dist_step (c := c) (s := s) (x := (n - 1 : Nat) - C) (x' := n - C) (y := y) hcs (by
        rw [Nat.cast_sub (by omega), Nat.cast_one, show (n : ℝ) - C - (n - 1 - C) = 1 by ring]; norm_num)
      linarith
  obtain ⟨l1, l2, l3⟩ := L
  obtain ⟨r1, r2, r3⟩ := R
  have l1' : (l : ℝ) < k := by exact_mod_cast l1
  have r1' : (k : ℝ) < r := by exact_mod_cast r1
  have up := mid_upper hcs hy hk (by linarith : (l : ℝ) - C < k - C) l2 r3
  have lo := mid_lower hcs hy hk (by linarith : (k : ℝ) - C < r - C) r2 l3
  rw [abs_le]
  constructor <;> linarith

end Verif.Tilted
