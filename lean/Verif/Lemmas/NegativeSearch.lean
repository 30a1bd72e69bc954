import Verif.Spec.Turned
import Verif.Spec.Sampling
import Mathlib.Tactic.Linarith
import Mathlib.Tactic.Ring

/-!
# The search for an alignment pattern with light and dark exchanged

Positions along one axis are counted in tenths of modules from the centre of the pattern; the module in which the nearest
pixel is depends on the size of a module, and on where between pixels the centre is.
-/
namespace Verif.Negative
open Verif Verif.Spec

/-- The colour of the module `i` columns and `j` rows from the centre of an alignment pattern, with light and dark
exchanged; not known beyond the pattern. -/
def inverted (i j : Int) : Option U8 :=
  if i.natAbs ≤ 2 ∧ j.natAbs ≤ 2 then
    some (if max i.natAbs j.natAbs = 1 then 0#8 else 255#8)
  else none

/-- The pixel `n`, counted from the first one of the central module, is nearest, up to a hundredth of a pixel, to the
position `w` tenths of a module from the centre, which is half a module and `b` hundredths of a pixel from the first pixel;
`i` is its module. -/
def Near (b m w i : Int) : Prop := ∃ n : Int, |100 * n - (10 * (w + 5) * m + b)| ≤ 51 ∧ i = n / m

/-- All such modules. -/
def cells (b m w : Int) : List Int :=
  [-((51 - (10 * (w + 5) * m + b)) / 100) / m, (10 * (w + 5) * m + b + 51) / 100 / m]

theorem near_cells {b m w i : Int} (h : Near b m w i) : i ∈ cells b m w := by
  obtain ⟨n, hn, rfl⟩ := h
  rw [abs_le] at hn
  unfold cells
  revert hn
  generalize 10 * (w + 5) * m + b = t
  intro hn
  have : n = -((51 - t) / 100) ∨ n = (t + 51) / 100 := by omega
  rcases this with h | h
  · rw [← h]; simp
  · rw [← h]; simp

/-- All such modules, for large modules. -/
def largeCells (b w : Int) : List Int :=
  if (w + 5) % 10 = 0 then
    (if b = 0 then [(w + 5) / 10] else if b = -100 then [(w + 5) / 10 - 1] else [(w + 5) / 10 - 1, (w + 5) / 10])
  else [(w + 5) / 10]

theorem div_between {n m k : Int} (h1 : k * m ≤ n) (h2 : n < k * m + m) (hm : 0 < m) : n / m = k := by
  have h3 : n = m * k + (n - k * m) := by ring
  rw [h3, Int.mul_add_ediv_left _ _ (by omega), Int.ediv_eq_zero_of_lt (by omega) (by omega)]
  simp

theorem near_largeCells {b m w i : Int} (hm : 16 ≤ m) (hb : b = 0 ∨ b = -50 ∨ b = -100) (h : Near b m w i) :
    i ∈ largeCells b w := by
  obtain ⟨n, hn, rfl⟩ := h
  rw [abs_le] at hn
  have hw : w + 5 = 10 * ((w + 5) / 10) + (w + 5) % 10 := by omega
  have hr0 : 0 ≤ (w + 5) % 10 := by omega
  have hr1 : (w + 5) % 10 < 10 := by omega
  unfold largeCells
  revert hn hw hr0 hr1
  generalize (w + 5) / 10 = k
  generalize (w + 5) % 10 = r
  intro hn hw hr0 hr1
  rw [hw] at hn
  have e : 10 * (10 * k + r) * m = 100 * (k * m) + 10 * (r * m) := by ring
  rw [e] at hn
  by_cases hr : r = 0
  · rw [if_pos hr]
    subst hr
    have e1 : (k - 1) * m = k * m - m := by ring
    rcases hb with rfl | rfl | rfl
    · have := div_between (n := n) (m := m) (k := k) (by omega) (by omega) (by omega)
      rw [this]; simp
    · rw [if_neg (by omega), if_neg (by omega)]
      by_cases hk : n = k * m
      · have := div_between (n := n) (m := m) (k := k) (by omega) (by omega) (by omega)
        rw [this]; simp
      · have := div_between (n := n) (m := m) (k := k - 1) (by omega) (by omega) (by omega)
        rw [this]; simp
    · rw [if_neg (by omega), if_pos rfl]
      have := div_between (n := n) (m := m) (k := k - 1) (by omega) (by omega) (by omega)
      rw [this]; simp
  · rw [if_neg hr]
    have h1 : 1 * m ≤ r * m := Int.mul_le_mul_of_nonneg_right (by omega) (by omega)
    have h9 : r * m ≤ 9 * m := Int.mul_le_mul_of_nonneg_right (by omega) (by omega)
    have := div_between (n := n) (m := m) (k := k) (by omega) (by omega) (by omega)
    rw [this]; simp

/-- 1, or -1 if the direction is reversed. -/
def sign (flip : Bool) : Int := if flip then -1 else 1

/-- The tenths of modules to the right in the picture. -/
def across (ρ : Orientation) (u v : Int) : Int := sign ρ.flipX * if ρ.swap then v else u

/-- The tenths of modules down in the picture. -/
def down (ρ : Orientation) (u v : Int) : Int := sign ρ.flipY * if ρ.swap then u else v

/-- Whatever modules the nearest pixels are in, the place is not taken for an alignment pattern. -/
def Rejected (ρ : Orientation) (cx cy : Int → Int → Prop) (x y z : Int) : Prop :=
  (∀ i, cx (across ρ (5 * x) (5 * y)) i → ∀ j, cy (down ρ (5 * x) (5 * y)) j → inverted i j = some 255#8) ∨
  ∃ o ∈ alignmentLooks, ∀ i, cx (across ρ (5 * x + o.1.1 * (10 + z)) (5 * y + o.1.2 * (10 + z))) i →
    ∀ j, cy (down ρ (5 * x + o.1.1 * (10 + z)) (5 * y + o.1.2 * (10 + z))) j → inverted i j = some o.2

/-- The same for lists of modules, as a computation. -/
def rejected (ρ : Orientation) (cx cy : Int → List Int) (x y z : Int) : Bool :=
  ((cx (across ρ (5 * x) (5 * y))).all fun i => (cy (down ρ (5 * x) (5 * y))).all fun j => inverted i j == some 255#8) ||
  alignmentLooks.any fun o =>
    (cx (across ρ (5 * x + o.1.1 * (10 + z)) (5 * y + o.1.2 * (10 + z)))).all fun i =>
      (cy (down ρ (5 * x + o.1.1 * (10 + z)) (5 * y + o.1.2 * (10 + z)))).all fun j => inverted i j == some o.2

/-- All places and sizes. -/
def allRejected (ρ : Orientation) (cx cy : Int → List Int) : Bool :=
  ([-3, -2, -1, 0, 1, 2, 3] : List Int).all fun x => ([-3, -2, -1, 0, 1, 2, 3] : List Int).all fun y =>
    ([-2, -1, 0, 1, 2, 3] : List Int).all fun z => rejected ρ cx cy x y z

theorem rejected_of {ρ : Orientation} {cx cy : Int → List Int} (h : allRejected ρ cx cy = true) {px py : Int → Int → Prop}
    (hx : ∀ w i, px w i → i ∈ cx w) (hy : ∀ w i, py w i → i ∈ cy w) {x y z : Int} (ht : Tried x y z) :
    Rejected ρ px py x y z := by
  obtain ⟨h1, h2, h3, h4⟩ := ht
  rw [abs_le] at h1 h2
  have mx : x ∈ ([-3, -2, -1, 0, 1, 2, 3] : List Int) := by
    simp only [List.mem_cons, List.not_mem_nil, or_false]; omega
  have my : y ∈ ([-3, -2, -1, 0, 1, 2, 3] : List Int) := by
    simp only [List.mem_cons, List.not_mem_nil, or_false]; omega
  have mz : z ∈ ([-2, -1, 0, 1, 2, 3] : List Int) := by
    simp only [List.mem_cons, List.not_mem_nil, or_false]; omega
  unfold allRejected at h
  have hr := List.all_eq_true.mp (List.all_eq_true.mp (List.all_eq_true.mp h x mx) y my) z mz
  unfold rejected at hr
  rw [Bool.or_eq_true] at hr
  rcases hr with hr | hr
  · refine Or.inl fun i hi j hj => ?_
    have := List.all_eq_true.mp (List.all_eq_true.mp hr i (hx _ _ hi)) j (hy _ _ hj)
    exact eq_of_beq this
  · obtain ⟨o, ho, hr⟩ := List.any_eq_true.mp hr
    refine Or.inr ⟨o, ho, fun i hi j hj => ?_⟩
    have := List.all_eq_true.mp (List.all_eq_true.mp hr i (hx _ _ hi)) j (hy _ _ hj)
    exact eq_of_beq this

/-- Hundredths of a pixel by which the reported finder centres are too high: one pixel, or half a pixel for odd sizes,
relative to half a module below the first pixel. -/
def upBias (m : Nat) : Int := if m % 2 = 0 then -100 else -50

theorem small_straight : ∀ m < 16, 2 ≤ m → ∀ f : Bool,
    allRejected ⟨f, f, false⟩ (cells 0 (m : Nat)) (cells (upBias m) (m : Nat)) = true := by decide +kernel

theorem small_swapped : ∀ m < 8, 1 ≤ m → ∀ f : Bool,
    allRejected ⟨f, !f, true⟩ (cells 0 (2 * m : Nat)) (cells (upBias (2 * m)) (2 * m : Nat)) = true := by decide +kernel

theorem large_straight : ∀ f : Bool, allRejected ⟨f, f, false⟩ (largeCells 0) (largeCells (-100)) = true ∧
    allRejected ⟨f, f, false⟩ (largeCells 0) (largeCells (-50)) = true := by decide +kernel

theorem large_swapped : ∀ f : Bool, allRejected ⟨f, !f, true⟩ (largeCells 0) (largeCells (-100)) = true := by decide +kernel

/-- The inverted pattern is never taken for an alignment pattern: in the upright and the reversed position, and if the
size of the modules is even also in the two others. -/
theorem inverted_is_rejected (ρ : Orientation) (hρ : ¬ ρ.Mirrored) (m : Nat) (hm : 2 ≤ m) (h : ρ.swap = false ∨ m % 2 = 0)
    {x y z : Int} (ht : Tried x y z) : Rejected ρ (Near 0 m) (Near (upBias m) m) x y z := by
  obtain ⟨fx, fy, sw⟩ := ρ
  have hub : upBias m = 0 ∨ upBias m = -50 ∨ upBias m = -100 := by unfold upBias; split <;> simp
  cases sw with
  | false =>
    have e : fy = fx := by
      unfold Orientation.Mirrored at hρ
      cases fx <;> cases fy <;> simp at hρ ⊢
    subst e
    by_cases h16 : m < 16
    · exact rejected_of (small_straight m h16 hm fy) (fun _ _ => near_cells) (fun _ _ => near_cells) ht
    · have h16' : (16 : Int) ≤ m := by omega
      by_cases he : m % 2 = 0
      · refine rejected_of (large_straight fy).1 (fun _ _ => near_largeCells h16' (Or.inl rfl)) (fun w i hw => ?_) ht
        have := near_largeCells h16' hub hw
        rwa [show upBias m = -100 from if_pos he] at this
      · refine rejected_of (large_straight fy).2 (fun _ _ => near_largeCells h16' (Or.inl rfl)) (fun w i hw => ?_) ht
        have := near_largeCells h16' hub hw
        rwa [show upBias m = -50 from if_neg he] at this
  | true =>
    have e : fy = !fx := by
      unfold Orientation.Mirrored at hρ
      cases fx <;> cases fy <;> simp at hρ ⊢
    subst e
    have he : m % 2 = 0 := by
      rcases h with h | h
      · cases h
      · exact h
    by_cases h16 : m < 16
    · obtain ⟨k, rfl⟩ : ∃ k, m = 2 * k := ⟨m / 2, by omega⟩
      exact rejected_of (small_swapped k (by omega) (by omega) fx) (fun _ _ => near_cells) (fun _ _ => near_cells) ht
    · have h16' : (16 : Int) ≤ m := by omega
      refine rejected_of (large_swapped fx) (fun _ _ => near_largeCells h16' (Or.inl rfl)) (fun w i hw => ?_) ht
      have := near_largeCells h16' hub hw
      rwa [show upBias m = -100 from if_pos he] at this

end Verif.Negative
