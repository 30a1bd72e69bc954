import Verif.Model.Blocks
import Verif.Spec.Symbol
/-! The data region of the code is the data region of the specification. -/
namespace Verif
open Spec

theorem range1_40 {v : Nat} (h1 : 1 ≤ v) (h2 : v ≤ 40) : v ∈ List.range' 1 40 := by
  rw [List.mem_range'_1]; omega

/-- The row of the alignment table, with a default. -/
def locOf (v : Nat) : AlignmentLocation := (alignmentTable v).getD ⟨1000, 1000⟩

theorem alignmentTable_some : ∀ v ∈ List.range' 1 40, alignmentTable v = some (locOf v) := by
  decide +kernel

/-- One-dimensional comparison of the table with the centres. -/
theorem align_1d : ∀ v ∈ List.range' 2 39, ∀ c ∈ List.range (sideOf v),
    isAlignmentCoord (locOf v) c = (alignmentCentres v).any (fun m => decide (m - 2 ≤ c ∧ c ≤ m + 2)) := by
  decide +kernel

theorem centres_shape : ∀ v ∈ List.range' 2 39,
    6 ∈ alignmentCentres v ∧ sideOf v - 7 ∈ alignmentCentres v ∧
    ∀ m ∈ alignmentCentres v, (m = 6 ∨ 18 ≤ m) ∧ (m = sideOf v - 7 ∨ m + 12 ≤ sideOf v - 7) := by
  decide +kernel

theorem align_iff {v : Nat} (h1 : 2 ≤ v) (h2 : v ≤ 40) {c : Nat} (hc : c < sideOf v) :
    isAlignmentCoord (locOf v) c = true ↔ ∃ m ∈ alignmentCentres v, m - 2 ≤ c ∧ c ≤ m + 2 := by
  rw [align_1d v (by rw [List.mem_range'_1]; omega) c (List.mem_range.mpr hc)]
  simp


/-- The chain of tests of `is_data` when no subtraction underflows. -/
theorem isData_chain (q : QRData) (loc : AlignmentLocation) (x y : Nat) (hs : 12 ≤ q.side) :
    isData q loc x y = .ret (decide (
      ¬ (x = 6 ∨ y = 6) ∧ ¬ (x < 9 ∧ y < 9) ∧ ¬ (x > q.side - 9 ∧ y < 9) ∧
      ¬ (x < 9 ∧ y > q.side - 9) ∧ ¬ (q.version ≥ 7 ∧ x > q.side - 12 ∧ y < 6) ∧
      ¬ (q.version ≥ 7 ∧ y > q.side - 12 ∧ x < 6) ∧
      ((x = q.side - 9 ∧ y < 9) ∨ (y = q.side - 9 ∧ x < 9) ∨
        ¬ (isAlignmentCoord loc x = true ∧ isAlignmentCoord loc y = true)))) := by
  unfold isData
  have h1 : ¬ q.side < 9 := by omega
  have h2 : ¬ (q.version ≥ 7 ∧ q.side < 12) := by omega
  rw [if_neg h1, if_neg h2]
  repeat' split
  all_goals
    congr 1
    symm
    simp_all

/-- The arithmetic part: `A` stands for "in an alignment pattern", `B` for the test of the code. -/
theorem layout_arith (s v x y : Nat) (hs : 21 ≤ s) (hx : x < s) (hy : y < s) (A B : Prop)
    (hAB : B ↔ A ∨ ((x ≤ 8 ∧ 4 ≤ x) ∧ (y ≤ 8 ∧ 4 ≤ y)) ∨
          ((x ≤ 8 ∧ 4 ≤ x) ∧ (s - 9 ≤ y ∧ y ≤ s - 5)) ∨
          ((s - 9 ≤ x ∧ x ≤ s - 5) ∧ (y ≤ 8 ∧ 4 ≤ y)))
    (hA : A → ¬ (x = s - 9 ∧ y < 9) ∧ ¬ (y = s - 9 ∧ x < 9)) :
    (¬ (x = 6 ∨ y = 6) ∧ ¬ (x < 9 ∧ y < 9) ∧ ¬ (x > s - 9 ∧ y < 9) ∧
      ¬ (x < 9 ∧ y > s - 9) ∧ ¬ (v ≥ 7 ∧ x > s - 12 ∧ y < 6) ∧
      ¬ (v ≥ 7 ∧ y > s - 12 ∧ x < 6) ∧
      ((x = s - 9 ∧ y < 9) ∨ (y = s - 9 ∧ x < 9) ∨ ¬ B)) ↔
    (x < s ∧ y < s ∧ ¬ (((x < 8 ∧ y < 8) ∨ (s - 8 ≤ x ∧ y < 8) ∨ (x < 8 ∧ s - 8 ≤ y)) ∨
      (x = 6 ∨ y = 6) ∨ A ∨
      ((x = 8 ∧ y ≤ 8) ∨ (x ≤ 8 ∧ y = 8) ∨ (s - 8 ≤ x ∧ y = 8) ∨ (x = 8 ∧ s - 8 ≤ y)) ∨
      (7 ≤ v ∧ ((s - 11 ≤ x ∧ x ≤ s - 9 ∧ y < 6) ∨ (s - 11 ≤ y ∧ y ≤ s - 9 ∧ x < 6))))) := by
  rw [hAB]
  by_cases ha : A
  · have hn := hA ha
    simp only [ha, true_or, or_true, not_true, and_false, or_false, iff_false]
    rintro ⟨-, -, -, -, -, -, h | h⟩
    · exact hn.1 h
    · exact hn.2 h
  · simp only [ha, false_or]
    clear hA hAB ha
    constructor
    · rintro ⟨h1, h2, h3, h4, h5, h6, h7⟩
      refine ⟨hx, hy, ?_⟩
      rintro ((h | h | h) | h | (h | h | h | h) | ⟨h0, h | h⟩)
      · exact h2 (by omega)
      · exact h3 (by omega)
      · exact h4 (by omega)
      · exact h1 h
      · exact h2 (by omega)
      · exact h2 (by omega)
      · exact h3 (by omega)
      · exact h4 (by omega)
      · exact h5 (by omega)
      · exact h6 (by omega)
    · rintro ⟨-, -, h⟩
      simp only [not_or] at h
      obtain ⟨⟨h1, h2, h3⟩, ⟨h4, h5⟩, ⟨h6, h7, h8, h9⟩, h10⟩ := h
      have h2' : ¬ (x < 9 ∧ y < 9) := by
        rintro ⟨hx9, hy9⟩
        by_cases hx8 : x = 8
        · exact h6 ⟨hx8, by omega⟩
        · by_cases hy8 : y = 8
          · exact h7 ⟨by omega, hy8⟩
          · exact h1 ⟨by omega, by omega⟩
      have h3' : ¬ (x > s - 9 ∧ y < 9) := by
        rintro ⟨hx9, hy9⟩
        by_cases hy8 : y = 8
        · exact h8 ⟨by omega, hy8⟩
        · exact h2 ⟨by omega, by omega⟩
      have h4' : ¬ (x < 9 ∧ y > s - 9) := by
        rintro ⟨hx9, hy9⟩
        by_cases hx8 : x = 8
        · exact h9 ⟨hx8, by omega⟩
        · exact h3 ⟨by omega, by omega⟩
      refine ⟨by rintro (h | h); exact h4 h; exact h5 h, h2', h3', h4', ?_, ?_, ?_⟩
      · rintro ⟨hv, hx12, hy6⟩
        exact h10 ⟨hv, .inl ⟨by omega, by
          refine Decidable.byContradiction fun hc => h3' ⟨by omega, by omega⟩, hy6⟩⟩
      · rintro ⟨hv, hy12, hx6⟩
        exact h10 ⟨hv, .inr ⟨by omega, by
          refine Decidable.byContradiction fun hc => h4' ⟨by omega, by omega⟩, hx6⟩⟩
      · by_cases c1 : x = s - 9 ∧ y < 9
        · exact .inl c1
        · by_cases c2 : y = s - 9 ∧ x < 9
          · exact .inr (.inl c2)
          · refine .inr (.inr ?_)
            rintro (h | h | h)
            · exact h2' (by omega)
            · exact h4' ⟨by omega, by
                refine Decidable.byContradiction fun hc => c2 ⟨by omega, by omega⟩⟩
            · exact h3' ⟨by
                refine Decidable.byContradiction fun hc => c1 ⟨by omega, by omega⟩, by omega⟩

theorem isData_eq (q : QRData) (v : Nat) (h1 : 1 ≤ v) (h40 : v ≤ 40) (hv : q.version = v)
    (hs : q.side = sideOf v) (x y : Nat) (hx : x < sideOf v) (hy : y < sideOf v) :
    isData q (locOf v) x y = .ret (decide (isDataModule v x y)) := by
  have hside : sideOf v = 4 * v + 17 := rfl
  rw [isData_chain q _ x y (by omega), hv, hs]
  congr 1
  apply decide_eq_decide.mpr
  unfold isDataModule isFunction inFinder inTiming inFormat inVersion
  by_cases hv1 : v = 1
  · subst hv1
    have h : ∀ x ∈ List.range 21, ∀ y ∈ List.range 21,
        decide (¬ (x = 6 ∨ y = 6) ∧ ¬ (x < 9 ∧ y < 9) ∧ ¬ (x > sideOf 1 - 9 ∧ y < 9) ∧
        ¬ (x < 9 ∧ y > sideOf 1 - 9) ∧ ¬ (1 ≥ 7 ∧ x > sideOf 1 - 12 ∧ y < 6) ∧
        ¬ (1 ≥ 7 ∧ y > sideOf 1 - 12 ∧ x < 6) ∧
        ((x = sideOf 1 - 9 ∧ y < 9) ∨ (y = sideOf 1 - 9 ∧ x < 9) ∨
          ¬ (isAlignmentCoord (locOf 1) x = true ∧ isAlignmentCoord (locOf 1) y = true))) =
        decide (isDataModule 1 x y) := by decide +kernel
    exact decide_eq_decide.mp (h x (List.mem_range.mpr hx) y (List.mem_range.mpr hy))
  · apply layout_arith _ v x y (by omega) hx hy
    · rw [align_iff (v := v) (by omega) h40 hx, align_iff (v := v) (by omega) h40 hy]
      obtain ⟨h6, hl, hm⟩ := centres_shape v (by rw [List.mem_range'_1]; omega)
      constructor
      · rintro ⟨⟨cx, hcx, hx1, hx2⟩, ⟨cy, hcy, hy1, hy2⟩⟩
        by_cases hcorner : (cx = 6 ∧ cy = 6) ∨ (cx = 6 ∧ cy = sideOf v - 7) ∨
            (cx = sideOf v - 7 ∧ cy = 6)
        · right; clear h6 hl hm hcx hcy; omega
        · left; exact ⟨cx, hcx, cy, hcy, hcorner, hx1, hx2, hy1, hy2⟩
      · rintro (⟨cx, hcx, cy, hcy, _, hx1, hx2, hy1, hy2⟩ | h | h | h)
        · exact ⟨⟨cx, hcx, hx1, hx2⟩, ⟨cy, hcy, hy1, hy2⟩⟩
        · exact ⟨⟨6, h6, by omega⟩, ⟨6, h6, by omega⟩⟩
        · exact ⟨⟨6, h6, by omega⟩, ⟨_, hl, by omega⟩⟩
        · exact ⟨⟨_, hl, by omega⟩, ⟨6, h6, by omega⟩⟩
    · rintro ⟨cx, hcx, cy, hcy, hcorner, hx1, hx2, hy1, hy2⟩
      obtain ⟨h6, hl, hm⟩ := centres_shape v (by rw [List.mem_range'_1]; omega)
      have hmx := hm cx hcx
      have hmy := hm cy hcy
      clear h6 hl hm hcx hcy
      omega

end Verif
