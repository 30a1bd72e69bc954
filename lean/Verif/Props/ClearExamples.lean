import Verif.Props.Clear
import Verif.Props.DetectExamples
import Mathlib.Analysis.Real.Sqrt

/-! # Examples for C77 -/
namespace Verif.Props
open Verif Verif.Spec F64 LineScan

/-- A symbol of version 7 with modules of about five halves of a pixel, tilted by about 37 degrees and slightly skewed. -/
theorem skew_is_clear : ClearGeometry (100, 100) (175, 158) (45, 177) (5 / 2) 7 := by
  refine ⟨by norm_num, by norm_num, ?_, ?_, ?_, ?_⟩ <;>
    norm_num [ClearlyFits, cross, dist2]

/-- C77 (completeness) applies to it, in any order. -/
example : findQr ⟨.fin 45, .fin 177⟩ ⟨.fin 175, .fin 158⟩ ⟨.fin 100, .fin 100⟩ (.fin (5 / 2)) =
    .ret (some ⟨⟨.fin 100, .fin 100⟩, ⟨.fin 175, .fin 158⟩, ⟨.fin 45, .fin 177⟩, .fin (5 / 2), 7⟩) := by
  refine clear_geometry_is_located (100, 100) (175, 158) (45, 177) (5 / 2) 7 skew_is_clear ?_ (45, 177) (175, 158)
    (100, 100) ?_
  · refine ⟨?_, ?_, ?_, ?_⟩ <;> norm_num
  · decide

/-- C77 (the version) applies to the location in `tinyImage`: the finders are 12.04 pixels apart, so the modules of a
symbol of version 1 have 0.86 pixels, the estimate is 1, and 14 times the difference is 1.96: neither of the two
bounds rules the version out. -/
example : (14 : ℝ) * |√145 / 14 - 1| ≤ 21 / 10 := by
  have e : (145 : ℝ) = (14 * (√145 / 14)) ^ 2 := by
    rw [mul_div_cancel₀ _ (by norm_num), Real.sq_sqrt (by norm_num)]
  have h := (version_needs_module_size tinyImage (finderImage_valid (by norm_num) (by norm_num)) (by decide)
    [tinyLocation] tiny_detected tinyLocation (by simp) (11 / 2, 6) (35 / 2, 7) (13 / 2, 18) 1 (√145 / 14) (√145 / 14) 1
    ⟨rfl, rfl, rfl, rfl⟩ (by positivity) (by positivity) (by rw [show (4 * ((1 : Nat) : ℝ) + 10) = 14 by norm_num, ← e]; norm_num [dist2])
    (by rw [show (4 * ((1 : Nat) : ℝ) + 10) = 14 by norm_num, ← e]; norm_num [dist2])).2 rfl
  norm_num at h ⊢
  exact h

end Verif.Props
