import Verif.Lemmas.Quick
import Verif.Props.Tilted
import Verif.Props.ScalesExamples
import Mathlib.Analysis.SpecialFunctions.Trigonometric.Inverse

/-! # "HELLO WORLD", slightly tilted -/
namespace Verif.Props
open Verif Verif.Spec LineScan

theorem angle_of {c s : ℝ} (h : c * c + s * s = 1) (hs : 0 ≤ s) :
    Real.cos (Real.arccos c) = c ∧ Real.sin (Real.arccos c) = s := by
  refine ⟨Real.cos_arccos (by nlinarith) (by nlinarith), ?_⟩
  rw [Real.sin_arccos, show 1 - c ^ 2 = s ^ 2 by linarith, Real.sqrt_sq hs]

/-- The picture of the upright symbol with modules of 8 pixels is also one of the symbol tilted by a quarter of a degree. -/
noncomputable def slightAngle : ℝ := Real.arccos (159999 / 160001)

theorem slight_angle : Real.cos slightAngle = 159999 / 160001 ∧ Real.sin slightAngle = 800 / 160001 :=
  angle_of (by norm_num) (by norm_num)

/-- The centre of the first module of the slightly tilted symbol, around the centre of the upright one. -/
noncomputable def slightPlace : ℝ × ℝ :=
  (231 / 2 - 80 * (159999 / 160001 - 800 / 160001), 231 / 2 - 80 * (159999 / 160001 + 800 / 160001))

theorem slight_row {y a b : ℝ} {k r : Nat} (h : y = 231 / 2 - 80 * (159999 / 160001 + 800 / 160001) +
    8 * (b * (800 / 160001) + a * (159999 / 160001))) (hy : y = 8 * k + r) (hr : r ≤ 7)
    (a1 : -(1 / 2) ≤ a) (a2 : a ≤ 21 - 1 / 2) (b1 : -(1 / 2) ≤ b) (b2 : b ≤ 21 - 1 / 2) :
    4 ≤ k ∧ k < 25 ∧ |a - (k - 4)| ≤ 1 / 2 := by
  have hr : (r : ℝ) ≤ 7 := by exact_mod_cast hr
  have hr0 : (0 : ℝ) ≤ r := Nat.cast_nonneg r
  have l1 : (3 : ℝ) < k := by linarith
  have l2 : (k : ℝ) < 25 := by linarith
  refine ⟨by exact_mod_cast l1, by exact_mod_cast l2, ?_⟩
  rw [abs_le]
  constructor <;> linarith

theorem slight_column {x a b : ℝ} {k r : Nat} (h : x = 231 / 2 - 80 * (159999 / 160001 - 800 / 160001) +
    8 * (b * (159999 / 160001) - a * (800 / 160001))) (hx : x = 8 * k + r) (hr : r ≤ 7)
    (a1 : -(1 / 2) ≤ a) (a2 : a ≤ 21 - 1 / 2) (b1 : -(1 / 2) ≤ b) (b2 : b ≤ 21 - 1 / 2) :
    4 ≤ k ∧ k < 25 ∧ |b - (k - 4)| ≤ 1 / 2 := by
  have hr : (r : ℝ) ≤ 7 := by exact_mod_cast hr
  have hr0 : (0 : ℝ) ≤ r := Nat.cast_nonneg r
  have l1 : (3 : ℝ) < k := by linarith
  have l2 : (k : ℝ) < 25 := by linarith
  refine ⟨by exact_mod_cast l1, by exact_mod_cast l2, ?_⟩
  rw [abs_le]
  constructor <;> linarith

theorem slight_shown : ShownTilted (enlarge helloSmall 8) helloModules slightPlace 8 slightAngle := by
  have he := enlarge_enlarged helloSmall 8
  have hv : (enlarge helloSmall 8).Valid := enlarge_valid (by decide) (by decide)
  have hd : Drawn helloSmall helloModules 1 4 4 := by
    rw [helloSmall_eq]; exact picture_drawn (by rw [helloModules_isSymbol.1.2.2, helloModules_isSymbol.1.2.1]) (by omega)
  intro x hx y hy a b e a1 a2 b1 b2
  unfold tiltedPlace slightPlace at e
  obtain ⟨e1, e2⟩ := Prod.mk.inj e
  rw [slight_angle.1, slight_angle.2] at e1 e2
  rw [show helloModules.side = 21 from rfl] at a2 b2
  push_cast at a2 b2
  have hx8 : ((x : ℝ)) = 8 * (x / 8 : Nat) + (x % 8 : Nat) := by exact_mod_cast (Nat.div_add_mod x 8).symm
  have hy8 : ((y : ℝ)) = 8 * (y / 8 : Nat) + (y % 8 : Nat) := by exact_mod_cast (Nat.div_add_mod y 8).symm
  obtain ⟨i1, i2, i3⟩ := slight_row e2 hy8 (by omega) a1 a2 b1 b2
  obtain ⟨j1, j2, j3⟩ := slight_column e1 hx8 (by omega) a1 a2 b1 b2
  have hs : helloModules.side = 21 := rfl
  refine ⟨y / 8 - 4, by omega, x / 8 - 4, by omega, ?_, ?_, ?_⟩
  · rw [Nat.cast_sub i1]; exact i3
  · rw [Nat.cast_sub j1]; exact j3
  · have := (enlarged_drawn he (by decide) hv (picture_valid (by decide)) hd).2.2 (y / 8 - 4) (by omega) (x / 8 - 4) (by omega)
      (x % 8) (by omega) (y % 8) (by omega)
    rw [show 4 * 8 + (y / 8 - 4) * 8 + y % 8 = y by omega, show 4 * 8 + (x / 8 - 4) * 8 + x % 8 = x by omega] at this
    exact this

theorem slight_inside : TiltedInside (enlarge helloSmall 8) helloModules.side slightPlace 8 slightAngle := by
  intro a b a1 a2 b1 b2
  rw [show helloModules.side = 21 from rfl] at a2 b2
  unfold tiltedPlace slightPlace
  rw [slight_angle.1, slight_angle.2, show (enlarge helloSmall 8).width = 232 from rfl,
    show (enlarge helloSmall 8).height = 232 from rfl]
  push_cast at *
  refine ⟨⟨?_, ?_⟩, ?_, ?_⟩ <;> linarith

/-- The centres are reported half a pixel to the right and up, give or take 3/10. -/
theorem slight_centres : TiltedCentres helloModules.side (60, 59) (172, 59) (60, 171) slightPlace 8 slightAngle (1 / 2) (3 / 10) := by
  refine ⟨(1 / 2, -(1 / 2)), by norm_num [abs_le], by norm_num [abs_le], ?_, ?_, ?_⟩ <;>
  · unfold CloseTo tiltedPlace slightPlace
    rw [slight_angle.1, slight_angle.2]
    norm_num [abs_le, show helloModules.side = 21 from rfl]

/-- C75: the slightly tilted symbol meets the conditions. -/
example : ∃ d : Decoder Unit GrayImage GrayImage QRLocation QRData (List Char), defaultDecoder id = .ret d ∧
      ∀ s, d.decode (enlarge helloSmall 8) s = .ret ([.ok "HELLO WORLD".toList], s) := by
  have he := enlarge_enlarged helloSmall 8
  have hv : (enlarge helloSmall 8).Valid := enlarge_valid (by decide) (by decide)
  have hcrisp : Crisp (enlarge helloSmall 8) (enlarge helloSmall 8) := by
    refine ⟨rfl, rfl, ?_⟩
    intro x hx y hy
    have := black_or_white helloSmall_rows helloSmall_black_or_white (x := x / 8) (y := y / 8)
      ((Nat.div_lt_iff_lt_mul (by omega)).mpr (by rw [← he.1]; exact hx))
      ((Nat.div_lt_iff_lt_mul (by omega)).mpr (by rw [← he.2.1]; exact hy))
    rw [he.2.2 x hx y hy]
    omega
  obtain ⟨⟨d, hd, -, h⟩, -⟩ := located_tilted_symbol_is_read_partial (σ := Unit) id (enlarge helloSmall 8) hv (enlarge helloSmall 8)
    (crisp_threshold hcrisp hv he (helloSmall_legible 8 (by decide))).symm (by decide) (by decide) (by decide)
    helloModules 1 (by decide) (by decide) .medium 3 (by decide) helloSegments (by unfold Segment.fits; decide) _
    helloSegments_text helloModules_isSymbol (fun h => absurd h (by decide)) slightPlace 8 slightAngle (1 / 2) (3 / 10)
    (by norm_num) (fun h => absurd h (by decide)) slight_shown slight_inside _ (hello_detected 8 (by decide) (by decide)) _
    (List.mem_singleton.mpr rfl) rfl (60, 59) (172, 59) (60, 171)
    ⟨by norm_num [reportedCentre], by norm_num [reportedCentre], by norm_num [reportedCentre],
      by intro p hp; fin_cases hp <;> norm_num [abs_le]⟩ slight_centres
  exact ⟨d, hd, h rfl⟩

end Verif.Props
