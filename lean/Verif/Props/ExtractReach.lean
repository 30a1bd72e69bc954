import Verif.Props.ExtractPanics

/-!
# C55: where extraction panics

Extraction reads pixels at the positions of the modules and, from version 2 on, around the expected place of the
alignment pattern. If it panics, one of them is beyond the right or lower edge of the image.
-/
namespace Verif.Props
open Verif Verif.Spec F64 Extractor

theorem sampleRows_panic {img : GrayImage} {p : Perspective} {size : Nat} {s : LoopState} (h0 : 0 < size)
    (h : sampleRows img p size size s.1 s.2.1 s.2.2 = .panic) :
    ∃ i < size, ∃ j < size, pixelAt img (gridPt p s i j) = .panic := by
  by_contra hno
  have hpix : ∀ i < size, ∀ j < size, ∃ c, pixelAt img (gridPt p s i j) = .ret c := by
    intro i hi j hj
    cases hp : pixelAt img (gridPt p s i j) with
    | ret c => exact ⟨c, rfl⟩
    | panic => exact absurd ⟨i, hi, j, hj, hp⟩ hno
  choose! f hf using hpix
  have hs := (sampleRows_iff img p size size s ((List.range (size * size)).map fun n => f (n / size) (n % size))).mpr
    ⟨by simp, fun i hi j hj => by
      refine ⟨f i j, ?_, hf i hi j hj⟩
      have hlt : i * size + j < size * size := by
        have : (i + 1) * size ≤ size * size := Nat.mul_le_mul_right _ hi
        rw [Nat.succ_mul] at this
        omega
      rw [List.getElem?_map, List.getElem?_range hlt]
      simp only [Option.map_some]
      have e1 : (i * size + j) / size = i := by
        rw [Nat.mul_comm, Nat.mul_add_div h0, Nat.div_eq_of_lt hj, Nat.add_zero]
      have e2 : (i * size + j) % size = j := by rw [Nat.mul_comm, Nat.mul_add_mod, Nat.mod_eq_of_lt hj]
      rw [e1, e2]⟩
  rw [hs] at h
  cases h

/-- **C55, what is true.** Whenever extraction panics, it looked beyond the right or lower edge of the image: within
four and a bit modules of where the alignment pattern is expected, or at the position of a module. For images of two to
`2^20` pixels per side. -/
theorem extraction_panics_beyond_the_image_only_partial (img : GrayImage) (hv : img.Valid) (hw0 : 2 ≤ img.width)
    (hh0 : 1 ≤ img.height) (hw : img.width ≤ 2 ^ 20) (hh : img.height ≤ 2 ^ 20) (loc : QRLocation) (tl tr bl : Pt)
    (hl : LocatedAtPoints loc tl tr bl) (hver : 1 ≤ loc.version) (hver' : loc.version ≤ 40)
    (h : extract img loc = .panic) :
    (2 ≤ loc.version ∧ ∃ u v : ℚ, |u| ≤ 21 / 5 ∧ |v| ≤ 21 / 5 ∧
      Beyond img (besideAlignment (sideOf loc.version) tl tr bl u v)) ∨
    ∃ al : Option Pt, (al = none ↔ loc.version = 1) ∧
      (∀ a ∈ al, 0 ≤ a.1 ∧ a.1 ≤ img.width ∧ 0 ≤ a.2 ∧ a.2 ≤ img.height ∧
        AlignmentAt img (sideOf loc.version) tl tr bl a) ∧
      ∃ i < sideOf loc.version, ∃ j < sideOf loc.version, Beyond img (bilinear (sideOf loc.version) tl tr bl al i j) := by
  have hle := hl.exact
  obtain ⟨size, hsize⟩ : ∃ size, size = sideOf loc.version := ⟨_, rfl⟩
  rw [← hsize]
  have hsz : size = 17 + loc.version * 4 := by rw [hsize]; unfold sideOf; omega
  have hlo : 21 ≤ size := by omega
  have hhi : size ≤ 177 := by omega
  have e1 : mulU32 loc.version 4 = .ret (loc.version * 4) := by unfold mulU32; rw [if_pos (by omega)]
  have e2 : addU32 17 (loc.version * 4) = .ret size := by unfold addU32; rw [if_pos (by omega), hsz]
  unfold extract at h
  rw [e1] at h
  simp only at h
  rw [e2] at h
  simp only at h
  cases hp : determinePerspective img loc.version size loc with
  | err e => rw [hp] at h; cases h
  | ok p =>
    rw [hp] at h
    simp only at h
    obtain ⟨al, b1, b2, b3, b4, b5, b6, b7⟩ := perspective_of hv hw hh hle hver hver' hsz hp
    refine Or.inr ⟨al, b1, b2, ?_⟩
    cases hs : sampleRows img p size size (loc.top_left - F64.lit 3 * p.dy - F64.lit 3 * p.ddy)
        (p.dx - F64.lit 3 * p.ddx) (p.dy - F64.lit 3 * p.ddy) with
    | ret data =>
      rw [hs] at h
      simp only at h
      unfold QRData.new at h
      rw [if_pos (by omega)] at h
      cases h
    | panic =>
      obtain ⟨i, hi, j, hj, hpix⟩ := sampleRows_panic (s := (loc.top_left - F64.lit 3 * p.dy - F64.lit 3 * p.ddy,
        p.dx - F64.lit 3 * p.ddx, p.dy - F64.lit 3 * p.ddy)) (by omega) hs
      exact ⟨i, hi, j, hj, pixelAt_panic hv (by omega) hh0 hw hh (grid_near hlo hhi hle b3 b4 b5 b6 b7 hi hj)
        (bilinear_small hlo hhi hle.tl_small hle.tr_small hle.bl_small b7 hi hj) hpix⟩
  | panic =>
    left
    unfold determinePerspective at hp
    simp only at hp
    by_cases hv1 : loc.version = 1
    · rw [if_pos hv1] at hp; cases hp
    · rw [if_neg hv1] at hp
      refine ⟨by omega, ?_⟩
      have ndx := step_near hlo hhi hle.near_tl hle.near_tr hle.tl_small hle.tr_small
      have ndy := step_near hlo hhi hle.near_tl hle.near_bl hle.tl_small hle.bl_small
      split at hp
      · rename_i hfind
        obtain ⟨pt, u, v, hu, hv', hat, hpix⟩ := search_panic hlo hhi hle ndx ndy hfind
        have hsm := at_small hlo hle.tl_small hle.tr_small hle.bl_small (u := u) (v := v) (by linarith) (by linarith)
        unfold At at hat
        rw [← beside_eq hlo] at hat hsm
        exact ⟨u, v, hu, hv', pixelAt_panic hv (by omega) hh0 hw hh (hat.mono (by rw [ηQ_val]; norm_num))
          (by rw [WQ_val] at hsm; linarith) hpix⟩
      · cases hp
      · rename_i found hfound
        obtain ⟨-, hdark⟩ := search_found hlo hhi hle ndx ndy hfound
        unfold pixelAt at hdark
        obtain ⟨g1, g2, -⟩ := getPixel_ret hdark
        obtain ⟨a, ha⟩ := center_total hv hw0 g1 g2
        rw [ha] at hp
        simp only at hp
        have e3 : mulU32 (size - 10) (size - 10) = .ret ((size - 10) * (size - 10)) := by
          unfold mulU32
          have : (size - 10) * (size - 10) ≤ 167 * 167 := Nat.mul_le_mul (by omega) (by omega)
          rw [if_pos (by omega)]
        rw [e3] at hp
        cases hp

/-- The converse, for the modules: if a grid is returned, no module was beyond the edge. -/
theorem extracted_modules_are_inside (img : GrayImage) (hv : img.Valid) (hw : img.width ≤ 2 ^ 20)
    (hh : img.height ≤ 2 ^ 20) (loc : QRLocation) (tl tr bl : Pt) (hl : LocatedAtPoints loc tl tr bl)
    (hver : 1 ≤ loc.version) (hver' : loc.version ≤ 40) (q : QRData) (h : extract img loc = .ok q) :
    ∃ al : Option Pt, (al = none ↔ loc.version = 1) ∧
      (∀ a ∈ al, 0 ≤ a.1 ∧ a.1 ≤ img.width ∧ 0 ≤ a.2 ∧ a.2 ≤ img.height ∧
        AlignmentAt img (sideOf loc.version) tl tr bl a) ∧
      ∀ i < sideOf loc.version, ∀ j < sideOf loc.version,
        (bilinear (sideOf loc.version) tl tr bl al i j).1 ≤ img.width - 1 / 2 + 1 / 100 ∧
        (bilinear (sideOf loc.version) tl tr bl al i j).2 ≤ img.height - 1 / 2 + 1 / 100 := by
  obtain ⟨al, h1, h2, h3⟩ := samples_are_bilinear img hv hw hh loc tl tr bl hl hver hver' q h
  obtain ⟨-, hside, -⟩ := extracted_grid_is_well_formed img loc q h
  rw [hside] at h2 h3
  refine ⟨al, h1, h2, ?_⟩
  intro i hi j hj
  obtain ⟨c, -, x, y, hx, hy, -, dx, dy⟩ := h3 i hi j hj
  have hx' : (x : ℚ) + 1 ≤ img.width := by exact_mod_cast hx
  have hy' : (y : ℚ) + 1 ≤ img.height := by exact_mod_cast hy
  rw [abs_le] at dx dy
  constructor
  · linarith [dx.1, le_max_right 0 (bilinear (sideOf loc.version) tl tr bl al i j).1]
  · linarith [dy.1, le_max_right 0 (bilinear (sideOf loc.version) tl tr bl al i j).2]

/-! ### A case: a symbol that stands on its corner and is cut off on the right -/

/-- 33 by 40 black pixels. -/
def darkImage : GrayImage := ⟨33, 40, List.replicate (33 * 40) 0⟩

/-- A symbol of version 2 turned by 45 degrees. -/
def cornerLocation : QRLocation := ⟨⟨.fin 30, .fin 3⟩, ⟨.fin 48, .fin 21⟩, ⟨.fin 12, .fin 21⟩, .fin 1, 2⟩

set_option maxRecDepth 100000 in
theorem corner_panics : extract darkImage cornerLocation = .panic := by
  have h : (match extract darkImage cornerLocation with
    | .panic => true
    | _ => false) = true := by decide +kernel
  cases he : extract darkImage cornerLocation with
  | panic => rfl
  | err e => rw [he] at h; cases h
  | ok q => rw [he] at h; cases h

example : (2 ≤ cornerLocation.version ∧ ∃ u v : ℚ, |u| ≤ 21 / 5 ∧ |v| ≤ 21 / 5 ∧
      Beyond darkImage (besideAlignment 25 (30, 3) (48, 21) (12, 21) u v)) ∨
    ∃ al : Option Pt, (al = none ↔ cornerLocation.version = 1) ∧
      (∀ a ∈ al, 0 ≤ a.1 ∧ a.1 ≤ darkImage.width ∧ 0 ≤ a.2 ∧ a.2 ≤ darkImage.height ∧
        AlignmentAt darkImage 25 (30, 3) (48, 21) (12, 21) a) ∧
      ∃ i < 25, ∃ j < 25, Beyond darkImage (bilinear 25 (30, 3) (48, 21) (12, 21) al i j) := by
  have hl : LocatedAtPoints cornerLocation (30, 3) (48, 21) (12, 21) := by
    refine ⟨rfl, rfl, rfl, ?_⟩
    intro p hp
    simp only [List.mem_cons, List.not_mem_nil, or_false] at hp
    rcases hp with rfl | rfl | rfl <;> norm_num
  have hv : darkImage.Valid := ⟨List.length_replicate, by decide, by decide⟩
  exact extraction_panics_beyond_the_image_only_partial darkImage hv (by decide) (by decide) (by decide) (by decide)
    cornerLocation _ _ _ hl (by decide) (by decide) corner_panics

end Verif.Props
