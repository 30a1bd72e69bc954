import Verif.Props.Extract
import Verif.Props.DetectExamples

/-!
# C55: extraction can panic

`extract` does not check that the modules of the location lie in the image. The property is refuted by an image
whose only detected location leads to a panic. For version 1 it is shown where the panic happens.
-/
namespace Verif.Props
open Verif Verif.Spec F64 Extractor

set_option maxRecDepth 100000 in
theorem tiny_panics : extract tinyImage tinyLocation = .panic := by
  have h : (match extract tinyImage tinyLocation with
    | .panic => true
    | _ => false) = true := by decide +kernel
  cases he : extract tinyImage tinyLocation with
  | panic => rfl
  | err e => rw [he] at h; cases h
  | ok q => rw [he] at h; cases h

/-- **C55 is false.** There is an image with a detected location on which extraction panics. -/
theorem extraction_can_panic :
    ∃ (img : GrayImage) (loc : QRLocation), img.Valid ∧ LineScan.detect img = .ret [loc] ∧
      extract img loc = .panic :=
  ⟨tinyImage, tinyLocation, finderImage_valid (by norm_num) (by norm_num), tiny_detected, tiny_panics⟩

theorem index_outside {a : F64} {q : ℚ} (h : Near a q (1 / 100)) {n : Nat} (hq : n - 1 / 2 + 2 / 100 ≤ q)
    (hq' : |q| ≤ 2 ^ 28) (hn' : n ≤ 2 ^ 20) : ¬ a.round.toU32 < n := by
  obtain ⟨r, rfl, hr⟩ := h
  have hb : |r| ≤ 2 ^ 52 := by
    have e : r = q + (r - q) := by ring
    rw [e]; refine le_trans (abs_add_le _ _) ?_; linarith
  rw [round_toU32 hb]
  have hra := roundAway_near r
  rw [abs_le] at hr hra
  have h1 : (n : ℚ) - 1 < (roundAway r : ℚ) := by linarith [hr.1, hr.2, hra.1, hra.2]
  have h2 : (n : Int) - 1 < roundAway r := by exact_mod_cast h1
  omega

/-- The perspective of version 1, and its samples. -/
theorem version_one_grid {loc : QRLocation} {tl tr bl : Pt} (hl : LocatedAtPoints loc tl tr bl)
    (hver : loc.version = 1) (img : GrayImage) :
    ∃ p, determinePerspective img loc.version 21 loc = .ok p ∧ ∀ i < 21, ∀ j < 21,
      PNear (gridPt p (loc.top_left - F64.lit 3 * p.dy - F64.lit 3 * p.ddy, p.dx - F64.lit 3 * p.ddx,
        p.dy - F64.lit 3 * p.ddy) i j) (bilinear 21 tl tr bl none i j) (1 / 100) ∧
      mag (bilinear 21 tl tr bl none i j) ≤ 2 ^ 28 := by
  have hle := hl.exact
  have hz : (21 : Nat) * mag (bendQ 21 tl tr bl none) ≤ 2 / 3 * WQ := by
    have hz : mag (bendQ 21 tl tr bl none) = 0 := by simp [mag, bendQ]
    rw [hz, WQ_val]; norm_num
  obtain ⟨p, hp⟩ : ∃ p : Perspective, p = ⟨(loc.top_right - loc.top_left) / F64.ofNat (21 - 7), Delta.zero,
    (loc.bottom_left - loc.top_left) / F64.ofNat (21 - 7), Delta.zero⟩ := ⟨_, rfl⟩
  have p1 : p.dx = (loc.top_right - loc.top_left) / F64.ofNat (21 - 7) := by rw [hp]
  have p2 : p.dy = (loc.bottom_left - loc.top_left) / F64.ofNat (21 - 7) := by rw [hp]
  have p3 : p.ddy = Delta.zero := by rw [hp]
  have p4 : p.ddx = Delta.zero := by rw [hp]
  refine ⟨p, ?_, ?_⟩
  · unfold determinePerspective
    simp only
    rw [if_pos hver, hp]
  · intro i hi j hj
    have z : DNear Delta.zero (0, 0) 0 := by
      unfold Delta.zero DNear
      simp only [lit0]
      exact ⟨near_fin 0, near_fin 0⟩
    have hη := ηQ_pos
    exact ⟨grid_near (by norm_num) (by norm_num) hle p1 p2 p3 (by rw [p4]; exact z.mono (by linarith)) hz hi hj,
      bilinear_small (by norm_num) (by norm_num) hle.tl_small hle.tr_small hle.bl_small hz hi hj⟩

theorem extract_version_one {loc : QRLocation} (hver : loc.version = 1) (img : GrayImage) {p : Perspective}
    (hp : determinePerspective img loc.version 21 loc = .ok p) :
    (∀ data, sampleRows img p 21 21 (loc.top_left - F64.lit 3 * p.dy - F64.lit 3 * p.ddy)
      (p.dx - F64.lit 3 * p.ddx) (p.dy - F64.lit 3 * p.ddy) = .ret data → extract img loc = .ok ⟨data, 1, 21⟩) ∧
    (sampleRows img p 21 21 (loc.top_left - F64.lit 3 * p.dy - F64.lit 3 * p.ddy)
      (p.dx - F64.lit 3 * p.ddx) (p.dy - F64.lit 3 * p.ddy) = .panic → extract img loc = .panic) := by
  have e1 : mulU32 loc.version 4 = .ret 4 := by rw [hver]; rfl
  have e2 : addU32 17 4 = .ret 21 := rfl
  constructor
  · intro data hd
    unfold extract
    rw [e1]
    simp only
    rw [e2]
    simp only
    rw [hp]
    simp only
    rw [hd, hver]
    rfl
  · intro hd
    unfold extract
    rw [e1]
    simp only
    rw [e2]
    simp only
    rw [hp]
    simp only
    rw [hd]

/-- C55 for version 1, what is true: if no module position is beyond the right or lower edge of the image,
give or take a fiftieth of a pixel, extraction returns a grid. Positions beyond the left or upper edge do no harm. -/
theorem version_one_inside_is_extracted_partial (img : GrayImage) (hv : img.Valid) (hw0 : 1 ≤ img.width)
    (hh0 : 1 ≤ img.height) (hw : img.width ≤ 2 ^ 20) (hh : img.height ≤ 2 ^ 20) (loc : QRLocation)
    (hver : loc.version = 1) (tl tr bl : Pt) (hl : LocatedAtPoints loc tl tr bl)
    (hin : ∀ i < 21, ∀ j < 21, (bilinear 21 tl tr bl none i j).1 ≤ img.width - 1 / 2 - 1 / 50 ∧
      (bilinear 21 tl tr bl none i j).2 ≤ img.height - 1 / 2 - 1 / 50) :
    ∃ q, extract img loc = .ok q := by
  obtain ⟨p, hp, hg⟩ := version_one_grid hl hver img
  have hpix : ∀ i < 21, ∀ j < 21, ∃ c, pixelAt img (gridPt p (loc.top_left - F64.lit 3 * p.dy - F64.lit 3 * p.ddy,
      p.dx - F64.lit 3 * p.ddx, p.dy - F64.lit 3 * p.ddy) i j) = .ret c := by
    intro i hi j hj
    obtain ⟨g1, g2⟩ := hg i hi j hj
    obtain ⟨b1, b2⟩ := hin i hi j hj
    unfold pixelAt
    exact getPixel_of_inside hv (index_inside g1.1 hw0 (by linarith) (le_trans (le_mag1 _) g2) hw)
      (index_inside g1.2 hh0 (by linarith) (le_trans (le_mag2 _) g2) hh)
  choose! f hf using hpix
  have hs : sampleRows img p 21 21 (loc.top_left - F64.lit 3 * p.dy - F64.lit 3 * p.ddy)
      (p.dx - F64.lit 3 * p.ddx) (p.dy - F64.lit 3 * p.ddy) =
      .ret ((List.range (21 * 21)).map fun n => f (n / 21) (n % 21)) := by
    refine (sampleRows_iff img p _ _ (_, _, _) _).mpr ⟨by simp, ?_⟩
    intro i hi j hj
    refine ⟨f i j, ?_, hf i hi j hj⟩
    rw [List.getElem?_map, List.getElem?_range (by omega)]
    simp only [Option.map_some]
    rw [show (i * 21 + j) / 21 = i by omega, show (i * 21 + j) % 21 = j by omega]
  exact ⟨_, (extract_version_one hver img hp).1 _ hs⟩

/-- And what is not: if some module position is beyond the right or lower edge, extraction panics. -/
theorem version_one_outside_panics (img : GrayImage) (hw : img.width ≤ 2 ^ 20) (hh : img.height ≤ 2 ^ 20)
    (loc : QRLocation) (hver : loc.version = 1) (tl tr bl : Pt) (hl : LocatedAtPoints loc tl tr bl)
    (i j : Nat) (hi : i < 21) (hj : j < 21)
    (hout : img.width - 1 / 2 + 1 / 50 ≤ (bilinear 21 tl tr bl none i j).1 ∨
      img.height - 1 / 2 + 1 / 50 ≤ (bilinear 21 tl tr bl none i j).2) :
    extract img loc = .panic := by
  obtain ⟨p, hp, hg⟩ := version_one_grid hl hver img
  refine (extract_version_one hver img hp).2 ?_
  cases hs : sampleRows img p 21 21 (loc.top_left - F64.lit 3 * p.dy - F64.lit 3 * p.ddy)
      (p.dx - F64.lit 3 * p.ddx) (p.dy - F64.lit 3 * p.ddy) with
  | panic => rfl
  | ret data =>
    exfalso
    obtain ⟨-, hc⟩ := (sampleRows_iff img p _ _ (_, _, _) data).mp hs
    obtain ⟨c, -, hp'⟩ := hc i hi j hj
    obtain ⟨g1, g2⟩ := hg i hi j hj
    unfold pixelAt at hp'
    obtain ⟨k1, k2, -⟩ := getPixel_ret hp'
    rcases hout with h | h
    · exact index_outside g1.1 (by linarith) (le_trans (le_mag1 _) g2) hw k1
    · exact index_outside g1.2 (by linarith) (le_trans (le_mag2 _) g2) hh k2

end Verif.Props
