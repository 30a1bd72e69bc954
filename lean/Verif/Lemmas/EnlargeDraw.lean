import Verif.Lemmas.EnlargeScan
import Verif.Lemmas.Crisp
import Verif.Lemmas.Picture
import Verif.Lemmas.Finders

/-!
# What an enlarged image shows
-/
namespace Verif
open Spec LineScan

theorem pixel_of_grey {img : GrayImage} (hv : img.Valid) {x y : Nat} (hx : x < img.width) (hy : y < img.height) :
    img.pixels[y * img.width + x]? = some (BitVec.ofNat 8 (grey img x y)) := by
  have hlt : y * img.width + x < img.pixels.length := by
    rw [hv.1, Nat.mul_comm img.width]
    have : (y + 1) * img.width ≤ img.height * img.width := Nat.mul_le_mul_right _ hy
    rw [Nat.succ_mul] at this
    omega
  rw [List.getElem?_eq_getElem hlt]
  unfold grey
  rw [BlockedMean.getD_eq hlt, BitVec.ofNat_toNat, BitVec.setWidth_eq]

/-- The image in which every pixel is enlarged. -/
def enlarge (g : GrayImage) (m : Nat) : GrayImage where
  width := g.width * m
  height := g.height * m
  pixels := (positions (g.width * m) (g.height * m)).map fun p => g.pixels.getD (p.2 / m * g.width + p.1 / m) 0

theorem enlarge_valid {g : GrayImage} {m : Nat} (hw : g.width * m < 2 ^ 32) (hh : g.height * m < 2 ^ 32) :
    (enlarge g m).Valid := ⟨by simp [enlarge, Props.positions_length], hw, hh⟩

theorem enlarge_enlarged (g : GrayImage) (m : Nat) : Enlarged (enlarge g m) g m := by
  refine ⟨rfl, rfl, ?_⟩
  intro x hx y hy
  have hlt : y * (g.width * m) + x < g.width * m * (g.height * m) := by
    have : (y + 1) * (g.width * m) ≤ (g.height * m) * (g.width * m) := Nat.mul_le_mul_right _ hy
    rw [Nat.succ_mul] at this
    replace hx : x < g.width * m := hx
    rw [Nat.mul_comm (g.width * m)]
    omega
  replace hx : x < g.width * m := hx
  unfold grey
  congr 1
  simp only [enlarge]
  rw [BlockedMean.positions_eq, List.map_map, List.getD_eq_getElem?_getD, List.getElem?_map, List.getElem?_range hlt]
  simp only [Option.map_some, Option.getD_some, Function.comp]
  rw [Nat.mul_comm y, Nat.mul_add_mod, Nat.mod_eq_of_lt hx, Nat.mul_add_div (Nat.lt_of_le_of_lt (Nat.zero_le _) hx),
    Nat.div_eq_of_lt hx, Nat.add_zero]

theorem Spec.Legible.le {g : GrayImage} {m : Nat} (h : Legible g m) : 2 ≤ m := h.1

/-- What local thresholding makes of a crisp enlargement. -/
theorem crisp_enlargement {src g : GrayImage} {m : Nat} (hc : CrispEnlargement src g m) (hs : src.Valid)
    (hm : Legible g m) : Enlarged (thresholded 5 7 src) g m ∧ (thresholded 5 7 src).Valid := by
  obtain ⟨cw, ch, hc⟩ := hc
  have hv : (enlarge g m).Valid := enlarge_valid (by rw [← cw]; exact hs.2.1) (by rw [← ch]; exact hs.2.2)
  have he := enlarge_enlarged g m
  have : Crisp src (enlarge g m) := by
    refine ⟨cw, ch, ?_⟩
    intro x hx y hy
    rw [he.2.2 x hx y hy]
    exact hc x (by rw [cw]; exact hx) y (by rw [ch]; exact hy)
  rw [crisp_threshold this hv he hm]
  exact ⟨he, hv⟩

section
variable {img g : GrayImage} {m : Nat}

theorem div_bounds (hm : 0 < m) {f x k : Nat} (h1 : f * m ≤ x + m) (h2 : x < f * m + k * m) : f ≤ x / m + 1 ∧ x / m < f + k := by
  constructor
  · have : f * m < (x / m + 2) * m := by
      have := Nat.lt_div_mul_add (a := x) hm
      rw [Nat.add_mul]; omega
    have := Nat.lt_of_mul_lt_mul_right this
    omega
  · rw [Nat.div_lt_iff_lt_mul hm, Nat.add_mul]; exact h2

theorem le_div (hm : 0 < m) {f x : Nat} : f * m ≤ x ↔ f ≤ x / m := (Nat.le_div_iff_mul_le hm).symm

theorem sub_div (f x : Nat) : (x - f * m) / m = x / m - f := by
  rw [Nat.mul_comm, Nat.sub_mul_div]

theorem enlarged_clean (he : Enlarged img g m) (hm : 0 < m) {f : Nat × Nat} (h : CleanFinder g 1 f.1 f.2) :
    CleanFinder img m (f.1 * m) (f.2 * m) := by
  obtain ⟨h1, h2, h3⟩ := h
  refine ⟨?_, ?_, ?_⟩
  · rw [he.1, ← Nat.add_mul]; exact Nat.mul_lt_mul_of_pos_right (by omega) hm
  · rw [he.2.1, ← Nat.add_mul]; exact Nat.mul_lt_mul_of_pos_right (by omega) hm
  · intro x hx y hy a1 a2 a3 a4
    have b1 := div_bounds hm a1 a2
    have b2 := div_bounds hm a3 a4
    have hxw : x / m < g.width := (Nat.div_lt_iff_lt_mul hm).mpr (by rw [← he.1]; exact hx)
    have hyh : y / m < g.height := (Nat.div_lt_iff_lt_mul hm).mpr (by rw [← he.2.1]; exact hy)
    rw [he.2.2 x hx y hy, h3 _ hxw _ hyh (by omega) (by omega) (by omega) (by omega), Nat.div_one, Nat.div_one,
      sub_div, sub_div]
    simp only [le_div hm]

theorem enlarged_quiet (he : Enlarged img g m) (hm : 0 < m) {side ox oy : Nat} (h : QuietZone g side 1 ox oy) :
    QuietZone img side m (ox * m) (oy * m) := by
  obtain ⟨h1, h2, h3⟩ := h
  refine ⟨?_, ?_, ?_⟩
  · rw [he.1, ← Nat.add_mul]; exact Nat.mul_lt_mul_of_pos_right (by omega) hm
  · rw [he.2.1, ← Nat.add_mul]; exact Nat.mul_lt_mul_of_pos_right (by omega) hm
  · intro x hx y hy a1 a2 a3 a4 a5
    have b1 := div_bounds hm a1 a2
    have b2 := div_bounds hm a3 a4
    have hxw : x / m < g.width := (Nat.div_lt_iff_lt_mul hm).mpr (by rw [← he.1]; exact hx)
    have hyh : y / m < g.height := (Nat.div_lt_iff_lt_mul hm).mpr (by rw [← he.2.1]; exact hy)
    rw [he.2.2 x hx y hy, h3 _ hxw _ hyh (by omega) (by omega) (by omega) (by omega)]
    rw [← Nat.add_mul, ← Nat.add_mul, le_div hm, le_div hm, ← Nat.div_lt_iff_lt_mul hm, ← Nat.div_lt_iff_lt_mul hm] at a5
    omega

theorem enlarged_drawn (he : Enlarged img g m) (hm : 0 < m) (hv : img.Valid) (hg : g.Valid) {q : QRData} {ox oy : Nat}
    (h : Drawn g q 1 ox oy) : Drawn img q m (ox * m) (oy * m) := by
  obtain ⟨h1, h2, h3⟩ := h
  have hw : ox * m + q.side * m ≤ img.width := by
    rw [he.1, ← Nat.add_mul]; exact Nat.mul_le_mul_right _ (by omega)
  have hh : oy * m + q.side * m ≤ img.height := by
    rw [he.2.1, ← Nat.add_mul]; exact Nat.mul_le_mul_right _ (by omega)
  refine ⟨hw, hh, ?_⟩
  intro i hi j hj a ha b hb
  have hi' : (i + 1) * m ≤ q.side * m := Nat.mul_le_mul_right _ hi
  have hj' : (j + 1) * m ≤ q.side * m := Nat.mul_le_mul_right _ hj
  rw [Nat.succ_mul] at hi' hj'
  rw [pixel_of_grey hv (by omega) (by omega), he.2.2 _ (by omega) _ (by omega), ← Nat.add_mul, ← Nat.add_mul,
    block_div _ ha, block_div _ hb, ← h3 i hi j hj 0 (by omega) 0 (by omega)]
  simp only [Nat.mul_one, Nat.add_zero]
  rw [pixel_of_grey hg (by omega) (by omega)]

theorem scaled_order (hm : 0 < m) {fs : List (Nat × Nat)} (h : fs.Pairwise (ScanOrder 1)) :
    (scaled m fs).Pairwise (ScanOrder m) := by
  unfold scaled
  rw [List.pairwise_map]
  refine h.imp ?_
  rintro a b ⟨h1, h2⟩
  unfold ScanOrder
  simp only
  constructor
  · rcases h1 with h1 | ⟨h1, h1'⟩
    · exact Or.inl (Nat.mul_lt_mul_of_pos_right h1 hm)
    · exact Or.inr ⟨by rw [h1], Nat.mul_lt_mul_of_pos_right h1' hm⟩
  · rw [← Nat.add_mul, ← Nat.add_mul, ← Nat.add_mul]
    rcases h2 with h2 | h2 | h2
    · exact Or.inl (Nat.mul_le_mul_right _ h2)
    · exact Or.inr (Or.inl (Nat.mul_le_mul_right _ h2))
    · exact Or.inr (Or.inr (Nat.mul_le_mul_right _ h2))

theorem scaled_symbol (v ox oy : Nat) : scaled m (symbolFinders v 1 ox oy) = symbolFinders v m (ox * m) (oy * m) := by
  simp [scaled, symbolFinders, Nat.add_mul]

theorem scaled_sublist {as bs : List (Nat × Nat)} (h : as.Sublist bs) : (scaled m as).Sublist (scaled m bs) := h.map _

end

/-- The small picture of a symbol with a border of at least two modules. -/
theorem picture_white_end {q : QRData} {b : Nat} (hb : 2 ≤ b) : WhiteEnd (picture q 1 b) := by
  refine ⟨by simp only [picture]; omega, by simp only [picture]; omega, ?_⟩
  intro x hx y hy h
  simp only [picture, Nat.mul_one] at h
  rw [grey_of_some (picture_pixel hx hy), if_neg (by omega)]
  rfl

/-- It can be enlarged by five or more. -/
theorem picture_legible {q : QRData} {b m : Nat} (hb : 2 ≤ b) (hm : 5 ≤ m) : Legible (picture q 1 b) m :=
  legible_large hm (picture_white_end hb)

end Verif
