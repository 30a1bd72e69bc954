import Verif.Lemmas.Search
import Verif.Spec.Symbol

/-!
# C52, C53: sampling the modules
-/
namespace Verif.Props
open Verif Verif.Spec F64 Extractor

/-- What an extraction that returns a grid went through. -/
theorem extract_ok {img : GrayImage} {loc : QRLocation} {q : QRData} (h : extract img loc = .ok q) :
    ∃ p, determinePerspective img loc.version (17 + loc.version * 4) loc = .ok p ∧
      sampleRows img p (17 + loc.version * 4) (17 + loc.version * 4)
        (loc.top_left - F64.lit 3 * p.dy - F64.lit 3 * p.ddy) (p.dx - F64.lit 3 * p.ddx)
        (p.dy - F64.lit 3 * p.ddy) = .ret q.data ∧
      q.version = loc.version ∧ q.side = 4 * loc.version + 17 := by
  unfold extract at h
  cases h1 : mulU32 loc.version 4 with
  | panic => rw [h1] at h; cases h
  | ret v4 =>
    rw [h1] at h
    simp only at h
    have hv4 : v4 = loc.version * 4 := by
      unfold mulU32 at h1
      split at h1
      · injection h1 with h1; exact h1.symm
      · cases h1
    cases h2 : addU32 17 v4 with
    | panic => rw [h2] at h; cases h
    | ret size =>
      rw [h2] at h
      simp only at h
      have hsz : size = 17 + loc.version * 4 := by
        unfold addU32 at h2
        split at h2
        · injection h2 with h2; omega
        · cases h2
      rw [hsz] at h
      cases h3 : determinePerspective img loc.version (17 + loc.version * 4) loc with
      | panic => rw [h3] at h; cases h
      | err e => rw [h3] at h; cases h
      | ok p =>
        rw [h3] at h
        simp only at h
        cases h4 : sampleRows img p (17 + loc.version * 4) (17 + loc.version * 4)
            (loc.top_left - F64.lit 3 * p.dy - F64.lit 3 * p.ddy) (p.dx - F64.lit 3 * p.ddx)
            (p.dy - F64.lit 3 * p.ddy) with
        | panic => rw [h4] at h; cases h
        | ret data =>
          rw [h4] at h
          simp only at h
          cases h5 : QRData.new data loc.version with
          | panic => rw [h5] at h; cases h
          | ret q' =>
            rw [h5] at h
            simp only at h
            injection h with h
            subst h
            unfold QRData.new at h5
            split at h5
            · injection h5 with h5
              subst h5
              exact ⟨p, rfl, h4, rfl, rfl⟩
            · cases h5

/-- **C52.** A returned grid has the version of the location, the side length of the version, one entry per
module, and every entry is a pixel of the image. -/
theorem extracted_grid_is_well_formed (img : GrayImage) (loc : QRLocation) (q : QRData)
    (h : extract img loc = .ok q) :
    q.version = loc.version ∧ q.side = sideOf loc.version ∧ q.data.length = q.side * q.side ∧
    ∀ c ∈ q.data, ∃ x y, x < img.width ∧ y < img.height ∧ img.pixels[y * img.width + x]? = some c := by
  obtain ⟨p, -, hs, h1, h2⟩ := extract_ok h
  obtain ⟨hl, hc⟩ := (sampleRows_iff img p _ _ (_, _, _) q.data).mp hs
  have hsz : 17 + loc.version * 4 = q.side := by rw [h2]; omega
  rw [hsz] at hl hc
  refine ⟨h1, h2, hl, ?_⟩
  intro c hcm
  obtain ⟨k, hk⟩ := List.mem_iff_getElem?.mp hcm
  have hlt : k < q.side * q.side := by
    rw [← hl]
    by_contra hge
    rw [List.getElem?_eq_none (by omega)] at hk
    cases hk
  have hpos : 0 < q.side := by rw [h2]; omega
  have hdiv : k / q.side < q.side := Nat.div_lt_of_lt_mul hlt
  obtain ⟨c', hc', hp⟩ := hc (k / q.side) hdiv (k % q.side) (Nat.mod_lt _ hpos)
  have e : k / q.side * q.side + k % q.side = k := by
    have := Nat.div_add_mod k q.side; rw [Nat.mul_comm] at this; exact this
  rw [e, hk] at hc'
  simp only [Option.some.injEq] at hc'
  subst hc'
  unfold pixelAt at hp
  exact ⟨_, _, getPixel_ret hp⟩

/-- The three finder centres of a location are these points, with coordinates of at most `2^20`. -/
def LocatedAtPoints (loc : QRLocation) (tl tr bl : Pt) : Prop :=
  loc.top_left = ⟨.fin tl.1, .fin tl.2⟩ ∧ loc.top_right = ⟨.fin tr.1, .fin tr.2⟩ ∧
  loc.bottom_left = ⟨.fin bl.1, .fin bl.2⟩ ∧
  ∀ p ∈ [tl, tr, bl], |p.1| ≤ 2 ^ 20 ∧ |p.2| ≤ 2 ^ 20

theorem LocatedAtPoints.exact {loc : QRLocation} {tl tr bl : Pt} (h : LocatedAtPoints loc tl tr bl) :
    LocExact loc tl tr bl := by
  obtain ⟨h1, h2, h3, h4⟩ := h
  have key : ∀ p ∈ [tl, tr, bl], mag p ≤ WQ := fun p hp => mag_le (h4 p hp).1 (h4 p hp).2
  exact ⟨h1, h2, h3, key tl (by simp), key tr (by simp), key bl (by simp)⟩

theorem bilinear_small {size : Nat} (h : 21 ≤ size) (h' : size ≤ 177) {tl tr bl : Pt} {al : Option Pt}
    (h1 : mag tl ≤ WQ) (h2 : mag tr ≤ WQ) (h3 : mag bl ≤ WQ)
    (hb : size * mag (bendQ size tl tr bl al) ≤ 2 / 3 * WQ) {i j : Nat} (hi : i < size) (hj : j < size) :
    mag (bilinear size tl tr bl al i j) ≤ 2 ^ 28 := by
  have hg := (smallGrid_of h h' h1 h2 h3 hb).point i j (by omega) (by omega)
  rw [bilinear_eq h] at hg
  rw [WQ_val] at hg
  linarith

/-- The samples, given the perspective. -/
theorem samples_near {img : GrayImage} (hw : img.width ≤ 2 ^ 20) (hh : img.height ≤ 2 ^ 20) {size : Nat}
    (h : 21 ≤ size) (h' : size ≤ 177) {loc : QRLocation} {tl tr bl : Pt} (hl : LocExact loc tl tr bl)
    {p : Perspective} {al : Option Pt}
    (hdx : p.dx = (loc.top_right - loc.top_left) / F64.ofNat (size - 7))
    (hdy : p.dy = (loc.bottom_left - loc.top_left) / F64.ofNat (size - 7))
    (hddy : p.ddy = Delta.zero) (hddx : DNear p.ddx (bendQ size tl tr bl al) (3 * ηQ))
    (hb : size * mag (bendQ size tl tr bl al) ≤ 2 / 3 * WQ) {data : List U8}
    (hs : sampleRows img p size size (loc.top_left - F64.lit 3 * p.dy - F64.lit 3 * p.ddy)
      (p.dx - F64.lit 3 * p.ddx) (p.dy - F64.lit 3 * p.ddy) = .ret data) :
    ∀ i < size, ∀ j < size, ∃ c, data[i * size + j]? = some c ∧
      PixelNear img (bilinear size tl tr bl al i j) (1 / 100) c := by
  intro i hi j hj
  obtain ⟨-, hc⟩ := (sampleRows_iff img p _ _ (_, _, _) data).mp hs
  obtain ⟨c, hc', hp⟩ := hc i hi j hj
  have hn := grid_near h h' hl hdx hdy hddy hddx hb hi hj
  have hsm := bilinear_small h h' hl.tl_small hl.tr_small hl.bl_small hb hi hj
  unfold pixelAt at hp
  obtain ⟨g1, g2, g3⟩ := getPixel_ret hp
  exact ⟨c, hc', _, _, g1, g2, g3, near_index hn.1 g1 hw (le_trans (le_mag1 _) hsm),
    near_index hn.2 g2 hh (le_trans (le_mag2 _) hsm)⟩

/-- What a perspective is made of. -/
def PerspectiveOf (img : GrayImage) (size : Nat) (loc : QRLocation) (tl tr bl : Pt) (p : Perspective) (al : Option Pt) :
    Prop :=
  (al = none ↔ loc.version = 1) ∧
  (∀ a ∈ al, 0 ≤ a.1 ∧ a.1 ≤ img.width ∧ 0 ≤ a.2 ∧ a.2 ≤ img.height ∧ AlignmentAt img size tl tr bl a) ∧
  p.dx = (loc.top_right - loc.top_left) / F64.ofNat (size - 7) ∧
  p.dy = (loc.bottom_left - loc.top_left) / F64.ofNat (size - 7) ∧ p.ddy = Delta.zero ∧
  DNear p.ddx (bendQ size tl tr bl al) (3 * ηQ) ∧ size * mag (bendQ size tl tr bl al) ≤ 2 / 3 * WQ

theorem perspective_of {img : GrayImage} (hv : img.Valid) (hw : img.width ≤ 2 ^ 20) (hh : img.height ≤ 2 ^ 20)
    {loc : QRLocation} {tl tr bl : Pt} (hle : LocExact loc tl tr bl) (hver : 1 ≤ loc.version) (hver' : loc.version ≤ 40)
    {size : Nat} (hsz : size = 17 + loc.version * 4) {p : Perspective}
    (hp : determinePerspective img loc.version size loc = .ok p) : ∃ al, PerspectiveOf img size loc tl tr bl p al := by
  have hlo : 21 ≤ size := by omega
  have hhi : size ≤ 177 := by omega
  unfold determinePerspective at hp
  simp only at hp
  by_cases hv1 : loc.version = 1
  · rw [if_pos hv1] at hp
    injection hp with hp
    have hz : mag (bendQ size tl tr bl none) = 0 := by simp [mag, bendQ]
    refine ⟨none, by simp [hv1], by simp, ?_, ?_, ?_, ?_, ?_⟩
    · rw [← hp]
    · rw [← hp]
    · rw [← hp]
    · rw [← hp]
      have hη := ηQ_pos
      have z : DNear Delta.zero (0, 0) 0 := by
        unfold Delta.zero DNear
        simp only [lit0]
        exact ⟨near_fin 0, near_fin 0⟩
      exact z.mono (by linarith)
    · rw [hz, WQ_val]; norm_num
  · rw [if_neg hv1] at hp
    have hlo' : 25 ≤ size := by omega
    split at hp
    · cases hp
    · cases hp
    · rename_i found hfound
      split at hp
      · cases hp
      · rename_i a' hcen
        split at hp
        · cases hp
        · rename_i sq hsq
          injection hp with hp
          obtain ⟨a, ha, a1, a2, a3, a4, a5⟩ := center_ret hv hcen
          have hsq' : sq = (size - 10) * (size - 10) := by
            unfold mulU32 at hsq
            split at hsq
            · injection hsq with hsq; exact hsq.symm
            · cases hsq
          have hw' : (img.width : ℚ) ≤ 2 ^ 20 := by exact_mod_cast hw
          have hh' : (img.height : ℚ) ≤ 2 ^ 20 := by exact_mod_cast hh
          have ham : mag a ≤ WQ := by
            unfold WQ
            apply mag_le
            · rw [abs_of_nonneg a1]; linarith
            · rw [abs_of_nonneg a3]; linarith
          have ndx := step_near hlo hhi hle.near_tl hle.near_tr hle.tl_small hle.tr_small
          have ndy := step_near hlo hhi hle.near_tl hle.near_bl hle.tl_small hle.bl_small
          have hest := estimate_near hlo hhi hle ndx ndy
          obtain ⟨x, y, z, ht, hcan, hfirst, hat, hsm, hdark⟩ := search_some hlo hhi hle hv hw hh ndx ndy hfound
          unfold pixelAt at hdark
          obtain ⟨g1, g2, g3⟩ := getPixel_ret hdark
          refine ⟨some a, by simp [hv1], ?_, ?_, ?_, ?_, ?_, ?_⟩
          · rintro b hb
            simp only [Option.mem_def, Option.some.injEq] at hb
            subst hb
            exact ⟨a1, a2, a3, a4, x, y, z, ht, hcan, hfirst, _, _, g1, g2,
              near_index hat.1 g1 hw (le_trans (le_mag1 _) hsm), near_index hat.2 g2 hh (le_trans (le_mag2 _) hsm), g3, a5⟩
          · rw [← hp]
          · rw [← hp]
          · rw [← hp]
          · rw [← hp, ha]
            exact bend_near hlo' hhi hle hest ham hsq'
          · exact bendQ_small hlo' hle.tl_small hle.tr_small hle.bl_small ham

/-- **C53.** Every module of a returned grid is the pixel nearest to its bilinear position, up to a hundredth
of a pixel: the position that is affine along rows and columns and passes through the three finder centres
and, from version 2 on, through the centre of the alignment pattern. That is the middle of the dark spot in the first
place that looks like an alignment pattern, at most one and a half modules from where the three finder centres suggest
it. For images of at most `2^20` pixels per side; the bound covers all accumulated rounding. -/
theorem samples_are_bilinear (img : GrayImage) (hv : img.Valid) (hw : img.width ≤ 2 ^ 20) (hh : img.height ≤ 2 ^ 20)
    (loc : QRLocation) (tl tr bl : Pt) (hl : LocatedAtPoints loc tl tr bl) (hver : 1 ≤ loc.version)
    (hver' : loc.version ≤ 40) (q : QRData) (h : extract img loc = .ok q) :
    ∃ al : Option Pt, (al = none ↔ loc.version = 1) ∧
      (∀ a ∈ al, 0 ≤ a.1 ∧ a.1 ≤ img.width ∧ 0 ≤ a.2 ∧ a.2 ≤ img.height ∧ AlignmentAt img q.side tl tr bl a) ∧
      ∀ i < q.side, ∀ j < q.side, ∃ c, q.data[i * q.side + j]? = some c ∧
        PixelNear img (bilinear q.side tl tr bl al i j) (1 / 100) c := by
  obtain ⟨p, hp, hs, -, h2⟩ := extract_ok h
  have hsz : 17 + loc.version * 4 = q.side := by rw [h2]; omega
  rw [hsz] at hp hs
  obtain ⟨al, b1, b2, b3, b4, b5, b6, b7⟩ := perspective_of hv hw hh hl.exact hver hver' hsz.symm hp
  exact ⟨al, b1, b2, samples_near (p := p) hw hh (by omega) (by omega) hl.exact b3 b4 b5 b6 b7 hs⟩

/-- The positions do pass through the given centres. -/
theorem bilinear_passes_through (side : Nat) (h : 21 ≤ side) (tl tr bl a : Pt) :
    (∀ al, bilinear side tl tr bl al 3 3 = tl ∧ bilinear side tl tr bl al 3 (side - 4) = tr ∧
      bilinear side tl tr bl al (side - 4) 3 = bl) ∧
    bilinear side tl tr bl (some a) (side - 7) (side - 7) = a := by
  have hs : (21 : ℚ) ≤ side := by exact_mod_cast h
  have hn : (side : ℚ) - 7 ≠ 0 := by linarith
  have hk : (side : ℚ) - 10 ≠ 0 := by linarith
  have e4 : ((side - 4 : Nat) : ℚ) = (side : ℚ) - 4 := by rw [Nat.cast_sub (by omega)]; norm_num
  have e7 : ((side - 7 : Nat) : ℚ) = (side : ℚ) - 7 := by rw [Nat.cast_sub (by omega)]; norm_num
  constructor
  · intro al
    unfold bilinear bilinear1
    cases al <;> simp only [Option.map_none, Option.map_some, e4] <;>
      refine ⟨Prod.ext ?_ ?_, Prod.ext ?_ ?_, Prod.ext ?_ ?_⟩ <;> simp only <;> push_cast <;> field_simp <;> ring
  · unfold bilinear bilinear1
    simp only [Option.map_some, e7]
    refine Prod.ext ?_ ?_ <;> simp only <;> field_simp <;> ring

end Verif.Props
