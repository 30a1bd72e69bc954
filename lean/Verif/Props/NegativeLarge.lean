import Verif.Lemmas.NegativeSearch
import Verif.Props.Negative
import Verif.Props.Placed

/-!
# C80 from version 2 on: no alignment pattern is found
-/
namespace Verif.Props
open Verif Verif.Spec LineScan Negative

variable {σ IMG : Type}

/-- Where the reported locations of a picture put the neighbourhood of the alignment pattern. -/
theorem beside_turned (ρ : Orientation) (v m ox oy : Nat) (hm : 1 ≤ m) (u w : ℚ) :
    besideAlignment (4 * v + 17) (reportedPt m (tlFinder ρ v m ox oy).1 (tlFinder ρ v m ox oy).2)
      (reportedPt m (trFinder ρ v m ox oy).1 (trFinder ρ v m ox oy).2)
      (reportedPt m (blFinder ρ v m ox oy).1 (blFinder ρ v m ox oy).2) u w =
    (ox + ((ρ.column (4 * v + 17) (4 * v + 10) (4 * v + 10) : Nat) + 1 / 2 +
        (sign ρ.flipX : ℚ) * (if ρ.swap then w else u)) * m,
     oy + ((ρ.row (4 * v + 17) (4 * v + 10) (4 * v + 10) : Nat) + 1 / 2 +
        (sign ρ.flipY : ℚ) * (if ρ.swap then u else w)) * m + (upBias m : ℚ) / 100) := by
  have hb : (((7 * m - 1) / 2 : Nat) : ℚ) = 7 * m / 2 + (upBias m : ℚ) / 100 := by
    unfold upBias
    rcases Nat.even_or_odd' m with ⟨c, rfl | rfl⟩
    · rw [if_pos (by omega), show (7 * (2 * c) - 1) / 2 = 7 * c - 1 by omega, Nat.cast_sub (by omega)]
      push_cast; ring
    · rw [if_neg (by omega), show (7 * (2 * c + 1) - 1) / 2 = 7 * c + 3 by omega]
      push_cast; ring
  have hn : (4 * (v : ℚ) + 10) ≠ 0 := by positivity
  have e6 : 4 * v + 17 - 1 - (4 * v + 10) = 6 := by omega
  obtain ⟨fx, fy, sw⟩ := ρ
  unfold besideAlignment reportedPt tlFinder trFinder blFinder cornerFinder Orientation.column Orientation.row flipIndex sign
  simp only [hb]
  cases fx <;> cases fy <;> cases sw <;>
    simp only [if_true, if_false, Bool.false_eq_true, Bool.not_true, Bool.not_false, e6, Prod.mk.injEq] <;> push_cast <;>
    constructor <;> rw [show (4 * (v : ℚ) + 17 - 7) = 4 * v + 10 by ring] <;> field_simp <;> ring

/-- The module of a symbol that is shown near the centre of its alignment pattern. -/
theorem module_beside (ρ : Orientation) (v : Nat) {i j : Int} (hi : i.natAbs ≤ 2) (hj : j.natAbs ≤ 2) :
    ∃ di dj : Nat, di < 5 ∧ dj < 5 ∧
      (ρ.column (4 * v + 17) (4 * v + 8 + di) (4 * v + 8 + dj) : Int) = ρ.column (4 * v + 17) (4 * v + 10) (4 * v + 10) + i ∧
      (ρ.row (4 * v + 17) (4 * v + 8 + di) (4 * v + 8 + dj) : Int) = ρ.row (4 * v + 17) (4 * v + 10) (4 * v + 10) + j ∧
      max ((di : Int) - 2).natAbs ((dj : Int) - 2).natAbs = max i.natAbs j.natAbs := by
  obtain ⟨fx, fy, sw⟩ := ρ
  unfold Orientation.column Orientation.row flipIndex
  refine ⟨(2 + (if sw then sign fx * i else sign fy * j)).toNat, (2 + (if sw then sign fy * j else sign fx * i)).toNat, ?_⟩
  unfold sign
  cases fx <;> cases fy <;> cases sw <;> simp only [if_true, if_false, Bool.false_eq_true] <;>
    refine ⟨?_, ?_, ?_, ?_, ?_⟩ <;> omega

/-- A pixel of the negative that is near to a module of the tried pattern is in a module whose colour is inverted. -/
theorem negative_pixel (img : GrayImage) (q : QRData) (v : Nat) (hq : WellFormed q v)
    (hal : HasAlignment q) (ρ : Orientation) (m ox oy : Nat) (hm : 1 ≤ m) (hd : DrawnAs img q ρ m ox oy) (x y z : Int)
    (ht : Tried x y z) (o : Int × Int) (ho : o.1.natAbs ≤ 2 ∧ o.2.natAbs ≤ 2) (c : U8)
    (hp : PixelNear (negative img) (triedModule (4 * v + 17) (reportedPt m (tlFinder ρ v m ox oy).1 (tlFinder ρ v m ox oy).2)
      (reportedPt m (trFinder ρ v m ox oy).1 (trFinder ρ v m ox oy).2)
      (reportedPt m (blFinder ρ v m ox oy).1 (blFinder ρ v m ox oy).2) x y z o) (1 / 100) c) :
    ∃ i j, Negative.Near 0 m (across ρ (5 * x + o.1 * (10 + z)) (5 * y + o.2 * (10 + z))) i ∧
      Negative.Near (upBias m) m (down ρ (5 * x + o.1 * (10 + z)) (5 * y + o.2 * (10 + z))) j ∧
      ∀ d, inverted i j = some d → c = d := by
  have hs : q.side = 4 * v + 17 := hq.2.1
  obtain ⟨px, py, hpx, hpy, hpix, h1, h2⟩ := hp
  unfold triedModule at h1 h2
  rw [beside_turned ρ v m ox oy hm] at h1 h2
  simp only at h1 h2
  obtain ⟨u, hu⟩ : ∃ u, u = 5 * x + o.1 * (10 + z) := ⟨_, rfl⟩
  obtain ⟨w, hw⟩ : ∃ w, w = 5 * y + o.2 * (10 + z) := ⟨_, rfl⟩
  have hu' : (x : ℚ) / 2 + o.1 * (1 + z / 10) = (u : ℚ) / 10 := by rw [hu]; push_cast; ring
  have hw' : (y : ℚ) / 2 + o.2 * (1 + z / 10) = (w : ℚ) / 10 := by rw [hw]; push_cast; ring
  rw [hu', hw'] at h1 h2
  rw [← hu, ← hw]
  have bound : ∀ a b : Int, |a| ≤ 3 → b.natAbs ≤ 2 → |5 * a + b * (10 + z)| ≤ 41 := by
    intro a b ha hb
    obtain ⟨-, -, z1, z2⟩ := ht
    rw [abs_le] at ha ⊢
    have : b = -2 ∨ b = -1 ∨ b = 0 ∨ b = 1 ∨ b = 2 := by omega
    rcases this with rfl | rfl | rfl | rfl | rfl <;> omega
  have bu : |u| ≤ 41 := by rw [hu]; exact bound _ _ ht.1 ho.1
  have bw : |w| ≤ 41 := by rw [hw]; exact bound _ _ ht.2.1 ho.2
  have ba : |across ρ u w| ≤ 41 := by
    unfold across sign
    split <;> split <;> simpa using ‹_›
  have bd : |down ρ u w| ≤ 41 := by
    unfold down sign
    split <;> split <;> simpa using ‹_›
  have ea : (sign ρ.flipX : ℚ) * (if ρ.swap then (w : ℚ) / 10 else (u : ℚ) / 10) = (across ρ u w : ℚ) / 10 := by
    unfold across; split <;> push_cast <;> ring
  have ed : (sign ρ.flipY : ℚ) * (if ρ.swap then (u : ℚ) / 10 else (w : ℚ) / 10) = (down ρ u w : ℚ) / 10 := by
    unfold down; split <;> push_cast <;> ring
  rw [ea] at h1
  rw [ed] at h2
  obtain ⟨A, hA⟩ : ∃ A, A = across ρ u w := ⟨_, rfl⟩
  obtain ⟨B, hB⟩ : ∃ B, B = down ρ u w := ⟨_, rfl⟩
  rw [← hA] at h1 ba ⊢
  rw [← hB] at h2 bd ⊢
  obtain ⟨C, hC⟩ : ∃ C, C = ρ.column (4 * v + 17) (4 * v + 10) (4 * v + 10) := ⟨_, rfl⟩
  obtain ⟨R, hR⟩ : ∃ R, R = ρ.row (4 * v + 17) (4 * v + 10) (4 * v + 10) := ⟨_, rfl⟩
  have hC6 : 6 ≤ C := by
    rw [hC]; unfold Orientation.column flipIndex; split <;> split <;> omega
  have hR6 : 6 ≤ R := by
    rw [hR]; unfold Orientation.row flipIndex; split <;> split <;> omega
  rw [← hC] at h1
  rw [← hR] at h2
  have hm' : (1 : ℚ) ≤ m := by exact_mod_cast hm
  have hC6' : (6 : ℚ) ≤ C := by exact_mod_cast hC6
  have hR6' : (6 : ℚ) ≤ R := by exact_mod_cast hR6
  have bA : (-41 : ℚ) ≤ A := by rw [abs_le] at ba; exact_mod_cast ba.1
  have bB : (-41 : ℚ) ≤ B := by rw [abs_le] at bd; exact_mod_cast bd.1
  have hub : (-100 : ℚ) ≤ upBias m := by
    have : (-100 : Int) ≤ upBias m := by unfold upBias; split <;> decide
    exact_mod_cast this
  have p1 : (0 : ℚ) ≤ ox + ((C : ℚ) + 1 / 2 + (A : ℚ) / 10) * m := by
    have : (0 : ℚ) ≤ ((C : ℚ) + 1 / 2 + (A : ℚ) / 10) * m := mul_nonneg (by linarith) (by linarith)
    positivity
  have p2 : (0 : ℚ) ≤ oy + ((R : ℚ) + 1 / 2 + (B : ℚ) / 10) * m + (upBias m : ℚ) / 100 := by
    have h : (2 : ℚ) * 1 ≤ ((R : ℚ) + 1 / 2 + (B : ℚ) / 10) * m :=
      mul_le_mul (by linarith) hm' (by norm_num) (by linarith)
    have : (0 : ℚ) ≤ oy := by positivity
    linarith
  rw [max_eq_right p1] at h1
  rw [max_eq_right p2] at h2
  have hm0 : (0 : Int) < m := by omega
  obtain ⟨nx, hnx⟩ : ∃ nx : Int, nx = px - ox - C * m := ⟨_, rfl⟩
  obtain ⟨ny, hny⟩ : ∃ ny : Int, ny = py - oy - R * m := ⟨_, rfl⟩
  refine ⟨nx / m, ny / m, ⟨nx, ?_, rfl⟩, ⟨ny, ?_, rfl⟩, ?_⟩
  · have : |(100 * nx - (10 * (A + 5) * m + 0) : ℚ)| ≤ 51 := by
      rw [show (100 * nx - (10 * (A + 5) * m + 0) : ℚ) = 100 * (px - (ox + (C + 1 / 2 + A / 10) * m)) by
        rw [hnx]; push_cast; ring, abs_mul]
      norm_num
      norm_num at h1
      linarith
    exact_mod_cast this
  · have : |(100 * ny - (10 * (B + 5) * m + upBias m) : ℚ)| ≤ 51 := by
      rw [show (100 * ny - (10 * (B + 5) * m + upBias m) : ℚ) =
          100 * (py - (oy + (R + 1 / 2 + B / 10) * m + upBias m / 100)) by
        rw [hny]; push_cast; ring, abs_mul]
      norm_num
      norm_num at h2
      linarith
    exact_mod_cast this
  · intro d hdc
    unfold inverted at hdc
    split at hdc
    · rename_i hij
      obtain ⟨di, dj, hdi, hdj, ec, er, emax⟩ := module_beside ρ v hij.1 hij.2
      have hmx := Int.emod_nonneg nx (show (m : Int) ≠ 0 by omega)
      have hmx' := Int.emod_lt_of_pos nx hm0
      have hmy := Int.emod_nonneg ny (show (m : Int) ≠ 0 by omega)
      have hmy' := Int.emod_lt_of_pos ny hm0
      have hdx := Int.mul_ediv_add_emod nx m
      have hdy := Int.mul_ediv_add_emod ny m
      have hpx' : px = ox + ρ.column q.side (q.side - 9 + di) (q.side - 9 + dj) * m + (nx % m).toNat := by
        rw [hs, show 4 * v + 17 - 9 = 4 * v + 8 by omega]
        zify
        rw [ec, ← hC, Int.toNat_of_nonneg hmx, add_mul]
        have : nx / m * m = m * (nx / m) := mul_comm _ _
        omega
      have hpy' : py = oy + ρ.row q.side (q.side - 9 + di) (q.side - 9 + dj) * m + (ny % m).toNat := by
        rw [hs, show 4 * v + 17 - 9 = 4 * v + 8 by omega]
        zify
        rw [er, ← hR, Int.toNat_of_nonneg hmy, add_mul]
        have : ny / m * m = m * (ny / m) := mul_comm _ _
        omega
      have hpixel := hd.2.2 (q.side - 9 + di) (by omega) (q.side - 9 + dj) (by omega) (nx % m).toNat (by omega) (ny % m).toNat
        (by omega)
      rw [← hpx', ← hpy', hal di hdi dj hdj] at hpixel
      have hneg : (negative img).pixels[py * img.width + px]? = (img.pixels[py * img.width + px]?).map opposite := by
        unfold negative recoloured
        rw [List.getElem?_map]
      change (negative img).pixels[py * img.width + px]? = some c at hpix
      rw [hneg, hpixel, Option.map_some, Option.some.injEq] at hpix
      rw [Option.some.injEq] at hdc
      rw [← hpix, ← hdc]
      by_cases h1' : max (nx / (m : Int)).natAbs (ny / (m : Int)).natAbs = 1
      · rw [if_pos h1', if_pos (by omega)]; rfl
      · rw [if_neg h1', if_neg (by omega)]; rfl
    · cases hdc

/-- No tried place of the negative can be an alignment pattern. -/
theorem negative_has_no_alignment (img : GrayImage) (q : QRData) (v : Nat) (hq : WellFormed q v)
    (hal : HasAlignment q) (ρ : Orientation) (hρ : ¬ ρ.Mirrored) (m ox oy : Nat) (hm : 2 ≤ m)
    (hpar : ρ.swap = false ∨ m % 2 = 0) (hd : DrawnAs img q ρ m ox oy) (x y z : Int)
    (ht : Tried x y z) :
    ¬ CanBeAlignment (negative img) (4 * v + 17) (reportedPt m (tlFinder ρ v m ox oy).1 (tlFinder ρ v m ox oy).2)
      (reportedPt m (trFinder ρ v m ox oy).1 (trFinder ρ v m ox oy).2)
      (reportedPt m (blFinder ρ v m ox oy).1 (blFinder ρ v m ox oy).2) x y z := by
  rintro ⟨hc, hl⟩
  rcases inverted_is_rejected ρ hρ m hm hpar ht with h | ⟨o, ho, h⟩
  · obtain ⟨i, j, hi, hj, hd⟩ := negative_pixel img q v hq hal ρ m ox oy (by omega) hd x y z ht (0, 0) (by decide) _ hc
    simp only [zero_mul, add_zero] at hi hj
    have := hd _ (h i hi j hj)
    exact absurd this (by decide)
  · obtain ⟨c, hne, hp⟩ := hl o ho
    have hb : ∀ o ∈ alignmentLooks, o.1.1.natAbs ≤ 2 ∧ o.1.2.natAbs ≤ 2 := by decide
    obtain ⟨i, j, hi, hj, hd⟩ := negative_pixel img q v hq hal ρ m ox oy (by omega) hd x y z ht o.1 (hb o ho) _ hp
    exact hne (hd _ (h i hi j hj))

/-- The locations of a picture, as points. -/
theorem turned_located (img : GrayImage) (hw : img.width ≤ 2 ^ 20) (hh : img.height ≤ 2 ^ 20) (q : QRData) (v : Nat)
    (hq : WellFormed q v) (ρ : Orientation) (m ox oy : Nat) (hd : DrawnAs img q ρ m ox oy) :
    LocatedAtPoints (turnedLocation ρ v m ox oy) (reportedPt m (tlFinder ρ v m ox oy).1 (tlFinder ρ v m ox oy).2)
      (reportedPt m (trFinder ρ v m ox oy).1 (trFinder ρ v m ox oy).2)
      (reportedPt m (blFinder ρ v m ox oy).1 (blFinder ρ v m ox oy).2) := by
  have hs : q.side = 4 * v + 17 := hq.2.1
  have d1 := hd.1
  have d2 := hd.2.1
  have e : q.side * m = (4 * v + 10) * m + 7 * m := by rw [hs]; ring
  have key : ∀ fx fy : Nat, fx + 7 * m ≤ 2 ^ 20 → fy + 7 * m ≤ 2 ^ 20 →
      |(reportedPt m fx fy).1| ≤ 2 ^ 20 ∧ |(reportedPt m fx fy).2| ≤ 2 ^ 20 := by
    intro fx fy h1 h2
    have h1' : (fx : ℚ) + 7 * m ≤ 2 ^ 20 := by exact_mod_cast h1
    have h3 : fy + (7 * m - 1) / 2 ≤ 2 ^ 20 := by omega
    have h3' : (fy : ℚ) + ((7 * m - 1) / 2 : Nat) ≤ 2 ^ 20 := by exact_mod_cast h3
    have z0 : (0 : ℚ) ≤ m := by positivity
    have z1 : (0 : ℚ) ≤ fx := by positivity
    have z2 : (0 : ℚ) ≤ (fy : ℚ) + ((7 * m - 1) / 2 : Nat) := by positivity
    unfold reportedPt
    simp only
    rw [abs_of_nonneg (by linarith), abs_of_nonneg z2]
    exact ⟨by linarith, h3'⟩
  have bnd : ∀ a b : Bool, (cornerFinder v m ox oy a b).1 + 7 * m ≤ 2 ^ 20 ∧ (cornerFinder v m ox oy a b).2 + 7 * m ≤ 2 ^ 20 := by
    intro a b
    unfold cornerFinder
    cases a <;> cases b <;> simp only [if_true, Bool.false_eq_true, if_false] <;> omega
  refine ⟨rfl, rfl, rfl, ?_⟩
  intro p hp
  simp only [List.mem_cons, List.not_mem_nil, or_false] at hp
  rcases hp with rfl | rfl | rfl
  · exact key _ _ (bnd _ _).1 (bnd _ _).2
  · unfold trFinder
    split <;> exact key _ _ (bnd _ _).1 (bnd _ _).2
  · unfold blFinder
    split <;> exact key _ _ (bnd _ _).1 (bnd _ _).2

/-- **C80 (extraction).** From version 2 on nothing is extracted from the negative of the picture of a symbol, because no
alignment pattern is found: in the upright and the reversed position for all sizes of modules from 2 pixels on, and in the two
other ones for all even sizes. -/
theorem negative_is_not_extracted (img : GrayImage) (hv : img.Valid) (hw : img.width ≤ 2 ^ 20) (hh : img.height ≤ 2 ^ 20)
    (q : QRData) (v : Nat) (h2 : 2 ≤ v) (h40 : v ≤ 40) (hq : WellFormed q v) (hal : HasAlignment q) (ρ : Orientation)
    (hρ : ¬ ρ.Mirrored) (m ox oy : Nat) (hm : 2 ≤ m) (hpar : ρ.swap = false ∨ m % 2 = 0) (hd : DrawnAs img q ρ m ox oy) :
    Extractor.extract (negative img) (turnedLocation ρ v m ox oy) = .err ⟨"Unable to find alignment pattern"⟩ := by
  have hside : sideOf v = 4 * v + 17 := by unfold sideOf; omega
  have hs : q.side = 4 * v + 17 := hq.2.1
  have hv' : (negative img).Valid := negative_valid (by rw [negative_negative]; exact hv)
  have hl := turned_located img hw hh q v hq ρ m ox oy hd
  have hno := negative_has_no_alignment img q v hq hal ρ hρ m ox oy hm hpar hd
  have d1 := hd.1
  have d2 := hd.2.1
  have hlow : 25 * 2 ≤ q.side * m := Nat.mul_le_mul (by omega) hm
  have hal' : ∀ al : Option Pt, (al = none ↔ v = 1) →
      (∀ a ∈ al, AlignmentAt (negative img) (4 * v + 17)
        (reportedPt m (tlFinder ρ v m ox oy).1 (tlFinder ρ v m ox oy).2)
        (reportedPt m (trFinder ρ v m ox oy).1 (trFinder ρ v m ox oy).2)
        (reportedPt m (blFinder ρ v m ox oy).1 (blFinder ρ v m ox oy).2) a) → False := by
    intro al h1 h
    match al with
    | none => have := h1.mp rfl; omega
    | some a =>
      obtain ⟨x, y, z, ht, hc, -⟩ := h a rfl
      exact hno x y z ht hc
  cases he : Extractor.extract (negative img) (turnedLocation ρ v m ox oy) with
  | panic =>
    exfalso
    rcases extraction_panics_beyond_the_image_only_partial (negative img) hv' (show 2 ≤ img.width by omega)
      (show 1 ≤ img.height by omega) hw hh _ _ _ _ hl (show 1 ≤ v by omega) h40 he with ⟨-, u, w, hu, hw', hb⟩ | ⟨al, h1, h3, -⟩
    · change Beyond (negative img) (besideAlignment (sideOf v) _ _ _ u w) at hb
      rw [hside, beside_turned ρ v m ox oy (by omega)] at hb
      have hm' : (2 : ℚ) ≤ m := by exact_mod_cast hm
      have d1' : (ox : ℚ) + (4 * v + 17) * m ≤ img.width := by rw [hs] at d1; exact_mod_cast d1
      have d2' : (oy : ℚ) + (4 * v + 17) * m ≤ img.height := by rw [hs] at d2; exact_mod_cast d2
      have hub : (upBias m : ℚ) ≤ 0 := by
        have : upBias m ≤ 0 := by unfold upBias; split <;> decide
        exact_mod_cast this
      have hC : ((ρ.column (4 * v + 17) (4 * v + 10) (4 * v + 10) : Nat) : ℚ) ≤ 4 * v + 10 := by
        have : ρ.column (4 * v + 17) (4 * v + 10) (4 * v + 10) ≤ 4 * v + 10 := by
          unfold Orientation.column flipIndex; split <;> split <;> omega
        exact_mod_cast this
      have hR : ((ρ.row (4 * v + 17) (4 * v + 10) (4 * v + 10) : Nat) : ℚ) ≤ 4 * v + 10 := by
        have : ρ.row (4 * v + 17) (4 * v + 10) (4 * v + 10) ≤ 4 * v + 10 := by
          unfold Orientation.row flipIndex; split <;> split <;> omega
        exact_mod_cast this
      have hsg : ∀ (f : Bool) (t : ℚ), |t| ≤ 21 / 5 → (sign f : ℚ) * t ≤ 21 / 5 := by
        intro f t ht
        rw [abs_le] at ht
        unfold sign
        cases f <;> simp only [if_true, if_false, Bool.false_eq_true] <;> push_cast <;> linarith
      have k1 : (sign ρ.flipX : ℚ) * (if ρ.swap then w else u) ≤ 21 / 5 := hsg _ _ (by split <;> assumption)
      have k2 : (sign ρ.flipY : ℚ) * (if ρ.swap then u else w) ≤ 21 / 5 := hsg _ _ (by split <;> assumption)
      have t1 : ((ρ.column (4 * v + 17) (4 * v + 10) (4 * v + 10) : Nat) + 1 / 2 +
          (sign ρ.flipX : ℚ) * (if ρ.swap then w else u)) * m ≤ (4 * v + 15) * m :=
        mul_le_mul_of_nonneg_right (by linarith) (by linarith)
      have t2 : ((ρ.row (4 * v + 17) (4 * v + 10) (4 * v + 10) : Nat) + 1 / 2 +
          (sign ρ.flipY : ℚ) * (if ρ.swap then u else w)) * m ≤ (4 * v + 15) * m :=
        mul_le_mul_of_nonneg_right (by linarith) (by linarith)
      have e1 : (4 * (v : ℚ) + 17) * m = (4 * v + 15) * m + 2 * m := by ring
      have w1 : ((negative img).width : ℚ) = img.width := rfl
      have w2 : ((negative img).height : ℚ) = img.height := rfl
      rcases hb with hb | hb
      · simp only at hb; linarith
      · simp only at hb; linarith
    · exact hal' al h1 (fun a ha => by have := (h3 a ha).2.2.2.2; rwa [show (turnedLocation ρ v m ox oy).version = v from rfl, hside] at this)
  | ok q' =>
    exfalso
    obtain ⟨w1, w2, w3, -⟩ := extracted_grid_is_well_formed (negative img) _ q' he
    obtain ⟨al, h1, h3, -⟩ := samples_are_bilinear (negative img) hv' hw hh _ _ _ _ hl (show 1 ≤ v by omega) h40 q' he
    refine hal' al h1 (fun a ha => ?_)
    have := (h3 a ha).2.2.2.2
    rw [w2] at this
    rwa [show sideOf (turnedLocation ρ v m ox oy).version = 4 * v + 17 from hside] at this
  | err e =>
    obtain ⟨-, h, -⟩ := extraction_fails_without_alignment_only (negative img) hv' hw hh _ _ _ _ hl (show 1 ≤ v by omega) h40 e he
    cases e
    simp only at h
    rw [h]

/-- **C80 (from version 2 on).** The picture of a symbol with light modules on a dark ground is found, but not read:
whatever the symbol says, the only result of both default decoders is that no alignment pattern can be found. -/
theorem default_decoder_refuses_negative (grayscale : IMG → GrayImage) (source : IMG) (hg : (grayscale source).Valid)
    (img : GrayImage) (himg : negative img = thresholded 5 7 (grayscale source)) (hpx : img.width * img.height ≤ 2 ^ 36)
    (hw : img.width ≤ 2 ^ 20) (hh : img.height ≤ 2 ^ 20) (q : QRData) (v : Nat) (h2 : 2 ≤ v) (h40 : v ≤ 40)
    (hq : WellFormed q v) (hf : HasFinders q) (hal : HasAlignment q) (ρ : Orientation) (hρ : ¬ ρ.Mirrored)
    (m ox oy : Nat) (hm : 2 ≤ m) (hpar : ρ.swap = false ∨ m % 2 = 0) (hd : DrawnAs img q ρ m ox oy)
    (hz : QuietZone img q.side m ox oy)
    (hs : ∀ y < img.height, SteadyRow img img.width y) (hn : NoOtherFinders img m (turnedFinders ρ v m ox oy)) :
    (∃ d : Decoder σ IMG GrayImage QRLocation QRData (List Char), defaultDecoder grayscale = .ret d ∧
      ∀ s, d.decode source s = .ret ([.error ⟨"Unable to find alignment pattern"⟩], s)) ∧
    ∃ d : Decoder σ IMG GrayImage QRLocation QRData (List Char × QRInfo), defaultDecoderWithInfo grayscale = .ret d ∧
      ∀ s, d.decode source s = .ret ([.error ⟨"Unable to find alignment pattern"⟩], s) := by
  have hside : q.side = 4 * v + 17 := hq.2.1
  have d1 := hd.1
  have d2 := hd.2.1
  have hlow : 21 * 2 ≤ q.side * m := Nat.mul_le_mul (by omega) hm
  obtain ⟨hprep, hv⟩ := prepares (grayscale source) hg (negative img) himg hpx hw hh (show 5 ≤ img.width by omega)
    (show 5 ≤ img.height by omega)
  have hv := negative_valid hv
  have hbw : BlackWhite img := by
    rw [← negative_negative img, himg]
    exact negative_blackWhite (thresholded_blackWhite _ _ _)
  have hdet := turned_symbol_is_detected img hv ρ hρ v m ox oy hm (by omega)
    (fun f hfm => turned_clean (by omega) hq.2.1 hd hf hz f (mem_turnedFinders hfm)) hs hn
  rw [← negative_is_found_alike img hbw] at hdet
  have hext := negative_is_not_extracted img hv hw hh q v h2 h40 hq hal ρ hρ m ox oy hm hpar hd
  constructor
  · obtain ⟨d, hd, hiff⟩ := default_decoder_results (σ := σ) grayscale
    refine ⟨d, hd, fun s => (hiff _ _ _ _).mpr ⟨rfl, negative img, _, hprep, hdet, ?_⟩⟩
    exact .cons (Or.inr ⟨_, hext, rfl⟩) .nil
  · obtain ⟨d, hd, hiff⟩ := default_decoder_with_info_results (σ := σ) grayscale
    refine ⟨d, hd, fun s => (hiff _ _ _ _).mpr ⟨rfl, negative img, _, hprep, hdet, ?_⟩⟩
    exact .cons (Or.inr ⟨_, hext, rfl⟩) .nil

/-- The same whatever the light: `source` is the negative of an evenly or unevenly lit enlargement of the symbol. -/
theorem default_decoder_refuses_lit_negative (grayscale : IMG → GrayImage) (source : IMG)
    (hsrc : (grayscale source).Valid) (g : GrayImage) (hg : g.Valid) (m : Nat) (hm2 : 2 ≤ m) (hm : WellMixed g m)
    (hlit : LitEnlargement (negative (grayscale source)) g m) (hpx : g.width * m * (g.height * m) ≤ 2 ^ 36)
    (hw : g.width * m ≤ 2 ^ 20) (hh : g.height * m ≤ 2 ^ 20) (q : QRData) (v : Nat) (h2 : 2 ≤ v) (h40 : v ≤ 40)
    (hq : WellFormed q v) (hf : HasFinders q) (hal : HasAlignment q)
    (ρ : Orientation) (hρ : ¬ ρ.Mirrored) (hpar : ρ.swap = false ∨ m % 2 = 0) (ox oy : Nat) (hd : DrawnAs g q ρ 1 ox oy)
    (hz : QuietZone g q.side 1 ox oy)
    (hs : ∀ y < g.height, SteadyRow g g.width y) (hn : NeverOthers g (turnedFinders ρ v 1 ox oy)) :
    (∃ d : Decoder σ IMG GrayImage QRLocation QRData (List Char), defaultDecoder grayscale = .ret d ∧
      ∀ s, d.decode source s = .ret ([.error ⟨"Unable to find alignment pattern"⟩], s)) ∧
    ∃ d : Decoder σ IMG GrayImage QRLocation QRData (List Char × QRInfo), defaultDecoderWithInfo grayscale = .ret d ∧
      ∀ s, d.decode source s = .ret ([.error ⟨"Unable to find alignment pattern"⟩], s) := by
  have hsrc' : (negative (grayscale source)).Valid := negative_valid (by rw [negative_negative]; exact hsrc)
  have hng : (negative g).Valid := negative_valid (by rw [negative_negative]; exact hg)
  have hlit' := negative_lit hsrc' hg hm hlit
  rw [negative_negative] at hlit'
  obtain ⟨he, hv⟩ := lit_threshold hlit' hsrc (negative_mixed hg hm)
  have he := negative_enlarged hv hng he
  rw [negative_negative] at he
  have hv' : (negative (thresholded 5 7 (grayscale source))).Valid := negative_valid (by rw [negative_negative]; exact hv)
  have hm0 : 0 < m := by omega
  have hclean := turned_clean (m := 1) (by omega) hq.2.1 hd hf hz
  refine default_decoder_refuses_negative grayscale source hsrc _ (negative_negative _) (by rw [he.1, he.2.1]; exact hpx)
    (by rw [he.1]; exact hw) (by rw [he.2.1]; exact hh) q v h2 h40 hq hf hal ρ hρ m (ox * m)
    (oy * m) hm2 hpar (enlarged_drawnAs he hm0 hv' hg hd) (enlarged_quiet he hm0 hz) ?_ ?_
  · intro y hy
    exact enlarged_steady he hm0 hy (hs _ ((Nat.div_lt_iff_lt_mul hm0).mpr (by rw [← he.2.1]; exact hy)))
  · rw [← scaled_turned]
    refine enlarged_no_others he (by omega) ?_ hn
    intro f hf'
    have := (hclean f (mem_turnedFinders hf')).1
    omega

end Verif.Props
