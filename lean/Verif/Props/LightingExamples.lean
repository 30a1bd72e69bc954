import Verif.Lemmas.MixedCheck
import Verif.Props.Lighting
import Verif.Props.TurnedExamples

/-! # "READ", read in uneven light -/
namespace Verif.Props
open Verif Verif.Spec LineScan

/-- For every row of the picture and every window, the number of black pixels with modules of two pixels. -/
def readBlack : List (List Nat) := [
    [0, 0, 0, 0, 0, 0, 0, 0, 0, 0, 0, 0],
    [0, 0, 0, 0, 0, 0, 0, 0, 0, 0, 0, 0],
    [0, 0, 0, 0, 0, 0, 0, 0, 0, 0, 0, 0],
    [0, 0, 0, 0, 0, 0, 0, 0, 0, 0, 0, 0],
    [7, 12, 14, 16, 18, 20, 20, 20, 18, 16, 14, 10],
    [2, 2, 5, 8, 8, 8, 8, 10, 7, 4, 4, 2],
    [5, 8, 10, 10, 12, 12, 14, 14, 12, 12, 10, 8],
    [5, 8, 10, 10, 10, 10, 12, 12, 10, 10, 10, 8],
    [5, 8, 10, 14, 16, 16, 18, 18, 16, 12, 10, 8],
    [2, 2, 5, 8, 10, 10, 10, 12, 9, 6, 4, 2],
    [7, 12, 15, 18, 20, 22, 22, 22, 19, 16, 14, 10],
    [0, 0, 1, 4, 6, 6, 6, 6, 5, 2, 0, 0],
    [0, 4, 8, 8, 12, 16, 16, 14, 10, 10, 6, 2],
    [1, 2, 2, 4, 4, 8, 8, 10, 10, 8, 8, 4],
    [7, 8, 12, 14, 19, 22, 20, 24, 20, 18, 13, 8],
    [2, 2, 3, 6, 9, 10, 13, 14, 13, 10, 7, 6],
    [3, 6, 10, 10, 14, 14, 16, 14, 10, 10, 6, 4],
    [0, 0, 1, 4, 7, 10, 12, 16, 15, 12, 9, 6],
    [7, 12, 15, 18, 20, 18, 16, 14, 11, 8, 6, 6],
    [2, 2, 5, 10, 15, 16, 18, 20, 17, 12, 7, 4],
    [5, 8, 11, 14, 17, 18, 18, 20, 17, 14, 11, 8],
    [5, 8, 10, 14, 14, 16, 15, 16, 14, 10, 10, 6],
    [5, 8, 10, 14, 16, 16, 18, 16, 14, 10, 8, 6],
    [2, 2, 4, 4, 4, 2, 5, 8, 6, 6, 6, 6],
    [7, 12, 14, 14, 15, 14, 10, 10, 8, 8, 7, 6],
    [0, 0, 0, 0, 0, 0, 0, 0, 0, 0, 0, 0],
    [0, 0, 0, 0, 0, 0, 0, 0, 0, 0, 0, 0],
    [0, 0, 0, 0, 0, 0, 0, 0, 0, 0, 0, 0],
    [0, 0, 0, 0, 0, 0, 0, 0, 0, 0, 0, 0]]

theorem readRows0_black_or_white : readRows0.all fun r => r.all fun v => v == 0 || v == 255 := by decide +kernel

theorem readPicture_mixed : WellMixed (readPicture 0) 2 :=
  wellMixed_of (table := readBlack) readPicture0_rows (by decide) readRows0_black_or_white (by decide +kernel)
    (by decide +kernel)

/-- "READ" with modules of two pixels, in light that falls from the lower right: black is shown by 40 on the left and
above, and by 68 on the right and below, white by 150 more. -/
def readInLight : GrayImage where
  width := 58
  height := 58
  pixels := (List.range (58 * 58)).map fun n =>
    BitVec.ofNat 8 ((n % 58 + n / 58) / 4 + 40 + if grey (readPicture 0) (n % 58 / 2) (n / 58 / 2) = 0 then 0 else 150)

theorem readInLight_grey {x y : Nat} (hx : x < 58) (hy : y < 58) : grey readInLight x y =
    (x + y) / 4 + 40 + if grey (readPicture 0) (x / 2) (y / 2) = 0 then 0 else 150 := by
  unfold grey
  have e1 : readInLight.width = 58 := rfl
  have hlt : y * 58 + x < 58 * 58 := by omega
  rw [e1]
  rw [List.getD_eq_getElem?_getD]
  unfold readInLight
  simp only
  rw [List.getElem?_map, List.getElem?_range hlt]
  have e2 : (y * 58 + x) % 58 = x := by omega
  have e3 : (y * 58 + x) / 58 = y := by omega
  simp only [Option.map_some, Option.getD_some, e2, e3]
  rw [BitVec.toNat_ofNat]
  unfold grey
  generalize (List.getD (readPicture 0).pixels (y / 2 * (readPicture 0).width + x / 2) 0).toNat = k
  by_cases hk : k = 0
  · rw [if_pos hk]; omega
  · rw [if_neg hk]; omega

theorem readInLight_lit : LitEnlargement readInLight (readPicture 0) 2 := by
  refine ⟨rfl, rfl, ?_⟩
  intro x hx y hy
  have hx' : x < 58 := hx
  have hy' : y < 58 := hy
  refine ⟨40 + ((x / 5 - 3) * 5 + (y / 5 - 3) * 5) / 4 + 15, 190 + ((x / 5 - 3) * 5 + (y / 5 - 3) * 5) / 4, 15, by omega,
    by omega, by omega, ?_⟩
  intro p hp
  have hp' : p.1 < 58 ∧ p.2 < 58 ∧ x / 5 - 3 ≤ p.1 / 5 ∧ p.1 / 5 ≤ x / 5 - 3 + 5 ∧ y / 5 - 3 ≤ p.2 / 5 ∧
      p.2 / 5 ≤ y / 5 - 3 + 5 := by
    rcases List.mem_cons.mp hp with rfl | hp
    · exact ⟨hx', hy', by omega, by omega, by omega, by omega⟩
    · unfold window nearBlock at hp
      have h1 := (List.mem_filter.mp hp).1
      have h2 := (List.mem_filter.mp hp).2
      rw [BlockedMean.mem_positions] at h1
      simp only [Bool.and_eq_true, decide_eq_true_eq] at h2
      have h3 : p.1 < 58 := h1.1
      have h4 : p.2 < 58 := h1.2
      omega
  have hb : grey (readPicture 0) (p.1 / 2) (p.2 / 2) = 0 ∨ grey (readPicture 0) (p.1 / 2) (p.2 / 2) = 255 :=
    black_or_white readPicture0_rows readRows0_black_or_white (show _ < 29 by omega) (show _ < 29 by omega)
  rw [readInLight_grey hp'.1 hp'.2.1]
  rcases hb with hb | hb
  · rw [if_pos hb]
    exact Or.inl ⟨hb, by omega, by omega⟩
  · rw [if_neg (by omega)]
    exact Or.inr ⟨hb, by omega, by omega⟩

/-- C71: it is read, although nothing in it is darker than 40 or lighter than 218. -/
example : ∃ d : Decoder Unit GrayImage GrayImage QRLocation QRData (List Char), defaultDecoder id = .ret d ∧
      ∀ s, d.decode readInLight s = .ret ([.ok "READ".toList], s) := by
  refine (picture_reads_in_any_light (σ := Unit) 1 (by decide) (by decide) .high 4 (by decide) readSegments
    (by unfold Segment.fits; decide) _ readSegments_text ?_ 4 (by decide) 0 (readPicture 0)
    (by rw [readModules_eq]; rfl) readPicture0.1 readPicture0.2.1 2 (by decide) readPicture_mixed (by decide) id readInLight
    ⟨by simp [readInLight], by decide, by decide⟩ readInLight_lit).1
  unfold dataCapacity
  rw [read_blocks]
  decide +kernel

end Verif.Props
