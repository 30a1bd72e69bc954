import Verif.Lemmas.ExactQr

/-!
# C62, C63: exact detection
-/
namespace Verif.Props
open Verif Verif.Spec F64 LineScan

/-- The centre of a finder pattern of `m` pixel modules whose upper left pixel is `(fx, fy)`, as it is reported: the
column is measured from the left edge of the left pixel, the row from the middle of the top pixel, rounded down. -/
def reportedCentre (m fx fy : Nat) : Point :=
  ⟨.fin (fx + 7 * (m : ℚ) / 2), .fin (fy + ((7 * m - 1) / 2 : Nat))⟩

theorem exactCandidate_location {m fx fy : Nat} (h : fy + 7 * m < 2 ^ 32) :
    (exactCandidate m fx fy).location = reportedCentre m fx fy := by
  unfold exactCandidate reportedCentre
  simp only
  rw [ofNat_fin (by omega)]
  unfold hf
  congr 2
  · push_cast; ring
  · push_cast; rfl

/-- **C62.** In an image whose rows have no runs shorter than a tenth of the one before, with finder patterns of the
same module size at the places `fs` and no others, the candidates are exactly these finder patterns, each once, in
the order in which the scan meets them, with their exact centres and module size. -/
theorem exactly_the_finders (img : GrayImage) (hv : img.Valid) (m : Nat) (hm : 2 ≤ m) (fs : List (Nat × Nat))
    (hc : ∀ f ∈ fs, CleanFinder img m f.1 f.2) (ho : fs.Pairwise (ScanOrder m))
    (hs : ∀ y < img.height, SteadyRow img img.width y) (hn : NoOtherFinders img m fs) :
    ∃ cs, candidates img = .ret cs ∧ cs.map (fun c => (c.location, c.module_size)) =
      fs.map fun f => (reportedCentre m f.1 f.2, .fin m) := by
  refine ⟨_, candidates_exact hv hm hc ho hs hn, ?_⟩
  rw [List.map_map]
  apply List.map_congr_left
  intro f hf
  have c2 := (hc f hf).2.1
  have hh := hv.2.2
  simp only [Function.comp]
  rw [exactCandidate_location (by omega)]
  rfl

theorem symbolFinders_order {v m ox oy : Nat} (hm : 1 ≤ m) :
    (symbolFinders v m ox oy).Pairwise (ScanOrder m) := by
  have h10 : 10 * m ≤ (4 * v + 10) * m := Nat.mul_le_mul_right _ (by omega)
  have hpos : 0 < (4 * v + 10) * m := Nat.mul_pos (by omega) hm
  unfold symbolFinders
  rw [List.pairwise_cons, List.pairwise_cons, List.pairwise_cons]
  refine ⟨?_, ?_, ?_, List.Pairwise.nil⟩
  · intro b hb
    simp only [List.mem_cons, List.not_mem_nil, or_false] at hb
    rcases hb with rfl | rfl
    · exact ⟨Or.inr ⟨rfl, by simp only; omega⟩, Or.inl (by simp only; omega)⟩
    · exact ⟨Or.inl (by simp only; omega), Or.inr (Or.inr (by simp only; omega))⟩
  · intro b hb
    simp only [List.mem_cons, List.not_mem_nil, or_false] at hb
    rcases hb with rfl
    exact ⟨Or.inl (by simp only; omega), Or.inr (Or.inr (by simp only; omega))⟩
  · intro b hb; simp at hb

/-- **C63.** An upright symbol is detected, alone and exactly: if the image has the three finder patterns of a symbol
of version `v` and no others, and its rows have no runs shorter than a tenth of the one before, then there is
exactly one location, with the exact centres, module size and version. -/
theorem symbol_is_detected (img : GrayImage) (hv : img.Valid) (v m ox oy : Nat) (hm : 2 ≤ m) (h1 : 1 ≤ v)
    (hc : ∀ f ∈ symbolFinders v m ox oy, CleanFinder img m f.1 f.2)
    (hs : ∀ y < img.height, SteadyRow img img.width y) (hn : NoOtherFinders img m (symbolFinders v m ox oy)) :
    detect img = .ret [⟨reportedCentre m ox oy, reportedCentre m (ox + (4 * v + 10) * m) oy,
      reportedCentre m ox (oy + (4 * v + 10) * m), .fin m, v⟩] := by
  have hw := hv.2.1
  have hh := hv.2.2
  have c1 := (hc (ox + (4 * v + 10) * m, oy) (by simp [symbolFinders])).1
  have c2 := (hc (ox, oy + (4 * v + 10) * m) (by simp [symbolFinders])).2.1
  simp only at c1 c2
  have e : (4 * v + 17) * m = (4 * v + 10) * m + 7 * m := by ring
  unfold detect
  rw [candidates_exact hv hm hc (symbolFinders_order (by omega)) hs hn, Run.ret_bind]
  have := locations_square (ox := ox) (oy := oy) (m := m) (v := v) (by omega) h1 (by omega) (by omega)
  rw [exactCandidate_location (by omega), exactCandidate_location (by omega), exactCandidate_location (by omega)] at this
  exact this

end Verif.Props
