import Verif.Lemmas.Picture
import Verif.Lemmas.FinderHit

/-!
# The finder patterns of a drawn symbol
-/
namespace Verif
open Spec LineScan

theorem grey_of_some {img : GrayImage} {x y : Nat} {c : U8} (h : img.pixels[y * img.width + x]? = some c) :
    grey img x y = c.toNat := by
  unfold grey; rw [List.getD_eq_getElem?_getD, h]; rfl

/-- Pixels of a drawn grid. -/
theorem drawn_grey {img : GrayImage} {q : QRData} {m ox oy : Nat} (hm : 0 < m) (hd : Drawn img q m ox oy)
    {x y : Nat} (hx : ox ≤ x) (hx' : x < ox + q.side * m) (hy : oy ≤ y) (hy' : y < oy + q.side * m) {c : U8}
    (hc : q.data[(y - oy) / m * q.side + (x - ox) / m]? = some c) : grey img x y = c.toNat := by
  have h1 : (x - ox) / m < q.side := by
    rw [Nat.div_lt_iff_lt_mul hm]; omega
  have h2 : (y - oy) / m < q.side := by
    rw [Nat.div_lt_iff_lt_mul hm]; omega
  have := hd.2.2 _ h2 _ h1 ((x - ox) % m) (Nat.mod_lt _ hm) ((y - oy) % m) (Nat.mod_lt _ hm)
  have e1 := Nat.div_add_mod' (x - ox) m
  have e2 := Nat.div_add_mod' (y - oy) m
  rw [show oy + (y - oy) / m * m + (y - oy) % m = y by omega,
    show ox + (x - ox) / m * m + (x - ox) % m = x by omega, hc] at this
  exact grey_of_some this

theorem finderModule_flip_x {j i : Nat} (hj : j ≤ 6) : finderModule (6 - j) i = finderModule j i := by
  unfold finderModule
  rw [Bool.eq_iff_iff]
  simp only [Bool.and_eq_true, Bool.or_eq_true, decide_eq_true_eq, beq_iff_eq]
  omega

theorem finderModule_flip_y {j i : Nat} (hi : i ≤ 6) : finderModule j (6 - i) = finderModule j i := by
  unfold finderModule
  rw [Bool.eq_iff_iff]
  simp only [Bool.and_eq_true, Bool.or_eq_true, decide_eq_true_eq, beq_iff_eq]
  omega

theorem finderModule_out {j i : Nat} (h : 7 ≤ j ∨ 7 ≤ i) : finderModule j i = false := by
  unfold finderModule
  rw [Bool.eq_false_iff]
  simp only [Ne, Bool.and_eq_true, Bool.or_eq_true, decide_eq_true_eq, beq_iff_eq]
  omega

/-- The position of a pixel relative to the far edge of the symbol. -/
theorem far_module {side m o x : Nat} (hm : 0 < m) (hs : 8 ≤ side) (h1 : o + (side - 8) * m ≤ x) (h2 : x < o + side * m) :
    ∃ j < 8, (x - o) / m = side - 1 - j ∧
      (o + (side - 7) * m ≤ x → j ≤ 6 ∧ (x - (o + (side - 7) * m)) / m = 6 - j) ∧
      (x < o + (side - 7) * m → j = 7) := by
  have hlt : (x - o) / m < side := by rw [Nat.div_lt_iff_lt_mul hm]; omega
  have hge : side - 8 ≤ (x - o) / m := by rw [Nat.le_div_iff_mul_le hm]; omega
  refine ⟨side - 1 - (x - o) / m, by omega, by omega, ?_, ?_⟩
  · intro h
    have h7 : side - 7 ≤ (x - o) / m := by rw [Nat.le_div_iff_mul_le hm]; omega
    refine ⟨by omega, ?_⟩
    have : (x - (o + (side - 7) * m)) / m = (x - o) / m - (side - 7) := by
      rw [show x - (o + (side - 7) * m) = x - o - m * (side - 7) by rw [Nat.mul_comm m]; omega]
      rw [Nat.sub_mul_div]
    omega
  · intro h
    have : (x - o) / m < side - 7 := by rw [Nat.div_lt_iff_lt_mul hm]; omega
    omega

/-- A drawn symbol with finder patterns and a light border shows three clean finder patterns. -/
theorem drawn_clean {img : GrayImage} {q : QRData} {v m ox oy : Nat} (hm : 1 ≤ m) (hside : q.side = sideOf v)
    (hd : Drawn img q m ox oy) (hf : HasFinders q) (hq : QuietZone img q.side m ox oy) :
    ∀ f ∈ symbolFinders v m ox oy, CleanFinder img m f.1 f.2 := by
  have hs : q.side = 4 * v + 17 := hside
  obtain ⟨q1, q2, quiet⟩ := hq
  have e7 : (q.side - 7) * m = (4 * v + 10) * m := by rw [hs]; congr 1
  have e8 : (q.side - 8) * m + m = (4 * v + 10) * m := by rw [← e7, ← Nat.succ_mul]; congr 1; omega
  have e17 : q.side * m = (4 * v + 10) * m + 7 * m := by rw [hs]; ring
  have e18 : (q.side + 1) * m = (4 * v + 10) * m + 8 * m := by rw [hs]; ring
  have hpos : 10 * m ≤ (4 * v + 10) * m := Nat.mul_le_mul_right _ (by omega)
  rw [← e7] at e8 e17 e18 hpos
  have near : ∀ o z, o ≤ z → z < o + 8 * m → (z - o) / m < 8 := by
    intro o z h1 h2
    rw [Nat.div_lt_iff_lt_mul (by omega)]; omega
  have val : ∀ b : Bool, (if b then (0#8) else 255#8).toNat = if b then 0 else 255 := by
    intro b; cases b <;> rfl
  intro f hfm
  simp only [symbolFinders, List.mem_cons, List.not_mem_nil, or_false] at hfm
  rcases hfm with rfl | rfl | rfl
  · refine ⟨by simp only; omega, by simp only; omega, ?_⟩
    simp only
    intro x hx y hy a1 a2 a3 a4
    by_cases hin : ox ≤ x ∧ oy ≤ y
    · have hj := near ox x hin.1 (by omega)
      have hi := near oy y hin.2 (by omega)
      rw [drawn_grey hm hd hin.1 (by omega) hin.2 (by omega) (hf _ hi _ hj _ (by simp)), val]
      simp [hin]
    · rw [quiet x hx y hy a1 (by omega) a3 (by omega) (by omega), if_neg (by tauto)]
  · rw [← e7]
    refine ⟨by simp only; omega, by simp only; omega, ?_⟩
    simp only
    intro x hx y hy a1 a2 a3 a4
    by_cases hin : x < ox + q.side * m ∧ oy ≤ y
    · have hi := near oy y hin.2 (by omega)
      obtain ⟨j, hj, hj1, hj2, hj3⟩ := far_module (side := q.side) (m := m) (o := ox) (x := x) (by omega) (by omega)
        (by omega) hin.1
      rw [drawn_grey hm hd (by omega) (by omega) hin.2 (by omega) (c := if finderModule j ((y - oy) / m) then 0#8 else 255#8)
        (by rw [hj1]; exact hf _ hi _ hj _ (by simp)), val]
      by_cases hfx : ox + (q.side - 7) * m ≤ x
      · obtain ⟨h6, he⟩ := hj2 hfx
        rw [he, finderModule_flip_x h6]
        simp [hfx, hin.2]
      · rw [hj3 (by omega), finderModule_out (Or.inl (le_refl 7)), if_neg (by simp), if_neg (by tauto)]
    · rw [quiet x hx y hy (by omega) (by omega) a3 (by omega) (by omega)]
      by_cases hfx : oy ≤ y
      · have h7 : 7 ≤ (x - (ox + (q.side - 7) * m)) / m := by
          rw [Nat.le_div_iff_mul_le (by omega)]; omega
        rw [finderModule_out (Or.inl h7)]; simp
      · rw [if_neg (by tauto)]
  · rw [← e7]
    refine ⟨by simp only; omega, by simp only; omega, ?_⟩
    simp only
    intro x hx y hy a1 a2 a3 a4
    by_cases hin : ox ≤ x ∧ y < oy + q.side * m
    · have hj := near ox x hin.1 (by omega)
      obtain ⟨i, hi, hi1, hi2, hi3⟩ := far_module (side := q.side) (m := m) (o := oy) (x := y) (by omega) (by omega)
        (by omega) hin.2
      rw [drawn_grey hm hd hin.1 (by omega) (by omega) hin.2 (c := if finderModule ((x - ox) / m) i then 0#8 else 255#8)
        (by rw [hi1]; exact hf _ hi _ hj _ (by simp)), val]
      by_cases hfx : oy + (q.side - 7) * m ≤ y
      · obtain ⟨h6, he⟩ := hi2 hfx
        rw [he, finderModule_flip_y h6]
        simp [hfx, hin.1]
      · rw [hi3 (by omega), finderModule_out (Or.inr (le_refl 7)), if_neg (by simp), if_neg (by tauto)]
    · rw [quiet x hx y hy a1 (by omega) (by omega) (by omega) (by omega)]
      by_cases hfx : ox ≤ x
      · have h7 : 7 ≤ (y - (oy + (q.side - 7) * m)) / m := by
          rw [Nat.le_div_iff_mul_le (by omega)]; omega
        rw [finderModule_out (Or.inr h7)]; simp
      · rw [if_neg (by tauto)]

/-- The picture of a grid has a light border if it has any. -/
theorem picture_quiet {q : QRData} {m b : Nat} (hb : 1 ≤ b) : QuietZone (picture q m b) q.side m b b := by
  refine ⟨by simp only [picture]; omega, by simp only [picture]; omega, ?_⟩
  intro x hx y hy _ _ _ _ hout
  rw [grey_of_some (picture_pixel hx hy), if_neg (by tauto)]
  rfl

/-- An encoded symbol with the function patterns has finder patterns. -/
theorem encode_finders (v : Nat) (l : ECLevel) (k : Nat) (segments : List Segment) :
    HasFinders (encode v l k segments (functionPatterns v)) := by
  have hs : sideOf v = 4 * v + 17 := rfl
  have key : ∀ x y, x < sideOf v → y < sideOf v → (x < 8 ∧ y < 8 ∨ sideOf v - 8 ≤ x ∧ y < 8 ∨ x < 8 ∧ sideOf v - 8 ≤ y) →
      (encode v l k segments (functionPatterns v)).data[y * sideOf v + x]? =
        some (if functionPatterns v x y then 0#8 else 255#8) := by
    intro x y hx hy hc
    have hlt : y * sideOf v + x < sideOf v * sideOf v := by
      have : (y + 1) * sideOf v ≤ sideOf v * sideOf v := Nat.mul_le_mul_right _ (by omega)
      rw [Nat.succ_mul] at this
      omega
    simp only [encode]
    rw [List.getElem?_map, List.getElem?_range hlt]
    simp only [Option.map_some, Option.some.injEq]
    rw [Nat.mul_comm y, Nat.mul_add_mod, Nat.mod_eq_of_lt hx, Nat.mul_add_div (by omega),
      Nat.div_eq_of_lt hx, Nat.add_zero]
    have hf : isFunction v x y := by
      unfold isFunction; left; unfold inFinder; omega
    have n1 : (x, y) ∉ formatCopy1 := by
      simp only [formatCopy1, List.mem_cons, Prod.mk.injEq, List.not_mem_nil, not_or, or_false]
      omega
    have n2 : (x, y) ∉ formatCopy2 (sideOf v) := by
      simp only [formatCopy2, List.mem_cons, Prod.mk.injEq, List.not_mem_nil, not_or, or_false]
      omega
    unfold placeModule
    rw [if_neg (not_data_of_function hf), if_neg n1, if_neg n2]
    rfl
  intro i hi j hj p hp
  have hside : (encode v l k segments (functionPatterns v)).side = sideOf v := rfl
  rw [hside] at hp
  simp only [List.mem_cons, List.not_mem_nil, or_false] at hp
  rcases hp with rfl | rfl | rfl
  · rw [key j i (by omega) (by omega) (by omega)]
    unfold functionPatterns; simp only; rw [if_pos (show j < 8 ∧ i < 8 from ⟨hj, hi⟩)]
  · rw [key (sideOf v - 1 - j) i (by omega) (by omega) (by omega)]
    unfold functionPatterns; simp only
    rw [if_neg (show ¬ (sideOf v - 1 - j < 8 ∧ i < 8) by omega),
      if_pos (show sideOf v - 8 ≤ sideOf v - 1 - j ∧ i < 8 by omega)]
    rw [show sideOf v - 1 - (sideOf v - 1 - j) = j by omega]
  · rw [key j (sideOf v - 1 - i) (by omega) (by omega) (by omega)]
    unfold functionPatterns; simp only
    rw [if_neg (show ¬ (j < 8 ∧ sideOf v - 1 - i < 8) by omega),
      if_neg (show ¬ (sideOf v - 8 ≤ j ∧ sideOf v - 1 - i < 8) by omega),
      if_pos (show j < 8 ∧ sideOf v - 8 ≤ sideOf v - 1 - i by omega)]
    rw [show sideOf v - 1 - (sideOf v - 1 - i) = i by omega]

end Verif
