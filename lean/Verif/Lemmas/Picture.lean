import Verif.Spec.Picture

/-!
# Facts about pictures
-/
namespace Verif
open Spec

theorem picture_valid {q : QRData} {m b : Nat} (h : q.side * m + 2 * b < 2 ^ 32) : (picture q m b).Valid := by
  refine ⟨?_, h, h⟩
  simp [picture]

theorem picture_pixel {q : QRData} {m b x y : Nat} (hx : x < q.side * m + 2 * b) (hy : y < q.side * m + 2 * b) :
    (picture q m b).pixels[y * (picture q m b).width + x]? =
      some (if b ≤ x ∧ x < b + q.side * m ∧ b ≤ y ∧ y < b + q.side * m then
        q.data.getD ((y - b) / m * q.side + (x - b) / m) 255#8 else 255#8) := by
  have hlt : y * (q.side * m + 2 * b) + x < (q.side * m + 2 * b) * (q.side * m + 2 * b) := by
    have : (y + 1) * (q.side * m + 2 * b) ≤ (q.side * m + 2 * b) * (q.side * m + 2 * b) := Nat.mul_le_mul_right _ hy
    rw [Nat.succ_mul] at this
    omega
  unfold picture
  simp only
  rw [List.getElem?_map, List.getElem?_range hlt]
  simp only [Option.map_some]
  rw [Nat.mul_comm y, Nat.mul_add_mod, Nat.mod_eq_of_lt hx, Nat.mul_add_div (by omega), Nat.div_eq_of_lt hx,
    Nat.add_zero]

theorem picture_drawn {q : QRData} (hq : q.data.length = q.side * q.side) {m b : Nat} (hm : 1 ≤ m) :
    Drawn (picture q m b) q m b b := by
  refine ⟨by simp only [picture]; omega, by simp only [picture]; omega, ?_⟩
  intro i hi j hj a ha c hc
  have key : ∀ k z, k < q.side → z < m → b + k * m + z < b + q.side * m ∧ (b + k * m + z - b) / m = k := by
    intro k z hk hz
    have : (k + 1) * m ≤ q.side * m := Nat.mul_le_mul_right _ hk
    rw [Nat.succ_mul] at this
    refine ⟨by omega, ?_⟩
    rw [show b + k * m + z - b = m * k + z by rw [Nat.mul_comm]; omega, Nat.mul_add_div (by omega),
      Nat.div_eq_of_lt hz, Nat.add_zero]
  obtain ⟨x1, x2⟩ := key j a hj ha
  obtain ⟨y1, y2⟩ := key i c hi hc
  rw [picture_pixel (by omega) (by omega), if_pos ⟨by omega, x1, by omega, y1⟩, x2, y2]
  have hlt : i * q.side + j < q.data.length := by
    rw [hq]
    have : (i + 1) * q.side ≤ q.side * q.side := Nat.mul_le_mul_right _ hi
    rw [Nat.succ_mul] at this
    omega
  rw [List.getD_eq_getElem?_getD, List.getElem?_eq_getElem hlt]
  rfl

theorem last_centre : ∀ v, 2 ≤ v → v ≤ 40 → sideOf v - 7 ∈ alignmentCentres v := by decide

theorem not_data_of_function {v x y : Nat} (h : isFunction v x y) : (x, y) ∉ dataModules v := by
  unfold dataModules
  rw [List.mem_filter]
  rintro ⟨-, h2⟩
  simp only [decide_eq_true_eq] at h2
  exact h2.2.2 h

/-- The lower right alignment pattern of an encoded symbol is given by the function patterns. -/
theorem encode_alignment {v : Nat} (h2 : 2 ≤ v) (h40 : v ≤ 40) (l : ECLevel) (k : Nat) (segments : List Segment)
    {other : Nat → Nat → Bool}
    (ho : ∀ di < 5, ∀ dj < 5, other (sideOf v - 9 + dj) (sideOf v - 9 + di) =
      !(decide ((1 ≤ di ∧ di ≤ 3) ∧ (1 ≤ dj ∧ dj ≤ 3) ∧ ¬ (di = 2 ∧ dj = 2)))) :
    HasAlignment (encode v l k segments other) := by
  intro di hdi dj hdj
  have hs : sideOf v = 4 * v + 17 := rfl
  have hlt : (sideOf v - 9 + di) * sideOf v + (sideOf v - 9 + dj) < sideOf v * sideOf v := by
    have : (sideOf v - 9 + di + 1) * sideOf v ≤ sideOf v * sideOf v := Nat.mul_le_mul_right _ (by omega)
    rw [Nat.succ_mul] at this
    omega
  have hx : sideOf v - 9 + dj < sideOf v := by omega
  simp only [encode]
  rw [List.getElem?_map, List.getElem?_range hlt]
  simp only [Option.map_some, Option.some.injEq]
  rw [Nat.mul_comm (sideOf v - 9 + di), Nat.mul_add_mod, Nat.mod_eq_of_lt hx, Nat.mul_add_div (by omega),
    Nat.div_eq_of_lt hx, Nat.add_zero]
  have hf : isFunction v (sideOf v - 9 + dj) (sideOf v - 9 + di) := by
    refine .inr (.inr (.inl ⟨_, last_centre v h2 h40, _, last_centre v h2 h40, ?_, ?_⟩)) <;> omega
  have n1 : (sideOf v - 9 + dj, sideOf v - 9 + di) ∉ formatCopy1 := by
    simp only [formatCopy1, List.mem_cons, Prod.mk.injEq, List.not_mem_nil, not_or, or_false]
    omega
  have n2 : (sideOf v - 9 + dj, sideOf v - 9 + di) ∉ formatCopy2 (sideOf v) := by
    simp only [formatCopy2, List.mem_cons, Prod.mk.injEq, List.not_mem_nil, not_or, or_false]
    omega
  unfold placeModule
  rw [if_neg (not_data_of_function hf), if_neg n1, if_neg n2, ho di hdi dj hdj]
  by_cases hc : (1 ≤ di ∧ di ≤ 3) ∧ (1 ≤ dj ∧ dj ≤ 3) ∧ ¬ (di = 2 ∧ dj = 2)
  · rw [decide_eq_true hc, if_pos hc]; rfl
  · rw [decide_eq_false hc, if_neg hc]; rfl

theorem functionPatterns_alignment : ∀ v, 2 ≤ v → v ≤ 40 → ∀ di < 5, ∀ dj < 5,
    functionPatterns v (sideOf v - 9 + dj) (sideOf v - 9 + di) =
      !(decide ((1 ≤ di ∧ di ≤ 3) ∧ (1 ≤ dj ∧ dj ≤ 3) ∧ ¬ (di = 2 ∧ dj = 2))) := by
  have h : ∀ v < 41, 2 ≤ v → ∀ di < 5, ∀ dj < 5,
    functionPatterns v (sideOf v - 9 + dj) (sideOf v - 9 + di) =
      !(decide ((1 ≤ di ∧ di ≤ 3) ∧ (1 ≤ dj ∧ dj ≤ 3) ∧ ¬ (di = 2 ∧ dj = 2))) := by decide +kernel
  intro v h2 h40
  exact h v (by omega) h2

end Verif
