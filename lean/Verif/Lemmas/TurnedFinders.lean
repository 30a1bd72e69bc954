import Verif.Lemmas.Finders
import Verif.Lemmas.Render
import Verif.Spec.Turned

/-!
# The finder patterns of a symbol in any axis-parallel position
-/
namespace Verif
open Spec LineScan

/-- Where a column (or row) near a finder pattern is: in module `k` from the edge of the symbol, which is
module `k` or `6 - k` of the finder pattern or its separator, or outside. -/
theorem corner_axis {side m o z : Nat} (c : Bool) (hm : 0 < m) (hs : 17 ≤ side)
    (h1 : o + (if c then (side - 7) * m else 0) ≤ z + m) (h2 : z < o + (if c then (side - 7) * m else 0) + 8 * m) :
    (o ≤ z ∧ z < o + side * m ∧ ∃ k < 8, (z - o) / m = flipIndex c side k ∧
      ((o + (if c then (side - 7) * m else 0) ≤ z ∧ k ≤ 6 ∧
          (z - (o + (if c then (side - 7) * m else 0))) / m = if c then 6 - k else k) ∨
        (k = 7 ∧ ¬ (o + (if c then (side - 7) * m else 0) ≤ z ∧
          (z - (o + (if c then (side - 7) * m else 0))) / m ≤ 6)))) ∨
    (¬ (o ≤ z ∧ z < o + side * m) ∧ ¬ (o + (if c then (side - 7) * m else 0) ≤ z ∧
      (z - (o + (if c then (side - 7) * m else 0))) / m ≤ 6)) := by
  have e7 : side * m = (side - 7) * m + 7 * m := by rw [← Nat.add_mul]; congr 1; omega
  have e8 : (side - 7) * m = (side - 8) * m + m := by rw [← Nat.succ_mul]; congr 1; omega
  have hpos : 10 * m ≤ (side - 7) * m := Nat.mul_le_mul_right _ (by omega)
  cases c with
  | false =>
    simp only [Bool.false_eq_true, if_false, flipIndex, Nat.add_zero] at *
    by_cases hz : o ≤ z
    · left
      refine ⟨hz, by omega, (z - o) / m, by rw [Nat.div_lt_iff_lt_mul hm]; omega, rfl, ?_⟩
      have : (z - o) / m < 8 := by rw [Nat.div_lt_iff_lt_mul hm]; omega
      omega
    · right; omega
  | true =>
    simp only [if_true, flipIndex] at *
    by_cases hz : z < o + side * m
    · left
      refine ⟨by omega, hz, ?_⟩
      obtain ⟨j, hj, hj1, hj2, hj3⟩ := far_module (side := side) (m := m) (o := o) (x := z) hm (by omega) (by omega) hz
      refine ⟨j, hj, hj1, ?_⟩
      by_cases hfx : o + (side - 7) * m ≤ z
      · left; exact ⟨hfx, hj2 hfx⟩
      · right; exact ⟨hj3 (by omega), by omega⟩
    · right
      have h7 : 7 ≤ (z - (o + (side - 7) * m)) / m := by rw [Nat.le_div_iff_mul_le hm]; omega
      omega

theorem finderModule_flips {j i : Nat} (a b : Bool) (hj : j ≤ 6) (hi : i ≤ 6) :
    finderModule (if a then 6 - j else j) (if b then 6 - i else i) = finderModule j i := by
  cases a <;> cases b <;> simp only [if_true, Bool.false_eq_true, if_false]
  · rw [finderModule_flip_y hi]
  · rw [finderModule_flip_x hj]
  · rw [finderModule_flip_x hj, finderModule_flip_y hi]

theorem finderModule_swap (j i : Nat) : finderModule i j = finderModule j i := by
  unfold finderModule
  rw [Bool.eq_iff_iff]
  simp only [Bool.and_eq_true, Bool.or_eq_true, decide_eq_true_eq, beq_iff_eq]
  omega

/-- A corner of a picture that shows a finder pattern with its separator. -/
theorem corner_clean {img : GrayImage} {side m ox oy : Nat} (right bottom : Bool) (hm : 0 < m) (hs : 17 ≤ side)
    (hq : QuietZone img side m ox oy)
    (hF : ∀ x y, ox ≤ x → x < ox + side * m → oy ≤ y → y < oy + side * m → ∀ j < 8, ∀ i < 8,
      (x - ox) / m = flipIndex right side j → (y - oy) / m = flipIndex bottom side i →
      grey img x y = if finderModule j i then 0 else 255) :
    CleanFinder img m (ox + if right then (side - 7) * m else 0) (oy + if bottom then (side - 7) * m else 0) := by
  obtain ⟨q1, q2, quiet⟩ := hq
  have e7 : side * m = (side - 7) * m + 7 * m := by rw [← Nat.add_mul]; congr 1; omega
  have e1 : (side + 1) * m = side * m + m := by ring
  have hle : ∀ c : Bool, (if c then (side - 7) * m else 0) ≤ (side - 7) * m := by intro c; cases c <;> simp
  have hr := hle right
  have hb := hle bottom
  refine ⟨by omega, by omega, ?_⟩
  intro x hx y hy a1 a2 a3 a4
  have out : ∀ p : Prop, ∀ a b : Nat, ¬ (p ∧ a ≤ 6) → ¬ (p ∧ finderModule a b = true) := by
    rintro p a b h ⟨hp, hb⟩
    apply h
    refine ⟨hp, ?_⟩
    by_contra hc
    rw [finderModule_out (Or.inl (by omega))] at hb
    cases hb
  have out' : ∀ p : Prop, ∀ a b : Nat, ¬ (p ∧ b ≤ 6) → ¬ (p ∧ finderModule a b = true) := by
    intro p a b h
    rw [finderModule_swap b a]
    exact out p b a h
  rcases corner_axis right hm hs a1 a2 with ⟨x1, x2, j, hj, hxj, hx'⟩ | ⟨x1, x2⟩
  · rcases corner_axis bottom hm hs a3 a4 with ⟨y1, y2, i, hi, hyi, hy'⟩ | ⟨y1, y2⟩
    · rw [hF x y x1 x2 y1 y2 j hj i hi hxj hyi]
      rcases hx' with ⟨x3, x4, x5⟩ | ⟨rfl, x3⟩
      · rcases hy' with ⟨y3, y4, y5⟩ | ⟨rfl, y3⟩
        · rw [x5, y5, finderModule_flips right bottom x4 y4]
          simp [x3, y3]
        · rw [finderModule_out (Or.inr (le_refl 7)), if_neg (by simp), if_neg]
          rintro ⟨-, h⟩
          exact out' _ _ _ y3 h
      · rw [finderModule_out (Or.inl (le_refl 7)), if_neg (by simp), if_neg]
        rintro ⟨h, -, h'⟩
        exact out _ _ _ x3 ⟨h, h'⟩
    · rw [quiet x hx y hy (by omega) (by omega) (by omega) (by omega) (by tauto), if_neg]
      rintro ⟨-, h⟩
      exact out' _ _ _ y2 h
  · rw [quiet x hx y hy (by omega) (by omega) (by omega) (by omega) (by tauto), if_neg]
    rintro ⟨h, -, h'⟩
    exact out _ _ _ x2 ⟨h, h'⟩

/-- Pixels of a grid drawn in any position. -/
theorem drawnAs_grey {img : GrayImage} {q : QRData} {ρ : Orientation} {m ox oy : Nat} (hm : 0 < m)
    (hd : DrawnAs img q ρ m ox oy) {x y i j : Nat} (hi : i < q.side) (hj : j < q.side) (hx : ox ≤ x) (hy : oy ≤ y)
    (hxj : (x - ox) / m = ρ.column q.side i j) (hyi : (y - oy) / m = ρ.row q.side i j) {c : U8}
    (hc : q.data[i * q.side + j]? = some c) : grey img x y = c.toNat := by
  have := hd.2.2 i hi j hj ((x - ox) % m) (Nat.mod_lt _ hm) ((y - oy) % m) (Nat.mod_lt _ hm)
  have e1 := Nat.div_add_mod' (x - ox) m
  have e2 := Nat.div_add_mod' (y - oy) m
  rw [← hxj, ← hyi, show oy + (y - oy) / m * m + (y - oy) % m = y by omega,
    show ox + (x - ox) / m * m + (x - ox) % m = x by omega, hc] at this
  exact grey_of_some this

theorem flipIndex_far {f : Bool} {side k : Nat} (hk : k < side) : flipIndex f side (side - 1 - k) = flipIndex (!f) side k := by
  unfold flipIndex
  cases f <;> simp
  omega

theorem flipIndex_lt {f : Bool} {side k : Nat} (hk : k < side) : flipIndex f side k < side := by
  unfold flipIndex
  cases f <;> simp <;> omega

/-- A symbol drawn in any position, with finder patterns and a light border, shows clean finder patterns in three corners:
all but the one opposite to its top left corner. -/
theorem turned_clean {img : GrayImage} {q : QRData} {ρ : Orientation} {v m ox oy : Nat} (hm : 1 ≤ m)
    (hside : q.side = sideOf v) (hd : DrawnAs img q ρ m ox oy) (hf : HasFinders q) (hq : QuietZone img q.side m ox oy) :
    ∀ f ∈ [tlFinder ρ v m ox oy, trFinder ρ v m ox oy, blFinder ρ v m ox oy], CleanFinder img m f.1 f.2 := by
  have hs : q.side = 4 * v + 17 := hside
  have e7 : (4 * v + 10) * m = (q.side - 7) * m := by rw [hs]; congr 1
  have val : ∀ b : Bool, (if b then (0#8) else 255#8).toNat = if b then 0 else 255 := by
    intro b; cases b <;> rfl
  obtain ⟨fx, fy, sw⟩ := ρ
  -- one corner, from the modules that it shows
  have key : ∀ (right bottom : Bool) (I J : Nat → Nat → Nat),
      (∀ i < 8, ∀ j < 8, I i j < q.side ∧ J i j < q.side ∧ q.data[I i j * q.side + J i j]? = some (if finderModule j i then 0#8 else 255#8) ∧
        (⟨fx, fy, sw⟩ : Orientation).column q.side (I i j) (J i j) = flipIndex right q.side j ∧
        (⟨fx, fy, sw⟩ : Orientation).row q.side (I i j) (J i j) = flipIndex bottom q.side i) →
      CleanFinder img m (cornerFinder v m ox oy right bottom).1 (cornerFinder v m ox oy right bottom).2 := by
    intro right bottom I J h
    unfold cornerFinder
    rw [e7]
    refine corner_clean right bottom (by omega) (by omega) hq ?_
    intro x y x1 x2 y1 y2 j hj i hi hxj hyi
    obtain ⟨h1, h2, h3, h4, h5⟩ := h i hi j hj
    rw [drawnAs_grey (by omega) hd h1 h2 x1 y1 (by rw [hxj, h4]) (by rw [hyi, h5]) h3, val]
  intro f hfm
  simp only [List.mem_cons, List.not_mem_nil, or_false] at hfm
  rcases hfm with rfl | rfl | rfl
  · cases sw
    · refine key fx fy (fun i _ => i) (fun _ j => j) ?_
      intro i hi j hj
      exact ⟨by omega, by omega, hf i hi j hj _ (by simp), rfl, rfl⟩
    · refine key fx fy (fun _ j => j) (fun i _ => i) ?_
      intro i hi j hj
      refine ⟨by omega, by omega, ?_, rfl, rfl⟩
      rw [← finderModule_swap]
      exact hf j hj i hi _ (by simp)
  · cases sw
    · refine key (!fx) fy (fun i _ => i) (fun _ j => q.side - 1 - j) ?_
      intro i hi j hj
      refine ⟨by omega, by omega, hf i hi j hj _ (by simp), ?_, rfl⟩
      simp only [Orientation.column, Bool.false_eq_true, if_false]
      rw [flipIndex_far (by omega)]
    · refine key fx (!fy) (fun _ j => j) (fun i _ => q.side - 1 - i) ?_
      intro i hi j hj
      refine ⟨by omega, by omega, ?_, rfl, ?_⟩
      · rw [← finderModule_swap]
        exact hf j hj i hi _ (by simp)
      · simp only [Orientation.row, if_true]
        rw [flipIndex_far (by omega)]
  · cases sw
    · refine key fx (!fy) (fun i _ => q.side - 1 - i) (fun _ j => j) ?_
      intro i hi j hj
      refine ⟨by omega, by omega, hf i hi j hj _ (by simp), rfl, ?_⟩
      simp only [Orientation.row, Bool.false_eq_true, if_false]
      rw [flipIndex_far (by omega)]
    · refine key (!fx) fy (fun _ j => q.side - 1 - j) (fun i _ => i) ?_
      intro i hi j hj
      refine ⟨by omega, by omega, ?_, ?_, rfl⟩
      · rw [← finderModule_swap]
        exact hf j hj i hi _ (by simp)
      · simp only [Orientation.column, if_true]
        rw [flipIndex_far (by omega)]

theorem mem_turnedFinders {ρ : Orientation} {v m ox oy : Nat} {f : Nat × Nat} (h : f ∈ turnedFinders ρ v m ox oy) :
    f ∈ [tlFinder ρ v m ox oy, trFinder ρ v m ox oy, blFinder ρ v m ox oy] := by
  obtain ⟨fx, fy, sw⟩ := ρ
  unfold turnedFinders at h
  unfold tlFinder trFinder blFinder
  cases fx <;> cases fy <;> cases sw <;> simp at h ⊢ <;> tauto

/-- The order of the finder patterns. -/
theorem turnedFinders_order {ρ : Orientation} {v m ox oy : Nat} (hm : 1 ≤ m) :
    (turnedFinders ρ v m ox oy).Pairwise (ScanOrder m) := by
  have h10 : 10 * m ≤ (4 * v + 10) * m := Nat.mul_le_mul_right _ (by omega)
  obtain ⟨fx, fy, sw⟩ := ρ
  unfold turnedFinders cornerFinder ScanOrder
  generalize (4 * v + 10) * m = d at *
  cases fx <;> cases fy <;> simp <;> omega

end Verif
