import Verif.Lemmas.EnlargeDraw

/-!
# Thresholding images that are lit unevenly
-/
namespace Verif
open Spec LineScan BlockedMean

/-- Bounds for a sum of values that depend on a colour. -/
theorem sum_two {α : Type} (f : α → Nat) (c : α → Bool) {a b a' b' : Nat} (l : List α)
    (h : ∀ p ∈ l, (c p = true ∧ a ≤ f p ∧ f p ≤ a') ∨ (c p = false ∧ b ≤ f p ∧ f p ≤ b')) :
    a * (l.filter c).length + b * (l.filter fun p => !c p).length ≤ (l.map f).sum ∧
    (l.map f).sum ≤ a' * (l.filter c).length + b' * (l.filter fun p => !c p).length ∧
    (l.filter c).length + (l.filter fun p => !c p).length = l.length := by
  induction l with
  | nil => simp
  | cons p l ih =>
    obtain ⟨i1, i2, i3⟩ := ih fun p hp => h p (by simp [hp])
    rw [List.map_cons, List.sum_cons]
    rcases h p (by simp) with ⟨hc, h1, h2⟩ | ⟨hc, h1, h2⟩
    · rw [List.filter_cons_of_pos hc, List.filter_cons_of_neg (by simp [hc]), List.length_cons, List.length_cons,
        Nat.mul_succ, Nat.mul_succ]
      omega
    · rw [List.filter_cons_of_neg (by simp [hc]), List.filter_cons_of_pos (by simp [hc]), List.length_cons, List.length_cons,
        Nat.mul_succ, Nat.mul_succ]
      omega

/-- The arithmetic: `n` dark and `k` light pixels, with sum `T`. -/
theorem lit_arith {d l s n k T : Nat} (h1 : d + 7 * s < l) (h2 : d ≤ 215) (h3 : 40 ≤ l) (h0 : 0 < n + k)
    (hn : n + k ≤ 8 * n) (hk : n + k ≤ 8 * k) (lo : (d - s) * n + l * k ≤ T) (hi : T ≤ d * n + (l + s) * k)
    (hi' : T ≤ d * n + 255 * k) :
    T ≤ 250 * (n + k) ∧ 5 * (n + k) ≤ T ∧ d * (n + k) ≤ T ∧ T < l * (n + k) := by
  have hn7 : k ≤ 7 * n := by omega
  have hk7 : n ≤ 7 * k := by omega
  have a1 : s * k ≤ s * (7 * n) := Nat.mul_le_mul_left _ hn7
  have a2 : s * n ≤ s * (7 * k) := Nat.mul_le_mul_left _ hk7
  obtain ⟨e, he⟩ : ∃ e, l = d + 7 * s + 1 + e := ⟨l - (d + 7 * s + 1), by omega⟩
  have d1 : d * n ≤ 215 * n := Nat.mul_le_mul_right _ h2
  have d2 : 40 * k ≤ l * k := Nat.mul_le_mul_right _ h3
  have s1 : d * n ≤ (d - s) * n + s * n := by rw [← Nat.add_mul]; exact Nat.mul_le_mul_right _ (by omega)
  refine ⟨by omega, ?_, ?_, ?_⟩
  · have : 0 ≤ (d - s) * n := Nat.zero_le _
    omega
  · have : d * k + s * (7 * k) ≤ l * k := by
      have : (d + s * 7) * k ≤ l * k := Nat.mul_le_mul_right _ (by omega)
      calc _ = (d + s * 7) * k := by ring
        _ ≤ _ := this
    rw [Nat.mul_add]
    omega
  · have : d * n + s * (7 * n) + n ≤ l * n := by
      have : (d + s * 7 + 1) * n ≤ l * n := Nat.mul_le_mul_right _ (by omega)
      calc _ = (d + s * 7 + 1) * n := by ring
        _ ≤ _ := this
    rw [Nat.add_mul] at hi
    rw [Nat.mul_add]
    omega

/-- What local thresholding makes of it. -/
theorem lit_threshold {src g : GrayImage} {m : Nat} (hlit : LitEnlargement src g m) (hs : src.Valid) (hm : WellMixed g m) :
    Enlarged (thresholded 5 7 src) g m ∧ (thresholded 5 7 src).Valid := by
  obtain ⟨cw, ch, hlit⟩ := hlit
  have hv : (enlarge g m).Valid := enlarge_valid (by rw [← cw]; exact hs.2.1) (by rw [← ch]; exact hs.2.2)
  have he := enlarge_enlarged g m
  have : thresholded 5 7 src = enlarge g m := by
    refine thresholded_eq cw ch hv ?_
    intro x hx y hy
    have hwin : window 5 7 (enlarge g m) x y = window 5 7 src x y := by
      unfold window
      rw [show (enlarge g m).width = src.width from cw.symm, show (enlarge g m).height = src.height from ch.symm]
    obtain ⟨d, l, s, h1, h2, h3, hp⟩ := hlit x (by rw [cw]; exact hx) y (by rw [ch]; exact hy)
    obtain ⟨h0, hb⟩ := hm.2 _ he x hx y hy 0 (Or.inl rfl)
    obtain ⟨-, hw⟩ := hm.2 _ he x hx y hy 255 (Or.inr rfl)
    unfold windowCount at h0 hb hw
    rw [hwin] at h0 hb hw
    have hin : ∀ p ∈ window 5 7 src x y, grey (enlarge g m) p.1 p.2 = grey g (p.1 / m) (p.2 / m) := by
      intro p hp
      unfold window at hp
      have := (List.mem_filter.mp hp).1
      rw [mem_positions] at this
      exact he.2.2 _ (by rw [show (enlarge g m).width = src.width from cw.symm]; exact this.1) _
        (by rw [show (enlarge g m).height = src.height from ch.symm]; exact this.2)
    have hsum := sum_two (fun p : Nat × Nat => grey src p.1 p.2) (fun p => grey (enlarge g m) p.1 p.2 = 0)
      (a := d - s) (a' := d) (b := l) (b' := l + s) (window 5 7 src x y) (by
        intro p hpw
        rw [hin p hpw]
        rcases hp p (by simp [hpw]) with ⟨e, g1, g2⟩ | ⟨e, g1, g2⟩
        · exact Or.inl ⟨by simp [e], by omega, g2⟩
        · exact Or.inr ⟨by simp [e], g1, g2⟩)
    have hsum' := sum_two (fun p : Nat × Nat => grey src p.1 p.2) (fun p => grey (enlarge g m) p.1 p.2 = 0)
      (a := 0) (a' := d) (b := 0) (b' := 255) (window 5 7 src x y) (by
        intro p hpw
        rw [hin p hpw]
        rcases hp p (by simp [hpw]) with ⟨e, g1, g2⟩ | ⟨e, g1, g2⟩
        · exact Or.inl ⟨by simp [e], by omega, g2⟩
        · exact Or.inr ⟨by simp [e], by omega, Props.grey_le _ _ _⟩)
    have hwhite : ((window 5 7 src x y).filter fun p => grey (enlarge g m) p.1 p.2 = 255) =
        (window 5 7 src x y).filter fun p => !decide (grey (enlarge g m) p.1 p.2 = 0) := by
      apply List.filter_congr
      intro p hpw
      rw [hin p hpw]
      rcases hp p (by simp [hpw]) with ⟨e, -⟩ | ⟨e, -⟩ <;> simp [e]
    rw [hwhite] at hw
    obtain ⟨l1, l2, l3⟩ := hsum
    obtain ⟨-, l4, -⟩ := hsum'
    generalize ((window 5 7 src x y).filter fun p => decide (grey (enlarge g m) p.1 p.2 = 0)).length = n at *
    generalize ((window 5 7 src x y).filter fun p => !decide (grey (enlarge g m) p.1 p.2 = 0)).length = k at *
    rw [← l3] at h0 hb hw
    obtain ⟨r1, r2, r3, r4⟩ := lit_arith h1 h2 h3 h0 hb hw l1 l2 l4
    have htot : windowTotal 5 7 src x y = ((window 5 7 src x y).map fun p => grey src p.1 p.2).sum := rfl
    have hcnt : windowCount 5 7 src x y = n + k := l3.symm
    rw [← htot] at r1 r2 r3 r4
    rw [he.2.2 x hx y hy]
    rcases hp (x, y) (by simp) with ⟨e, g1, g2⟩ | ⟨e, g1, g2⟩
    · simp only at e g2
      rw [e, if_neg]
      unfold BecomesWhite
      rw [hcnt]
      have : grey src x y * (n + k) ≤ d * (n + k) := Nat.mul_le_mul_right _ g2
      omega
    · simp only at e g1
      rw [e, if_pos]
      unfold BecomesWhite
      rw [hcnt]
      have : l * (n + k) ≤ grey src x y * (n + k) := Nat.mul_le_mul_right _ g1
      omega
  rw [this]
  exact ⟨he, hv⟩

end Verif
