import Verif.Lemmas.EnlargeColumn

/-!
# What a scan of an enlarged image can find
-/
namespace Verif
namespace LineScan
open F64 FinderPattern Spec

section
variable {img g : GrayImage} {m : Nat}

theorem shapeEnd_le {rs : List Nat} {t : Nat} (h : shapeEnd rs = some t) : t ≤ rs.sum ∧ 0 < t := by
  unfold shapeEnd at h
  rcases rs with _ | ⟨e, _ | ⟨d, _ | ⟨c, _ | ⟨b, _ | ⟨a, rs⟩⟩⟩⟩⟩
  · cases h
  · cases h
  · cases h
  · cases h
  · cases h
  · simp only at h
    split at h
    · rename_i hs
      injection h with h
      have := hs.1
      simp only [List.sum_cons]
      omega
    · cases h

/-- The middle of a row of pixels that looks like a finder pattern. -/
theorem middle_change (hm : 2 ≤ m) {X T c : Nat} (hT : T ≤ X) (h1 : 2 * (X * m) ≤ 2 * c + m * T + 1)
    (h2 : 2 * c + m * T ≤ 2 * (X * m) + 1) : c / m = X - (T + 1) / 2 := by
  rcases Nat.even_or_odd' T with ⟨K, rfl | rfl⟩
  · obtain ⟨J, rfl⟩ : ∃ J, X = J + K := ⟨X - K, by omega⟩
    rw [show m * (2 * K) = 2 * (K * m) by ring, Nat.add_mul] at h1 h2
    rw [show (2 * K + 1) / 2 = K by omega, Nat.add_sub_cancel]
    have : c = J * m + 0 := by omega
    rw [this, block_div J (by omega)]
  · obtain ⟨J, rfl⟩ : ∃ J, X = J + (K + 1) := ⟨X - (K + 1), by omega⟩
    rw [show m * (2 * K + 1) = 2 * (K * m) + m by ring, show (J + (K + 1)) * m = J * m + K * m + m by ring] at h1 h2
    rw [show (2 * K + 1 + 1) / 2 = K + 1 by omega, Nat.add_sub_cancel]
    obtain ⟨n, hn⟩ : ∃ n, c = J * m + n := ⟨c - J * m, by omega⟩
    rw [hn, block_div J (by omega)]

theorem middle_end (hm : 2 ≤ m) {X T c x : Nat} (hx : x + 1 = X * m) (hT : T ≤ X) (hT0 : 2 ≤ T) (h1 : 2 * x ≤ 2 * c + m * T + 1)
    (h2 : 2 * c + m * T ≤ 2 * x + 1) : c / m = X - (T + 2) / 2 := by
  rcases Nat.even_or_odd' T with ⟨K, rfl | rfl⟩
  · obtain ⟨J, rfl⟩ : ∃ J, X = J + (K + 1) := ⟨X - (K + 1), by omega⟩
    rw [show m * (2 * K) = 2 * (K * m) by ring] at h1 h2
    rw [Nat.add_mul, Nat.succ_mul] at hx
    rw [show (2 * K + 2) / 2 = K + 1 by omega, Nat.add_sub_cancel]
    obtain ⟨n, hn⟩ : ∃ n, c = J * m + n := ⟨c - J * m, by omega⟩
    rw [hn, block_div J (by omega)]
  · obtain ⟨J, rfl⟩ : ∃ J, X = J + (K + 1) := ⟨X - (K + 1), by omega⟩
    rw [show m * (2 * K + 1) = 2 * (K * m) + m by ring] at h1 h2
    rw [Nat.add_mul, Nat.succ_mul] at hx
    rw [show (2 * K + 1 + 2) / 2 = K + 1 by omega, Nat.add_sub_cancel]
    obtain ⟨n, hn⟩ : ∃ n, c = J * m + n := ⟨c - J * m, by omega⟩
    rw [hn, block_div J (by omega)]

/-- Where a row looks like a finder pattern. -/
theorem enlarged_hit (he : Enlarged img g m) (hm : 2 ≤ m) {x y t : Nat} (hx : x < img.width) (hy : y < img.height)
    (h : finderEnd (runsAt img x y) = some t) :
    ∃ X T, X ≤ g.width ∧ RunEnd g X (y / m) ∧ shapeEnd (runs (leftOf g X (y / m))) = some T ∧ t = m * T ∧
      (X < g.width ∧ x = X * m ∨ X = g.width ∧ x + 1 = X * m) ∧
      ∀ c, 2 * x ≤ 2 * c + t + 1 → 2 * c + t ≤ 2 * x + 1 → c / m = middleColumn g X T := by
  unfold runsAt at h
  split at h
  · rename_i hc
    obtain ⟨h1, h2, h3, h4⟩ := enlarged_changes he (by omega) hx hy hc
    generalize x / m = X at *
    subst h1
    rw [enlarged_row he (by omega) hy _ (by omega), runs_stretch (by omega)] at h
    obtain ⟨T, hT, rfl⟩ := finderEnd_scale (by omega) h
    have hTX := (shapeEnd_le hT).1
    rw [leftOf_runs_sum] at hTX
    refine ⟨X, T, by omega, Or.inr ⟨h3, h4⟩, hT, rfl, Or.inl ⟨h3, rfl⟩, ?_⟩
    intro c c1 c2
    unfold middleColumn
    rw [if_neg (by omega)]
    exact middle_change hm hTX c1 c2
  · split at h
    · rename_i hend
      rw [he.1, enlarged_row he (by omega) hy _ (le_refl _), runs_stretch (by omega)] at h
      obtain ⟨T, hT, rfl⟩ := finderEnd_scale (by omega) h
      have hTX := (shapeEnd_le hT).1
      have h5 : 5 ≤ T := by
        have hp := runs_pos (leftOf g g.width (y / m))
        unfold shapeEnd at hT
        generalize runs (leftOf g g.width (y / m)) = rs at *
        rcases rs with _ | ⟨e, _ | ⟨d, _ | ⟨c, _ | ⟨b, _ | ⟨a, rs⟩⟩⟩⟩⟩
        · cases hT
        · cases hT
        · cases hT
        · cases hT
        · cases hT
        · simp only at hT
          split at hT
          · injection hT with hT
            have p1 := hp e (by simp)
            have p2 := hp d (by simp)
            have p3 := hp c (by simp)
            have p4 := hp b (by simp)
            have p5 := hp a (by simp)
            omega
          · cases hT
      rw [leftOf_runs_sum] at hTX
      refine ⟨g.width, T, le_refl _, Or.inl rfl, hT, rfl, Or.inr ⟨rfl, by rw [← he.1]; exact hend⟩, ?_⟩
      intro c c1 c2
      unfold middleColumn
      rw [if_pos rfl]
      exact middle_end hm (by rw [← he.1]; exact hend) hTX (by omega) c1 c2
    · cases h

/-- Positions in the enlarged image. -/
def scaled (m : Nat) (fs : List (Nat × Nat)) : List (Nat × Nat) := fs.map fun f => (f.1 * m, f.2 * m)

theorem mem_scaled {fs : List (Nat × Nat)} {f : Nat × Nat} : f ∈ scaled m fs ↔ ∃ F ∈ fs, f = (F.1 * m, F.2 * m) := by
  unfold scaled; rw [List.mem_map]; constructor
  · rintro ⟨F, h, rfl⟩; exact ⟨F, h, rfl⟩
  · rintro ⟨F, h, rfl⟩; exact ⟨F, h, rfl⟩

theorem enlarged_own (hm : 2 ≤ m) {fs : List (Nat × Nat)} {X x y : Nat} (hx : x = X * m)
    (h : ∃ f ∈ fs, X = f.1 + 7 ∧ f.2 + 2 ≤ y / m ∧ y / m < f.2 + 5) :
    ∃ f ∈ scaled m fs, x = f.1 + 7 * m ∧ f.2 + 2 * m ≤ y ∧ y < f.2 + 5 * m := by
  obtain ⟨f, hf, rfl, b1, b2⟩ := h
  refine ⟨(f.1 * m, f.2 * m), mem_scaled.mpr ⟨f, hf, rfl⟩, ?_, ?_, ?_⟩
  · rw [hx]; ring
  · have := Nat.mul_le_mul_right m b1
    have h2 := Nat.div_mul_le_self y m
    simp only
    rw [Nat.add_mul] at this
    omega
  · have := (Nat.div_lt_iff_lt_mul (by omega)).mp b2
    simp only
    rw [Nat.add_mul] at this
    exact this

theorem enlarged_no_others (he : Enlarged img g m) (hm : 2 ≤ m) {fs : List (Nat × Nat)}
    (hfs : ∀ f ∈ fs, f.1 + 7 < g.width) (h : NeverOthers g fs) : NoOtherFinders img m (scaled m fs) := by
  intro y hy x hx t ht
  obtain ⟨X, T, hX, hre, hT, rfl, hcase, hmid⟩ := enlarged_hit he hm hx hy ht
  have hY : y / m < g.height := Nat.div_lt_of_lt_mul (by rw [Nat.mul_comm, ← he.2.1]; exact hy)
  rcases h _ hY X hX hre T hT with hown | hnc
  · rcases hcase with ⟨-, hx'⟩ | ⟨hW, -⟩
    · exact Or.inl (enlarged_own hm hx' hown)
    · obtain ⟨f, hf, hf', -⟩ := hown
      have := hfs f hf
      omega
  · right
    intro c hc c1 c2
    have := hmid c c1 c2
    rw [← this] at hnc
    exact enlarged_not_confirmed he (by omega) hc hy hnc

theorem enlarged_no_others_near (he : Enlarged img g m) (hm : 2 ≤ m) {fs : List (Nat × Nat)}
    (hfs : ∀ f ∈ fs, f.1 + 7 < g.width) (h : NeverOthersNear g fs) : NoOtherFindersNear img m (scaled m fs) := by
  intro y hy x hx t ht
  obtain ⟨X, T, hX, hre, hT, rfl, hcase, hmid⟩ := enlarged_hit he hm hx hy ht
  have hY : y / m < g.height := Nat.div_lt_of_lt_mul (by rw [Nat.mul_comm, ← he.2.1]; exact hy)
  rcases h _ hY X hX hre T hT with hown | hnc | hfar
  · rcases hcase with ⟨-, hx'⟩ | ⟨hW, -⟩
    · exact Or.inl (enlarged_own hm hx' hown)
    · obtain ⟨f, hf, hf', -⟩ := hown
      have := hfs f hf
      omega
  · right; left
    intro c hc c1 c2
    have := hmid c c1 c2
    rw [← this] at hnc
    exact enlarged_not_confirmed he (by omega) hc hy hnc
  · right; right
    intro f hf hbefore
    obtain ⟨F, hF, rfl⟩ := mem_scaled.mp hf
    have hF7 := hfs F hF
    have hy1 := Nat.div_add_mod' y m
    have hy2 := Nat.mod_lt y (show 0 < m by omega)
    generalize y / m = Y at *
    have hcond : Y < F.2 + 2 ∨ Y = F.2 + 2 ∧ X < F.1 + 7 := by
      simp only at hbefore
      rcases hbefore with hb | ⟨hb, hb'⟩
      · left
        have : Y * m < (F.2 + 2) * m := by rw [Nat.add_mul]; omega
        exact Nat.lt_of_mul_lt_mul_right this
      · right
        have e1 : Y * m + y % m = (F.2 + 2) * m + 0 := by rw [Nat.add_mul]; omega
        have e2 := congrArg (· / m) e1
        rw [block_div Y hy2, block_div _ (by omega)] at e2
        refine ⟨e2, ?_⟩
        rcases hcase with ⟨-, hx'⟩ | ⟨hW, hx'⟩
        · have : X * m < (F.1 + 7) * m := by rw [Nat.add_mul]; omega
          exact Nat.lt_of_mul_lt_mul_right this
        · exfalso
          have : (F.1 + 7 + 1) * m ≤ X * m := Nat.mul_le_mul_right _ (by omega)
          rw [Nat.add_mul, Nat.add_mul] at this
          omega
    have hxl : X * m ≤ x + 1 := by omega
    have hxu : x ≤ X * m := by omega
    unfold FarFrom
    rcases hfar F hF hcond with hf1 | hf1 | hf1
    · left
      have := Nat.mul_le_mul_right m hf1
      rw [Nat.add_mul, Nat.add_mul, Nat.mul_comm T m] at this
      omega
    · right; left
      have := Nat.mul_le_mul_right m hf1
      rw [Nat.add_mul] at this
      omega
    · right; right
      have := Nat.mul_le_mul_right m hf1
      rw [show (6 * (Y + 1) + 31 + 2 * T) * m = 6 * (Y * m) + 6 * m + 31 * m + 2 * (m * T) by ring,
        show 6 * F.2 * m = 6 * (F.2 * m) by ring] at this
      omega

end
end LineScan
end Verif
