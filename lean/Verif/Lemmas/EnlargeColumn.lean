import Verif.Lemmas.Enlarge

/-!
# Columns of enlarged images
-/
namespace Verif
namespace LineScan
open F64 FinderPattern Spec

theorem cut_one {k : Nat} {rs : List Nat} {x : Nat} {tl : List Nat} (h : cut k rs = x :: tl) :
    ∃ r rs', rs = r :: rs' ∧ x ≤ r := by
  cases rs with
  | nil => simp [cut] at h
  | cons r rs =>
    refine ⟨r, rs, rfl, ?_⟩
    unfold cut at h
    split at h
    · cases h
    · split at h
      · injection h with h1 h2; omega
      · injection h with h1 h2; omega

theorem cut_two {k : Nat} {rs : List Nat} {x y : Nat} {tl : List Nat} (h : cut k rs = x :: y :: tl) :
    ∃ rs', rs = x :: rs' ∧ x < k ∧ cut (k - x) rs' = y :: tl := by
  cases rs with
  | nil => simp [cut] at h
  | cons r rs =>
    unfold cut at h
    split at h
    · cases h
    · split at h
      · injection h with h1 h2; cases h2
      · injection h with h1 h2
        subst h1
        exact ⟨rs, rfl, by omega, h2⟩

theorem steady_cut {k : Nat} {rs : List Nat} (h : Steady rs) : Steady (cut k rs) := by
  match hc : cut k rs with
  | [] => trivial
  | [_] => trivial
  | [_, _] => trivial
  | b :: a :: c :: tl =>
    obtain ⟨rs1, rfl, -, h1⟩ := cut_two hc
    obtain ⟨rs2, rfl, -, h2⟩ := cut_two h1
    obtain ⟨r, rs3, rfl, -⟩ := cut_one h2
    exact h

theorem map_cons_inv {m : Nat} {rs : List Nat} {x : Nat} {l : List Nat} (h : rs.map (m * ·) = x :: l) :
    ∃ r rs', rs = r :: rs' ∧ x = m * r ∧ l = rs'.map (m * ·) := by
  cases rs with
  | nil => simp at h
  | cons r rs =>
    rw [List.map_cons] at h
    injection h with h1 h2
    exact ⟨r, rs, rfl, h1.symm, h2.symm⟩

section
variable {img g : GrayImage} {m : Nat}

theorem upFrom_drop (c : Nat) : ∀ (k n : Nat), k ≤ n → (upFrom img c 0 n).drop k = upFrom img c 0 (n - k) := by
  intro k
  induction k with
  | zero => intro n _; rfl
  | succ k ih =>
    intro n hn
    obtain ⟨n, rfl⟩ : ∃ i, n = i + 1 := ⟨n - 1, by omega⟩
    rw [upFrom_succ _ (Nat.zero_le _), List.drop_succ_cons, ih n (by omega)]
    congr 1; omega

theorem upFrom_take (c top : Nat) : ∀ n, (upFrom img c 0 (top + n)).take n = upFrom img c top (top + n) := by
  intro n
  induction n with
  | zero => simp [upFrom]
  | succ n ih =>
    rw [← Nat.add_assoc, upFrom_succ _ (Nat.zero_le _), upFrom_succ _ (by omega), List.take_succ_cons, ih]

theorem upFrom_runs_ne (c : Nat) {n : Nat} (h : 0 < n) : ∃ e rest, runs (upFrom g c 0 n) = (e + 1) :: rest := by
  obtain ⟨n, rfl⟩ : ∃ i, n = i + 1 := ⟨n - 1, by omega⟩
  rw [upFrom_succ _ (Nat.zero_le _)]
  exact runs_ne_nil _ _

/-- The end of the run of a column that contains a given pixel. -/
theorem run_around (hm : 0 < m) (c : Nat) {i : Nat} : ∀ (fuel I : Nat) {e : Nat} {rest : List Nat}, 0 < I →
    I + fuel = g.height → runs (upFrom g c 0 I) = e :: rest → I * m < i + e * m → i ≤ I * m →
    ∃ I e rest, 0 < I ∧ I ≤ g.height ∧ (I = g.height ∨ grey g c (I - 1) ≠ grey g c I) ∧
      runs (upFrom g c 0 I) = e :: rest ∧ I * m < i + e * m ∧ i ≤ I * m := by
  intro fuel
  induction fuel with
  | zero => intro I e rest h0 hI hr h1 h2; exact ⟨I, e, rest, h0, by omega, Or.inl (by omega), hr, h1, h2⟩
  | succ fuel ih =>
    intro I e rest h0 hI hr h1 h2
    by_cases hc : grey g c (I - 1) ≠ grey g c I
    · exact ⟨I, e, rest, h0, by omega, Or.inr hc, hr, h1, h2⟩
    · rw [not_not] at hc
      obtain ⟨J, rfl⟩ : ∃ k, I = k + 1 := ⟨I - 1, by omega⟩
      rw [Nat.add_sub_cancel] at hc
      refine ih (J + 1 + 1) (e := e + 1) (rest := rest) (by omega) (by omega) ?_ ?_ ?_
      · rw [upFrom_succ _ (Nat.zero_le _)]
        rw [upFrom_succ _ (Nat.zero_le _)] at hr ⊢
        rw [hc] at hr ⊢
        exact runs_same hr
      · rw [Nat.succ_mul, Nat.succ_mul e]; omega
      · rw [Nat.succ_mul (J + 1)]; omega

/-- The part of a column above a pixel. -/
theorem window_runs (he : Enlarged img g m) (hm : 0 < m) {c : Nat} (hc : c < img.width) {I i top e : Nat} {rest : List Nat}
    (hI : I ≤ g.height) (hr : runs (upFrom g (c / m) 0 I) = e :: rest) (h1 : I * m < i + e * m) (h2 : i ≤ I * m)
    (htop : top ≤ i) :
    runs (upFrom img c top i) = cut (i - top) ((i + e * m - I * m) :: rest.map (m * ·)) := by
  have hcol := enlarged_column he hm hc I hI
  have hd := upFrom_drop (img := img) c (I * m - i) (I * m) (by omega)
  rw [show I * m - (I * m - i) = i by omega, hcol] at hd
  have ht := upFrom_take (img := img) c top (i - top)
  rw [show top + (i - top) = i by omega, ← hd] at ht
  rw [← ht, runs_take]
  congr 1
  apply runs_drop
  · rw [runs_stretch hm, hr, List.map_cons]
    congr 1
    rw [Nat.mul_comm m e]
    omega
  · omega

/-- Nothing that could be confirmed in some enlargement: nothing is confirmed in this one. -/
theorem enlarged_not_confirmed (he : Enlarged img g m) (hm : 0 < m) {c y T : Nat} (hc : c < img.width)
    (hy : y < img.height) (h : NeverConfirmed g (c / m) (y / m) T) : NotConfirmed img c y (m * T) := by
  unfold NotConfirmed
  simp only
  have hbh : min ((14 * y + 7 + 10 * (m * T)) / 14) img.height ≤ img.height := min_le_right _ _
  have hb14 : min ((14 * y + 7 + 10 * (m * T)) / 14) img.height ≤ (14 * y + 7 + 10 * (m * T)) / 14 := min_le_left _ _
  generalize min ((14 * y + 7 + 10 * (m * T)) / 14) img.height = bottom at *
  obtain ⟨top, ht14⟩ : ∃ top, (14 * y + 7 - 10 * (m * T)) / 14 = top := ⟨_, rfl⟩
  rw [ht14]
  intro i hi htop hor
  have hih : i ≤ g.height * m := by rw [← he.2.1]; omega
  have hy1 := Nat.div_add_mod' y m
  have hy2 := Nat.mod_lt y hm
  generalize hYd : y / m = Y at *
  have hg0 : 0 < g.height := by
    rcases Nat.eq_zero_or_pos g.height with h0 | h0
    · rw [h0] at hih; omega
    · exact h0
  refine ⟨?_, ?_⟩
  · intro hib
    have hch := hor.resolve_left (by omega)
    rw [he.2.2 _ hc _ (by omega), he.2.2 _ hc _ (by omega)] at hch
    obtain ⟨h1, h2, h3⟩ := div_changes (x := i) hm (by omega) (fun e => hch (by rw [e]))
    rw [h2] at hch
    generalize i / m = I at *
    have hIH : I < g.height := by
      have : I * m < g.height * m := by rw [← he.2.1]; omega
      exact Nat.lt_of_mul_lt_mul_right this
    obtain ⟨e, rest, hr⟩ := upFrom_runs_ne (g := g) (c / m) h3
    have hst := (h I (by omega) h3 (Or.inr hch)).1 hIH (by
      have : 2 * m * (7 * Y) < 2 * m * (7 * I + 5 * T) := by
        have e1 : 2 * m * (7 * Y) = 14 * (Y * m) := by ring
        have e2 : 2 * m * (7 * I + 5 * T) = 14 * (I * m) + 10 * (m * T) := by ring
        rw [e1, e2]; omega
      exact Nat.lt_of_mul_lt_mul_left this) (by
      have : 2 * m * (7 * I) < 2 * m * (7 * (Y + 1) + 5 * T) := by
        have e1 : 2 * m * (7 * I) = 14 * (I * m) := by ring
        have e2 : 2 * m * (7 * (Y + 1) + 5 * T) = 14 * (Y * m) + 14 * m + 10 * (m * T) := by ring
        rw [e1, e2]; omega
      exact Nat.lt_of_mul_lt_mul_left this)
    rw [window_runs he hm hc (by omega) hr (by rw [Nat.succ_mul]; omega) (by omega) (by omega)]
    apply steady_cut
    rw [hr] at hst
    rw [show (i + (e + 1) * m - I * m) = m * (e + 1) by rw [Nat.mul_comm m]; omega,
      ← List.map_cons (f := fun x => m * x), steady_scale hm]
    exact hst
  · intro u hu
    have hI0 := Nat.div_add_mod' (i - 1) m
    have hI1 := Nat.mod_lt (i - 1) hm
    have hI2 : (i - 1) / m < g.height := Nat.div_lt_of_lt_mul (by rw [Nat.mul_comm]; omega)
    generalize (i - 1) / m = J at *
    obtain ⟨e0, rest0, hr0⟩ := upFrom_runs_ne (g := g) (c / m) (n := J + 1) (by omega)
    obtain ⟨I, e, rest, h0, hIH, hend, hr, b1, b2⟩ := run_around (g := g) (i := i) hm (c / m) (g.height - (J + 1))
      (J + 1)
      (by omega) (by omega) hr0 (by rw [Nat.succ_mul, Nat.succ_mul]; omega) (by rw [Nat.succ_mul]; omega)
    have hspec := (h I hIH h0 hend).2
    rw [window_runs he hm hc hIH hr b1 b2 (by omega)] at hu
    unfold finderEnd at hu
    match hcut : cut (i - top) ((i + e * m - I * m) :: rest.map (m * ·)) with
    | [] => rw [hcut] at hu; cases hu
    | [_] => rw [hcut] at hu; cases hu
    | [_, _] => rw [hcut] at hu; cases hu
    | [_, _, _] => rw [hcut] at hu; cases hu
    | [_, _, _, _] => rw [hcut] at hu; cases hu
    | e' :: d' :: c' :: b' :: a' :: tl =>
      rw [hcut] at hu
      simp only at hu
      split at hu
      swap
      · cases hu
      rename_i hshape
      injection hu with hu
      obtain ⟨rs1, q1, k1, hcut⟩ := cut_two hcut
      injection q1 with q1 q1'
      obtain ⟨rs2, q2, k2, hcut⟩ := cut_two hcut
      obtain ⟨rs3, q3, k3, hcut⟩ := cut_two hcut
      obtain ⟨rs4, q4, k4, hcut⟩ := cut_two hcut
      obtain ⟨a0, rs5, q5, k5⟩ := cut_one hcut
      rw [q2] at q1'
      obtain ⟨d, rest1, rfl, rfl, r1⟩ := map_cons_inv q1'
      rw [q3] at r1
      obtain ⟨cc, rest2, rfl, rfl, r2⟩ := map_cons_inv r1.symm
      rw [q4] at r2
      obtain ⟨b, rest3, rfl, rfl, r3⟩ := map_cons_inv r2.symm
      rw [q5] at r3
      obtain ⟨a, rest4, rfl, rfl, r4⟩ := map_cons_inv r3.symm
      rw [hr] at hspec
      simp only at hspec
      intro hsim
      refine hspec ?_ ?_ ⟨m, a', e', hm, k5, ?_, hshape, ?_⟩
      · have : 2 * m * (7 * Y + 7 * (e + d + cc + b)) < 2 * m * (7 * I + 5 * T) := by
          have e1 : 2 * m * (7 * Y + 7 * (e + d + cc + b)) =
            14 * (Y * m) + 14 * (e * m) + 14 * (m * d) + 14 * (m * cc) + 14 * (m * b) := by ring
          have e2 : 2 * m * (7 * I + 5 * T) = 14 * (I * m) + 10 * (m * T) := by ring
          rw [e1, e2]; omega
        exact Nat.lt_of_mul_lt_mul_left this
      · have : 2 * m * (7 * I) < 2 * m * (7 * (Y + 1) + 5 * T + 7 * e) := by
          have e1 : 2 * m * (7 * I) = 14 * (I * m) := by ring
          have e2 : 2 * m * (7 * (Y + 1) + 5 * T + 7 * e) = 14 * (Y * m) + 14 * m + 10 * (m * T) + 14 * (e * m) := by ring
          rw [e1, e2]; omega
        exact Nat.lt_of_mul_lt_mul_left this
      · rw [Nat.mul_comm m e]; omega
      · rw [hu]; exact hsim

end
end LineScan
end Verif
