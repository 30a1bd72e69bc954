import Verif.Spec.Enlarged
import Verif.Lemmas.Spurious

/-!
# Runs of enlarged images
-/
namespace Verif
namespace LineScan
open F64 FinderPattern Spec

theorem runs_pos {α : Type} [DecidableEq α] (l : List α) : ∀ n ∈ runs l, 0 < n := by
  induction l with
  | nil => intro n hn; simp [runs] at hn
  | cons a l ih =>
    cases l with
    | nil => intro n hn; simp [runs] at hn; omega
    | cons b l =>
      intro n hn
      by_cases h : a = b
      · subst h
        obtain ⟨k, ks, e⟩ := runs_ne_nil a l
        rw [runs_same e] at hn
        rw [List.mem_cons] at hn
        rcases hn with rfl | hn
        · omega
        · exact ih n (by rw [e]; exact List.mem_cons_of_mem _ hn)
      · rw [runs_diff h, List.mem_cons] at hn
        rcases hn with rfl | hn
        · omega
        · exact ih n hn

/-- Repeating every element. -/
def stretch {α : Type} (m : Nat) (l : List α) : List α := l.flatMap fun a => List.replicate m a

theorem stretch_cons {α : Type} (m : Nat) (a : α) (l : List α) : stretch m (a :: l) = List.replicate m a ++ stretch m l := by
  unfold stretch; rw [List.flatMap_cons]

theorem runs_grow {α : Type} [DecidableEq α] {a : α} {l : List α} {k : Nat} {ks : List Nat}
    (h : runs (a :: l) = k :: ks) (n : Nat) : runs (List.replicate n a ++ a :: l) = (k + n) :: ks := by
  induction n with
  | zero => exact h
  | succ n ih =>
    rw [List.replicate_succ, List.cons_append]
    cases n with
    | zero => exact runs_same h
    | succ n =>
      rw [List.replicate_succ, List.cons_append] at ih ⊢
      exact runs_same ih

theorem runs_stretch {α : Type} [DecidableEq α] {m : Nat} (hm : 0 < m) (l : List α) :
    runs (stretch m l) = (runs l).map (m * ·) := by
  obtain ⟨m, rfl⟩ : ∃ k, m = k + 1 := ⟨m - 1, by omega⟩
  induction l with
  | nil => rfl
  | cons a l ih =>
    cases l with
    | nil =>
      rw [stretch_cons, show stretch (m + 1) ([] : List α) = [] from rfl]
      rw [runs_replicate a m [] (by simp)]
      simp [runs]
    | cons b l =>
      rw [stretch_cons]
      by_cases h : a = b
      · subst h
        obtain ⟨k, ks, e⟩ := runs_ne_nil a l
        rw [runs_same e]
        rw [e] at ih
        rw [stretch_cons] at ih ⊢
        rw [List.map_cons] at ih
        refine (runs_grow (a := a) (l := List.replicate m a ++ stretch (m + 1) l) ih (m + 1)).trans ?_
        simp only [List.map_cons, List.cons.injEq, and_true]
        ring
      · rw [runs_diff h, runs_replicate a m _ (by
          intro c hc
          rw [stretch_cons, List.replicate_succ, List.cons_append, List.head?_cons] at hc
          injection hc with hc
          rw [← hc]; exact h), ih]
        simp

/-- The first `k` elements of a sequence of runs. -/
def cut : Nat → List Nat → List Nat
  | _, [] => []
  | k, r :: rs => if k = 0 then [] else if k ≤ r then [k] else r :: cut (k - r) rs

theorem cut_zero (rs : List Nat) : cut 0 rs = [] := by cases rs <;> simp [cut]

theorem runs_take {α : Type} [DecidableEq α] (l : List α) : ∀ k, runs (l.take k) = cut k (runs l) := by
  induction l with
  | nil => intro k; rw [List.take_nil]; rfl
  | cons a l ih =>
    intro k
    cases k with
    | zero => rw [List.take_zero, cut_zero]; rfl
    | succ k =>
      rw [List.take_succ_cons]
      cases l with
      | nil => rw [List.take_nil]; simp [runs, cut]
      | cons b l =>
        cases k with
        | zero =>
          obtain ⟨n, ns, e⟩ := runs_ne_nil a (b :: l)
          rw [e, List.take_zero]
          simp [runs, cut]
        | succ k =>
          have ih := ih (k + 1)
          rw [List.take_succ_cons] at ih ⊢
          by_cases h : a = b
          · subst h
            obtain ⟨n, ns, e⟩ := runs_ne_nil a l
            obtain ⟨n', ns', e'⟩ := runs_ne_nil a (l.take k)
            rw [runs_same e, runs_same e']
            rw [e, e'] at ih
            unfold cut at ih ⊢
            rw [if_neg (by omega)] at ih ⊢
            split at ih
            · rename_i hk
              rw [if_pos (by omega)]
              simp only [List.cons.injEq] at ih ⊢
              exact ⟨by omega, ih.2⟩
            · rename_i hk
              rw [if_neg (by omega)]
              simp only [List.cons.injEq] at ih ⊢
              refine ⟨by omega, ?_⟩
              rw [ih.2]; congr 1; omega
          · rw [runs_diff h, runs_diff h, ih]
            conv_rhs => unfold cut
            rw [if_neg (by omega), if_neg (by omega)]
            rfl

theorem runs_tail {α : Type} [DecidableEq α] {a : α} {l : List α} {k : Nat} {ks : List Nat}
    (h : runs (a :: l) = (k + 2) :: ks) : runs l = (k + 1) :: ks := by
  cases l with
  | nil => simp [runs] at h
  | cons b l =>
    by_cases hab : a = b
    · subst hab
      obtain ⟨n, ns, e⟩ := runs_ne_nil a l
      rw [runs_same e] at h
      rw [e]
      simp only [List.cons.injEq] at h ⊢
      exact ⟨by omega, h.2⟩
    · rw [runs_diff hab] at h
      simp at h

theorem runs_drop {α : Type} [DecidableEq α] {k : Nat} {ks : List Nat} :
    ∀ (j : Nat) {l : List α}, runs l = (k + j) :: ks → 0 < k → runs (l.drop j) = k :: ks := by
  intro j
  induction j with
  | zero => intro l h _; exact h
  | succ j ih =>
    intro l h hk
    cases l with
    | nil => simp [runs] at h
    | cons a l =>
      rw [List.drop_succ_cons]
      apply ih _ hk
      obtain ⟨k, rfl⟩ : ∃ i, k = i + 1 := ⟨k - 1, by omega⟩
      have := runs_tail (k := k + j) (ks := ks) (a := a) (l := l) (by rw [h]; congr 1; omega)
      rw [this]; congr 1; omega

section
variable {img g : GrayImage} {m : Nat}

theorem block_div (X : Nat) {n m : Nat} (h : n < m) : (X * m + n) / m = X := by
  rw [Nat.add_comm, Nat.add_mul_div_right _ _ (by omega), Nat.div_eq_of_lt h, Nat.zero_add]

theorem enlarged_row (he : Enlarged img g m) (hm : 0 < m) {y : Nat} (hy : y < img.height) :
    ∀ X ≤ g.width, leftOf img (X * m) y = stretch m (leftOf g X (y / m)) := by
  intro X
  induction X with
  | zero => intro _; simp [leftOf, stretch]
  | succ X ih =>
    intro hX
    rw [leftOf_succ, stretch_cons, ← ih (by omega)]
    have : ∀ n ≤ m, leftOf img (X * m + n) y = List.replicate n (grey g X (y / m)) ++ leftOf img (X * m) y := by
      intro n
      induction n with
      | zero => intro _; rfl
      | succ n ihn =>
        intro hn
        rw [← Nat.add_assoc, leftOf_succ, ihn (by omega), List.replicate_succ, List.cons_append]
        congr 1
        have hlt : X * m + n < img.width := by
          rw [he.1]
          have : (X + 1) * m ≤ g.width * m := Nat.mul_le_mul_right _ hX
          rw [Nat.succ_mul] at this
          omega
        rw [he.2.2 _ hlt _ hy, block_div X (by omega)]
    rw [Nat.succ_mul]
    exact this m (le_refl _)

theorem enlarged_column (he : Enlarged img g m) (hm : 0 < m) {x : Nat} (hx : x < img.width) :
    ∀ Y ≤ g.height, upFrom img x 0 (Y * m) = stretch m (upFrom g (x / m) 0 Y) := by
  intro Y
  induction Y with
  | zero => intro _; simp [upFrom, stretch]
  | succ Y ih =>
    intro hY
    rw [upFrom_succ _ (Nat.zero_le _), stretch_cons, ← ih (by omega)]
    have : ∀ n ≤ m, upFrom img x 0 (Y * m + n) = List.replicate n (grey g (x / m) Y) ++ upFrom img x 0 (Y * m) := by
      intro n
      induction n with
      | zero => intro _; rfl
      | succ n ihn =>
        intro hn
        rw [← Nat.add_assoc, upFrom_succ _ (Nat.zero_le _), ihn (by omega), List.replicate_succ, List.cons_append]
        congr 1
        have hlt : Y * m + n < img.height := by
          rw [he.2.1]
          have : (Y + 1) * m ≤ g.height * m := Nat.mul_le_mul_right _ hY
          rw [Nat.succ_mul] at this
          omega
        rw [he.2.2 _ hx _ hlt, block_div Y (by omega)]
    rw [Nat.succ_mul]
    exact this m (le_refl _)

/-- Colours change at multiples of the factor only. -/
theorem div_changes (hm : 0 < m) {x : Nat} (hx : 0 < x) (h : (x - 1) / m ≠ x / m) :
    x = x / m * m ∧ (x - 1) / m = x / m - 1 ∧ 0 < x / m := by
  have e := Nat.div_add_mod' x m
  by_cases h0 : x % m = 0
  · have hx' : x = x / m * m := by omega
    have hpos : 0 < x / m := by
      rcases Nat.eq_zero_or_pos (x / m) with h | h
      · rw [h] at hx'; omega
      · exact h
    refine ⟨hx', ?_, hpos⟩
    obtain ⟨k, hk⟩ : ∃ k, x / m = k + 1 := ⟨x / m - 1, by omega⟩
    rw [hk] at hx' ⊢
    rw [Nat.succ_mul] at hx'
    rw [show x - 1 = k * m + (m - 1) by omega, block_div k (by omega)]
    omega
  · exfalso
    apply h
    have hlt := Nat.mod_lt x hm
    have := block_div (x / m) (n := x % m - 1) (m := m) (by omega)
    rw [show x / m * m + (x % m - 1) = x - 1 by omega] at this
    exact this

theorem enlarged_changes (he : Enlarged img g m) (hm : 0 < m) {x y : Nat} (hx : x < img.width) (hy : y < img.height)
    (h : changesAt img x y) : x = x / m * m ∧ 0 < x / m ∧ x / m < g.width ∧ changesAt g (x / m) (y / m) := by
  have h0 : 0 < x := by
    rcases Nat.eq_zero_or_pos x with h0 | h0
    · subst h0; exact absurd rfl h
    · exact h0
  unfold changesAt at h ⊢
  rw [he.2.2 _ (by omega) _ hy, he.2.2 _ hx _ hy] at h
  obtain ⟨h1, h2, h3⟩ := div_changes hm h0 (fun e => h (by rw [e]))
  refine ⟨h1, h3, ?_, ?_⟩
  · rw [he.1] at hx
    exact Nat.div_lt_of_lt_mul (by rwa [Nat.mul_comm])
  · rw [h2] at h; exact h

theorem steady_scale (hm : 0 < m) (rs : List Nat) : Steady (rs.map (m * ·)) ↔ Steady rs := by
  unfold Steady
  rcases rs with _ | ⟨b, _ | ⟨a, _ | ⟨c, rs⟩⟩⟩
  · simp
  · simp
  · simp
  · simp only [List.map_cons]
    rw [show 10 * (m * b) = m * (10 * b) by ring, Nat.mul_le_mul_left_iff hm]

theorem enlarged_steady (he : Enlarged img g m) (hm : 0 < m) {y : Nat} (hy : y < img.height)
    (h : SteadyRow g g.width (y / m)) : SteadyRow img img.width y := by
  intro x hx hc
  obtain ⟨h1, h2, h3, h4⟩ := enlarged_changes he hm hx hy hc
  have := h _ h3 h4
  rw [h1, enlarged_row he hm hy _ (by omega), runs_stretch hm, steady_scale hm]
  exact this

theorem shape_scale (hm : 0 < m) {a b c d e : Nat} (h : FinderShaped (m * a) (m * b) (m * c) (m * d) (m * e)) :
    FinderShaped (7 * a) (7 * b) (7 * c) (7 * d) (7 * e) := by
  unfold FinderShaped at h ⊢
  simp only at h ⊢
  obtain ⟨h0, ⟨h1, h2⟩, ⟨h3, h4⟩, ⟨h5, h6⟩, ⟨h7, h8⟩, h9, h10⟩ := h
  have et : m * a + m * b + m * c + m * d + m * e = m * (a + b + c + d + e) := by ring
  rw [et] at h0 h1 h2 h3 h4 h5 h6 h7 h8 h9 h10
  have le1 : ∀ k z : Nat, k * (m * (a + b + c + d + e)) ≤ 21 * (m * z) → k * (a + b + c + d + e) ≤ 21 * z := by
    intro k z hz
    apply Nat.le_of_mul_le_mul_left _ hm
    calc m * (k * (a + b + c + d + e)) = k * (m * (a + b + c + d + e)) := by ring
      _ ≤ _ := hz
      _ = _ := by ring
  have le2 : ∀ k z : Nat, 21 * (m * z) ≤ k * (m * (a + b + c + d + e)) → 21 * z ≤ k * (a + b + c + d + e) := by
    intro k z hz
    apply Nat.le_of_mul_le_mul_left _ hm
    calc m * (21 * z) = 21 * (m * z) := by ring
      _ ≤ _ := hz
      _ = _ := by ring
  have g1 := le1 1 a (by rw [Nat.one_mul]; exact h1)
  have g2 := le2 5 a h2
  have g3 := le1 1 b (by rw [Nat.one_mul]; exact h3)
  have g4 := le2 5 b h4
  have g5 := le1 7 c h5
  have g6 := le2 11 c h6
  have g7 := le1 1 d (by rw [Nat.one_mul]; exact h7)
  have g8 := le2 5 d h8
  have g9 := le1 1 e (by rw [Nat.one_mul]; exact h9)
  have g10 := le2 5 e h10
  have hpos : 0 < a + b + c + d + e := by
    rcases Nat.eq_zero_or_pos (a + b + c + d + e) with h | h
    · rw [h] at h0; omega
    · exact h
  clear le1 le2 h0 h1 h2 h3 h4 h5 h6 h7 h8 h9 h10 et
  refine ⟨?_, ⟨?_, ?_⟩, ⟨?_, ?_⟩, ⟨?_, ?_⟩, ⟨?_, ?_⟩, ?_, ?_⟩ <;> omega

theorem finderEnd_scale (hm : 0 < m) {rs : List Nat} {t : Nat} (h : finderEnd (rs.map (m * ·)) = some t) :
    ∃ T, shapeEnd rs = some T ∧ t = m * T := by
  unfold finderEnd at h
  unfold shapeEnd
  rcases rs with _ | ⟨e, _ | ⟨d, _ | ⟨c, _ | ⟨b, _ | ⟨a, rs⟩⟩⟩⟩⟩
  · simp at h
  · simp at h
  · simp at h
  · simp at h
  · simp at h
  · simp only [List.map_cons] at h ⊢
    split at h
    · rename_i hs
      rw [if_pos (shape_scale hm hs)]
      refine ⟨_, rfl, ?_⟩
      injection h with h
      rw [← h]; ring
    · cases h

end
end LineScan
end Verif
