import Verif.Lemmas.Runs

/-!
# `refine` on a line through a finder pattern
-/
namespace Verif
namespace LineScan
open F64 FinderPattern Spec

/-- The loop of `refine` from position `j` on. -/
def walk (img : GrayImage) (ms : F64) (diag : Bool) (P : Nat → Nat × Nat) (n j : Nat) (lp : U8) (s : FinderPattern)
    (l : Nat × Nat) : Run (Option FinderPosition) :=
  refineLoop img ms diag ((List.range' j (n - j)).map P) lp s l.1 l.2

section
variable {img : GrayImage} {ms : F64} {diag : Bool} {P : Nat → Nat × Nat} {col : Nat → U8} {n : Nat}

theorem walk_end {lp : U8} {s : FinderPattern} {l : Nat × Nat} :
    walk img ms diag P n n lp s l = accept ms diag s l.1 l.2 := by
  unfold walk
  rw [Nat.sub_self]; rfl

theorem walk_split {j : Nat} (hj : j < n) :
    (List.range' j (n - j)).map P = P j :: (List.range' (j + 1) (n - (j + 1))).map P := by
  rw [show n - j = n - (j + 1) + 1 by omega, List.range'_succ, List.map_cons]

theorem walk_same (hp : ∀ t < n, img.getPixel (P t).1 (P t).2 = .ret (col t)) {j : Nat} (hj : j < n) {lp : U8}
    (hc : col j = lp) {s : FinderPattern} (ht : s.total + 1 < 2 ^ 32) {l : Nat × Nat} :
    walk img ms diag P n j lp s l = walk img ms diag P n (j + 1) lp { s with p6 := s.p6 + 1 } (P j) := by
  unfold walk
  rw [walk_split hj]
  exact loop_same (by rw [hp j hj, hc]) ht

theorem walk_block (hp : ∀ t < n, img.getPixel (P t).1 (P t).2 = .ret (col t)) (hn : n < 2 ^ 32) {lp : U8} :
    ∀ (b j : Nat) (s : FinderPattern) (l : Nat × Nat), j + b ≤ n → s.total ≤ j →
      (∀ t, j ≤ t → t < j + b → col t = lp) →
      walk img ms diag P n j lp s l =
        walk img ms diag P n (j + b) lp { s with p6 := s.p6 + b } (if b = 0 then l else P (j + b - 1)) := by
  intro b
  induction b with
  | zero => intro j s l _ _ _; rfl
  | succ b ih =>
    intro j s l hj ht hc
    rw [walk_same hp (by omega) (hc j (by omega) (by omega)) (by omega)]
    rw [ih (j + 1) _ _ (by omega) (by rw [(grow_ret (by omega)).2]; omega) (fun t h1 h2 => hc t (by omega) (by omega))]
    rw [show j + 1 + b = j + (b + 1) by omega, if_neg (show ¬ b + 1 = 0 by omega)]
    rw [show s.p6 + 1 + b = s.p6 + (b + 1) by omega]
    congr 1
    split
    · rename_i hb; subst hb; rfl
    · rfl

/-- A whole run of another colour. -/
theorem walk_run (hp : ∀ t < n, img.getPixel (P t).1 (P t).2 = .ret (col t)) (hn : n < 2 ^ 32) {lp c : U8}
    {b j : Nat} {s : FinderPattern} {l : Nat × Nat} (hb : 1 ≤ b) (hj : j + b ≤ n) (ht : s.total ≤ j)
    (hs : s.p5 ≤ 10 * s.p6 ∨ s.p4 = 0) (hne : c ≠ lp) (hc : ∀ t, j ≤ t → t < j + b → col t = c) :
    (∃ pos, accept ms diag s (P j).1 (P j).2 = .ret (some pos) ∧ walk img ms diag P n j lp s l = .ret (some pos)) ∨
    walk img ms diag P n j lp s l =
      walk img ms diag P n (j + b) c ⟨s.p1, s.p2, s.p3, s.p4, s.p5, s.p6, b⟩ (P (j + b - 1)) := by
  have hpj : img.getPixel (P j).1 (P j).2 = .ret c := by rw [hp j (by omega), hc j (by omega) (by omega)]
  obtain ⟨r, hr, -⟩ := accept_ret (ms := ms) (diag := diag) (s := s) (x := (P j).1) (y := (P j).2) (by omega)
  cases r with
  | some pos =>
    left
    refine ⟨pos, hr, ?_⟩
    unfold walk
    rw [walk_split (by omega)]
    exact loop_found hpj hne hr
  | none =>
    right
    have h1 : walk img ms diag P n j lp s l =
        walk img ms diag P n (j + 1) c ⟨s.p1, s.p2, s.p3, s.p4, s.p5, s.p6, 1⟩ (P j) := by
      unfold walk
      rw [walk_split (by omega)]
      exact loop_move hpj hne hr (slide_regular (by omega) hs)
    rw [h1, walk_block hp hn (b - 1) (j + 1) _ _ (by omega) (by unfold total at ht ⊢; simp only; omega)
      (fun t h1 h2 => hc t (by omega) (by omega))]
    rw [show j + 1 + (b - 1) = j + b by omega]
    simp only
    rw [show 1 + (b - 1) = b by omega]
    congr 1
    split
    · rw [show j + b - 1 = j by omega]
    · rfl

/-- Whatever comes first, the counters do not exceed the number of positions. -/
theorem walk_start (hp : ∀ t < n, img.getPixel (P t).1 (P t).2 = .ret (col t)) (hn : n < 2 ^ 32) :
    ∀ k ≤ n,
      (∃ s x y pos, s.total ≤ k ∧ accept ms diag s x y = .ret (some pos) ∧
        walk img ms diag P n 0 127#8 {} (0, 0) = .ret (some pos)) ∨
      ∃ s lp l, walk img ms diag P n 0 127#8 {} (0, 0) = walk img ms diag P n k lp s l ∧ s.total ≤ k ∧
        (0 < k → lp = col (k - 1) ∧ 1 ≤ s.p6) ∧ (k = 0 → lp = 127#8) := by
  intro k
  induction k with
  | zero => intro _; right; exact ⟨{}, 127#8, (0, 0), rfl, by simp [total], by simp, fun _ => rfl⟩
  | succ k ih =>
    intro hk
    rcases ih (by omega) with ⟨s, x, y, pos, h1, h2, h3⟩ | ⟨s, lp, l, h1, h2, -, -⟩
    · left; exact ⟨s, x, y, pos, by omega, h2, h3⟩
    · rw [h1]
      have hpk := hp k (by omega)
      by_cases hc : col k = lp
      · right
        refine ⟨_, lp, P k, walk_same hp (by omega) hc (by omega), ?_, ?_, by omega⟩
        · rw [(grow_ret (by omega)).2]; omega
        · intro _; exact ⟨by rw [← hc]; rfl, by simp⟩
      · obtain ⟨r, hr, -⟩ := accept_ret (ms := ms) (diag := diag) (s := s) (x := (P k).1) (y := (P k).2) (by omega)
        cases r with
        | some pos =>
          left
          refine ⟨s, _, _, pos, by omega, hr, ?_⟩
          unfold walk
          rw [walk_split (by omega)]
          exact loop_found hpk hc hr
        | none =>
          right
          have hs : ∃ s', s.slide = .ret s' ∧ s'.total ≤ s.total + 1 ∧ 1 ≤ s'.p6 := by
            obtain ⟨s', e, ht⟩ := slide_ret (s := s) (by omega)
            refine ⟨s', e, ht, ?_⟩
            unfold slide at e
            split at e
            · rename_i hlt
              rw [addU32_ret (by unfold total at h2; omega), Run.ret_bind] at e
              simp only [Run.pure_eq, Run.ret.injEq] at e
              rw [← e]
              simp only
              by_contra h0
              have e5 : s.p5 = 0 := by omega
              have e6 : s.p6 = 0 := by omega
              rw [e5, e6] at hlt
              rw [Bool.and_eq_true] at hlt
              have := hlt.1
              rw [ofNat_fin (by norm_num), lit_nat (by norm_num), div_fin (by norm_num) (by norm_num), lt_fin] at this
              simp only [Nat.cast_zero, zero_div, roundQ_zero, lt_irrefl, decide_false] at this
              exact absurd this (by simp)
            · simp only [Run.pure_eq, Run.ret.injEq] at e
              rw [← e]
          obtain ⟨s', e, ht, h6⟩ := hs
          refine ⟨s', col k, P k, ?_, by omega, fun _ => ⟨rfl, h6⟩, by omega⟩
          unfold walk
          rw [walk_split (by omega)]
          exact loop_move hpk hc hr e

/-- The patterns that end before a finder pattern is complete. -/
def Early (m c k : Nat) (s : FinderPattern) : Prop :=
  s.total ≤ k + 2 * m ∨ (s.p6 = c ∧ s.total ≤ k + 2 * m + c) ∨
    (s.p5 = c ∧ s.p6 = m ∧ s.total ≤ k + 3 * m + c)

/-- A finder pattern `m, m, c, m, m` after `k` other positions, of which the last `m` are light. -/
theorem walk_finder (hp : ∀ t < n, img.getPixel (P t).1 (P t).2 = .ret (col t)) (hn : n < 2 ^ 32) {m c k : Nat}
    (hm : 1 ≤ m) (hc1 : 1 ≤ c) (hc2 : m ≤ 10 * c) (hc3 : c ≤ 10 * m) (hk : k ≤ 10 * m) (hK : k + 4 * m + c ≤ n)
    (h0 : ∀ t < k, k ≤ t + m → col t = 255#8)
    (h1 : ∀ t, k ≤ t → t < k + m → col t = 0#8)
    (h2 : ∀ t, k + m ≤ t → t < k + 2 * m → col t = 255#8)
    (h3 : ∀ t, k + 2 * m ≤ t → t < k + 2 * m + c → col t = 0#8)
    (h4 : ∀ t, k + 2 * m + c ≤ t → t < k + 3 * m + c → col t = 255#8)
    (h5 : ∀ t, k + 3 * m + c ≤ t → t < k + 4 * m + c → col t = 0#8)
    (h6 : k + 4 * m + c < n → col (k + 4 * m + c) = 255#8)
    (hacc : ∀ p0 p1, (FinderPattern.mk p0 p1 m m c m m).total < 2 ^ 32 → ∀ x y, ∃ pos,
      accept ms diag ⟨p0, p1, m, m, c, m, m⟩ x y = .ret (some pos)) :
    (∃ s x y pos, s.total < 2 ^ 32 ∧ Early m c k s ∧ accept ms diag s x y = .ret (some pos) ∧
        walk img ms diag P n 0 127#8 {} (0, 0) = .ret (some pos)) ∨
    ∃ p0 p1, (FinderPattern.mk p0 p1 m m c m m).total < 2 ^ 32 ∧
      walk img ms diag P n 0 127#8 {} (0, 0) =
        accept ms diag ⟨p0, p1, m, m, c, m, m⟩
          (P (min (k + 4 * m + c) (n - 1))).1 (P (min (k + 4 * m + c) (n - 1))).2 := by
  -- up to the finder pattern
  have start : (∃ s x y pos, s.total ≤ k ∧ accept ms diag s x y = .ret (some pos) ∧
        walk img ms diag P n 0 127#8 {} (0, 0) = .ret (some pos)) ∨
      ∃ s lp l, walk img ms diag P n 0 127#8 {} (0, 0) = walk img ms diag P n k lp s l ∧ s.total ≤ k ∧
        lp ≠ 0#8 ∧ min m k ≤ s.p6 := by
    by_cases hk0 : k = 0
    · right
      subst hk0
      exact ⟨{}, 127#8, (0, 0), rfl, by simp [total], by decide, by simp⟩
    · rcases walk_start (ms := ms) (diag := diag) hp hn (k - min m k + 1) (by omega) with
        ⟨s, x, y, pos, a1, a2, a3⟩ | ⟨s, lp, l, a1, a2, a3, -⟩
      · left; exact ⟨s, x, y, pos, by omega, a2, a3⟩
      · right
        obtain ⟨e1, e2⟩ := a3 (by omega)
        rw [Nat.add_sub_cancel, h0 _ (by omega) (by omega)] at e1
        rw [a1]
        rw [walk_block hp hn (min m k - 1) (k - min m k + 1) s l (by omega) a2 (by
          intro t t1 t2; rw [e1]; exact h0 t (by omega) (by omega))]
        rw [show k - min m k + 1 + (min m k - 1) = k by omega]
        refine ⟨_, lp, _, rfl, ?_, by rw [e1]; decide, by simp only; omega⟩
        unfold total at a2 ⊢; simp only; omega
  rcases start with ⟨s, x, y, pos, a1, a2, a3⟩ | ⟨s, lp, l, a1, a2, a3, a4⟩
  · left; exact ⟨s, x, y, pos, by omega, Or.inl (by omega), a2, a3⟩
  rw [a1]
  obtain ⟨p0, p1, p2, p3, p4, p5, p6⟩ := s
  have hs : p5 ≤ 10 * p6 := by unfold total at a2; simp only at a2 a4; omega
  unfold total at a2; simp only at a2
  rcases walk_run (ms := ms) (diag := diag) hp hn (s := ⟨p0, p1, p2, p3, p4, p5, p6⟩) (lp := lp) (c := 0#8) (l := l) hm (show k + m ≤ n by omega)
    (by unfold total; simp only; omega) (Or.inl hs) (Ne.symm a3) h1 with ⟨pos, b1, b2⟩ | b
  · left; exact ⟨_, _, _, pos, by unfold total; simp only; omega, Or.inl (by unfold total; simp only; omega), b1, b2⟩
  rw [b]; clear b
  simp only
  rcases walk_run (ms := ms) (diag := diag) hp hn (j := k + m) (b := m) (c := 255#8) (lp := 0#8)
    (s := ⟨p1, p2, p3, p4, p5, p6, m⟩) (l := P (k + m - 1)) hm (by omega)
    (by unfold total; simp only; omega) (Or.inl (by simp only; omega)) (by decide)
    (fun t t1 t2 => h2 t (by omega) (by omega)) with ⟨pos, b1, b2⟩ | b
  · left; exact ⟨_, _, _, pos, by unfold total; simp only; omega, Or.inl (by unfold total; simp only; omega), b1, b2⟩
  rw [b]; clear b
  simp only
  rw [show k + m + m = k + 2 * m by omega]
  rcases walk_run (ms := ms) (diag := diag) hp hn (j := k + 2 * m) (b := c) (c := 0#8) (lp := 255#8)
    (s := ⟨p2, p3, p4, p5, p6, m, m⟩) (l := P (k + 2 * m - 1)) hc1 (by omega)
    (by unfold total; simp only; omega) (Or.inl (by simp only; omega)) (by decide) h3 with ⟨pos, b1, b2⟩ | b
  · left; exact ⟨_, _, _, pos, by unfold total; simp only; omega, Or.inl (by unfold total; simp only; omega), b1, b2⟩
  rw [b]; clear b
  simp only
  rcases walk_run (ms := ms) (diag := diag) hp hn (j := k + 2 * m + c) (b := m) (c := 255#8) (lp := 0#8)
    (s := ⟨p3, p4, p5, p6, m, m, c⟩) (l := P (k + 2 * m + c - 1)) hm (by omega)
    (by unfold total; simp only; omega) (Or.inl (by simp only; omega)) (by decide)
    (fun t t1 t2 => h4 t (by omega) (by omega)) with ⟨pos, b1, b2⟩ | b
  · left
    exact ⟨_, _, _, pos, by unfold total; simp only; omega,
      Or.inr (Or.inl ⟨rfl, by unfold total; simp only; omega⟩), b1, b2⟩
  rw [b]; clear b
  simp only
  rw [show k + 2 * m + c + m = k + 3 * m + c by omega]
  rcases walk_run (ms := ms) (diag := diag) hp hn (j := k + 3 * m + c) (b := m) (c := 0#8) (lp := 255#8)
    (s := ⟨p4, p5, p6, m, m, c, m⟩) (l := P (k + 3 * m + c - 1)) hm (by omega)
    (by unfold total; simp only; omega) (Or.inl (by simp only; omega)) (by decide)
    (fun t t1 t2 => h5 t (by omega) (by omega)) with ⟨pos, b1, b2⟩ | b
  · left
    exact ⟨_, _, _, pos, by unfold total; simp only; omega,
      Or.inr (Or.inr ⟨rfl, rfl, by unfold total; simp only; omega⟩), b1, b2⟩
  rw [b]; clear b
  simp only
  rw [show k + 3 * m + c + m = k + 4 * m + c by omega]
  right
  have ht : (FinderPattern.mk p5 p6 m m c m m).total < 2 ^ 32 := by unfold total; simp only; omega
  refine ⟨p5, p6, ht, ?_⟩
  by_cases hlt : k + 4 * m + c < n
  · rw [show min (k + 4 * m + c) (n - 1) = k + 4 * m + c by omega]
    obtain ⟨pos, hpos⟩ := hacc p5 p6 ht (P (k + 4 * m + c)).1 (P (k + 4 * m + c)).2
    rw [hpos]
    unfold walk
    rw [walk_split hlt]
    exact loop_found (hp _ hlt) (by rw [h6 hlt]; decide) hpos
  · have hn' : n = k + 4 * m + c := by omega
    rw [show min (k + 4 * m + c) (n - 1) = k + 4 * m + c - 1 by omega]
    rw [← hn']
    exact walk_end

end
end LineScan
end Verif
