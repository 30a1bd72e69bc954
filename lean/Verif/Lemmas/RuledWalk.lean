import Verif.Lemmas.Walk

/-!
# `refine` on a line through five runs
-/
namespace Verif
namespace LineScan
open F64 FinderPattern Spec

section
variable {img : GrayImage} {ms : F64} {diag : Bool} {P : Nat → Nat × Nat} {col : Nat → U8} {n : Nat}

/-- The patterns that end before five runs `a, b, c, d, e` after `k` other positions are complete. -/
def Early5 (k a b c d : Nat) (s : FinderPattern) : Prop :=
  s.total ≤ k + a + b ∨ (s.p6 = c ∧ s.total ≤ k + a + b + c) ∨ (s.p5 = c ∧ s.total ≤ k + a + b + c + d)

/-- Dark and light runs `a, b, c, d, e` after `k` other positions, of which the last `g` are light. -/
theorem walk_five (hp : ∀ t < n, img.getPixel (P t).1 (P t).2 = .ret (col t)) (hn : n < 2 ^ 32) {g k a b c d e : Nat}
    (hg : 1 ≤ g) (ha : 1 ≤ a) (hb : 1 ≤ b) (hc : 1 ≤ c) (hd : 1 ≤ d) (he : 1 ≤ e) (hkg : k ≤ 10 * g) (hka : k ≤ 10 * a)
    (hab : a ≤ 10 * b) (hbc : b ≤ 10 * c) (hcd : c ≤ 10 * d) (hK : k + a + b + c + d + e ≤ n)
    (h0 : ∀ t < k, k ≤ t + g → col t = 255#8)
    (h1 : ∀ t, k ≤ t → t < k + a → col t = 0#8)
    (h2 : ∀ t, k + a ≤ t → t < k + a + b → col t = 255#8)
    (h3 : ∀ t, k + a + b ≤ t → t < k + a + b + c → col t = 0#8)
    (h4 : ∀ t, k + a + b + c ≤ t → t < k + a + b + c + d → col t = 255#8)
    (h5 : ∀ t, k + a + b + c + d ≤ t → t < k + a + b + c + d + e → col t = 0#8)
    (h6 : k + a + b + c + d + e < n → col (k + a + b + c + d + e) = 255#8)
    (hacc : ∀ p0 p1, (FinderPattern.mk p0 p1 a b c d e).total < 2 ^ 32 → ∀ x y, ∃ pos,
      accept ms diag ⟨p0, p1, a, b, c, d, e⟩ x y = .ret (some pos)) :
    (∃ s x y pos, s.total < 2 ^ 32 ∧ Early5 k a b c d s ∧ accept ms diag s x y = .ret (some pos) ∧
        walk img ms diag P n 0 127#8 {} (0, 0) = .ret (some pos)) ∨
    ∃ p0 p1, (FinderPattern.mk p0 p1 a b c d e).total < 2 ^ 32 ∧
      walk img ms diag P n 0 127#8 {} (0, 0) =
        accept ms diag ⟨p0, p1, a, b, c, d, e⟩
          (P (min (k + a + b + c + d + e) (n - 1))).1 (P (min (k + a + b + c + d + e) (n - 1))).2 := by
  have start : (∃ s x y pos, s.total ≤ k ∧ accept ms diag s x y = .ret (some pos) ∧
        walk img ms diag P n 0 127#8 {} (0, 0) = .ret (some pos)) ∨
      ∃ s lp l, walk img ms diag P n 0 127#8 {} (0, 0) = walk img ms diag P n k lp s l ∧ s.total ≤ k ∧
        lp ≠ 0#8 ∧ min g k ≤ s.p6 := by
    by_cases hk0 : k = 0
    · right
      subst hk0
      exact ⟨{}, 127#8, (0, 0), rfl, by simp [total], by decide, by simp⟩
    · rcases walk_start (ms := ms) (diag := diag) hp hn (k - min g k + 1) (by omega) with
        ⟨s, x, y, pos, a1, a2, a3⟩ | ⟨s, lp, l, a1, a2, a3, -⟩
      · left; exact ⟨s, x, y, pos, by omega, a2, a3⟩
      · right
        obtain ⟨e1, e2⟩ := a3 (by omega)
        rw [Nat.add_sub_cancel, h0 _ (by omega) (by omega)] at e1
        rw [a1]
        rw [walk_block hp hn (min g k - 1) (k - min g k + 1) s l (by omega) a2 (by
          intro t t1 t2; rw [e1]; exact h0 t (by omega) (by omega))]
        rw [show k - min g k + 1 + (min g k - 1) = k by omega]
        refine ⟨_, lp, _, rfl, ?_, by rw [e1]; decide, by simp only; omega⟩
        unfold total at a2 ⊢; simp only; omega
  rcases start with ⟨s, x, y, pos, a1, a2, a3⟩ | ⟨s, lp, l, a1, a2, a3, a4⟩
  · left; exact ⟨s, x, y, pos, by omega, Or.inl (by omega), a2, a3⟩
  rw [a1]
  obtain ⟨p0, p1, p2, p3, p4, p5, p6⟩ := s
  have hs : p5 ≤ 10 * p6 := by unfold total at a2; simp only at a2 a4; omega
  unfold total at a2; simp only at a2
  rcases walk_run (ms := ms) (diag := diag) hp hn (j := k) (b := a) (c := 0#8) (lp := lp)
    (s := ⟨p0, p1, p2, p3, p4, p5, p6⟩) (l := l) ha (by omega)
    (by unfold total; simp only; omega) (Or.inl (by simp only; omega)) (Ne.symm a3) h1 with ⟨pos, b1, b2⟩ | b1
  · left
    exact ⟨_, _, _, pos, by unfold total; simp only; omega, Or.inl (by unfold total; simp only; omega), b1, b2⟩
  rw [b1]; clear b1
  simp only
  rcases walk_run (ms := ms) (diag := diag) hp hn (j := k + a) (b := b) (c := 255#8) (lp := 0#8)
    (s := ⟨p1, p2, p3, p4, p5, p6, a⟩) (l := P (k + a - 1)) hb (by omega)
    (by unfold total; simp only; omega) (Or.inl (by simp only; omega)) (by decide) h2 with ⟨pos, b1, b2⟩ | b1
  · left
    exact ⟨_, _, _, pos, by unfold total; simp only; omega, Or.inl (by unfold total; simp only; omega), b1, b2⟩
  rw [b1]; clear b1
  simp only
  rcases walk_run (ms := ms) (diag := diag) hp hn (j := k + a + b) (b := c) (c := 0#8) (lp := 255#8)
    (s := ⟨p2, p3, p4, p5, p6, a, b⟩) (l := P (k + a + b - 1)) hc (by omega)
    (by unfold total; simp only; omega) (Or.inl (by simp only; omega)) (by decide) h3 with ⟨pos, b1, b2⟩ | b1
  · left
    exact ⟨_, _, _, pos, by unfold total; simp only; omega, Or.inl (by unfold total; simp only; omega), b1, b2⟩
  rw [b1]; clear b1
  simp only
  rcases walk_run (ms := ms) (diag := diag) hp hn (j := k + a + b + c) (b := d) (c := 255#8) (lp := 0#8)
    (s := ⟨p3, p4, p5, p6, a, b, c⟩) (l := P (k + a + b + c - 1)) hd (by omega)
    (by unfold total; simp only; omega) (Or.inl (by simp only; omega)) (by decide) h4 with ⟨pos, b1, b2⟩ | b1
  · left
    exact ⟨_, _, _, pos, by unfold total; simp only; omega, Or.inr (Or.inl ⟨rfl, by unfold total; simp only; omega⟩), b1, b2⟩
  rw [b1]; clear b1
  simp only
  rcases walk_run (ms := ms) (diag := diag) hp hn (j := k + a + b + c + d) (b := e) (c := 0#8) (lp := 255#8)
    (s := ⟨p4, p5, p6, a, b, c, d⟩) (l := P (k + a + b + c + d - 1)) he (by omega)
    (by unfold total; simp only; omega) (Or.inl (by simp only; omega)) (by decide) h5 with ⟨pos, b1, b2⟩ | b1
  · left
    exact ⟨_, _, _, pos, by unfold total; simp only; omega, Or.inr (Or.inr ⟨rfl, by unfold total; simp only; omega⟩), b1, b2⟩
  rw [b1]; clear b1
  simp only
  right
  have ht : (FinderPattern.mk p5 p6 a b c d e).total < 2 ^ 32 := by unfold total; simp only; omega
  refine ⟨p5, p6, ht, ?_⟩
  by_cases hlt : k + a + b + c + d + e < n
  · rw [show min (k + a + b + c + d + e) (n - 1) = k + a + b + c + d + e by omega]
    obtain ⟨pos, hpos⟩ := hacc p5 p6 ht (P (k + a + b + c + d + e)).1 (P (k + a + b + c + d + e)).2
    rw [hpos]
    unfold walk
    rw [walk_split hlt]
    exact loop_found (hp _ hlt) (by rw [h6 hlt]; decide) hpos
  · have hn' : n = k + a + b + c + d + e := by omega
    rw [show min (k + a + b + c + d + e) (n - 1) = k + a + b + c + d + e - 1 by omega]
    rw [← hn']
    exact walk_end

end
end LineScan
end Verif
