import Verif.Lemmas.RuledHit

/-!
# The diagonal refinement at a finder pattern whose modules differ by a pixel
-/
namespace Verif
namespace LineScan
open F64 FinderPattern Spec

theorem max_step {u v a b n : Nat} (a1 : n ≤ a) (a2 : a ≤ n + 1) (b1 : n ≤ b) (b2 : b ≤ n + 1) :
    ∃ A, max (u + a) (v + b) = max u v + A ∧ n ≤ A ∧ A ≤ n + 1 :=
  ⟨max (u + a) (v + b) - max u v, by omega, by omega, by omega⟩

theorem min_step {u v a b n : Nat} (a1 : n ≤ a) (a2 : a ≤ n + 1) (b1 : n ≤ b) (b2 : b ≤ n + 1) :
    ∃ A, min (u + a) (v + b) = min u v + A ∧ n ≤ A ∧ A ≤ n + 1 :=
  ⟨min (u + a) (v + b) - min u v, by omega, by omega, by omega⟩

theorem mid_step {u v c c' d : Nat} (h1 : u ≤ v + 3) (h2 : v ≤ u + 5) (hd : 8 ≤ d) (a1 : d ≤ c) (a2 : c ≤ d + 1)
    (b1 : d ≤ c') (b2 : c' ≤ d + 1) :
    ∃ C, min (u + c) (v + c') = max u v + C ∧ d ≤ C + 5 ∧ C ≤ d + 1 :=
  ⟨min (u + c) (v + c') - max u v, by omega, by omega, by omega⟩

theorem diag_shape {n d3 a b c d e : Nat} (hn : 8 ≤ n) (h3 : 3 * n ≤ d3) (h3' : d3 ≤ 3 * n + 2) (a1 : n ≤ a)
    (a2 : a ≤ n + 1) (b1 : n ≤ b) (b2 : b ≤ n + 1) (c1 : d3 ≤ c + 5) (c2 : c ≤ d3 + 1) (d1 : n ≤ d) (d2 : d ≤ n + 1)
    (e1 : n ≤ e) (e2 : e ≤ n + 1) : FinderShaped a b c d e ∧ a + b + c + d + e < 3 * c := by
  unfold FinderShaped
  simp only
  refine ⟨⟨?_, ⟨?_, ?_⟩, ⟨?_, ?_⟩, ⟨?_, ?_⟩, ⟨?_, ?_⟩, ⟨?_, ?_⟩⟩, ?_⟩ <;> linarith

/-- What the greater of two numbers is. -/
theorem max_facts {u v w : Nat} (h : max u v = w) : u ≤ w ∧ v ≤ w ∧ (u = w ∨ v = w) := by omega

theorem min_facts {u v w : Nat} (h : min u v = w) : w ≤ u ∧ w ≤ v ∧ (u = w ∨ v = w) := by omega

theorem lt_of_sub {a b c : Nat} (h : b < c - a) : a + b < c := by omega

section
variable {img : GrayImage} {x y : Lines} {n d3 d5 d7 : Nat}

set_option maxHeartbeats 1000000 in
/-- A diagonal that passes the inner square almost in its corner. -/
theorem ruled_diagonal_walk (hv : img.Valid) (h : Ruled img x y n d3 d5 d7) {sx sy ex ey : Nat} (h1 : sx ≤ x.a0)
    (h2 : sy ≤ y.a0) (h3 : x.a0 ≤ sx + 8 * n) (h4 : y.a0 ≤ sy + 8 * n) (h5 : y.a2 + sx ≤ x.a2 + sy + 5)
    (h6 : x.a2 + sy ≤ y.a2 + sx + 3) (hex : x.a7 ≤ ex) (hex' : ex ≤ img.width) (hey : y.a7 ≤ ey)
    (hey' : ey ≤ img.height) (ms : F64) :
    ∃ pos, refine img ms ((rangeList sx ex).zip (rangeList sy ey)) true = .ret (some pos) := by
  have hw := hv.2.1
  have hh := hv.2.2
  obtain ⟨k, a, b, c, d, e, e0, e1, e2, e5, e6, e7, w1, w2, w3, w4, w5, w6, w7, w8, w9, w10, -, -, -, -⟩ := h.cols.split h1
  obtain ⟨k', a', b', c', d', e', e0', e1', e2', e5', e6', e7', w1', w2', w3', w4', w5', w6', w7', w8', w9', w10', -, -, -, -⟩ :=
    h.rows.split h2
  have hn := h.big
  have f2 := h.thrice.1
  have f3 := h.thrice.2
  have dark := h.dark
  have light := h.light
  rw [e0, e1, e2, e5, e6, e7, e0', e1', e2', e5', e6', e7'] at dark light
  rw [e0] at h3
  rw [e0'] at h4
  rw [e2, e2'] at h5 h6
  rw [e7] at hex
  rw [e7'] at hey
  clear e0 e1 e2 e5 e6 e7 e0' e1' e2' e5' e6' e7' h1 h2
  obtain ⟨A, hA, A1, A2⟩ := max_step (u := k) (v := k') w1 w2 w1' w2'
  obtain ⟨B, hB, B1, B2⟩ := max_step (u := k + a) (v := k' + a') w3 w4 w3' w4'
  obtain ⟨C, hC, C1, C2⟩ := mid_step (u := k + a + b) (v := k' + a' + b') (c := c) (c' := c') (d := d3)
    (by linarith) (by linarith) (by linarith) w5 w6 w5' w6'
  obtain ⟨D, hD, D1, D2⟩ := min_step (u := k + a + b + c) (v := k' + a' + b' + c') w7 w8 w7' w8'
  obtain ⟨E, hE, E1, E2⟩ := min_step (u := k + a + b + c + d) (v := k' + a' + b' + c' + d') w9 w10 w9' w10'
  obtain ⟨K, hK⟩ : ∃ K, max k k' = K := ⟨_, rfl⟩
  rw [hK] at hA
  rw [hA] at hB
  rw [hB] at hC
  rw [hC] at hD
  rw [hD] at hE
  obtain ⟨m0, m0', m0''⟩ := max_facts hK
  obtain ⟨m1, m1', m1''⟩ := max_facts hA
  obtain ⟨m2, m2', m2''⟩ := max_facts hB
  obtain ⟨m5, m5', m5''⟩ := min_facts hC
  obtain ⟨m6, m6', m6''⟩ := min_facts hD
  obtain ⟨m7, m7', m7''⟩ := min_facts hE
  clear hK hA hB hC hD hE
  generalize hN : min (ex - sx) (ey - sy) = N
  have hNl : K + A + B + C + D + E ≤ N := by
    rw [← hN]
    refine le_min (Nat.le_sub_of_add_le (by linarith)) (Nat.le_sub_of_add_le (by linarith))
  have hNx : ∀ t < N, sx + t < ex ∧ sy + t < ey := by
    intro t ht
    have g1 := lt_of_lt_of_le ht (hN ▸ min_le_left _ _)
    have g2 := lt_of_lt_of_le ht (hN ▸ min_le_right _ _)
    exact ⟨lt_of_sub g1, lt_of_sub g2⟩
  have hp : ∀ t < N, img.getPixel ((fun t => (sx + t, sy + t)) t).1 ((fun t => (sx + t, sy + t)) t).2 =
      .ret (pix img (sx + t) (sy + t)) := by
    intro t ht
    obtain ⟨g1, g2⟩ := hNx t ht
    exact getPixel_pix hv (by simp only; linarith) (by simp only; linarith)
  have hN32 : N < 2 ^ 32 := by
    have : N ≤ ex := by rw [← hN]; exact le_trans (min_le_left _ _) (Nat.sub_le _ _)
    linarith
  have hshape := diag_shape hn f2 f3 A1 A2 B1 B2 C1 C2 D1 D2 E1 E2
  have hacc : ∀ p0 p1, (FinderPattern.mk p0 p1 A B C D E).total < 2 ^ 32 → ∀ i j, ∃ pos,
      accept ms true ⟨p0, p1, A, B, C, D, E⟩ i j = .ret (some pos) := by
    intro p0 p1 ht i j
    exact ⟨_, accept_some ht (shaped_looks ht hshape.1 (ne_of_lt hshape.2)) (by simp)⟩
  clear hNx
  have hKn : K ≤ 8 * n := by rcases m0'' with g | g <;> linarith
  have := walk_five (ms := ms) (diag := true) (P := fun t => (sx + t, sy + t))
    (col := fun t => pix img (sx + t) (sy + t)) hp hN32 (g := n) (k := K)
    (a := A) (b := B) (c := C) (d := D) (e := E) (by linarith) (by linarith) (by linarith) (by linarith)
    (by linarith) (by linarith) (by linarith) (by linarith) (by linarith) (by linarith) (by linarith) hNl
    (fun t t1 t2 => light _ _ (by linarith) (by linarith) (by linarith) (by linarith) (by
      rcases m0'' with g | g
      · exact .inl (by linarith)
      · exact .inr (.inl (by linarith))))
    (fun t t1 t2 => dark _ _ (by linarith) (by linarith) (by linarith) (by linarith) (by
      rcases m1'' with g | g
      · exact .inl (by linarith)
      · exact .inr (.inr (.inl (by linarith)))))
    (fun t t1 t2 => light _ _ (by linarith) (by linarith) (by linarith) (by linarith) (by
      refine .inr (.inr (.inr (.inr ⟨by linarith, by linarith, by linarith, by linarith, ?_⟩)))
      rcases m2'' with g | g
      · exact .inl (by linarith)
      · exact .inr (.inr (.inl (by linarith)))))
    (fun t t1 t2 => dark _ _ (by linarith) (by linarith) (by linarith) (by linarith)
      (.inr (.inr (.inr (.inr ⟨by linarith, by linarith, by linarith, by linarith⟩)))))
    (fun t t1 t2 => light _ _ (by linarith) (by linarith) (by linarith) (by linarith) (by
      refine .inr (.inr (.inr (.inr ⟨by linarith, by linarith, by linarith, by linarith, ?_⟩)))
      rcases m5'' with g | g
      · exact .inr (.inl (by linarith))
      · exact .inr (.inr (.inr (by linarith)))))
    (fun t t1 t2 => dark _ _ (by linarith) (by linarith) (by linarith) (by linarith) (by
      rcases m6'' with g | g
      · exact .inr (.inl (by linarith))
      · exact .inr (.inr (.inr (.inl (by linarith))))))
    (fun t1 => light _ _ (by linarith) (by linarith) (by linarith) (by linarith) (by
      rcases m7'' with g | g
      · exact .inr (.inr (.inl (by linarith)))
      · exact .inr (.inr (.inr (.inl (by linarith))))))
    hacc
  unfold refine
  rw [show (rangeList sx ex).zip (rangeList sy ey) =
      (List.range' 0 (N - 0)).map fun t => (sx + t, sy + t) by
    unfold rangeList
    apply List.ext_getElem
    · simp [hN]
    · intro i h1 h2
      simp]
  unfold walk at this
  rcases this with ⟨s, x, y, pos, ht, he, ha, h⟩ | ⟨p0, p1, ht, h⟩
  · exact ⟨pos, h⟩
  · rw [h]
    exact hacc _ _ ht _ _

end
end LineScan
end Verif
