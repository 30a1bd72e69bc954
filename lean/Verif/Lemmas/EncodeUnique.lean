import Verif.Lemmas.Encode

/-!
# Error correction codewords are unique
-/
namespace Verif
open Polynomial Spec

theorem blockPoly_coeff_ge (b : List U8) : ∀ i, b.length ≤ i → (blockPoly b).coeff i = 0 := by
  induction b with
  | nil => intro i _; simp [blockPoly]
  | cons c b ih =>
    intro i hi
    rw [List.length_cons] at hi
    rw [blockPoly, coeff_add, coeff_C_mul_X_pow, if_neg (by omega), ih i (by omega), add_zero]

theorem blockPoly_inj {a b : List U8} (hl : a.length = b.length) (h : blockPoly a = blockPoly b) : a = b := by
  induction a generalizing b with
  | nil => cases b with
    | nil => rfl
    | cons => simp at hl
  | cons x a ih =>
    cases b with
    | nil => simp at hl
    | cons y b =>
      simp only [List.length_cons, Nat.add_right_cancel_iff] at hl
      have hx : x = y := by
        have := congrArg (fun p => p.coeff a.length) h
        simp only [blockPoly, coeff_add, coeff_C_mul_X_pow, if_pos hl] at this
        rw [blockPoly_coeff_ge a _ (le_refl _), blockPoly_coeff_ge b _ (by omega), add_zero, add_zero, if_pos trivial] at this
        exact congrArg GF8.val this
      subst hx
      rw [ih hl]
      rw [blockPoly, blockPoly, hl] at h
      exact add_left_cancel h

/-- If data followed by `n` codewords is a code word, those are the error correction codewords of the data. -/
theorem ecCodewords_unique {n : Nat} (hn : 0 < n) {d e : List U8} (hl : e.length = n) (h : IsCodeword n (d ++ e)) :
    ecCodewords n d = e := by
  refine blockPoly_inj (by rw [length_ecCodewords, hl]) ?_
  rw [ecCodewords_poly n hn]
  unfold IsCodeword at h
  rw [blockPoly_append, hl] at h
  have hself : blockPoly e %ₘ generator n = blockPoly e := by
    rw [modByMonic_eq_self_iff (generator_monic n)]
    have hne : (generator n) ≠ 0 := (generator_monic n).ne_zero
    rw [degree_eq_natDegree hne, generator_degree, degree_lt_iff_coeff_zero]
    intro i hi
    exact blockPoly_coeff_ge e i (by omega)
  rw [← hself]
  refine modByMonic_eq_of_dvd_sub (generator_monic n) ?_
  have : blockPoly d * X ^ n - blockPoly e = blockPoly d * X ^ n + blockPoly e := by
    have := poly_add_self (blockPoly e)
    linear_combination -this
  rw [this]
  exact h

end Verif
