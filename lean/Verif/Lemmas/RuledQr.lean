import Verif.Lemmas.RuledScan
import Verif.Props.Clear

/-!
# Three finder patterns whose modules differ by a pixel make one symbol
-/
namespace Verif
namespace LineScan
open F64 FinderPattern Spec

/-- Three candidates of similar sizes that make a symbol make it once. -/
theorem locations_three {a b c : FinderPosition} {loc : QRLocation}
    (h1 : F64.gt (diff a.module_size b.module_size) (F64.lit 1 10) = false)
    (h2 : F64.gt (diff a.module_size c.module_size) (F64.lit 1 10) = false)
    (h : findQr a.location b.location c.location a.module_size = .ret (some loc)) :
    locations [a, b, c] = .ret [loc] := by
  have empty3 : ∀ c1 c2, locations3 c1 c2 [] = .ret [] := fun _ _ => rfl
  have empty2 : ∀ c1, locations2 c1 [] = .ret [] := fun _ => rfl
  have empty1 : locations [] = .ret [] := rfl
  have three : locations3 a b [c] = .ret [loc] := by
    unfold locations3
    rw [h2]
    simp only [Bool.false_eq_true, if_false]
    rw [h, Run.ret_bind]
    simp only
    rw [empty3, Run.ret_bind]
    rfl
  have two : ∀ c1 c2, locations2 c1 [c2] = .ret [] := by
    intro c1 c2
    unfold locations2
    split
    · exact empty2 _
    · rw [empty3, empty2]; rfl
  have one : ∀ c1, locations [c1] = .ret [] := by
    intro c1
    unfold locations
    rw [empty2, empty1]; rfl
  have two1 : locations2 a [b, c] = .ret [loc] := by
    unfold locations2
    rw [h1]
    simp only [Bool.false_eq_true, if_false]
    rw [three, two]; rfl
  have one2 : locations [b, c] = .ret [] := by
    unfold locations
    rw [two, one]; rfl
  unfold locations
  rw [two1, one2]; rfl

set_option maxHeartbeats 800000 in
/-- The corners of a square with sides of `D` pixels, up to four pixels. -/
theorem clear_of_square {tl tr bl : Pt} {D μ : ℚ} {v : Nat} (hv : 1 ≤ v) (h1 : 7 ≤ μ)
    (ex : |tr.1 - tl.1 - D| ≤ 4) (fx : |tr.2 - tl.2| ≤ 4) (ey : |bl.1 - tl.1| ≤ 4) (fy : |bl.2 - tl.2 - D| ≤ 4)
    (lo : (4 * v + 10 - 19 / 10) * μ + 4 < D) (hi : D + 6 < (4 * v + 10 + 19 / 10) * μ) :
    Spec.ClearGeometry tl tr bl μ v := by
  have hv' : (1 : ℚ) ≤ v := by exact_mod_cast hv
  have hD : 80 ≤ D := by nlinarith
  have hD0 : 0 < (4 * (v : ℚ) + 10 - 19 / 10) * μ := by nlinarith
  obtain ⟨A, hA⟩ : ∃ A, A = tr.1 - tl.1 := ⟨_, rfl⟩
  obtain ⟨B, hB⟩ : ∃ B, B = bl.2 - tl.2 := ⟨_, rfl⟩
  obtain ⟨e, he⟩ : ∃ e, e = tr.2 - tl.2 := ⟨_, rfl⟩
  obtain ⟨f, hf⟩ : ∃ f, f = bl.1 - tl.1 := ⟨_, rfl⟩
  rw [← hA, abs_le] at ex
  rw [← hB, abs_le] at fy
  rw [← he, abs_le] at fx
  rw [← hf, abs_le] at ey
  have c : cross tl tr bl = A * B - e * f := by unfold cross; rw [hA, hB, he, hf]
  have d1 : dist2 tl tr = A ^ 2 + e ^ 2 := by unfold dist2; rw [hA, he]
  have d2 : dist2 tl bl = B ^ 2 + f ^ 2 := by unfold dist2; rw [hB, hf]; ring
  have e2 : e ^ 2 ≤ 16 := by nlinarith
  have f2 : f ^ 2 ≤ 16 := by nlinarith
  have ef : e * f ≤ 16 := by nlinarith [sq_nonneg (e - f)]
  have ef' : -16 ≤ e * f := by nlinarith [sq_nonneg (e + f)]
  have A1 : 76 ≤ A := by linarith
  have B1 : 76 ≤ B := by linarith
  have A2 : 5776 ≤ A ^ 2 := by nlinarith
  have B2 : 5776 ≤ B ^ 2 := by nlinarith
  have AB : 5776 ≤ A * B := by nlinarith
  have eA : e ^ 2 ≤ A ^ 2 / 361 := by linarith
  have fB : f ^ 2 ≤ B ^ 2 / 361 := by linarith
  have hfits : ∀ x y : ℚ, D - 4 ≤ x → x ≤ D + 4 → y ^ 2 ≤ 16 → ClearlyFits (x ^ 2 + y ^ 2) μ v := by
    intro x y x1 x2 hy
    constructor
    · have k1 : ((4 * (v : ℚ) + 10 - 19 / 10) * μ) ^ 2 < x ^ 2 :=
        pow_lt_pow_left₀ (by linarith) (le_of_lt hD0) (by norm_num)
      linarith [sq_nonneg y]
    · have k1 : (D + 6) ^ 2 < ((4 * (v : ℚ) + 10 + 19 / 10) * μ) ^ 2 :=
        pow_lt_pow_left₀ hi (by linarith) (by norm_num)
      have k2 : x ^ 2 ≤ (D + 4) ^ 2 := pow_le_pow_left₀ (by linarith) x2 2
      have k3 : (D + 4) ^ 2 + 16 ≤ (D + 6) ^ 2 := by
        have : (D + 6) ^ 2 = (D + 4) ^ 2 + 4 * D + 20 := by ring
        linarith
      linarith
  refine ⟨hv, by linarith, ?_, ?_, ?_, ?_⟩
  · rw [c]; linarith
  · rw [c, d1, d2]
    have hc : A * B * (360 / 361) ≤ A * B - e * f := by linarith
    have hs : (A * B * (360 / 361)) ^ 2 ≤ (A * B - e * f) ^ 2 := by
      apply pow_le_pow_left₀ (by positivity) hc
    have hp : (A ^ 2 + e ^ 2) * (B ^ 2 + f ^ 2) ≤ (A ^ 2 * (362 / 361)) * (B ^ 2 * (362 / 361)) := by
      apply mul_le_mul (by linarith) (by linarith) (by positivity) (by positivity)
    have hk : 0 ≤ A ^ 2 * B ^ 2 := by positivity
    calc 91 * ((A ^ 2 + e ^ 2) * (B ^ 2 + f ^ 2)) ≤ 91 * ((A ^ 2 * (362 / 361)) * (B ^ 2 * (362 / 361))) := by linarith
      _ = (91 * (362 / 361) * (362 / 361)) * (A ^ 2 * B ^ 2) := by ring
      _ ≤ (100 * (360 / 361) ^ 2) * (A ^ 2 * B ^ 2) := by apply mul_le_mul_of_nonneg_right (by norm_num) hk
      _ = 100 * (A * B * (360 / 361)) ^ 2 := by ring
      _ ≤ 100 * (A * B - e * f) ^ 2 := by linarith
  · rw [d1, d2]
    have a1 : A ≤ B + 8 := by linarith
    have b1 : B ≤ A + 8 := by linarith
    have k1 : A ^ 2 ≤ (B + 8) ^ 2 := pow_le_pow_left₀ (by linarith) a1 2
    have k2 : B ^ 2 ≤ (A + 8) ^ 2 := pow_le_pow_left₀ (by linarith) b1 2
    have k3 : 16 * B ≤ 16 * (B ^ 2 / 76) := by nlinarith
    have k4 : 16 * A ≤ 16 * (A ^ 2 / 76) := by nlinarith
    have k5 : (B + 8) ^ 2 = B ^ 2 + 16 * B + 64 := by ring
    have k6 : (A + 8) ^ 2 = A ^ 2 + 16 * A + 64 := by ring
    have k7 := sq_nonneg e
    have k8 := sq_nonneg f
    constructor <;> linarith
  · rw [d1, d2]
    exact ⟨hfits A e (by linarith) (by linarith) e2, hfits B f (by linarith) (by linarith) f2⟩

end LineScan
end Verif
