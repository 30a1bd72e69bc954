import Verif.Lemmas.Clear
import Verif.Props.Detect
import Mathlib.Data.List.Permutation
import Mathlib.Data.Real.Basic

/-!
# C77: which three finder centres make a symbol, and of which version
-/
namespace Verif.Props
open Verif Verif.Spec F64 LineScan

/-- At the other two corners of such a triangle the angle is clearly too small. -/
theorem no_second_corner {A B C D : ℚ} (hA : 0 < A) (hB : 0 < B) (hlag : C ^ 2 + D ^ 2 = A * B)
    (hperp : 91 * (A * B) ≤ 100 * C ^ 2) (hs : 73 * B ≤ 100 * A) (h : 9 * (A * (A + B - 2 * D)) ≤ 10 * C ^ 2) : False := by
  have hD : 100 * D ^ 2 ≤ 9 * (A * B) := by linarith
  have h4 : A * B ≤ ((A + B) / 2) ^ 2 := by nlinarith [sq_nonneg (A - B)]
  have hD2 : 2 * D ≤ 3 / 10 * (A + B) := by
    by_contra hc
    have hc := not_le.mp hc
    have : (3 / 10 * (A + B)) ^ 2 < (2 * D) ^ 2 := pow_lt_pow_left₀ hc (by positivity) (by norm_num)
    nlinarith
  have h5 : A * (7 / 10 * (A + B)) ≤ A * (A + B - 2 * D) := mul_le_mul_of_nonneg_left (by linarith) (le_of_lt hA)
  have h6 : C ^ 2 ≤ A * B := by nlinarith [sq_nonneg D]
  have h7 : 63 * (A * A) ≤ 37 * (A * B) := by nlinarith
  have h8 : 63 * A ≤ 37 * B := by
    have : A * (63 * A) ≤ A * (37 * B) := by nlinarith
    exact le_of_mul_le_mul_left this hA
  linarith

/-- Bounds for a clear geometry. -/
def Spans (tl tr bl : Pt) : Prop :=
  |tr.1 - tl.1| ≤ 2 ^ 31 ∧ |tr.2 - tl.2| ≤ 2 ^ 31 ∧ |bl.1 - tl.1| ≤ 2 ^ 31 ∧ |bl.2 - tl.2| ≤ 2 ^ 31

/-- The same, with the other two points in any order. -/
structure ClearCorner (one two three : Pt) (m : ℚ) (v : Nat) : Prop where
  version : 1 ≤ v
  module : 1 ≤ m
  spans : Spans one two three
  perp : 91 * (dist2 one two * dist2 one three) ≤ 100 * cross one two three ^ 2
  sides : 73 * dist2 one two ≤ 100 * dist2 one three ∧ 73 * dist2 one three ≤ 100 * dist2 one two
  size : ClearlyFits (dist2 one two) m v ∧ ClearlyFits (dist2 one three) m v

theorem cross_swap (a b c : Pt) : cross a c b = -cross a b c := by unfold cross; ring

theorem ClearCorner.swap {one two three : Pt} {m : ℚ} {v : Nat} (h : ClearCorner one two three m v) :
    ClearCorner one three two m v := by
  obtain ⟨h1, h2, ⟨a, b, c, d⟩, h4, h5, h6⟩ := h
  refine ⟨h1, h2, ⟨c, d, a, b⟩, ?_, h5.symm, h6.symm⟩
  rw [cross_swap, neg_pow_two, mul_comm (dist2 one three)]
  exact h4

theorem abs_diff_le {a b c : ℚ} (h1 : |b - a| ≤ 2 ^ 31) (h2 : |c - a| ≤ 2 ^ 31) : |c - b| ≤ 2 ^ 32 := by
  rw [abs_le] at *; constructor <;> linarith [h1.1, h1.2, h2.1, h2.2]

theorem cross_small {one two three : Pt} (h : Spans one two three) : |cross one two three| ≤ 2 ^ 63 := by
  obtain ⟨a, b, c, d⟩ := h
  have h1 : |(two.1 - one.1) * (three.2 - one.2)| ≤ 2 ^ 31 * 2 ^ 31 := by
    rw [abs_mul]; exact mul_le_mul a d (abs_nonneg _) (by norm_num)
  have h2 : |(two.2 - one.2) * (three.1 - one.1)| ≤ 2 ^ 31 * 2 ^ 31 := by
    rw [abs_mul]; exact mul_le_mul b c (abs_nonneg _) (by norm_num)
  unfold cross
  rw [abs_le] at *; constructor <;> linarith [h1.1, h1.2, h2.1, h2.2]

theorem ClearCorner.pos {one two three : Pt} {m : ℚ} {v : Nat} (h : ClearCorner one two three m v) :
    0 < dist2 one two ∧ 0 < dist2 one three :=
  ⟨lt_of_le_of_lt (sq_nonneg _) h.size.1.1, lt_of_le_of_lt (sq_nonneg _) h.size.2.1⟩

/-- The corner is found. -/
theorem corner_found {one two three : Pt} {m : ℚ} {v : Nat} (h : ClearCorner one two three m v)
    (hpos : 0 < cross one two three) :
    findQrInternal ⟨.fin one.1, .fin one.2⟩ ⟨.fin two.1, .fin two.2⟩ ⟨.fin three.1, .fin three.2⟩ (.fin m) =
      .ret (some ⟨⟨.fin one.1, .fin one.2⟩, ⟨.fin two.1, .fin two.2⟩, ⟨.fin three.1, .fin three.2⟩, .fin m, v⟩) ∧
    findQrInternal ⟨.fin one.1, .fin one.2⟩ ⟨.fin three.1, .fin three.2⟩ ⟨.fin two.1, .fin two.2⟩ (.fin m) =
      .ret (some ⟨⟨.fin one.1, .fin one.2⟩, ⟨.fin two.1, .fin two.2⟩, ⟨.fin three.1, .fin three.2⟩, .fin m, v⟩) := by
  have key : ∀ a b : Pt, ClearCorner one a b m v → (a = two ∧ b = three ∨ a = three ∧ b = two) →
      findQrInternal ⟨.fin one.1, .fin one.2⟩ ⟨.fin a.1, .fin a.2⟩ ⟨.fin b.1, .fin b.2⟩ (.fin m) =
      .ret (some ⟨⟨.fin one.1, .fin one.2⟩, ⟨.fin two.1, .fin two.2⟩, ⟨.fin three.1, .fin three.2⟩, .fin m, v⟩) := by
    intro a b hc hab
    obtain ⟨s1, s2, s3, s4⟩ := hc.spans
    obtain ⟨r, hr, hspec⟩ := findQrInternal_ret (one := one) (two := a) (three := b) hc.module (by linarith) (by linarith)
      (by linarith) (by linarith) (cross_small hc.spans)
    have hne := findQrInternal_some hc.version hc.module s1 s2 s3 s4 hc.perp hc.sides.1 hc.sides.2 hc.size.1 hc.size.2
    rw [hr] at hne ⊢
    cases r with
    | none => exact absurd rfl hne
    | some qr =>
      obtain ⟨tr, bl, hperm, ⟨l1, l2, l3, l4⟩, hgeo⟩ := hspec qr rfl
      have hm0 : 0 < m := by linarith [hc.module]
      have htb : tr = two ∧ bl = three := by
        have hu := hgeo.unmirrored
        have hs := cross_swap one two three
        rcases hab with ⟨rfl, rfl⟩ | ⟨rfl, rfl⟩ <;> rcases hperm with ⟨rfl, rfl⟩ | ⟨rfl, rfl⟩
        · exact ⟨rfl, rfl⟩
        · linarith
        · linarith
        · exact ⟨rfl, rfl⟩
      obtain ⟨rfl, rfl⟩ := htb
      have hver : qr.version = v := by
        rcases hgeo.size with hf | hf
        · exact version_unique hm0 h.size.1 hf
        · exact version_unique hm0 h.size.2 hf
      obtain ⟨q1, q2, q3, q4, q5⟩ := qr
      simp only at l1 l2 l3 l4 hver
      rw [l1, l2, l3, l4, hver]
  exact ⟨key two three h (.inl ⟨rfl, rfl⟩), key three two h.swap (.inr ⟨rfl, rfl⟩)⟩

/-- No symbol is found at the others. -/
theorem others_not_found {one two three : Pt} {m : ℚ} {v : Nat} (h : ClearCorner one two three m v) :
    findQrInternal ⟨.fin two.1, .fin two.2⟩ ⟨.fin one.1, .fin one.2⟩ ⟨.fin three.1, .fin three.2⟩ (.fin m) = .ret none ∧
    findQrInternal ⟨.fin two.1, .fin two.2⟩ ⟨.fin three.1, .fin three.2⟩ ⟨.fin one.1, .fin one.2⟩ (.fin m) = .ret none := by
  obtain ⟨hA, hB⟩ := h.pos
  have key : ∀ a b : Pt, (a = one ∧ b = three ∨ a = three ∧ b = one) →
      findQrInternal ⟨.fin two.1, .fin two.2⟩ ⟨.fin a.1, .fin a.2⟩ ⟨.fin b.1, .fin b.2⟩ (.fin m) = .ret none := by
    intro a b hab
    obtain ⟨s1, s2, s3, s4⟩ := h.spans
    have hcr : ∀ a b : Pt, (a = one ∧ b = three ∨ a = three ∧ b = one) →
        cross two a b ^ 2 = cross one two three ^ 2 ∧ dist2 two a * dist2 two b = dist2 one two * (dist2 one two + dist2 one three -
          2 * ((two.1 - one.1) * (three.1 - one.1) + (two.2 - one.2) * (three.2 - one.2))) := by
      rintro a b (⟨rfl, rfl⟩ | ⟨rfl, rfl⟩) <;> unfold cross dist2 <;> constructor <;> ring
    have hspan : ∀ a : Pt, a = one ∨ a = three → |a.1 - two.1| ≤ 2 ^ 32 ∧ |a.2 - two.2| ≤ 2 ^ 32 := by
      rintro a (rfl | rfl)
      · rw [abs_sub_comm, abs_sub_comm a.2]; constructor <;> linarith
      · exact ⟨abs_diff_le s1 s3, abs_diff_le s2 s4⟩
    obtain ⟨a1, a2⟩ := hspan a (by tauto)
    obtain ⟨b1, b2⟩ := hspan b (by tauto)
    have h63 : |cross two a b| ≤ 2 ^ 63 := by
      have e := (hcr a b hab).1
      rw [sq_eq_sq_iff_abs_eq_abs] at e
      rw [e]; exact cross_small h.spans
    obtain ⟨r, hr, hspec⟩ := findQrInternal_ret (one := two) (two := a) (three := b) h.module a1 a2 b1 b2 h63
    rw [hr]
    cases r with
    | none => rfl
    | some qr =>
      exfalso
      obtain ⟨tr, bl, hperm, -, hgeo⟩ := hspec qr rfl
      have hp := hgeo.perpendicular
      have hab' : tr = one ∧ bl = three ∨ tr = three ∧ bl = one := by
        rcases hab with ⟨rfl, rfl⟩ | ⟨rfl, rfl⟩ <;> rcases hperm with ⟨rfl, rfl⟩ | ⟨rfl, rfl⟩ <;> simp
      obtain ⟨e1, e2⟩ := hcr tr bl hab'
      rw [e1, e2] at hp
      refine no_second_corner hA hB ?_ h.perp h.sides.2 hp
      unfold cross dist2
      ring
  exact ⟨key one three (.inl ⟨rfl, rfl⟩), key three one (.inr ⟨rfl, rfl⟩)⟩

theorem find_corner {one two three : Pt} {m : ℚ} {v : Nat} (h : ClearCorner one two three m v) (qr : QRLocation)
    (hf : findQrInternal ⟨.fin one.1, .fin one.2⟩ ⟨.fin two.1, .fin two.2⟩ ⟨.fin three.1, .fin three.2⟩ (.fin m) =
      .ret (some qr)) :
    findQr ⟨.fin one.1, .fin one.2⟩ ⟨.fin two.1, .fin two.2⟩ ⟨.fin three.1, .fin three.2⟩ (.fin m) = .ret (some qr) ∧
    findQr ⟨.fin two.1, .fin two.2⟩ ⟨.fin one.1, .fin one.2⟩ ⟨.fin three.1, .fin three.2⟩ (.fin m) = .ret (some qr) ∧
    findQr ⟨.fin two.1, .fin two.2⟩ ⟨.fin three.1, .fin three.2⟩ ⟨.fin one.1, .fin one.2⟩ (.fin m) = .ret (some qr) := by
  obtain ⟨n1, n2⟩ := others_not_found h
  obtain ⟨n3, n4⟩ := others_not_found h.swap
  refine ⟨?_, ?_, ?_⟩
  · unfold findQr
    rw [hf, Run.ret_bind]
    rfl
  · unfold findQr
    rw [n1, Run.ret_bind]
    simp only
    rw [hf, Run.ret_bind]
    rfl
  · unfold findQr
    rw [n2, Run.ret_bind]
    simp only
    rw [n4, Run.ret_bind]
    simp only
    rw [hf]

/-- **C77 (completeness).** Three points that are clearly the finder centres of a symbol of version `v` are recognised
as such, in whatever order they were found: the corner is the top left one, the other two are told apart by the
direction of rotation, and the version is `v`. -/
theorem clear_geometry_is_located (tl tr bl : Pt) (m : ℚ) (v : Nat) (h : ClearGeometry tl tr bl m v)
    (hb : Spans tl tr bl) (a b c : Pt) (hperm : [a, b, c].Perm [tl, tr, bl]) :
    findQr ⟨.fin a.1, .fin a.2⟩ ⟨.fin b.1, .fin b.2⟩ ⟨.fin c.1, .fin c.2⟩ (.fin m) =
      .ret (some ⟨⟨.fin tl.1, .fin tl.2⟩, ⟨.fin tr.1, .fin tr.2⟩, ⟨.fin bl.1, .fin bl.2⟩, .fin m, v⟩) := by
  have hc : ClearCorner tl tr bl m v := ⟨h.version, h.module, hb, h.perpendicular, h.sides, h.size⟩
  obtain ⟨f1, f2⟩ := corner_found hc h.unmirrored
  obtain ⟨g1, g2, g3⟩ := find_corner hc _ f1
  obtain ⟨g4, g5, g6⟩ := find_corner hc.swap _ f2
  have hmem : [a, b, c] ∈ [tl, tr, bl].permutations := List.mem_permutations.mpr hperm
  simp [List.permutations, List.permutationsAux, List.permutationsAux.rec, List.permutationsAux2] at hmem
  rcases hmem with ⟨rfl, rfl, rfl⟩ | ⟨rfl, rfl, rfl⟩ | ⟨rfl, rfl, rfl⟩ | ⟨rfl, rfl, rfl⟩ | ⟨rfl, rfl, rfl⟩ | ⟨rfl, rfl, rfl⟩
  all_goals assumption

/-- **C77 (the version).** At a detected location, if the distances of the finder centres are those of version `v`
with modules of `M₁` and `M₂` pixels, then the version reported is `v` whenever the estimated module size `μ` is so good
that the error adds up to less than 1.9 modules over both distances; and if it is `v` then the error adds up to at most
2.1 modules over one of them. So the larger the symbol, the better the estimate has to be: within 13.5 per cent for
version 1, 1.1 per cent for version 40. -/
theorem version_needs_module_size (img : GrayImage) (hv : img.Valid) (hs : img.width * img.height < 2 ^ 63)
    (qrs : List QRLocation) (hd : detect img = .ret qrs) (qr : QRLocation) (hq : qr ∈ qrs) (tl tr bl : Pt) (μ : ℚ)
    (M₁ M₂ : ℝ) (v : Nat) (hat : LocatedAt qr tl tr bl μ) (hM₁ : 0 < M₁) (hM₂ : 0 < M₂)
    (e1 : (dist2 tl tr : ℝ) = ((4 * v + 10) * M₁) ^ 2) (e2 : (dist2 tl bl : ℝ) = ((4 * v + 10) * M₂) ^ 2) :
    ((4 * v + 10) * |M₁ - μ| < 19 / 10 * μ → (4 * v + 10) * |M₂ - μ| < 19 / 10 * μ → qr.version = v) ∧
    (qr.version = v → (4 * v + 10) * |M₁ - μ| ≤ 21 / 10 * μ ∨ (4 * v + 10) * |M₂ - μ| ≤ 21 / 10 * μ) := by
  obtain ⟨tl', tr', bl', m, ⟨a1, a2, a3, a4⟩, -, hgeo⟩ := detected_locations_are_proper img hv hs qrs hd qr hq
  obtain ⟨h1, h2, h3, h4⟩ := hat
  have inj : ∀ {p q : Pt}, (⟨.fin p.1, .fin p.2⟩ : Point) = ⟨.fin q.1, .fin q.2⟩ → p = q := by
    rintro ⟨p1, p2⟩ ⟨q1, q2⟩ h
    injection h with h h'
    injection h with h
    injection h' with h'
    simp only at h h'
    rw [h, h']
  have b1 := inj (h1.symm.trans a1)
  have b2 := inj (h2.symm.trans a2)
  have b3 := inj (h3.symm.trans a3)
  have b4 := h4.symm.trans a4
  injection b4 with b4
  subst b1 b2 b3 b4
  have hμ : 0 < μ := by linarith [hgeo.module]
  have hμR : (0 : ℝ) < μ := by exact_mod_cast hμ
  have hn : (0 : ℝ) < 4 * v + 10 := by positivity
  have habs : ∀ M : ℝ, (4 * v + 10) * |M - μ| = |(4 * v + 10) * M - (4 * v + 10) * μ| := by
    intro M
    rw [← mul_sub, abs_mul, abs_of_pos hn]
  have clear : ∀ (d : ℚ) (M : ℝ), 0 < M → (d : ℝ) = ((4 * v + 10) * M) ^ 2 → (4 * v + 10) * |M - μ| < 19 / 10 * μ →
      ClearlyFits d μ v := by
    intro d M hM e h
    rw [habs, abs_lt] at h
    constructor
    · have : ((4 * v + 10 - 19 / 10) * (μ : ℝ)) ^ 2 < d := by
        rw [e]
        refine pow_lt_pow_left₀ (by linarith [h.1]) ?_ (by norm_num)
        apply mul_nonneg _ (le_of_lt hμR)
        have : (0 : ℝ) ≤ v := Nat.cast_nonneg _
        linarith
      have h' : (((((4 * v + 10 - 19 / 10) * μ) ^ 2 : ℚ)) : ℝ) < d := by push_cast; exact this
      exact Rat.cast_lt.mp h'
    · have : (d : ℝ) < ((4 * v + 10 + 19 / 10) * (μ : ℝ)) ^ 2 := by
        rw [e]
        exact pow_lt_pow_left₀ (by linarith [h.2]) (by positivity) (by norm_num)
      have h' : (d : ℝ) < ((((4 * v + 10 + 19 / 10) * μ) ^ 2 : ℚ) : ℝ) := by push_cast; exact this
      exact Rat.cast_lt.mp h'
  have fits : ∀ (d : ℚ) (M : ℝ), 0 < M → (d : ℝ) = ((4 * v + 10) * M) ^ 2 → FitsVersion d μ v →
      (4 * v + 10) * |M - μ| ≤ 21 / 10 * μ := by
    intro d M hM e h
    obtain ⟨c1, c2⟩ := h
    have c1 : ((4 * v + 10 - 21 / 10) * (μ : ℝ)) ^ 2 ≤ ((4 * v + 10) * M) ^ 2 := by
      rw [← e]
      have := (Rat.cast_le (K := ℝ)).mpr c1
      push_cast at this
      exact this
    have c2 : ((4 * v + 10) * M) ^ 2 ≤ ((4 * v + 10 + 21 / 10) * (μ : ℝ)) ^ 2 := by
      rw [← e]
      have := (Rat.cast_le (K := ℝ)).mpr c2
      push_cast at this
      exact this
    have d1 := le_of_sq_le_sq c1 (by positivity)
    have d2 := le_of_sq_le_sq c2 (by positivity)
    rw [habs, abs_le]
    constructor <;> linarith
  constructor
  · intro k1 k2
    rcases hgeo.size with h | h
    · exact version_unique hμ (clear _ M₁ hM₁ e1 k1) h
    · exact version_unique hμ (clear _ M₂ hM₂ e2 k2) h
  · intro h
    rw [h] at hgeo
    rcases hgeo.size with h | h
    · exact .inl (fits _ M₁ hM₁ e1 h)
    · exact .inr (fits _ M₂ hM₂ e2 h)

end Verif.Props
