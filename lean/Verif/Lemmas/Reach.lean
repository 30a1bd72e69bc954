import Verif.Lemmas.Centre

/-!
# Which points the alignment search looks at
-/
namespace Verif
namespace Extractor
open F64 Spec

theorem ofInt_fin {z : Int} (h : |z| ≤ 2 ^ 53) : F64.ofInt z = .fin z := by
  unfold F64.ofInt
  have hb : |(z : ℚ)| ≤ 2 ^ 200 := by
    have : |(z : ℚ)| ≤ 2 ^ 53 := by exact_mod_cast h
    exact le_trans this (by norm_num)
  rw [ofExact_eq hb, roundQ_int h]

/-- A point `u` and `v` modules from the estimate, up to `k` rounding errors. -/
def At (size : Nat) (tl tr bl : Pt) (p : Point) (u v k : ℚ) : Prop :=
  PNear p (estQ size tl tr bl + u • stepQ size tl tr + v • stepQ size tl bl) (k * ηQ)

section
variable {size : Nat} {tl tr bl : Pt}

theorem at_small (h : 21 ≤ size) (h1 : mag tl ≤ WQ) (h2 : mag tr ≤ WQ) (h3 : mag bl ≤ WQ) {u v : ℚ} (hu : |u| ≤ 5)
    (hv : |v| ≤ 5) : mag (estQ size tl tr bl + u • stepQ size tl tr + v • stepQ size tl bl) ≤ 10 * WQ := by
  have sx := stepQ_small' h h1 h2
  have sy := stepQ_small' h h1 h3
  have se := estQ_small h h1 h2 h3
  have a1 := mag_add (estQ size tl tr bl + u • stepQ size tl tr) (v • stepQ size tl bl)
  have a2 := mag_add (estQ size tl tr bl) (u • stepQ size tl tr)
  have m1 := mag_smul u (stepQ size tl tr)
  have m2 := mag_smul v (stepQ size tl bl)
  have n1 : |u| * mag (stepQ size tl tr) ≤ 5 * mag (stepQ size tl tr) := mul_le_mul_of_nonneg_right hu (mag_nonneg _)
  have n2 : |v| * mag (stepQ size tl bl) ≤ 5 * mag (stepQ size tl bl) := mul_le_mul_of_nonneg_right hv (mag_nonneg _)
  have hW := WQ_val
  linarith

/-- A multiple of a step. -/
theorem dmul {d : Delta} {D : Pt} {c k : ℚ} (hd : DNear d (c • D) (k * ηQ)) (hD : mag D ≤ WQ / 7) {s : F64} {e : ℚ}
    (hs : s = .fin e) (hc : |c| ≤ 5) (he : |e| ≤ 5) (hk : 0 ≤ k) (hk' : k ≤ 1000) :
    DNear (s * d) ((e * c) • D) ((5 * k + 1) * ηQ) := by
  have hη := ηQ_val
  have hη0 := ηQ_pos
  have hW := WQ_val
  have m := mag_smul c D
  have m1 : |c| * mag D ≤ 5 * mag D := mul_le_mul_of_nonneg_right hc (mag_nonneg _)
  have m2 : |e| * mag (c • D) ≤ 5 * mag (c • D) := mul_le_mul_of_nonneg_right he (mag_nonneg _)
  have m3 : k * ηQ * |e| ≤ k * ηQ * 5 := mul_le_mul_of_nonneg_left he (mul_nonneg hk hη0.le)
  have m4 : k * ηQ ≤ 1000 * ηQ := mul_le_mul_of_nonneg_right hk' hη0.le
  have e' : (e * c) • D = e • (c • D) := by ptring
  rw [e']
  refine (dnear_mul hd hs ?_).mono ?_
  · rw [hη] at m3 m4 ⊢; linarith
  · linarith

variable (h : 21 ≤ size) (h1 : mag tl ≤ WQ) (h2 : mag tr ≤ WQ) (h3 : mag bl ≤ WQ)
include h h1 h2 h3

theorem At.addx {p : Point} {u v k : ℚ} (hp : At size tl tr bl p u v k) {d : Delta} {c l : ℚ}
    (hd : DNear d (c • stepQ size tl tr) (l * ηQ)) (hu : |u + c| ≤ 5) (hv : |v| ≤ 5) (hk : k + l ≤ 100000) :
    At size tl tr bl (p + d) (u + c) v (k + l + 1) := by
  have hη := ηQ_val
  have hs := at_small h h1 h2 h3 hu hv
  have e : estQ size tl tr bl + u • stepQ size tl tr + v • stepQ size tl bl + c • stepQ size tl tr =
      estQ size tl tr bl + (u + c) • stepQ size tl tr + v • stepQ size tl bl := by ptring
  unfold At at *
  rw [← e] at hs ⊢
  refine (pnear_add hp hd ?_).mono ?_
  · rw [WQ_val] at hs
    have : k * ηQ + l * ηQ ≤ 100000 * ηQ := by rw [← add_mul]; exact mul_le_mul_of_nonneg_right hk ηQ_pos.le
    rw [hη] at this ⊢
    linarith
  · linarith

theorem At.subx {p : Point} {u v k : ℚ} (hp : At size tl tr bl p u v k) {d : Delta} {c l : ℚ}
    (hd : DNear d (c • stepQ size tl tr) (l * ηQ)) (hu : |u - c| ≤ 5) (hv : |v| ≤ 5) (hk : k + l ≤ 100000) :
    At size tl tr bl (p - d) (u - c) v (k + l + 1) := by
  have hη := ηQ_val
  have hs := at_small h h1 h2 h3 hu hv
  have e : estQ size tl tr bl + u • stepQ size tl tr + v • stepQ size tl bl - c • stepQ size tl tr =
      estQ size tl tr bl + (u - c) • stepQ size tl tr + v • stepQ size tl bl := by ptring
  unfold At at *
  rw [← e] at hs ⊢
  refine (pnear_sub hp hd ?_).mono ?_
  · rw [WQ_val] at hs
    have : k * ηQ + l * ηQ ≤ 100000 * ηQ := by rw [← add_mul]; exact mul_le_mul_of_nonneg_right hk ηQ_pos.le
    rw [hη] at this ⊢
    linarith
  · linarith

theorem At.addy {p : Point} {u v k : ℚ} (hp : At size tl tr bl p u v k) {d : Delta} {c l : ℚ}
    (hd : DNear d (c • stepQ size tl bl) (l * ηQ)) (hu : |u| ≤ 5) (hv : |v + c| ≤ 5) (hk : k + l ≤ 100000) :
    At size tl tr bl (p + d) u (v + c) (k + l + 1) := by
  have hη := ηQ_val
  have hs := at_small h h1 h2 h3 hu hv
  have e : estQ size tl tr bl + u • stepQ size tl tr + v • stepQ size tl bl + c • stepQ size tl bl =
      estQ size tl tr bl + u • stepQ size tl tr + (v + c) • stepQ size tl bl := by ptring
  unfold At at *
  rw [← e] at hs ⊢
  refine (pnear_add hp hd ?_).mono ?_
  · rw [WQ_val] at hs
    have : k * ηQ + l * ηQ ≤ 100000 * ηQ := by rw [← add_mul]; exact mul_le_mul_of_nonneg_right hk ηQ_pos.le
    rw [hη] at this ⊢
    linarith
  · linarith

theorem At.suby {p : Point} {u v k : ℚ} (hp : At size tl tr bl p u v k) {d : Delta} {c l : ℚ}
    (hd : DNear d (c • stepQ size tl bl) (l * ηQ)) (hu : |u| ≤ 5) (hv : |v - c| ≤ 5) (hk : k + l ≤ 100000) :
    At size tl tr bl (p - d) u (v - c) (k + l + 1) := by
  have hη := ηQ_val
  have hs := at_small h h1 h2 h3 hu hv
  have e : estQ size tl tr bl + u • stepQ size tl tr + v • stepQ size tl bl - c • stepQ size tl bl =
      estQ size tl tr bl + u • stepQ size tl tr + (v - c) • stepQ size tl bl := by ptring
  unfold At at *
  rw [← e] at hs ⊢
  refine (pnear_sub hp hd ?_).mono ?_
  · rw [WQ_val] at hs
    have : k * ηQ + l * ηQ ≤ 100000 * ηQ := by rw [← add_mul]; exact mul_le_mul_of_nonneg_right hk ηQ_pos.le
    rw [hη] at this ⊢
    linarith
  · linarith

/-- Half steps. -/
theorem half_int {z : Int} (hz : |z| ≤ 3) : ∃ c : ℚ, F64.ofInt z / F64.lit 2 = .fin c ∧ |c| ≤ 151 / 100 := by
  have hz' : |(z : ℚ)| ≤ 3 := by exact_mod_cast hz
  have h1 : Near (F64.ofInt z) z 0 := by
    rw [ofInt_fin (le_trans hz (by norm_num))]; exact near_fin _
  have e : |(z : ℚ) / 2| = |(z : ℚ)| / 2 := by rw [abs_div]; norm_num
  obtain ⟨r, hr, hr'⟩ := h1.div 2 (by norm_num) (by rw [e]; linarith)
  rw [lit2, hr]
  refine ⟨r, rfl, ?_⟩
  have : r = z / 2 + (r - z / 2) := by ring
  rw [this]
  refine le_trans (abs_add_le _ _) ?_
  rw [ηQ_val] at hr'
  rw [e]
  linarith

/-- Scales. -/
theorem scale_near {z : Int} (hz : z ∈ ([0, 1, -1, 2, -2, 3] : List Int)) :
    ∃ c : ℚ, (F64.lit 1 + F64.ofInt z / F64.lit 10 : F64) = .fin c ∧ 0 ≤ c ∧ c ≤ 131 / 100 := by
  have hz' : -2 ≤ z ∧ z ≤ 3 := by
    simp only [List.mem_cons, List.not_mem_nil, or_false] at hz
    omega
  have hq1 : (-2 : ℚ) ≤ z := by exact_mod_cast hz'.1
  have hq2 : (z : ℚ) ≤ 3 := by exact_mod_cast hz'.2
  have h1 : Near (F64.ofInt z) z 0 := by
    rw [ofInt_fin (by rw [abs_le]; omega)]; exact near_fin _
  have l1 : (F64.lit 1 : F64) = .fin 1 := by
    have := lit_nat (n := 1) (by norm_num); simpa using this
  have l10 : (F64.lit 10 : F64) = .fin 10 := by
    have := lit_nat (n := 10) (by norm_num); simpa using this
  have h2 := h1.div 10 (by norm_num) (by
    have : |(z : ℚ) / 10| ≤ 1 := by rw [abs_le]; constructor <;> linarith
    linarith)
  have h3 := (near_fin 1).add h2 (by
    have : |1 + (z : ℚ) / 10| ≤ 2 := by rw [abs_le]; constructor <;> linarith
    rw [ηQ_val]
    linarith)
  obtain ⟨r, hr, hr'⟩ := h3
  rw [l1, l10, hr]
  refine ⟨r, rfl, ?_⟩
  rw [abs_le, ηQ_val] at hr'
  constructor <;> linarith [hr'.1, hr'.2]

/-- The points that are tried. -/
theorem ring_at {est p : Point} {dx dy : Delta} (he : At size tl tr bl est 0 0 350)
    (hx : DNear dx ((1 : ℚ) • stepQ size tl tr) (2 * ηQ)) (hy : DNear dy ((1 : ℚ) • stepQ size tl bl) (2 * ηQ)) {i : Nat}
    (hi : i ≤ 3) (hp : p ∈ ring est dx dy i) :
    ∃ u v : ℚ, |u| ≤ 151 / 100 ∧ |v| ≤ 151 / 100 ∧ At size tl tr bl p u v 400 := by
  have mono : ∀ {p : Point} {u v k : ℚ}, At size tl tr bl p u v k → k ≤ 400 → At size tl tr bl p u v 400 :=
    fun hp hk => hp.mono (mul_le_mul_of_nonneg_right hk ηQ_pos.le)
  have sx := stepQ_small' h h1 h2
  have sy := stepQ_small' h h1 h3
  have half : ∀ z : Int, |z| ≤ 3 → ∃ c : ℚ, |c| ≤ 151 / 100 ∧
      DNear (F64.ofInt z / F64.lit 2 * dx) (c • stepQ size tl tr) (11 * ηQ) ∧
      DNear (F64.ofInt z / F64.lit 2 * dy) (c • stepQ size tl bl) (11 * ηQ) := by
    intro z hz
    obtain ⟨c, hc, hc'⟩ := half_int h h1 h2 h3 hz
    refine ⟨c, hc', ?_, ?_⟩
    · have := dmul hx sx hc (by norm_num) (by linarith) (by norm_num) (by norm_num)
      rw [mul_one] at this
      exact this.mono (by linarith)
    · have := dmul hy sy hc (by norm_num) (by linarith) (by norm_num) (by norm_num)
      rw [mul_one] at this
      exact this.mono (by linarith)
  have key : ∀ (a b : Int), |a| ≤ 3 → |b| ≤ 3 →
      ∀ p ∈ [est + F64.ofInt a / F64.lit 2 * dx - F64.ofInt b / F64.lit 2 * dy,
        est + F64.ofInt a / F64.lit 2 * dx + F64.ofInt b / F64.lit 2 * dy,
        est - F64.ofInt a / F64.lit 2 * dx + F64.ofInt b / F64.lit 2 * dy],
      ∃ u v : ℚ, |u| ≤ 151 / 100 ∧ |v| ≤ 151 / 100 ∧ At size tl tr bl p u v 400 := by
    intro a b ha hb p hp
    obtain ⟨c, hc, cx, -⟩ := half a ha
    obtain ⟨e, he', -, ey⟩ := half b hb
    simp only [List.mem_cons, List.not_mem_nil, or_false] at hp
    rcases hp with rfl | rfl | rfl
    · exact ⟨0 + c, 0 - e, by rwa [zero_add], by rwa [zero_sub, abs_neg], mono (At.suby h h1 h2 h3
        (At.addx h h1 h2 h3 he cx (by rw [zero_add]; linarith) (by norm_num) (by norm_num)) ey (by rw [zero_add]; linarith)
        (by rw [zero_sub, abs_neg]; linarith) (by norm_num)) (by norm_num)⟩
    · exact ⟨0 + c, 0 + e, by rwa [zero_add], by rwa [zero_add], mono (At.addy h h1 h2 h3
        (At.addx h h1 h2 h3 he cx (by rw [zero_add]; linarith) (by norm_num) (by norm_num)) ey (by rw [zero_add]; linarith)
        (by rw [zero_add]; linarith) (by norm_num)) (by norm_num)⟩
    · exact ⟨0 - c, 0 + e, by rwa [zero_sub, abs_neg], by rwa [zero_add], mono (At.addy h h1 h2 h3
        (At.subx h h1 h2 h3 he cx (by rw [zero_sub, abs_neg]; linarith) (by norm_num) (by norm_num)) ey
        (by rw [zero_sub, abs_neg]; linarith) (by rw [zero_add]; linarith) (by norm_num)) (by norm_num)⟩
  unfold ring at hp
  split at hp
  · rw [List.mem_singleton] at hp
    subst hp
    exact ⟨0, 0, by norm_num, by norm_num, mono he (by norm_num)⟩
  · rw [List.mem_append, List.mem_flatMap, List.mem_flatMap] at hp
    rcases hp with ⟨k, hk, hp⟩ | ⟨k, hk, hp⟩
    · rw [List.mem_range] at hk
      refine key ((k : Int) - i) i (by rw [abs_le]; omega) (by rw [abs_le]; omega) p ?_
      simp only [List.mem_cons, List.not_mem_nil, or_false] at hp ⊢
      tauto
    · rw [List.mem_range] at hk
      refine key i ((k : Int) - i + 1) (by rw [abs_le]; omega) (by rw [abs_le]; omega) p ?_
      simp only [List.mem_cons, List.not_mem_nil, or_false] at hp ⊢
      tauto

/-- The points that are tested around them. -/
theorem tests_at {p : Point} {dx dy : Delta} {u v c : ℚ} (hu : |u| ≤ 151 / 100) (hv : |v| ≤ 151 / 100)
    (hp : At size tl tr bl p u v 400) (hc0 : 0 ≤ c) (hc : c ≤ 131 / 100)
    (hx : DNear dx (c • stepQ size tl tr) (11 * ηQ)) (hy : DNear dy (c • stepQ size tl bl) (11 * ηQ)) {t : Point × U8}
    (ht : t ∈ alignmentTests p dx dy) :
    ∃ u v : ℚ, |u| ≤ 21 / 5 ∧ |v| ≤ 21 / 5 ∧ At size tl tr bl t.1 u v 1000 := by
  have mono : ∀ {p : Point} {u v k : ℚ}, At size tl tr bl p u v k → k ≤ 1000 → At size tl tr bl p u v 1000 :=
    fun hp hk => hp.mono (mul_le_mul_of_nonneg_right hk ηQ_pos.le)
  have sx := stepQ_small' h h1 h2
  have sy := stepQ_small' h h1 h3
  have hcabs : |c| ≤ 5 := by rw [abs_of_nonneg hc0]; linarith
  have int : ∀ z : Int, z ∈ ([-2, -1, 0, 1, 2] : List Int) → |(z : ℚ) * c| ≤ 262 / 100 ∧
      DNear (F64.ofInt z * dx) (((z : ℚ) * c) • stepQ size tl tr) (56 * ηQ) ∧
      DNear (F64.ofInt z * dy) (((z : ℚ) * c) • stepQ size tl bl) (56 * ηQ) := by
    intro z hz
    have hz' : -2 ≤ z ∧ z ≤ 2 := by
      simp only [List.mem_cons, List.not_mem_nil, or_false] at hz
      omega
    have hzq : |(z : ℚ)| ≤ 2 := by rw [abs_le]; exact ⟨by exact_mod_cast hz'.1, by exact_mod_cast hz'.2⟩
    have e : F64.ofInt z = .fin z := ofInt_fin (by rw [abs_le]; omega)
    refine ⟨?_, ?_, ?_⟩
    · rw [abs_mul, abs_of_nonneg hc0]
      have : |(z : ℚ)| * c ≤ 2 * c := mul_le_mul_of_nonneg_right hzq hc0
      linarith
    · exact (dmul hx sx e hcabs (by linarith) (by norm_num) (by norm_num)).mono (by linarith)
    · exact (dmul hy sy e hcabs (by linarith) (by norm_num) (by norm_num)).mono (by linarith)
  have two : F64.lit 2 = F64.ofInt 2 := by
    rw [lit2, ofInt_fin (by norm_num)]; norm_num
  have one : |c| ≤ 262 / 100 := by rw [abs_of_nonneg hc0]; linarith
  have near : ∀ {a b : ℚ}, |a| ≤ 151 / 100 → |b| ≤ 262 / 100 → |a + b| ≤ 21 / 5 ∧ |a - b| ≤ 21 / 5 := by
    intro a b ha hb
    exact ⟨le_trans (abs_add_le _ _) (by linarith), le_trans (abs_sub a b) (by linarith)⟩
  have w5 : ∀ {a : ℚ}, |a| ≤ 21 / 5 → |a| ≤ 5 := fun h => by linarith
  have u5 : |u| ≤ 21 / 5 := by linarith
  have v5 : |v| ≤ 21 / 5 := by linarith
  have dx56 : DNear dx (c • stepQ size tl tr) (56 * ηQ) := hx.mono (by linarith [ηQ_pos])
  have dy56 : DNear dy (c • stepQ size tl bl) (56 * ηQ) := hy.mono (by linarith [ηQ_pos])
  -- two moves
  have mm : ∀ {d e : Delta} {a b : ℚ}, |a| ≤ 262 / 100 → |b| ≤ 262 / 100 → DNear d (a • stepQ size tl tr) (56 * ηQ) →
      DNear e (b • stepQ size tl bl) (56 * ηQ) → ∀ q ∈ [p - d - e, p - d + e, p + d - e],
      ∃ u v : ℚ, |u| ≤ 21 / 5 ∧ |v| ≤ 21 / 5 ∧ At size tl tr bl q u v 1000 := by
    intro d e a b ha hb hd he q hq
    have na := near hu ha
    have nb := near hv hb
    simp only [List.mem_cons, List.not_mem_nil, or_false] at hq
    rcases hq with rfl | rfl | rfl
    · exact ⟨u - a, v - b, na.2, nb.2, mono (At.suby h h1 h2 h3 (At.subx h h1 h2 h3 hp hd (w5 na.2) (w5 v5) (by norm_num)) he
        (w5 na.2) (w5 nb.2) (by norm_num)) (by norm_num)⟩
    · exact ⟨u - a, v + b, na.2, nb.1, mono (At.addy h h1 h2 h3 (At.subx h h1 h2 h3 hp hd (w5 na.2) (w5 v5) (by norm_num)) he
        (w5 na.2) (w5 nb.1) (by norm_num)) (by norm_num)⟩
    · exact ⟨u + a, v - b, na.1, nb.2, mono (At.suby h h1 h2 h3 (At.addx h h1 h2 h3 hp hd (w5 na.1) (w5 v5) (by norm_num)) he
        (w5 na.1) (w5 nb.2) (by norm_num)) (by norm_num)⟩
  unfold alignmentTests at ht
  rw [two] at ht
  rw [List.mem_append, List.mem_append, List.mem_flatMap, List.mem_flatMap] at ht
  obtain ⟨t1, t2⟩ := int 2 (by simp)
  rcases ht with (⟨z, hz, ht⟩ | ⟨z, hz, ht⟩) | ht
  · have hz' : z ∈ ([-2, -1, 0, 1, 2] : List Int) := by
      simp only [List.mem_cons, List.not_mem_nil, or_false] at hz ⊢; tauto
    obtain ⟨i1, i2, -⟩ := int z hz'
    have := mm i1 t1 i2 t2.2
    simp only [List.mem_cons, List.not_mem_nil, or_false] at ht this
    rcases ht with rfl | rfl
    · exact this _ (Or.inl rfl)
    · exact this _ (Or.inr (Or.inl rfl))
  · have hz' : z ∈ ([-2, -1, 0, 1, 2] : List Int) := by
      simp only [List.mem_cons, List.not_mem_nil, or_false] at hz ⊢; tauto
    obtain ⟨i1, -, i3⟩ := int z hz'
    have m1 := mm t1 i1 t2.1 i3
    have m2 := mm one i1 dx56 i3
    simp only [List.mem_cons, List.not_mem_nil, or_false] at ht m1 m2
    rcases ht with rfl | rfl | rfl | rfl
    · exact m1 _ (Or.inl rfl)
    · exact m1 _ (Or.inr (Or.inr rfl))
    · exact m2 _ (Or.inl rfl)
    · exact m2 _ (Or.inr (Or.inl rfl))
  · have nb := near hv one
    simp only [List.mem_cons, List.not_mem_nil, or_false] at ht
    rcases ht with rfl | rfl
    · exact ⟨u, v - c, u5, nb.2, mono (At.suby h h1 h2 h3 hp dy56 (w5 u5) (w5 nb.2) (by norm_num)) (by norm_num)⟩
    · exact ⟨u, v + c, u5, nb.1, mono (At.addy h h1 h2 h3 hp dy56 (w5 u5) (w5 nb.1) (by norm_num)) (by norm_num)⟩

end

/-! ### Where a panic comes from -/

theorem noneOf_panic {img : GrayImage} : ∀ {l : List (Point × U8)}, noneOf img l = .panic →
    ∃ t ∈ l, pixelAt img t.1 = .panic := by
  intro l
  induction l with
  | nil => intro h; cases h
  | cons t l ih =>
    intro h
    unfold noneOf at h
    cases hp : pixelAt img t.1 with
    | panic => exact ⟨t, by simp, hp⟩
    | ret c =>
      rw [hp, Run.ret_bind] at h
      split at h
      · cases h
      · obtain ⟨t', h1, h2⟩ := ih h
        exact ⟨t', by simp [h1], h2⟩

theorem isAlignment_panic {img : GrayImage} {p : Point} {dx dy : Delta} {scale : F64}
    (h : isAlignment img p dx dy scale = .panic) :
    pixelAt img p = .panic ∨ ∃ t ∈ alignmentTests p (scale * dx) (scale * dy), pixelAt img t.1 = .panic := by
  unfold isAlignment at h
  split at h
  · cases h
  · simp only at h
    split at h
    · cases h
    · split at h
      · cases h
      · cases hn : noneOf img (alignmentTests p (scale * dx) (scale * dy)) with
        | panic => exact Or.inr (noneOf_panic hn)
        | ret b =>
          rw [hn, Run.ret_bind] at h
          split at h
          · cases hp : pixelAt img p with
            | panic => exact Or.inl rfl
            | ret c => rw [hp, Run.ret_bind] at h; cases h
          · cases h

theorem isAlignment_true {img : GrayImage} {p : Point} {dx dy : Delta} {scale : F64}
    (h : isAlignment img p dx dy scale = .ret true) : pixelAt img p = .ret 0#8 := by
  unfold isAlignment at h
  split at h
  · cases h
  · simp only at h
    split at h
    · cases h
    · split at h
      · cases h
      · cases hn : noneOf img (alignmentTests p (scale * dx) (scale * dy)) with
        | panic => rw [hn] at h; cases h
        | ret b =>
          rw [hn, Run.ret_bind] at h
          split at h
          · cases hp : pixelAt img p with
            | panic => rw [hp] at h; cases h
            | ret c =>
              rw [hp, Run.ret_bind, Run.pure_eq] at h
              injection h with h
              rw [beq_iff_eq] at h
              rw [h]
          · cases h

theorem findAlignment_panic {img : GrayImage} {dx dy : Delta} : ∀ {l : List (Point × F64)},
    findAlignment img dx dy l = .panic → ∃ t ∈ l, isAlignment img t.1 dx dy t.2 = .panic := by
  intro l
  induction l with
  | nil => intro h; cases h
  | cons t l ih =>
    intro h
    unfold findAlignment at h
    cases hp : isAlignment img t.1 dx dy t.2 with
    | panic => exact ⟨t, by simp, hp⟩
    | ret c =>
      rw [hp, Run.ret_bind] at h
      split at h
      · cases h
      · obtain ⟨t', h1, h2⟩ := ih h
        exact ⟨t', by simp [h1], h2⟩

theorem findAlignment_some {img : GrayImage} {dx dy : Delta} {p : Point} : ∀ {l : List (Point × F64)},
    findAlignment img dx dy l = .ret (some p) → ∃ t ∈ l, t.1 = p ∧ isAlignment img p dx dy t.2 = .ret true := by
  intro l
  induction l with
  | nil => intro h; cases h
  | cons t l ih =>
    intro h
    unfold findAlignment at h
    cases hp : isAlignment img t.1 dx dy t.2 with
    | panic => rw [hp] at h; cases h
    | ret c =>
      rw [hp, Run.ret_bind] at h
      split at h
      · rename_i hc
        injection h with h
        injection h with h
        subst h
        exact ⟨t, by simp, rfl, by rw [hp, hc]⟩
      · obtain ⟨t', h1, h2⟩ := ih h
        exact ⟨t', by simp [h1], h2⟩

theorem mem_attempts {est p : Point} {dx dy : Delta} {s : F64} (h : (p, s) ∈ attempts est dx dy) :
    ∃ i ≤ 3, p ∈ ring est dx dy i ∧ ∃ z ∈ ([0, 1, -1, 2, -2, 3] : List Int), s = F64.lit 1 + F64.ofInt z / F64.lit 10 := by
  unfold attempts at h
  rw [List.mem_flatMap] at h
  obtain ⟨i, hi, h⟩ := h
  rw [List.mem_flatMap] at h
  obtain ⟨z, hz, h⟩ := h
  rw [List.mem_map] at h
  obtain ⟨q, hq, h⟩ := h
  injection h with h h'
  subst h
  rw [List.mem_range] at hi
  exact ⟨i, by omega, hq, z, hz, h'.symm⟩

/-- All pixels that the search looks at are within four and a bit modules of the estimate. -/
theorem search_panic {img : GrayImage} {size : Nat} (h : 21 ≤ size) (h' : size ≤ 177) {loc : QRLocation} {tl tr bl : Pt}
    (hl : LocExact loc tl tr bl) {dx dy : Delta} (hdx : DNear dx (stepQ size tl tr) (2 * ηQ))
    (hdy : DNear dy (stepQ size tl bl) (2 * ηQ))
    (hp : findAlignment img dx dy (attempts (estimate loc dx dy size) dx dy) = .panic) :
    ∃ (p : Point) (u v : ℚ), |u| ≤ 21 / 5 ∧ |v| ≤ 21 / 5 ∧ At size tl tr bl p u v 1000 ∧ pixelAt img p = .panic := by
  have h1 := hl.tl_small
  have h2 := hl.tr_small
  have h3 := hl.bl_small
  have hest : At size tl tr bl (estimate loc dx dy size) 0 0 350 := by
    have := estimate_near h h' hl hdx hdy
    have e : estQ size tl tr bl + (0 : ℚ) • stepQ size tl tr + (0 : ℚ) • stepQ size tl bl = estQ size tl tr bl := by ptring
    unfold At
    rwa [e]
  have one : ∀ D : Pt, (1 : ℚ) • D = D := fun D => by ptring
  have hx : DNear dx ((1 : ℚ) • stepQ size tl tr) (2 * ηQ) := by rwa [one]
  have hy : DNear dy ((1 : ℚ) • stepQ size tl bl) (2 * ηQ) := by rwa [one]
  obtain ⟨⟨p, s⟩, ht, hp⟩ := findAlignment_panic hp
  obtain ⟨i, hi, hr, z, hz, rfl⟩ := mem_attempts ht
  obtain ⟨u, v, hu, hv, hat⟩ := ring_at h h1 h2 h3 hest hx hy hi hr
  rcases isAlignment_panic hp with hp | ⟨t, ht, hp⟩
  · exact ⟨p, u, v, by linarith, by linarith, hat.mono (by linarith [ηQ_pos]), hp⟩
  · obtain ⟨c, hs, c0, c1⟩ := scale_near h h1 h2 h3 hz
    have cabs : |c| ≤ 5 := by rw [abs_of_nonneg c0]; linarith
    have sx := dmul hx (stepQ_small' h h1 h2) hs (by norm_num) cabs (by norm_num) (by norm_num)
    have sy := dmul hy (stepQ_small' h h1 h3) hs (by norm_num) cabs (by norm_num) (by norm_num)
    rw [mul_one] at sx sy
    obtain ⟨u', v', hu', hv', hat'⟩ := tests_at h h1 h2 h3 hu hv hat c0 c1 (sx.mono (by linarith)) (sy.mono (by linarith)) ht
    exact ⟨t.1, u', v', hu', hv', hat', hp⟩

/-- What the search finds is within one and a half modules of the estimate, and dark. -/
theorem search_found {img : GrayImage} {size : Nat} (h : 21 ≤ size) (h' : size ≤ 177) {loc : QRLocation} {tl tr bl : Pt}
    (hl : LocExact loc tl tr bl) {dx dy : Delta} (hdx : DNear dx (stepQ size tl tr) (2 * ηQ))
    (hdy : DNear dy (stepQ size tl bl) (2 * ηQ)) {p : Point}
    (hp : findAlignment img dx dy (attempts (estimate loc dx dy size) dx dy) = .ret (some p)) :
    (∃ u v : ℚ, |u| ≤ 151 / 100 ∧ |v| ≤ 151 / 100 ∧ At size tl tr bl p u v 400) ∧ pixelAt img p = .ret 0#8 := by
  have h1 := hl.tl_small
  have h2 := hl.tr_small
  have h3 := hl.bl_small
  have hest : At size tl tr bl (estimate loc dx dy size) 0 0 350 := by
    have := estimate_near h h' hl hdx hdy
    have e : estQ size tl tr bl + (0 : ℚ) • stepQ size tl tr + (0 : ℚ) • stepQ size tl bl = estQ size tl tr bl := by ptring
    unfold At
    rwa [e]
  have one : ∀ D : Pt, (1 : ℚ) • D = D := fun D => by ptring
  have hx : DNear dx ((1 : ℚ) • stepQ size tl tr) (2 * ηQ) := by rwa [one]
  have hy : DNear dy ((1 : ℚ) • stepQ size tl bl) (2 * ηQ) := by rwa [one]
  obtain ⟨⟨p', s⟩, ht, rfl, hp⟩ := findAlignment_some hp
  obtain ⟨i, hi, hr, -⟩ := mem_attempts ht
  exact ⟨ring_at h h1 h2 h3 hest hx hy hi hr, isAlignment_true hp⟩

/-- The centring does not leave the image. -/
theorem firstWhite_total {img : GrayImage} (hv : img.Valid) {pos : Nat → Nat × Nat} {d : Nat} : ∀ {l : List Nat},
    (∀ c ∈ l, (pos c).1 < img.width ∧ (pos c).2 < img.height) → ∃ r, firstWhite img pos d l = .ret r := by
  intro l
  induction l with
  | nil => intro _; exact ⟨d, rfl⟩
  | cons c l ih =>
    intro h
    obtain ⟨hx, hy⟩ := h c (by simp)
    have hlt : (pos c).2 * img.width + (pos c).1 < img.pixels.length := by
      rw [hv.1, Nat.mul_comm img.width]
      have : ((pos c).2 + 1) * img.width ≤ img.height * img.width := Nat.mul_le_mul_right _ hy
      rw [Nat.succ_mul] at this
      omega
    have hg : img.getPixel (pos c).1 (pos c).2 = .ret img.pixels[(pos c).2 * img.width + (pos c).1] := by
      unfold GrayImage.getPixel
      rw [if_pos ⟨hx, hy⟩, List.getElem?_eq_getElem hlt]
    unfold firstWhite
    rw [hg, Run.ret_bind]
    split
    · exact ⟨c, rfl⟩
    · exact ih fun c hc => h c (by simp [hc])

theorem center_total {img : GrayImage} (hv : img.Valid) (hw2 : 2 ≤ img.width) {p : Point} (hx : p.x.round.toU32 < img.width)
    (hy : p.y.round.toU32 < img.height) : ∃ a, center img p = .ret a := by
  unfold center
  simp only
  generalize p.x.round.toU32 = cx at *
  generalize p.y.round.toU32 = cy at *
  obtain ⟨l, hl⟩ := firstWhite_total hv (pos := fun x => (x, cy)) (d := 0) (l := (List.range cx).reverse) (by
    intro c hc
    rw [List.mem_reverse, List.mem_range] at hc
    exact ⟨by simp only; omega, hy⟩)
  obtain ⟨r, hr⟩ := firstWhite_total hv (pos := fun x => (x, cy)) (d := img.width)
    (l := List.range' cx (img.width - cx)) (by
    intro c hc
    rw [List.mem_range'_1] at hc
    exact ⟨by simp only; omega, hy⟩)
  have hlc : l ≤ cx ∧ (0 < cx → l < cx) := by
    rcases before_of hl with ⟨h, -⟩ | ⟨h, -⟩ <;> omega
  have hrw : r ≤ img.width := by
    rcases after_of hr with ⟨-, h, -⟩ | ⟨h, -⟩ <;> omega
  have hw := hv.2.1
  rw [hl, Run.ret_bind, hr, Run.ret_bind, half_sum (by omega) (by omega)]
  have hmid : |((l : ℚ) + r) / 2| ≤ 2 ^ 52 := by
    rw [abs_of_nonneg (by positivity)]
    have : l + r ≤ 2 ^ 33 := by omega
    have : (l : ℚ) + r ≤ 2 ^ 33 := by exact_mod_cast this
    linarith
  have hcx : (F64.fin (((l : ℚ) + r) / 2)).round.toU32 < img.width := by
    have : l + r + 2 ≤ 2 * img.width := by omega
    have : (l : ℚ) + r + 2 ≤ 2 * img.width := by exact_mod_cast this
    have := round_toU32_le (n := img.width - 1) hmid (by
      rw [Nat.cast_sub (by omega), Nat.cast_one]
      linarith)
    omega
  generalize (F64.fin (((l : ℚ) + r) / 2)).round.toU32 = cx' at *
  obtain ⟨t, ht⟩ := firstWhite_total hv (pos := fun y => (cx', y)) (d := 0) (l := (List.range cy).reverse) (by
    intro c hc
    rw [List.mem_reverse, List.mem_range] at hc
    exact ⟨hcx, by simp only; omega⟩)
  obtain ⟨b, hb⟩ := firstWhite_total hv (pos := fun y => (cx', y)) (d := img.height)
    (l := List.range' cy (img.height - cy)) (by
    intro c hc
    rw [List.mem_range'_1] at hc
    exact ⟨hcx, by simp only; omega⟩)
  rw [ht, Run.ret_bind, hb, Run.ret_bind]
  exact ⟨_, rfl⟩

end Extractor
end Verif
