import Verif.Lemmas.Perspective

/-!
# Centring on the alignment pattern
-/
namespace Verif
namespace Extractor
open F64 Spec

theorem half_sum {l r : Nat} (hl : l < 2 ^ 32) (hr : r < 2 ^ 32) :
    (F64.ofNat l + F64.ofNat r) / F64.lit 2 = .fin (((l : ℚ) + r) / 2) := by
  have hs : ((l : ℚ) + r) ≤ 2 ^ 33 := by
    have : l + r ≤ 2 ^ 33 := by omega
    exact_mod_cast this
  have h0 : (0 : ℚ) ≤ (l : ℚ) + r := by positivity
  rw [ofNat_fin (by omega), ofNat_fin (by omega), lit2,
    add_fin (by rw [abs_of_nonneg h0]; exact le_trans hs (by norm_num))]
  have e : roundQ ((l : ℚ) + r) = (l : ℚ) + r := by
    have := roundQ_nat (n := l + r) (by omega)
    push_cast at this; exact this
  rw [e, div_fin (by norm_num) (by
    rw [abs_of_nonneg (by positivity)]
    exact le_trans (by linarith : ((l : ℚ) + r) / 2 ≤ 2 ^ 33) (by norm_num))]
  congr 1
  apply roundQ_of_repr
  refine ⟨(l + r : Int), -1, ?_, ?_, by norm_num⟩
  rotate_left
  · rw [abs_of_nonneg (by omega)]; omega
  · rw [pow2_eq]; push_cast; rw [zpow_neg, zpow_one]; ring

theorem getPixel_ret {img : GrayImage} {x y : Nat} {c : U8} (h : img.getPixel x y = .ret c) :
    x < img.width ∧ y < img.height ∧ img.pixels[y * img.width + x]? = some c := by
  unfold GrayImage.getPixel at h
  split at h
  · rename_i hlt
    cases hp : img.pixels[y * img.width + x]? with
    | none => rw [hp] at h; cases h
    | some p =>
      rw [hp] at h
      injection h with h
      exact ⟨hlt.1, hlt.2, by rw [h]⟩
  · cases h

theorem white_iff {img : GrayImage} {x y : Nat} {c : U8} (h : img.getPixel x y = .ret c) :
    White img x y ↔ c = 255#8 := by
  obtain ⟨-, -, hp⟩ := getPixel_ret h
  unfold White
  rw [hp]
  simp

/-- What the search along a line returns. -/
theorem firstWhite_ret {img : GrayImage} {pos : Nat → Nat × Nat} {d : Nat} :
    ∀ {l : List Nat} {c : Nat}, firstWhite img pos d l = .ret c →
      (c = d ∧ ∀ x ∈ l, ¬ White img (pos x).1 (pos x).2) ∨
      (∃ pre post, l = pre ++ c :: post ∧ (pos c).1 < img.width ∧ (pos c).2 < img.height ∧
        White img (pos c).1 (pos c).2 ∧ ∀ x ∈ pre, ¬ White img (pos x).1 (pos x).2) := by
  intro l
  induction l with
  | nil =>
    intro c h
    unfold firstWhite at h
    rw [Run.pure_eq] at h
    injection h with h
    exact Or.inl ⟨h.symm, by simp⟩
  | cons x l ih =>
    intro c h
    unfold firstWhite at h
    cases hp : img.getPixel (pos x).1 (pos x).2 with
    | panic => rw [hp] at h; cases h
    | ret p =>
      rw [hp, Run.ret_bind] at h
      have hw := white_iff hp
      obtain ⟨w1, w2, -⟩ := getPixel_ret hp
      split at h
      · rename_i h255
        rw [Run.pure_eq] at h
        injection h with h
        subst h
        exact Or.inr ⟨[], l, rfl, w1, w2, hw.mpr h255, by simp⟩
      · rename_i h255
        have hx : ¬ White img (pos x).1 (pos x).2 := fun hh => h255 (hw.mp hh)
        rcases ih h with ⟨h1, h2⟩ | ⟨pre, post, h1, h2, h3, h4, h5⟩
        · refine Or.inl ⟨h1, ?_⟩
          intro y hy
          rcases List.mem_cons.mp hy with rfl | hy
          · exact hx
          · exact h2 y hy
        · refine Or.inr ⟨x :: pre, post, by rw [h1]; rfl, h2, h3, h4, ?_⟩
          intro y hy
          rcases List.mem_cons.mp hy with rfl | hy
          · exact hx
          · exact h5 y hy

theorem split_reverse_range {n c : Nat} {pre post : List Nat} (h : (List.range n).reverse = pre ++ c :: post) :
    c < n ∧ ∀ k, c < k → k < n → k ∈ pre := by
  have hc : c < n := by
    have : c ∈ (List.range n).reverse := by rw [h]; simp
    simpa using this
  refine ⟨hc, ?_⟩
  intro k h1 h2
  have hlen : pre.length = n - 1 - c := by
    have hl : pre.length < (List.range n).reverse.length := by rw [h]; simp
    have hg : (List.range n).reverse[pre.length]? = some c := by rw [h]; simp
    rw [List.getElem?_eq_getElem hl] at hg
    simp only [List.getElem_reverse, List.getElem_range, List.length_range, Option.some.injEq] at hg
    simp only [List.length_reverse, List.length_range] at hl
    omega
  have hk : n - 1 - k < pre.length := by omega
  have hg : (List.range n).reverse[n - 1 - k]? = some k := by
    rw [List.getElem?_eq_getElem (by simp; omega)]
    simp only [List.getElem_reverse, List.getElem_range, List.length_range, Option.some.injEq]
    omega
  rw [h, List.getElem?_append_left hk] at hg
  exact List.mem_of_getElem? hg

theorem split_range' {s n c : Nat} {pre post : List Nat} (h : List.range' s n = pre ++ c :: post) :
    s ≤ c ∧ c < s + n ∧ ∀ k, s ≤ k → k < c → k ∈ pre := by
  have hc : c ∈ List.range' s n := by rw [h]; simp
  rw [List.mem_range'_1] at hc
  refine ⟨hc.1, hc.2, ?_⟩
  intro k h1 h2
  have hlen : pre.length = c - s := by
    have hl : pre.length < (List.range' s n).length := by rw [h]; simp
    have hg : (List.range' s n)[pre.length]? = some c := by rw [h]; simp
    rw [List.getElem?_eq_getElem hl] at hg
    simp only [List.getElem_range', Nat.one_mul, Option.some.injEq] at hg
    omega
  have hg : (List.range' s n)[k - s]? = some k := by
    rw [List.getElem?_eq_getElem (by rw [List.length_range']; omega)]
    simp only [List.getElem_range', Nat.one_mul, Option.some.injEq]
    omega
  rw [h, List.getElem?_append_left (by omega)] at hg
  exact List.mem_of_getElem? hg

theorem before_of {img : GrayImage} {pos : Nat → Nat × Nat} {n c : Nat}
    (h : firstWhite img pos 0 (List.range n).reverse = .ret c) :
    WhiteBefore (fun k => White img (pos k).1 (pos k).2) n c := by
  rcases firstWhite_ret h with ⟨h1, h2⟩ | ⟨pre, post, h1, -, -, h4, h5⟩
  · exact Or.inr ⟨h1, fun k hk => h2 k (by simpa using hk)⟩
  · obtain ⟨a, b⟩ := split_reverse_range h1
    exact Or.inl ⟨a, h4, fun k k1 k2 => h5 k (b k k1 k2)⟩

theorem after_of {img : GrayImage} {pos : Nat → Nat × Nat} {s n c : Nat}
    (h : firstWhite img pos n (List.range' s (n - s)) = .ret c) :
    WhiteAfter (fun k => White img (pos k).1 (pos k).2) s n c := by
  rcases firstWhite_ret h with ⟨h1, h2⟩ | ⟨pre, post, h1, -, -, h4, h5⟩
  · exact Or.inr ⟨h1, fun k hk hk' => h2 k (by rw [List.mem_range'_1]; omega)⟩
  · obtain ⟨a, b, d⟩ := split_range' h1
    exact Or.inl ⟨a, by omega, h4, fun k k1 k2 => h5 k (d k k1 k2)⟩

/-- The centring ends in the image, in the middle of a dark spot. -/
theorem center_ret {img : GrayImage} (hv : img.Valid) {est a : Point} (h : center img est = .ret a) :
    ∃ q : Pt, a = ⟨.fin q.1, .fin q.2⟩ ∧ 0 ≤ q.1 ∧ q.1 ≤ img.width ∧ 0 ≤ q.2 ∧ q.2 ≤ img.height ∧
      MiddleOfSpot img est.x.round.toU32 est.y.round.toU32 q := by
  unfold center at h
  simp only at h
  generalize est.x.round.toU32 = cx at *
  generalize est.y.round.toU32 = cy at *
  cases h1 : firstWhite img (fun x => (x, cy)) 0 (List.range cx).reverse with
  | panic => rw [h1] at h; cases h
  | ret l =>
    rw [h1, Run.ret_bind] at h
    cases h2 : firstWhite img (fun x => (x, cy)) img.width (List.range' cx (img.width - cx)) with
    | panic => rw [h2] at h; cases h
    | ret r =>
      rw [h2, Run.ret_bind] at h
      have hlw : l ≤ img.width := by
        rcases firstWhite_ret h1 with ⟨e, -⟩ | ⟨-, -, -, e, -⟩
        · omega
        · exact le_of_lt e
      have hrw : r ≤ img.width := by
        rcases firstWhite_ret h2 with ⟨e, -⟩ | ⟨-, -, -, e, -⟩
        · omega
        · exact le_of_lt e
      have hw := hv.2.1
      have hh := hv.2.2
      rw [half_sum (by omega) (by omega)] at h
      have hmid : |((l : ℚ) + r) / 2| ≤ 2 ^ 52 := by
        rw [abs_of_nonneg (by positivity)]
        have : l + r ≤ 2 ^ 33 := by omega
        have : (l : ℚ) + r ≤ 2 ^ 33 := by exact_mod_cast this
        linarith
      generalize hcx' : (F64.fin (((l : ℚ) + r) / 2)).round.toU32 = cx' at h
      cases h3 : firstWhite img (fun y => (cx', y)) 0 (List.range cy).reverse with
      | panic => rw [h3] at h; cases h
      | ret t =>
        rw [h3, Run.ret_bind] at h
        cases h4 : firstWhite img (fun y => (cx', y)) img.height (List.range' cy (img.height - cy)) with
        | panic => rw [h4] at h; cases h
        | ret b =>
          rw [h4, Run.ret_bind, Run.pure_eq] at h
          have hth : t ≤ img.height := by
            rcases firstWhite_ret h3 with ⟨e, -⟩ | ⟨-, -, -, -, e, -⟩
            · omega
            · exact le_of_lt e
          have hbh : b ≤ img.height := by
            rcases firstWhite_ret h4 with ⟨e, -⟩ | ⟨-, -, -, -, e, -⟩
            · omega
            · exact le_of_lt e
          rw [half_sum (by omega) (by omega)] at h
          injection h with h
          subst h
          have c1 : (l : ℚ) ≤ img.width := by exact_mod_cast hlw
          have c2 : (r : ℚ) ≤ img.width := by exact_mod_cast hrw
          have c3 : (t : ℚ) ≤ img.height := by exact_mod_cast hth
          have c4 : (b : ℚ) ≤ img.height := by exact_mod_cast hbh
          refine ⟨(((l : ℚ) + r) / 2, ((t : ℚ) + b) / 2), rfl, by positivity, by simp only; linarith, by positivity,
            by simp only; linarith, cx', l, r, t, b, before_of h1, after_of h2, rfl, ?_,
            before_of h3, after_of h4, rfl⟩
          simp only
          rw [round_toU32 hmid] at hcx'
          have hn := roundAway_near (((l : ℚ) + r) / 2)
          have hi : (roundAway (((l : ℚ) + r) / 2)) = (cx' : Int) := by
            have i1 : (0 : Int) ≤ roundAway (((l : ℚ) + r) / 2) := by
              have := roundAway_mono (show (0 : ℚ) ≤ ((l : ℚ) + r) / 2 by positivity)
              have z := roundAway_int 0
              rw [Int.cast_zero] at z
              rwa [z] at this
            have i2 : roundAway (((l : ℚ) + r) / 2) ≤ (img.width : Int) := by
              have := roundAway_mono (show ((l : ℚ) + r) / 2 ≤ (img.width : ℚ) by linarith)
              rwa [roundAway_nat] at this
            omega
          rw [hi] at hn
          push_cast at hn
          exact hn

end Extractor
end Verif
