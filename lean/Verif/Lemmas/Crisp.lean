import Verif.Spec.Enlarged
import Verif.Lemmas.Enlarge
import Verif.Lemmas.Threshold
import Verif.Props.Threshold
import Mathlib.Data.List.Perm.Subperm

/-!
# Thresholding crisp enlarged images gives back their black and white form
-/
namespace Verif
open Spec LineScan BlockedMean

theorem sum_sub {α : Type} (f : α → Nat) {sub l : List α} (hn : sub.Nodup) (hs : sub ⊆ l) :
    (sub.map f).sum ≤ (l.map f).sum := by
  obtain ⟨l', hp, hl⟩ := List.subperm_of_subset hn hs
  rw [← (hp.map f).sum_eq]
  have := hl.map f
  generalize l'.map f = a at *
  generalize l.map f = b at *
  clear hp hl hs hn
  induction this with
  | slnil => exact le_refl _
  | cons x _ ih => rw [List.sum_cons]; omega
  | cons_cons x _ ih => rw [List.sum_cons, List.sum_cons]; omega

theorem sum_ge {α : Type} (f : α → Nat) (k : Nat) (l : List α) (h : ∀ a ∈ l, k ≤ f a) : k * l.length ≤ (l.map f).sum := by
  induction l with
  | nil => simp
  | cons a l ih =>
    rw [List.map_cons, List.sum_cons, List.length_cons, Nat.mul_succ]
    have h1 := h a (by simp)
    have h2 := ih fun b hb => h b (by simp [hb])
    omega

theorem sum_complement {α : Type} (f : α → Nat) (l : List α) (h : ∀ a ∈ l, f a ≤ 255) :
    (l.map f).sum + (l.map fun a => 255 - f a).sum = 255 * l.length := by
  induction l with
  | nil => simp
  | cons a l ih =>
    simp only [List.map_cons, List.sum_cons, List.length_cons]
    have h1 := h a (by simp)
    have h2 := ih fun b hb => h b (by simp [hb])
    omega

/-- Five by five pixels. -/
def square (s r : Nat) : List (Nat × Nat) := (List.range 25).map fun i => (s + i % 5, r + i / 5)

theorem square_nodup (s r : Nat) : (square s r).Nodup := by
  refine List.Nodup.map ?_ List.nodup_range
  intro i j h
  simp only [Prod.mk.injEq] at h
  omega

theorem mem_square {s r : Nat} {p : Nat × Nat} (h : p ∈ square s r) : s ≤ p.1 ∧ p.1 < s + 5 ∧ r ≤ p.2 ∧ p.2 < r + 5 := by
  unfold square at h
  rw [List.mem_map] at h
  obtain ⟨i, hi, rfl⟩ := h
  rw [List.mem_range] at hi
  simp only
  omega

theorem positions_nodup (w h : Nat) : (positions w h).Nodup := by
  rw [positions_eq]
  rcases Nat.eq_zero_or_pos w with rfl | hw
  · simp
  · refine List.Nodup.map ?_ List.nodup_range
    intro i j hij
    simp only [Prod.mk.injEq] at hij
    rw [← Nat.div_add_mod' i w, ← Nat.div_add_mod' j w, hij.1, hij.2]

theorem windowCount_le (img : GrayImage) (x y : Nat) : windowCount 5 7 img x y ≤ 900 := by
  have hsub : window 5 7 img x y ⊆
      (List.range 900).map fun i => (5 * (x / 5 - 3) + i % 30, 5 * (y / 5 - 3) + i / 30) := by
    intro p hp
    unfold window at hp
    rw [List.mem_filter, Bool.and_eq_true] at hp
    obtain ⟨-, h1, h2⟩ := hp
    simp only [nearBlock, Bool.and_eq_true, decide_eq_true_eq] at h1 h2
    rw [List.mem_map]
    refine ⟨(p.1 - 5 * (x / 5 - 3)) + 30 * (p.2 - 5 * (y / 5 - 3)), ?_, ?_⟩
    · rw [List.mem_range]; omega
    · obtain ⟨a, b⟩ := p
      simp only [Prod.mk.injEq] at *
      constructor
      · omega
      · omega
  have hn : (window 5 7 img x y).Nodup := (positions_nodup _ _).filter _
  have := (List.subperm_of_subset hn hsub).length_le
  simpa [windowCount] using this

/-- Five pixels in a row near a pixel, in the same module, or all in the last two. -/
theorem axis {m W x : Nat} (hm : 5 ≤ m) (hW : 2 ≤ W) (hx : x < W * m) :
    ∃ s, ∀ p, s ≤ p → p < s + 5 → p < W * m ∧ nearBlock (W * m / 5) 3 (x / 5) (p / 5) = true ∧
      (p / m = x / m ∨ W ≤ p / m + 2 ∧ W ≤ x / m + 2) := by
  have hm0 : 0 < m := by omega
  have e1 := Nat.div_add_mod' x m
  have e2 := Nat.mod_lt x hm0
  have hX : x / m < W := (Nat.div_lt_iff_lt_mul hm0).mpr hx
  generalize hXe : x / m = X at *
  by_cases hlast : X + 1 < W
  · have h3 : (X + 2) * m ≤ W * m := Nat.mul_le_mul_right _ hlast
    rw [Nat.add_mul] at h3
    obtain ⟨s, s1, s2, s3, s4⟩ : ∃ s, X * m ≤ s ∧ s + 5 ≤ X * m + m ∧ s ≤ x ∧ x < s + 5 := by
      by_cases h : x % m + 5 ≤ m
      · exact ⟨x, by omega, by omega, by omega, by omega⟩
      · exact ⟨X * m + m - 5, by omega, by omega, by omega, by omega⟩
    refine ⟨s, fun p p1 p2 => ⟨by omega, ?_, Or.inl ?_⟩⟩
    · simp only [nearBlock, Bool.and_eq_true, decide_eq_true_eq]
      generalize W * m = A at *
      omega
    · obtain ⟨n, rfl⟩ : ∃ n, p = X * m + n := ⟨p - X * m, by omega⟩
      exact block_div X (by omega)
  · have hXW : X + 1 = W := by omega
    have h3 : W * m = (W - 2) * m + 2 * m := by rw [← Nat.add_mul]; congr 1; omega
    have h4 : W * m = X * m + m := by rw [← hXW, Nat.succ_mul]
    refine ⟨min x (5 * (W * m / 5) - 5), fun p p1 p2 => ⟨?_, ?_, Or.inr ⟨?_, by omega⟩⟩⟩
    · generalize W * m = A at *
      omega
    · simp only [nearBlock, Bool.and_eq_true, decide_eq_true_eq]
      generalize W * m = A at *
      omega
    · have : W - 2 ≤ p / m := by
        rw [Nat.le_div_iff_mul_le hm0]
        generalize W * m = A at *
        omega
      omega

/-- An image is the thresholded one if its pixels are. -/
theorem thresholded_eq {src img : GrayImage} (cw : src.width = img.width) (ch : src.height = img.height) (hv : img.Valid)
    (key : ∀ x < img.width, ∀ y < img.height, (if BecomesWhite 5 7 src x y then 255 else 0) = grey img x y) :
    thresholded 5 7 src = img := by
  have hpx : (positions img.width img.height).map
      (fun p => if BecomesWhite 5 7 src p.1 p.2 then 255#8 else 0#8) = img.pixels := by
    rw [positions_eq, List.map_map]
    apply List.ext_getElem
    · simp [hv.1]
    · intro i i1 i2
      simp only [List.getElem_map, List.getElem_range, Function.comp]
      rw [hv.1] at i2
      have hw0 : 0 < img.width := by
        rcases Nat.eq_zero_or_pos img.width with h | h
        · rw [h] at i2; omega
        · exact h
      have k := key (i % img.width) (Nat.mod_lt _ hw0) (i / img.width) (Nat.div_lt_of_lt_mul i2)
      unfold grey at k
      rw [Nat.div_add_mod', BlockedMean.getD_eq (by rw [hv.1]; exact i2)] at k
      apply BitVec.eq_of_toNat_eq
      rw [← k]
      split <;> rfl
  cases src; cases img
  simp only [thresholded] at *
  subst cw; subst ch
  rw [hpx]

/-- Thresholding a crisp image with enough of every colour everywhere. -/
theorem crisp_threshold_of {src img : GrayImage} (hc : Crisp src img) (hv : img.Valid)
    (hcount : ∀ x < img.width, ∀ y < img.height,
      ∃ sq, 18 ≤ sq.length ∧ sq.Nodup ∧ sq ⊆ window 5 7 src x y ∧
        ∀ p ∈ sq, p.1 < img.width ∧ p.2 < img.height ∧ grey img p.1 p.2 = grey img x y) : thresholded 5 7 src = img := by
  obtain ⟨cw, ch, hc⟩ := hc
  have key : ∀ x < img.width, ∀ y < img.height,
      (if BecomesWhite 5 7 src x y then 255 else 0) = grey img x y := by
    intro x hx y hy
    obtain ⟨sq, hlen, hnd, hsub, hsame⟩ := hcount x hx y hy
    have hcnt := windowCount_le src x y
    have hlow := sum_sub (fun p => grey src p.1 p.2) hnd hsub
    have hhigh := sum_sub (fun p => 255 - grey src p.1 p.2) hnd hsub
    have hcomp := sum_complement (fun p => grey src p.1 p.2) (window 5 7 src x y) (fun p _ => Props.grey_le src p.1 p.2)
    have htot : windowTotal 5 7 src x y = ((window 5 7 src x y).map fun p => grey src p.1 p.2).sum := rfl
    have hcw : windowCount 5 7 src x y = (window 5 7 src x y).length := rfl
    rw [← htot] at hlow hcomp
    rw [← hcw] at hcomp
    rcases hc x hx y hy with ⟨h0, h5⟩ | ⟨h255, h251⟩
    · have : 250 * sq.length ≤ (sq.map fun p => 255 - grey src p.1 p.2).sum := by
        refine sum_ge _ _ _ ?_
        intro p hp
        obtain ⟨a, b, e⟩ := hsame p hp
        rcases hc _ a _ b with ⟨-, h⟩ | ⟨h, -⟩
        · omega
        · omega
      rw [if_neg, h0]
      unfold BecomesWhite
      clear htot hcw
      generalize windowTotal 5 7 src x y = T at *
      generalize windowCount 5 7 src x y = C at *
      have h5' : grey src x y * C ≤ 5 * C := Nat.mul_le_mul_right _ h5
      generalize grey src x y * C = D at *
      omega
    · have : 251 * sq.length ≤ (sq.map fun p => grey src p.1 p.2).sum := by
        refine sum_ge _ _ _ ?_
        intro p hp
        obtain ⟨a, b, e⟩ := hsame p hp
        rcases hc _ a _ b with ⟨h, -⟩ | ⟨-, h⟩
        · omega
        · exact h
      rw [if_pos, h255]
      unfold BecomesWhite
      clear htot hcw
      generalize windowTotal 5 7 src x y = T at *
      generalize windowCount 5 7 src x y = C at *
      have h5' : 251 * C ≤ grey src x y * C := Nat.mul_le_mul_right _ h251
      generalize grey src x y * C = D at *
      omega
  exact thresholded_eq cw ch hv key

/-- **Thresholding a crisp enlarged image.** -/
theorem crisp_threshold {src img g : GrayImage} {m : Nat} (hc : Crisp src img) (hv : img.Valid) (he : Enlarged img g m)
    (hm : Legible g m) : thresholded 5 7 src = img := by
  refine crisp_threshold_of hc hv ?_
  intro x hx y hy
  refine ⟨_, hm.2 img he x hx y hy, ((positions_nodup _ _).filter _).filter _, ?_, ?_⟩
  · intro p hp
    have := (List.mem_filter.mp hp).1
    unfold window at this ⊢
    rw [hc.1, hc.2.1]
    exact this
  · intro p hp
    obtain ⟨h1, h2⟩ := List.mem_filter.mp hp
    unfold window at h1
    have := (List.mem_filter.mp h1).1
    rw [mem_positions] at this
    exact ⟨this.1, this.2, by simpa using h2⟩

/-- How to show that an enlarged image has enough of both colours. -/
theorem legible_of_lists {g : GrayImage} {m : Nat} (hm : 2 ≤ m)
    (h : ∀ x < g.width * m, ∀ y < g.height * m, ∃ sq : List (Nat × Nat), 18 ≤ sq.length ∧ sq.Nodup ∧ ∀ p ∈ sq,
      (p.1 < g.width * m ∧ nearBlock (g.width * m / 5) 3 (x / 5) (p.1 / 5) = true) ∧
      (p.2 < g.height * m ∧ nearBlock (g.height * m / 5) 3 (y / 5) (p.2 / 5) = true) ∧
      grey g (p.1 / m) (p.2 / m) = grey g (x / m) (y / m)) : Legible g m := by
  refine ⟨hm, ?_⟩
  intro img he x hx y hy
  obtain ⟨sq, h18, hnd, hsq⟩ := h x (by rw [← he.1]; exact hx) y (by rw [← he.2.1]; exact hy)
  refine le_trans h18 (List.subperm_of_subset hnd ?_).length_le
  intro p hp
  obtain ⟨⟨a1, a2⟩, ⟨b1, b2⟩, e⟩ := hsq p hp
  rw [← he.1] at a1
  rw [← he.2.1] at b1
  unfold window
  rw [List.mem_filter, List.mem_filter, Bool.and_eq_true, mem_positions, he.2.2 _ a1 _ b1, he.2.2 _ hx _ hy, e]
  refine ⟨⟨⟨a1, b1⟩, ?_, ?_⟩, by simp⟩
  · rw [he.1]; exact a2
  · rw [he.2.1]; exact b2

/-- Large modules. -/
theorem legible_large {g : GrayImage} {m : Nat} (hm : 5 ≤ m) (hend : WhiteEnd g) : Legible g m := by
  refine legible_of_lists (by omega) ?_
  obtain ⟨hw, hh, hlast⟩ := hend
  have hm0 : 0 < m := by omega
  intro x hx y hy
  obtain ⟨s, hs⟩ := axis hm hw hx
  obtain ⟨r, hr⟩ := axis hm hh hy
  refine ⟨square s r, by simp [square], square_nodup s r, ?_⟩
  intro p hp
  obtain ⟨p1, p2, p3, p4⟩ := mem_square hp
  obtain ⟨a1, a2, a3⟩ := hs _ p1 p2
  obtain ⟨b1, b2, b3⟩ := hr _ p3 p4
  refine ⟨⟨a1, a2⟩, ⟨b1, b2⟩, ?_⟩
  have hxw : x / m < g.width := (Nat.div_lt_iff_lt_mul hm0).mpr hx
  have hyh : y / m < g.height := (Nat.div_lt_iff_lt_mul hm0).mpr hy
  have hpw : p.1 / m < g.width := (Nat.div_lt_iff_lt_mul hm0).mpr a1
  have hph : p.2 / m < g.height := (Nat.div_lt_iff_lt_mul hm0).mpr b1
  rcases a3 with a3 | ⟨a3, a4⟩
  · rcases b3 with b3 | ⟨b3, b4⟩
    · rw [a3, b3]
    · rw [hlast _ hpw _ hph (Or.inr b3), hlast _ hxw _ hyh (Or.inr b4)]
  · rw [hlast _ hpw _ hph (Or.inl a3), hlast _ hxw _ hyh (Or.inl a4)]

/-- The first `c` by `c` pixels of the given modules. -/
def blocksOf (m c : Nat) (l : List (Nat × Nat)) : List (Nat × Nat) :=
  l.flatMap fun P => (List.range (c * c)).map fun i => (P.1 * m + i % c, P.2 * m + i / c)

theorem length_blocksOf (m c : Nat) (l : List (Nat × Nat)) : (blocksOf m c l).length = c * c * l.length := by
  unfold blocksOf
  induction l with
  | nil => simp
  | cons P l ih =>
    rw [List.flatMap_cons, List.length_append, ih, List.length_map, List.length_range, List.length_cons, Nat.mul_succ]
    omega

theorem mem_blocksOf {m c : Nat} (hc : 0 < c) (hcm : c ≤ m) {l : List (Nat × Nat)} {p : Nat × Nat} (h : p ∈ blocksOf m c l) :
    (p.1 / m, p.2 / m) ∈ l ∧ p.1 % m < c ∧ p.2 % m < c := by
  unfold blocksOf at h
  rw [List.mem_flatMap] at h
  obtain ⟨P, hP, h⟩ := h
  rw [List.mem_map] at h
  obtain ⟨i, hi, rfl⟩ := h
  rw [List.mem_range] at hi
  have h1 : i % c < c := Nat.mod_lt _ hc
  have h2 : i / c < c := Nat.div_lt_of_lt_mul hi
  simp only
  rw [block_div _ (by omega), block_div _ (by omega), Nat.mul_comm P.1, Nat.mul_comm P.2, Nat.mul_add_mod, Nat.mul_add_mod,
    Nat.mod_eq_of_lt (by omega : i % c < m), Nat.mod_eq_of_lt (by omega : i / c < m)]
  exact ⟨hP, h1, h2⟩

theorem blocksOf_nodup {m c : Nat} (hc : 0 < c) (hcm : c ≤ m) {l : List (Nat × Nat)} (hl : l.Nodup) : (blocksOf m c l).Nodup := by
  unfold blocksOf
  rw [List.nodup_flatMap]
  constructor
  · intro P _
    refine List.Nodup.map ?_ List.nodup_range
    intro i j h
    simp only [Prod.mk.injEq, Nat.add_left_cancel_iff] at h
    rw [← Nat.div_add_mod' i c, ← Nat.div_add_mod' j c, h.1, h.2]
  · refine hl.imp ?_
    intro P Q hne p hp hq
    rw [List.mem_map] at hp hq
    obtain ⟨i, hi, rfl⟩ := hp
    obtain ⟨j, hj, hq⟩ := hq
    rw [List.mem_range] at hi hj
    simp only [Prod.mk.injEq] at hq
    apply hne
    have hi1 : i % c < c := Nat.mod_lt _ hc
    have hi2 : i / c < c := Nat.div_lt_of_lt_mul hi
    have hj1 : j % c < c := Nat.mod_lt _ hc
    have hj2 : j / c < c := Nat.div_lt_of_lt_mul hj
    have e1 := congrArg (· / m) hq.1
    have e2 := congrArg (· / m) hq.2
    rw [block_div _ (by omega), block_div _ (by omega)] at e1
    rw [block_div _ (by omega), block_div _ (by omega)] at e2
    exact Prod.ext e1.symm e2.symm

/-- Modules that are near enough for their first `c` columns or rows to be in the window. -/
theorem div_near {m W x p lo hi c : Nat} (h : m = 2 ∧ lo = 7 ∧ hi = 4 ∧ c = 2 ∨ m = 3 ∧ lo = 4 ∧ hi = 2 ∧ c = 3 ∨
      m = 4 ∧ lo = 3 ∧ hi = 2 ∧ c = 3) (h1 : x / m ≤ p / m + lo) (h2 : p / m ≤ x / m + hi) (h3 : p / m + 2 < W)
    (hc : p % m < c) : p < W * m ∧ nearBlock (W * m / 5) 3 (x / 5) (p / 5) = true := by
  simp only [nearBlock, Bool.and_eq_true, decide_eq_true_eq]
  rcases h with ⟨rfl, rfl, rfl, rfl⟩ | ⟨rfl, rfl, rfl, rfl⟩ | ⟨rfl, rfl, rfl, rfl⟩ <;> omega

/-- Small modules: enough modules of the same colour around every module. -/
theorem legible_small {g : GrayImage} {m lo hi c : Nat} (h : m = 2 ∧ lo = 7 ∧ hi = 4 ∧ c = 2 ∨ m = 3 ∧ lo = 4 ∧ hi = 2 ∧ c = 3 ∨
      m = 4 ∧ lo = 3 ∧ hi = 2 ∧ c = 3)
    (hmix : ∀ x < g.width, ∀ y < g.height, 18 ≤ c * c * ((positions g.width g.height).filter fun p =>
      (x ≤ p.1 + lo && p.1 ≤ x + hi && p.1 + 2 < g.width) &&
      (y ≤ p.2 + lo && p.2 ≤ y + hi && p.2 + 2 < g.height) && grey g p.1 p.2 == grey g x y).length) : Legible g m := by
  have hm : 2 ≤ m ∧ 0 < c ∧ c ≤ m := by omega
  refine legible_of_lists hm.1 ?_
  have hm0 : 0 < m := by omega
  intro x hx y hy
  have hxw : x / m < g.width := (Nat.div_lt_iff_lt_mul hm0).mpr hx
  have hyh : y / m < g.height := (Nat.div_lt_iff_lt_mul hm0).mpr hy
  have h18 := hmix _ hxw _ hyh
  rw [← length_blocksOf m] at h18
  refine ⟨_, h18, blocksOf_nodup hm.2.1 hm.2.2 ((positions_nodup _ _).filter _), ?_⟩
  intro p hp
  obtain ⟨hP, hc1, hc2⟩ := mem_blocksOf hm.2.1 hm.2.2 hp
  simp only [List.mem_filter, Bool.and_eq_true, decide_eq_true_eq, beq_iff_eq] at hP
  obtain ⟨-, ⟨⟨⟨a1, a2⟩, a3⟩, ⟨b1, b2⟩, b3⟩, e⟩ := hP
  exact ⟨div_near h a1 a2 a3 hc1, div_near h b1 b2 b3 hc2, e⟩

end Verif
