import Verif.Lemmas.Bitmap
import Verif.Lemmas.PlacedCheck
import Verif.Lemmas.Crisp
import Verif.Spec.Tilted

/-!
# Images given by numbers, and tests for them
-/
namespace Verif
open Spec

/-- The image in which the digits 1 of `n` are black and the others are white. -/
def bitImage (w h n : Nat) : GrayImage := ⟨w, h, (List.range (w * h)).map fun i => tone (bit n i)⟩

variable {w h n : Nat}

theorem bitImage_valid (hw : w < 2 ^ 32) (hh : h < 2 ^ 32) : (bitImage w h n).Valid :=
  ⟨by simp [bitImage], hw, hh⟩

theorem bitImage_index {x y : Nat} (hx : x < w) (hy : y < h) : y * w + x < w * h := by
  have : (y + 1) * w ≤ h * w := Nat.mul_le_mul_right _ hy
  rw [Nat.succ_mul] at this
  rw [Nat.mul_comm w h]
  omega

theorem bitImage_get {x y : Nat} (hx : x < w) (hy : y < h) :
    (bitImage w h n).pixels[y * w + x]? = some (tone (bit n (y * w + x))) := by
  unfold bitImage
  rw [List.getElem?_map, List.getElem?_range (bitImage_index hx hy), Option.map_some]

theorem bitImage_grey {x y : Nat} (hx : x < w) (hy : y < h) :
    grey (bitImage w h n) x y = bif bit n (y * w + x) then 0 else 255 := by
  unfold grey
  rw [show (bitImage w h n).width = w from rfl, List.getD_eq_getElem?_getD, bitImage_get hx hy]
  cases bit n (y * w + x) <;> rfl

/-! ### Thresholding -/

/-- The columns or rows of the blocks around a place, without the last incomplete block. -/
def blocksNear (n x : Nat) : List Nat :=
  List.range' (5 * (x / 5 - 3)) (min (5 * (x / 5 + 3)) (5 * (n / 5)) - 5 * (x / 5 - 3))

theorem mem_blocksNear {n x p : Nat} (h : p ∈ blocksNear n x) : p < n ∧ nearBlock (n / 5) 3 (x / 5) (p / 5) = true := by
  unfold blocksNear at h
  rw [List.mem_range'_1] at h
  simp only [nearBlock, Bool.and_eq_true, decide_eq_true_eq]
  omega

/-- The columns or rows of one block. -/
def blockOf (n b : Nat) : List Nat := List.range' (5 * b) (min 5 (n - 5 * b))

/-- The pixels at these places. -/
def pixelsAt (w n : Nat) (js is : List Nat) : List Bool := js.flatMap fun j => is.map fun i => bit n (j * w + i)

/-- If there is a pixel of the colour in the block, then there are 18 around it. -/
def eighteenIn (w h n b c : Nat) (colour : Bool) : Bool :=
  (pixelsAt w n (blockOf h c) (blockOf w b)).all (fun p => !(p == colour)) ||
    atLeast (fun p => p == colour) 18 (pixelsAt w n (blocksNear h (5 * c)) (blocksNear w (5 * b)))

/-- Every pixel has 18 of its own colour around it. -/
def eighteen (w h n : Nat) : Bool :=
  (List.range (h / 5 + 1)).all fun c => (List.range (w / 5 + 1)).all fun b =>
    eighteenIn w h n b c true && eighteenIn w h n b c false

theorem pixelsAt_eq (w n : Nat) (js is : List Nat) :
    pixelsAt w n js is = (js.flatMap fun j => is.map fun i => (i, j)).map fun p => bit n (p.2 * w + p.1) := by
  unfold pixelsAt
  rw [List.map_flatMap]
  simp only [List.map_map]
  rfl

theorem eighteen_at (t : eighteen w h n = true) {x y : Nat} (hx : x < w) (hy : y < h) :
    18 ≤ (((blocksNear h y).flatMap fun j => (blocksNear w x).map fun i => (i, j)).filter
      fun p => bit n (p.2 * w + p.1) == bit n (y * w + x)).length := by
  have near : ∀ m z : Nat, blocksNear m (5 * (z / 5)) = blocksNear m z := by
    intro m z
    unfold blocksNear
    rw [Nat.mul_div_cancel_left _ (by decide : 0 < 5)]
  have t := List.all_eq_true.mp ((List.all_eq_true.mp t) (y / 5) (List.mem_range.mpr (by omega))) (x / 5) (List.mem_range.mpr (by omega))
  rw [Bool.and_eq_true] at t
  have key : eighteenIn w h n (x / 5) (y / 5) (bit n (y * w + x)) = true := by
    cases bit n (y * w + x)
    · exact t.2
    · exact t.1
  unfold eighteenIn at key
  rw [Bool.or_eq_true] at key
  rcases key with key | key
  · exfalso
    have hmem : bit n (y * w + x) ∈ pixelsAt w n (blockOf h (y / 5)) (blockOf w (x / 5)) := by
      unfold pixelsAt blockOf
      refine List.mem_flatMap.mpr ⟨y, ?_, List.mem_map.mpr ⟨x, ?_, rfl⟩⟩ <;> rw [List.mem_range'_1] <;> omega
    have := (List.all_eq_true.mp key) _ hmem
    simp at this
  · have := le_of_atLeast key
    rw [pixelsAt_eq, List.countP_map, near, near, List.countP_eq_length_filter] at this
    exact this

theorem bitImage_threshold (hw : w < 2 ^ 32) (hh : h < 2 ^ 32) (t : eighteen w h n = true) :
    thresholded 5 7 (bitImage w h n) = bitImage w h n := by
  refine crisp_threshold_of ⟨rfl, rfl, ?_⟩ (bitImage_valid hw hh) ?_
  · intro x hx y hy
    have hx : x < w := hx
    have hy : y < h := hy
    rw [bitImage_grey hx hy]
    cases bit n (y * w + x)
    · exact Or.inr ⟨rfl, by decide⟩
    · exact Or.inl ⟨rfl, by decide⟩
  · intro x hx y hy
    have hx : x < w := hx
    have hy : y < h := hy
    have t := eighteen_at t hx hy
    have hm : ∀ p ∈ (blocksNear h y).flatMap fun j => (blocksNear w x).map fun i => (i, j),
        p.1 ∈ blocksNear w x ∧ p.2 ∈ blocksNear h y := by
      intro p hp
      obtain ⟨j, hj, hp⟩ := List.mem_flatMap.mp hp
      obtain ⟨i, hi, rfl⟩ := List.mem_map.mp hp
      exact ⟨hi, hj⟩
    refine ⟨_, t, ?_, ?_, ?_⟩
    · refine List.Nodup.filter _ ?_
      rw [List.nodup_flatMap]
      constructor
      · intro j _
        exact (List.nodup_range' (step := 1)).map (fun a b hab => (Prod.mk.inj hab).1)
      · refine List.Pairwise.imp ?_ (List.nodup_range' (step := 1))
        intro a b hab p hp hq
        obtain ⟨i, _, rfl⟩ := List.mem_map.mp hp
        obtain ⟨i', _, e⟩ := List.mem_map.mp hq
        exact hab (Prod.mk.inj e).2.symm
    · intro p hp
      obtain ⟨h1, h2⟩ := hm p (List.mem_filter.mp hp).1
      unfold window
      rw [List.mem_filter, Bool.and_eq_true]
      exact ⟨BlockedMean.mem_positions.mpr ⟨(mem_blocksNear h1).1, (mem_blocksNear h2).1⟩, (mem_blocksNear h1).2, (mem_blocksNear h2).2⟩
    · intro p hp
      obtain ⟨hp, e⟩ := List.mem_filter.mp hp
      obtain ⟨h1, h2⟩ := hm p hp
      refine ⟨(mem_blocksNear h1).1, (mem_blocksNear h2).1, ?_⟩
      rw [bitImage_grey (mem_blocksNear h1).1 (mem_blocksNear h2).1, bitImage_grey hx hy, eq_of_beq e]

/-! ### Modules -/

/-- All modules are where they should be. -/
def modulesSeen (w h n bits side : Nat) (tl tr bl : Pt) (al : Option Pt) : Bool :=
  (List.range side).all fun i => (List.range side).all fun j =>
    let pt := bilinear side tl tr bl al i j
    decide (pt.1 ≤ w - 1 / 2 - 1 / 50 ∧ pt.2 ≤ h - 1 / 2 - 1 / 50) &&
      (nearest h pt.2).all fun y => (nearest w pt.1).all fun x => bit n (y * w + x) == bit bits (i * side + j)

theorem modulesSeen_of {bits side : Nat} {q : QRData} (hq : Bitmap q bits) (hs : q.side = side) {tl tr bl : Pt}
    {al : Option Pt} (t : modulesSeen w h n bits side tl tr bl al = true) :
    ∀ i < side, ∀ j < side, ¬ Beyond (bitImage w h n) (bilinear side tl tr bl al i j) ∧
      ∀ c, PixelNear (bitImage w h n) (bilinear side tl tr bl al i j) (1 / 100) c → q.data[i * side + j]? = some c := by
  intro i hi j hj
  have t := List.all_eq_true.mp ((List.all_eq_true.mp t) i (List.mem_range.mpr hi)) j (List.mem_range.mpr hj)
  simp only at t
  rw [Bool.and_eq_true, decide_eq_true_eq] at t
  obtain ⟨⟨b1, b2⟩, t⟩ := t
  constructor
  · rintro (hb | hb)
    · rw [show (bitImage w h n).width = w from rfl] at hb; linarith
    · rw [show (bitImage w h n).height = h from rfl] at hb; linarith
  · rintro c ⟨x, y, hx, hy, hp, nx, ny⟩
    have hx : x < w := hx
    have hy : y < h := hy
    have t := (List.all_eq_true.mp t) y (mem_nearest hy ny)
    have t := eq_of_beq ((List.all_eq_true.mp t) x (mem_nearest hx nx))
    rw [show (bitImage w h n).width = w from rfl, bitImage_get hx hy] at hp
    rw [← hs, hq.get (bitImage_index (by omega) (by omega)), hs, ← t]
    exact hp

/-! ### Tilted symbols -/

/-- The row or column of a place, if it is in the symbol: `(l - r) / d` is its distance from the edge. -/
def cell (l r d side : Nat) : Option Nat :=
  bif Nat.blt l r || Nat.blt (d * side) (l - r) then none else some (min ((l - r) / d) (side - 1))

theorem cell_none {l r d side : Nat} (hd : 0 < d) {a : ℝ} (ha : (a + 1 / 2) * d = l - r) (h : cell l r d side = none) :
    a < -(1 / 2) ∨ (side : ℝ) - 1 / 2 < a := by
  have hd : (0 : ℝ) < d := by exact_mod_cast hd
  unfold cell at h
  cases hc : Nat.blt l r || Nat.blt (d * side) (l - r)
  · rw [hc] at h; cases h
  · rw [Bool.or_eq_true, Nat.blt_eq, Nat.blt_eq] at hc
    by_cases hlr : l < r
    · left
      have : (l : ℝ) < r := by exact_mod_cast hlr
      by_contra hcon
      have : 0 ≤ (a + 1 / 2) * d := mul_nonneg (by linarith) hd.le
      linarith
    · right
      have h2 : d * side < l - r := by rcases hc with hc | hc <;> [exact absurd hc hlr; exact hc]
      have h3 : ((d * side : Nat) : ℝ) < ((l - r : Nat) : ℝ) := by exact_mod_cast h2
      rw [Nat.cast_sub (by omega), ← ha] at h3
      push_cast at h3
      by_contra hcon
      have : (a + 1 / 2) * d ≤ side * d := mul_le_mul_of_nonneg_right (by linarith) hd.le
      linarith

theorem cell_some {l r d side i : Nat} (hd : 0 < d) (h1 : 1 ≤ side) {a : ℝ} (ha : (a + 1 / 2) * d = l - r)
    (h : cell l r d side = some i) :
    -(1 / 2) ≤ a ∧ a ≤ side - 1 / 2 ∧ i < side ∧ |a - i| ≤ 1 / 2 := by
  have hd' : (0 : ℝ) < d := by exact_mod_cast hd
  unfold cell at h
  cases hc : Nat.blt l r || Nat.blt (d * side) (l - r)
  · rw [hc, cond_false] at h
    have h := Option.some.inj h
    rw [Bool.or_eq_false_iff] at hc
    have c1 : r ≤ l := by
      by_contra hcon
      exact absurd (Nat.blt_eq.mpr (by omega : l < r)) (by rw [hc.1]; decide)
    have c2 : l - r ≤ d * side := by
      by_contra hcon
      exact absurd (Nat.blt_eq.mpr (by omega : d * side < l - r)) (by rw [hc.2]; decide)
    rw [← Nat.cast_sub c1] at ha
    generalize l - r = z at *
    have e : a + 1 / 2 = z / d := by rw [eq_div_iff hd'.ne']; exact ha
    have up : (z : ℝ) / d ≤ side := by
      rw [div_le_iff₀ hd']
      have : (z : ℝ) ≤ ((d * side : Nat) : ℝ) := by exact_mod_cast c2
      push_cast at this
      linarith
    have low : (0 : ℝ) ≤ z / d := by positivity
    refine ⟨by linarith, by linarith, by omega, ?_⟩
    have fl : ((z / d : Nat) : ℝ) ≤ z / d := Nat.cast_div_le
    have fu : (z : ℝ) / d < (z / d : Nat) + 1 := by
      rw [div_lt_iff₀ hd']
      have := Nat.lt_div_mul_add (a := z) hd
      have : (z : ℝ) < ((z / d * d + d : Nat) : ℝ) := by exact_mod_cast this
      push_cast at this
      linarith
    rw [abs_le]
    by_cases hm : z / d ≤ side - 1
    · rw [min_eq_left hm] at h
      rw [← h]
      constructor <;> linarith
    · have hi : i = side - 1 := by omega
      have hz : (side : ℝ) ≤ ((z / d : Nat) : ℝ) := by exact_mod_cast (show side ≤ z / d by omega)
      rw [hi, Nat.cast_sub h1]
      push_cast
      constructor <;> linarith
  · rw [hc] at h; cases h

/-- The pixels in the tilted symbol are as they should be, and the others are white. The cosine and the sine of the angle are
`c / e` and `s / e`, the first module is at `(p / k, r / k)`, and the modules have `u / v` pixels. -/
def tiltedSeen (w h n bits side c s e p r k u v : Nat) : Bool :=
  (List.range h).all fun y => (List.range w).all fun x =>
    match cell (2 * v * (y * k * c + p * s) + k * e * u) (2 * v * (r * c + x * k * s)) (2 * (k * e * u)) side,
        cell (2 * v * (x * k * c + y * k * s) + k * e * u) (2 * v * (p * c + r * s)) (2 * (k * e * u)) side with
    | some i, some j => bit n (y * w + x) == bit bits (i * side + j)
    | _, _ => !bit n (y * w + x)

section
variable {bits side c s e p r k u v : Nat} {θ : ℝ}

theorem tilted_cells (he : 0 < e) (hk : 0 < k) (hu : 0 < u) (hv : 0 < v) (hc : Real.cos θ = c / e) (hs : Real.sin θ = s / e)
    {x y : Nat} {a b : ℝ} (hxy : ((x : ℝ), (y : ℝ)) = tiltedPlace ((p : ℝ) / k, (r : ℝ) / k) (u / v) θ a b) :
    (a + 1 / 2) * (2 * (k * e * u) : Nat) =
      ((2 * v * (y * k * c + p * s) + k * e * u : Nat) : ℝ) - (2 * v * (r * c + x * k * s) : Nat) ∧
    (b + 1 / 2) * (2 * (k * e * u) : Nat) =
      ((2 * v * (x * k * c + y * k * s) + k * e * u : Nat) : ℝ) - (2 * v * (p * c + r * s) : Nat) := by
  have he : (e : ℝ) ≠ 0 := by exact_mod_cast he.ne'
  have hk : (k : ℝ) ≠ 0 := by exact_mod_cast hk.ne'
  have hu : (u : ℝ) ≠ 0 := by exact_mod_cast hu.ne'
  have hv : (v : ℝ) ≠ 0 := by exact_mod_cast hv.ne'
  have one : (c : ℝ) * c + s * s = e * e := by
    have := Real.sin_sq_add_cos_sq θ
    rw [hc, hs] at this
    field_simp at this
    linarith
  unfold tiltedPlace at hxy
  obtain ⟨e1, e2⟩ := Prod.mk.inj hxy
  rw [hc, hs] at e1 e2
  simp only at e1 e2
  have f1 : (x : ℝ) * k * v * e = p * v * e + k * u * (b * c - a * s) := by
    rw [e1]; field_simp
  have f2 : (y : ℝ) * k * v * e = r * v * e + k * u * (b * s + a * c) := by
    rw [e2]; field_simp
  push_cast
  constructor
  · apply mul_left_cancel₀ he
    linear_combination (2 * (s : ℝ)) * f1 - (2 * (c : ℝ)) * f2 - 2 * a * k * u * one
  · apply mul_left_cancel₀ he
    linear_combination -(2 * (c : ℝ)) * f1 - (2 * (s : ℝ)) * f2 - 2 * b * k * u * one

theorem tiltedSeen_of {q : QRData} (hq : Bitmap q bits) (hside : q.side = side) (h1 : 1 ≤ side) (he : 0 < e) (hk : 0 < k)
    (hu : 0 < u) (hv : 0 < v) (hc : Real.cos θ = c / e) (hs : Real.sin θ = s / e)
    (t : tiltedSeen w h n bits side c s e p r k u v = true) :
    ShownTilted (bitImage w h n) q ((p : ℝ) / k, (r : ℝ) / k) (u / v) θ := by
  intro x hx y hy a b hxy a1 a2 b1 b2
  have hx : x < w := hx
  have hy : y < h := hy
  have t := List.all_eq_true.mp ((List.all_eq_true.mp t) y (List.mem_range.mpr hy)) x (List.mem_range.mpr hx)
  obtain ⟨ea, eb⟩ := tilted_cells he hk hu hv hc hs hxy
  have hd : 0 < 2 * (k * e * u) := by positivity
  rw [hside] at a2 b2
  cases ca : cell (2 * v * (y * k * c + p * s) + k * e * u) (2 * v * (r * c + x * k * s)) (2 * (k * e * u)) side with
  | none => rcases cell_none hd ea ca with h | h <;> linarith
  | some i =>
    cases cb : cell (2 * v * (x * k * c + y * k * s) + k * e * u) (2 * v * (p * c + r * s)) (2 * (k * e * u)) side with
    | none => rcases cell_none hd eb cb with h | h <;> linarith
    | some j =>
      rw [ca, cb] at t
      obtain ⟨-, -, i1, i2⟩ := cell_some hd h1 ea ca
      obtain ⟨-, -, j1, j2⟩ := cell_some hd h1 eb cb
      refine ⟨i, by omega, j, by omega, i2, j2, ?_⟩
      rw [show (bitImage w h n).width = w from rfl, bitImage_get hx hy, hside, hq.get (by rw [hside]; exact bitImage_index j1 i1),
        eq_of_beq t]

theorem tiltedSeen_white (h1 : 1 ≤ side) (he : 0 < e) (hk : 0 < k) (hu : 0 < u) (hv : 0 < v) (hc : Real.cos θ = c / e)
    (hs : Real.sin θ = s / e) (t : tiltedSeen w h n bits side c s e p r k u v = true) :
    ∀ x < (bitImage w h n).width, ∀ y < (bitImage w h n).height, ∀ a b : ℝ,
    ((x : ℝ), (y : ℝ)) = tiltedPlace ((p : ℝ) / k, (r : ℝ) / k) (u / v) θ a b →
    (a < -(1 / 2) ∨ (side : ℝ) - 1 / 2 < a ∨ b < -(1 / 2) ∨ (side : ℝ) - 1 / 2 < b) →
    (bitImage w h n).pixels[y * (bitImage w h n).width + x]? = some 255#8 := by
  intro x hx y hy a b hxy out
  have hx : x < w := hx
  have hy : y < h := hy
  have t := List.all_eq_true.mp ((List.all_eq_true.mp t) y (List.mem_range.mpr hy)) x (List.mem_range.mpr hx)
  obtain ⟨ea, eb⟩ := tilted_cells he hk hu hv hc hs hxy
  have hd : 0 < 2 * (k * e * u) := by positivity
  have white : (!bit n (y * w + x)) = true := by
    cases ca : cell (2 * v * (y * k * c + p * s) + k * e * u) (2 * v * (r * c + x * k * s)) (2 * (k * e * u)) side with
    | none => rw [ca] at t; exact t
    | some i =>
      cases cb : cell (2 * v * (x * k * c + y * k * s) + k * e * u) (2 * v * (p * c + r * s)) (2 * (k * e * u)) side with
      | none => rw [ca, cb] at t; exact t
      | some j =>
        obtain ⟨i1, i2, -⟩ := cell_some hd h1 ea ca
        obtain ⟨j1, j2, -⟩ := cell_some hd h1 eb cb
        rcases out with o | o | o | o <;> linarith
  rw [Bool.not_eq_true'] at white
  rw [show (bitImage w h n).width = w from rfl, bitImage_get hx hy, white]
  rfl

end
end Verif
