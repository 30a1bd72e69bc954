import Verif.Lemmas.EnlargeScan
import Mathlib.Tactic.Linarith
import Mathlib.Tactic.Ring

/-!
# Checking the conditions on small images

Given the rows and the columns of an image as lists.
-/
namespace Verif
open Spec

/-- Is there a number between all lower and all upper bounds, which are fractions? -/
def between (lows ups : List (Nat × Nat)) : Bool := lows.all fun l => ups.all fun u => decide (l.1 * u.2 ≤ u.1 * l.2)

theorem between_of {lows ups : List (Nat × Nat)} {s u : Nat} (hs : 0 < s) (hl : ∀ l ∈ lows, l.1 * s ≤ l.2 * u)
    (hu : ∀ l ∈ ups, l.2 * u ≤ l.1 * s) : between lows ups = true := by
  unfold between
  rw [List.all_eq_true]
  intro l hl'
  rw [List.all_eq_true]
  intro p hp
  rw [decide_eq_true_eq]
  have h1 := Nat.mul_le_mul_right p.2 (hl l hl')
  have h2 := Nat.mul_le_mul_left l.2 (hu p hp)
  refine Nat.le_of_mul_le_mul_right ?_ hs
  calc l.1 * p.2 * s = l.1 * s * p.2 := by ring
    _ ≤ l.2 * u * p.2 := h1
    _ = l.2 * (p.2 * u) := by ring
    _ ≤ l.2 * (p.1 * s) := h2
    _ = p.1 * l.2 * s := by ring

/-- A test for `CouldConfirm`. -/
def couldConfirm (t a b c d e : Nat) : Bool :=
  let s := b + c + d
  between [(21 * b, 5), (21 * d, 5), (21 * c, 11), (21 * s, 19), (79 * t, 100)]
    [(21 * b, 1), (21 * d, 1), (3 * c, 1), (100 * t, 79), (21 * s, 11), (s + a + e, 1), (21 * a, 1), (21 * e, 1),
      (21 * (s + a), 16), (21 * (s + e), 16)]

theorem couldConfirm_of {t a b c d e : Nat} (h : CouldConfirm t a b c d e) : couldConfirm t a b c d e = true := by
  obtain ⟨s, a', e', hs, ha, he, hf, hsim⟩ := h
  unfold couldConfirm
  simp only
  unfold FinderShaped at hf
  simp only at hf
  obtain ⟨-, ⟨f1, f2⟩, ⟨f3, f4⟩, ⟨f5, f6⟩, ⟨f7, f8⟩, f9, f10⟩ := hf
  unfold Similar at hsim
  have e1 : (b + c + d) * s = s * b + s * c + s * d := by ring
  have s1 : 79 * (s * t) ≤ 100 * (a' + s * b + s * c + s * d + e') := by omega
  have s2 : 79 * (a' + s * b + s * c + s * d + e') ≤ 100 * (s * t) := by omega
  generalize hu : a' + s * b + s * c + s * d + e' = u at *
  refine between_of (s := s) (u := u) hs ?_ ?_
  · intro l hl
    simp only [List.mem_cons, List.not_mem_nil, or_false] at hl
    rcases hl with rfl | rfl | rfl | rfl | rfl
    · simp only; rw [show 21 * b * s = 21 * (s * b) by ring]; omega
    · simp only; rw [show 21 * d * s = 21 * (s * d) by ring]; omega
    · simp only; rw [show 21 * c * s = 21 * (s * c) by ring]; omega
    · simp only; rw [Nat.mul_assoc, e1]; omega
    · simp only; rw [show 79 * t * s = 79 * (s * t) by ring]; omega
  · intro l hl
    simp only [List.mem_cons, List.not_mem_nil, or_false] at hl
    rcases hl with rfl | rfl | rfl | rfl | rfl | rfl | rfl | rfl | rfl | rfl
    · simp only; rw [show 21 * b * s = 21 * (s * b) by ring]; omega
    · simp only; rw [show 21 * d * s = 21 * (s * d) by ring]; omega
    · simp only; rw [show 3 * c * s = 3 * (s * c) by ring]; omega
    · simp only; rw [show 100 * t * s = 100 * (s * t) by ring]; omega
    · simp only; rw [Nat.mul_assoc, e1]; omega
    · simp only; rw [Nat.add_mul, Nat.add_mul, e1, Nat.mul_comm a, Nat.mul_comm e]; omega
    · simp only; rw [show 21 * a * s = 21 * (s * a) by ring]; omega
    · simp only; rw [show 21 * e * s = 21 * (s * e) by ring]; omega
    · simp only; rw [Nat.mul_assoc, Nat.add_mul, e1, Nat.mul_comm a]; omega
    · simp only; rw [Nat.mul_assoc, Nat.add_mul, e1, Nat.mul_comm e]; omega

/-- The lists are the rows and the columns of the image. -/
def RowsOf (g : GrayImage) (rows cols : List (List Nat)) : Prop :=
  rows.length = g.height ∧ cols.length = g.width ∧ (∀ r ∈ rows, r.length = g.width) ∧ (∀ c ∈ cols, c.length = g.height) ∧
  (∀ x < g.width, ∀ y < g.height, grey g x y = (rows.getD y []).getD x 0) ∧
  (∀ x < g.width, ∀ y < g.height, grey g x y = (cols.getD x []).getD y 0)

theorem flatten_getD {w : Nat} : ∀ (rows : List (List Nat)) (_ : ∀ r ∈ rows, r.length = w) {x y : Nat} (_ : x < w),
    rows.flatten.getD (y * w + x) 0 = (rows.getD y []).getD x 0 := by
  intro rows
  induction rows with
  | nil => intro _ x y _; simp
  | cons r rows ih =>
    intro h x y hx
    have hr := h r (by simp)
    cases y with
    | zero =>
      rw [List.flatten_cons, Nat.zero_mul, Nat.zero_add, List.getD_cons_zero, List.getD_eq_getElem?_getD,
        List.getElem?_append_left (by omega), ← List.getD_eq_getElem?_getD]
    | succ y =>
      rw [List.flatten_cons, List.getD_cons_succ, ← ih (fun r' hr' => h r' (by simp [hr'])) hx,
        List.getD_eq_getElem?_getD, List.getElem?_append_right (by rw [Nat.succ_mul]; omega), hr,
        ← List.getD_eq_getElem?_getD]
      congr 1
      rw [Nat.succ_mul]
      omega

/-- How to show that lists are the rows and columns of an image. -/
theorem rowsOf_of {g : GrayImage} {rows cols : List (List Nat)} (hh : rows.length = g.height)
    (hr : ∀ r ∈ rows, r.length = g.width) (hp : g.pixels.map (·.toNat) = rows.flatten)
    (hc : cols = (List.range g.width).map fun x => rows.map fun r => r.getD x 0) : RowsOf g rows cols := by
  have key : ∀ x < g.width, ∀ y < g.height, grey g x y = (rows.getD y []).getD x 0 := by
    intro x hx y _
    rw [← flatten_getD rows hr hx, ← hp]
    unfold grey
    rw [List.getD_eq_getElem?_getD, List.getD_eq_getElem?_getD, List.getElem?_map]
    cases g.pixels[y * g.width + x]? <;> rfl
  refine ⟨hh, by rw [hc]; simp, hr, ?_, key, ?_⟩
  · intro c hc'
    rw [hc, List.mem_map] at hc'
    obtain ⟨x, -, rfl⟩ := hc'
    rw [List.length_map, hh]
  · intro x hx y hy
    have e1 : cols.getD x [] = rows.map fun r => r.getD x 0 := by
      rw [hc, List.getD_eq_getElem?_getD, List.getElem?_map, List.getElem?_range hx]
      rfl
    have e2 : (rows.map fun r => r.getD x 0).getD y 0 = (rows.getD y []).getD x 0 := by
      rw [List.getD_eq_getElem?_getD, List.getElem?_map, List.getElem?_eq_getElem (by omega)]
      rw [List.getD_eq_getElem?_getD (l := rows), List.getElem?_eq_getElem (by omega)]
      rfl
    rw [key x hx y hy, e1, e2]

/-- A run ends before position `i`. -/
def endsAt (l : List Nat) (i : Nat) : Bool := i == l.length || l.getD (i - 1) 0 != l.getD i 0

/-- A test for `NeverConfirmed`. -/
def neverConfirmed (col : List Nat) (y t : Nat) : Bool :=
  (List.range col.length).all fun j =>
    if endsAt col (j + 1) then
      let rs := runs (col.take (j + 1)).reverse
      (if j + 1 < col.length ∧ 7 * y < 7 * (j + 1) + 5 * t ∧ 7 * (j + 1) < 7 * (y + 1) + 5 * t then decide (Steady rs) else true) &&
      match rs with
      | e :: d :: c :: b :: a :: _ =>
        if 7 * y + 7 * (e + d + c + b) < 7 * (j + 1) + 5 * t ∧ 7 * (j + 1) < 7 * (y + 1) + 5 * t + 7 * e then
          !couldConfirm t a b c d e
        else true
      | _ => true
    else true

/-- A test for steady rows. -/
def steadyRow (row : List Nat) : Bool :=
  (List.range row.length).all fun i => if endsAt row i then decide (Steady (runs (row.take i).reverse)) else true

/-- A test for `NeverOthers`. -/
def neverOthers (rows cols : List (List Nat)) (width : Nat) (fs : List (Nat × Nat)) : Bool :=
  (List.range rows.length).all fun y =>
    let row := rows.getD y []
    (List.range (width + 1)).all fun x =>
      if endsAt row x then
        match shapeEnd (runs (row.take x).reverse) with
        | some t =>
          (fs.any fun f => decide (x = f.1 + 7 ∧ f.2 + 2 ≤ y ∧ y < f.2 + 5)) ||
            neverConfirmed (cols.getD (if x = width then x - (t + 2) / 2 else x - (t + 1) / 2) []) y t
        | none => true
      else true

/-- A test for `NeverOthersNear`. -/
def neverOthersNear (rows cols : List (List Nat)) (width : Nat) (fs : List (Nat × Nat)) : Bool :=
  (List.range rows.length).all fun y =>
    let row := rows.getD y []
    (List.range (width + 1)).all fun x =>
      if endsAt row x then
        match shapeEnd (runs (row.take x).reverse) with
        | some t =>
          (fs.any fun f => decide (x = f.1 + 7 ∧ f.2 + 2 ≤ y ∧ y < f.2 + 5)) ||
            (fs.all fun f => decide ((y < f.2 + 2 ∨ y = f.2 + 2 ∧ x < f.1 + 7) →
              f.1 + 12 + t ≤ x ∨ x + 4 ≤ f.1 ∨ 6 * (y + 1) + 31 + 2 * t ≤ 6 * f.2)) ||
            neverConfirmed (cols.getD (if x = width then x - (t + 2) / 2 else x - (t + 1) / 2) []) y t
        | none => true
      else true

section
variable {g : GrayImage} {rows cols : List (List Nat)}

theorem endsAt_iff {l : List Nat} {i : Nat} : endsAt l i = true ↔ i = l.length ∨ l.getD (i - 1) 0 ≠ l.getD i 0 := by
  unfold endsAt
  rw [Bool.or_eq_true, beq_iff_eq, bne_iff_ne]

theorem take_map {f : Nat → Nat} {l : List Nat} (h : ∀ i < l.length, f i = l.getD i 0) :
    ∀ {n}, n ≤ l.length → (List.range n).reverse.map f = (l.take n).reverse := by
  intro n hn
  rw [List.map_reverse]
  congr 1
  apply List.ext_getElem
  · simp; omega
  · intro i h1 h2
    simp only [List.length_map, List.length_range] at h1
    rw [List.getElem_map, List.getElem_range, h i (by omega), List.getElem_take, List.getD_eq_getElem?_getD,
      List.getElem?_eq_getElem (by omega), Option.getD_some]

theorem rowsOf_row_length (h : RowsOf g rows cols) {y : Nat} (hy : y < g.height) : (rows.getD y []).length = g.width := by
  refine h.2.2.1 _ ?_
  rw [List.getD_eq_getElem?_getD, List.getElem?_eq_getElem (by rw [h.1]; exact hy)]
  exact List.getElem_mem _

theorem rowsOf_col_length (h : RowsOf g rows cols) {x : Nat} (hx : x < g.width) : (cols.getD x []).length = g.height := by
  refine h.2.2.2.1 _ ?_
  rw [List.getD_eq_getElem?_getD, List.getElem?_eq_getElem (by rw [h.2.1]; exact hx)]
  exact List.getElem_mem _

theorem rows_left (h : RowsOf g rows cols) {y : Nat} (hy : y < g.height) {x : Nat} (hx : x ≤ g.width) :
    leftOf g x y = ((rows.getD y []).take x).reverse := by
  have hl := rowsOf_row_length h hy
  exact take_map (fun i hi => h.2.2.2.2.1 i (by omega) y hy) (by omega)

theorem cols_up (h : RowsOf g rows cols) {x : Nat} (hx : x < g.width) {y : Nat} (hy : y ≤ g.height) :
    upFrom g x 0 y = ((cols.getD x []).take y).reverse := by
  have hl := rowsOf_col_length h hx
  unfold upFrom
  rw [Nat.sub_zero, ← List.range_eq_range']
  exact take_map (fun i hi => h.2.2.2.2.2 x hx i (by omega)) (by omega)

theorem steadyRow_of (h : RowsOf g rows cols) (hc : rows.all steadyRow = true) :
    ∀ y < g.height, SteadyRow g g.width y := by
  intro y hy x hx hch
  have hl := rowsOf_row_length h hy
  rw [rows_left h hy (by omega)]
  have hmem : rows.getD y [] ∈ rows := by
    rw [List.getD_eq_getElem?_getD, List.getElem?_eq_getElem (by rw [h.1]; exact hy)]
    exact List.getElem_mem _
  have := (List.all_eq_true.mp hc) _ hmem
  unfold steadyRow at this
  have := (List.all_eq_true.mp this) x (by rw [List.mem_range]; omega)
  rw [if_pos] at this
  · exact of_decide_eq_true this
  · rw [endsAt_iff]
    unfold changesAt at hch
    rw [h.2.2.2.2.1 _ (by omega) _ hy, h.2.2.2.2.1 _ hx _ hy] at hch
    exact Or.inr hch

theorem neverConfirmed_of (h : RowsOf g rows cols) {x y t : Nat} (hx : x < g.width)
    (hc : neverConfirmed (cols.getD x []) y t = true) : NeverConfirmed g x y t := by
  intro i hi hi0 hend
  have hl := rowsOf_col_length h hx
  unfold neverConfirmed at hc
  have := (List.all_eq_true.mp hc) (i - 1) (by rw [List.mem_range]; omega)
  rw [show i - 1 + 1 = i by omega] at this
  rw [if_pos] at this
  · rw [cols_up h hx hi]
    simp only [Bool.and_eq_true] at this
    obtain ⟨t1, t2⟩ := this
    constructor
    · intro a1 a2 a3
      rw [if_pos ⟨by omega, a2, a3⟩] at t1
      exact of_decide_eq_true t1
    · generalize runs ((cols.getD x []).take i).reverse = rs at *
      split at t2
      · intro a1 a2 hcould
        rw [if_pos ⟨a1, a2⟩, couldConfirm_of hcould] at t2
        simp at t2
      · rename_i hno
        split
        · exact absurd rfl (hno _ _ _ _ _ _)
        · trivial
  · rw [endsAt_iff, hl]
    by_cases hig : i = g.height
    · exact Or.inl hig
    · right
      rcases hend with hend | hend
      · exact absurd hend hig
      · rwa [h.2.2.2.2.2 _ hx _ (by omega), h.2.2.2.2.2 _ hx _ (by omega)] at hend

theorem neverOthers_of (h : RowsOf g rows cols) {fs : List (Nat × Nat)}
    (hc : neverOthers rows cols g.width fs = true) : NeverOthers g fs := by
  intro y hy x hx hend t ht
  have hl := rowsOf_row_length h hy
  have hTX := (LineScan.shapeEnd_le ht).1
  have hT0 := (LineScan.shapeEnd_le ht).2
  rw [LineScan.leftOf_runs_sum] at hTX
  unfold neverOthers at hc
  have := (List.all_eq_true.mp hc) y (by rw [List.mem_range, h.1]; exact hy)
  have := (List.all_eq_true.mp this) x (by rw [List.mem_range]; omega)
  rw [if_pos] at this
  · rw [← rows_left h hy hx, ht] at this
    simp only [Bool.or_eq_true, List.any_eq_true, decide_eq_true_eq] at this
    rcases this with hown | hn
    · exact Or.inl hown
    · right
      refine neverConfirmed_of h ?_ hn
      unfold middleColumn
      split <;> omega
  · rw [endsAt_iff, hl]
    rcases hend with hend | ⟨hlt, hend⟩
    · exact Or.inl hend
    · right
      unfold changesAt at hend
      rwa [h.2.2.2.2.1 _ (by omega) _ hy, h.2.2.2.2.1 _ hlt _ hy] at hend

theorem neverOthersNear_of (h : RowsOf g rows cols) {fs : List (Nat × Nat)}
    (hc : neverOthersNear rows cols g.width fs = true) : NeverOthersNear g fs := by
  intro y hy x hx hend t ht
  have hl := rowsOf_row_length h hy
  have hTX := (LineScan.shapeEnd_le ht).1
  have hT0 := (LineScan.shapeEnd_le ht).2
  rw [LineScan.leftOf_runs_sum] at hTX
  unfold neverOthersNear at hc
  have := (List.all_eq_true.mp hc) y (by rw [List.mem_range, h.1]; exact hy)
  have := (List.all_eq_true.mp this) x (by rw [List.mem_range]; omega)
  rw [if_pos] at this
  · rw [← rows_left h hy hx, ht] at this
    simp only [Bool.or_eq_true, List.any_eq_true, List.all_eq_true, decide_eq_true_eq] at this
    rcases this with (hown | hfar) | hn
    · exact Or.inl hown
    · exact Or.inr (Or.inr hfar)
    · right; left
      refine neverConfirmed_of h ?_ hn
      unfold middleColumn
      split <;> omega
  · rw [endsAt_iff, hl]
    rcases hend with hend | ⟨hlt, hend⟩
    · exact Or.inl hend
    · right
      unfold changesAt at hend
      rwa [h.2.2.2.2.1 _ (by omega) _ hy, h.2.2.2.2.1 _ hlt _ hy] at hend

end
end Verif
