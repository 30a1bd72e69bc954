import Verif.Lemmas.EnlargeCheck
import Verif.Lemmas.Lit

/-!
# A test for `Legible`
-/
namespace Verif
open Spec

/-- The indices below `n` from `lo` before `x` to `hi` after it, without the last two. -/
def nearby (n lo hi x : Nat) : List Nat := List.range' (x - lo) (min (x + hi + 1) (n - 2) - (x - lo))

/-- At least `n` of the elements satisfy `p`. Stops when this is known. -/
def atLeast {α : Type} (p : α → Bool) : Nat → List α → Bool
  | 0, _ => true
  | _ + 1, [] => false
  | n + 1, a :: l => bif p a then atLeast p n l else atLeast p (n + 1) l

/-- Every value in the rows is found at least `need` times around it. -/
def enough (rows : List (List Nat)) (width lo hi need : Nat) : Bool :=
  (List.range rows.length).all fun y => (List.range width).all fun x =>
    let value := (rows.getD y []).getD x 0
    atLeast (fun p : Nat × Nat => (rows.getD p.2 []).getD p.1 0 == value) need
      ((nearby rows.length lo hi y).flatMap fun j => (nearby width lo hi x).map fun i => (i, j))

theorem le_of_atLeast {α : Type} {p : α → Bool} : ∀ {n : Nat} {l : List α}, atLeast p n l = true → n ≤ l.countP p := by
  intro n l
  induction l generalizing n with
  | nil =>
    intro h
    cases n with
    | zero => exact Nat.zero_le _
    | succ n => cases h
  | cons a l ih =>
    intro h
    cases n with
    | zero => exact Nat.zero_le _
    | succ n =>
      rw [List.countP_cons]
      unfold atLeast at h
      cases hp : p a with
      | true =>
        rw [hp, cond_true] at h
        have := ih h
        simp only [if_true]
        omega
      | false =>
        rw [hp, cond_false] at h
        have := ih h
        omega

theorem nearby_sublist (n lo hi x : Nat) :
    (nearby n lo hi x).Sublist ((List.range n).filter fun p => x ≤ p + lo && p ≤ x + hi && p + 2 < n) := by
  have hmem : ∀ p ∈ nearby n lo hi x, (x ≤ p + lo && p ≤ x + hi && p + 2 < n) = true := by
    intro p hp
    unfold nearby at hp
    rw [List.mem_range'_1] at hp
    have : x ≤ p + lo ∧ p ≤ x + hi ∧ p + 2 < n := by omega
    simp [this]
  rw [← List.filter_eq_self.mpr hmem]
  refine List.Sublist.filter _ ?_
  unfold nearby
  generalize hk : min (x + hi + 1) (n - 2) - (x - lo) = k
  by_cases h0 : k = 0
  · subst h0; simp
  · have hb : x - lo + k ≤ n := by omega
    have e : List.range n = List.range (x - lo) ++ (List.range' (x - lo) k ++ List.range' (x - lo + k) (n - (x - lo + k))) := by
      have e1 := List.range'_append_1 (s := 0) (m := x - lo) (n := k + (n - (x - lo + k)))
      rw [Nat.zero_add, show x - lo + (k + (n - (x - lo + k))) = n by omega] at e1
      rw [List.range_eq_range', List.range_eq_range', List.range'_append_1, e1]
    rw [e]
    exact (List.sublist_append_left _ _).trans (List.sublist_append_right _ _)

theorem filter_positions (w h : Nat) (a b : Nat → Bool) (c : Nat × Nat → Bool) :
    ((positions w h).filter fun p => a p.1 && b p.2 && c p).length =
      (((List.range h).filter b).map fun j => ((List.range w).filter a).countP fun i => c (i, j)).sum := by
  unfold positions
  induction List.range h with
  | nil => rfl
  | cons j l ih =>
    rw [List.flatMap_cons, List.filter_append, List.length_append, ih]
    have e : (((List.range w).map fun x => (x, j)).filter fun p => a p.1 && b p.2 && c p).length =
        if b j then ((List.range w).filter a).countP fun i => c (i, j) else 0 := by
      rw [List.filter_map, List.length_map]
      induction List.range w with
      | nil => simp
      | cons i r ih' =>
        rw [List.filter_cons, List.filter_cons]
        simp only [Function.comp_apply]
        by_cases hb : b j = true
        · by_cases ha : a i = true
          · rw [if_pos hb] at ih' ⊢
            rw [if_pos ha, List.countP_cons, ← ih']
            by_cases hc : c (i, j) = true
            · rw [if_pos (by simp [ha, hb, hc]), if_pos hc]; rfl
            · rw [if_neg hc, if_neg (by simp [hc])]; rfl
          · rw [if_neg (by simp [ha]), if_neg ha]
            exact ih'
        · rw [if_neg (by simp [hb])]
          rw [if_neg hb] at ih' ⊢
          exact ih'
    rw [e]
    cases hb : b j
    · simp [List.filter_cons, hb]
    · simp [List.filter_cons, hb]

theorem count_of_enough {g : GrayImage} {rows cols : List (List Nat)} (h : RowsOf g rows cols) {lo hi need : Nat}
    (t : enough rows g.width lo hi need = true) {x y : Nat} (hx : x < g.width) (hy : y < g.height) :
    need ≤ ((positions g.width g.height).filter fun p =>
      (x ≤ p.1 + lo && p.1 ≤ x + hi && p.1 + 2 < g.width) &&
      (y ≤ p.2 + lo && p.2 ≤ y + hi && p.2 + 2 < g.height) && grey g p.1 p.2 == grey g x y).length := by
  unfold enough at t
  rw [List.all_eq_true] at t
  have t := t y (List.mem_range.mpr (by rw [h.1]; exact hy))
  rw [List.all_eq_true] at t
  have t := t x (List.mem_range.mpr hx)
  simp only at t
  have t := le_of_atLeast t
  rw [h.1] at t
  rw [filter_positions g.width g.height (fun i => x ≤ i + lo && i ≤ x + hi && i + 2 < g.width)
    (fun j => y ≤ j + lo && j ≤ y + hi && j + 2 < g.height) fun p => grey g p.1 p.2 == grey g x y]
  have e : ∀ (js is : List Nat) (c : Nat × Nat → Bool), (js.flatMap fun j => is.map fun i => (i, j)).countP c =
      (js.map fun j => is.countP fun i => c (i, j)).sum := by
    intro js is c
    induction js with
    | nil => rfl
    | cons j js ih => rw [List.flatMap_cons, List.countP_append, ih, List.countP_map, List.map_cons, List.sum_cons]; rfl
  have sub : ((nearby g.height lo hi y).flatMap fun j => (nearby g.width lo hi x).map fun i => (i, j)).Sublist
      (((List.range g.height).filter fun j => y ≤ j + lo && j ≤ y + hi && j + 2 < g.height).flatMap fun j =>
        ((List.range g.width).filter fun i => x ≤ i + lo && i ≤ x + hi && i + 2 < g.width).map fun i => (i, j)) :=
    (List.Sublist.flatMap (nearby_sublist _ _ _ _) _).trans
      (List.Sublist.flatMap_right _ fun j _ => (nearby_sublist _ _ _ _).map _)
  refine le_trans t (le_trans (sub.countP_le) (le_of_eq ?_))
  rw [e]
  congr 1
  apply List.map_congr_left
  intro j hj
  apply List.countP_congr
  intro i hi
  have hj' : j < g.height := by
    have := (List.mem_filter.mp hj).1
    rwa [List.mem_range] at this
  have hi' : i < g.width := by
    have := (List.mem_filter.mp hi).1
    rwa [List.mem_range] at this
  simp only
  rw [h.2.2.2.2.1 i hi' j hj', h.2.2.2.2.1 x hx y hy]

/-- How to show that an image can be enlarged to any size. -/
theorem legible_of {g : GrayImage} {rows cols : List (List Nat)} (h : RowsOf g rows cols) (hend : WhiteEnd g)
    (t2 : enough rows g.width 7 4 5 = true) (t4 : enough rows g.width 3 2 2 = true) : ∀ m, 2 ≤ m → Legible g m := by
  intro m hm
  by_cases h5 : 5 ≤ m
  · exact legible_large h5 hend
  · have : m = 2 ∨ m = 3 ∨ m = 4 := by omega
    rcases this with rfl | rfl | rfl
    · refine legible_small (lo := 7) (hi := 4) (c := 2) (by simp) ?_
      intro x hx y hy
      have := count_of_enough h t2 hx hy
      omega
    · refine legible_small (lo := 4) (hi := 2) (c := 3) (by simp) ?_
      intro x hx y hy
      have := count_of_enough h t4 hx hy
      have mono : ∀ l : List (Nat × Nat), (l.filter fun p =>
          (x ≤ p.1 + 3 && p.1 ≤ x + 2 && p.1 + 2 < g.width) && (y ≤ p.2 + 3 && p.2 ≤ y + 2 && p.2 + 2 < g.height) &&
            grey g p.1 p.2 == grey g x y).length ≤ (l.filter fun p =>
          (x ≤ p.1 + 4 && p.1 ≤ x + 2 && p.1 + 2 < g.width) && (y ≤ p.2 + 4 && p.2 ≤ y + 2 && p.2 + 2 < g.height) &&
            grey g p.1 p.2 == grey g x y).length := by
        intro l
        rw [← List.countP_eq_length_filter, ← List.countP_eq_length_filter]
        apply List.countP_mono_left
        intro p _
        simp only [Bool.and_eq_true, decide_eq_true_eq, beq_iff_eq]
        omega
      have := mono (positions g.width g.height)
      omega
    · refine legible_small (lo := 3) (hi := 2) (c := 3) (by simp) ?_
      intro x hx y hy
      have := count_of_enough h t4 hx hy
      omega

/-! ### A test for `WellMixed` -/

/-- The pixels of an axis of length `n` in the window of block `b`. -/
def axisWindow (n b : Nat) : List Nat := (List.range n).filter fun p => nearBlock (n / 5) 3 b (p / 5)

/-- For every row, how many pixels in the window of every block are black. -/
def blackTable (rows : List (List Nat)) (m width : Nat) : List (List Nat) :=
  rows.map fun row => (List.range (width * m / 5 + 1)).map fun b =>
    (axisWindow (width * m) b).countP fun x => row.getD (x / m) 0 == 0

/-- Given these numbers, all windows have an eighth of both colours. -/
def mixedBy (table : List (List Nat)) (m width height : Nat) : Bool :=
  (List.range (width * m / 5 + 1)).all fun bx => (List.range (height * m / 5 + 1)).all fun b =>
    let rows := axisWindow (height * m) b
    let n := (axisWindow (width * m) bx).length * rows.length
    let black := (rows.map fun y => (table.getD (y / m) []).getD bx 0).sum
    decide (0 < n) && decide (n ≤ 8 * black) && decide (8 * black ≤ 7 * n)

theorem black_or_white {g : GrayImage} {rows cols : List (List Nat)} (h : RowsOf g rows cols)
    (hbw : rows.all fun r => r.all fun v => v == 0 || v == 255) {x y : Nat} (hx : x < g.width) (hy : y < g.height) :
    grey g x y = 0 ∨ grey g x y = 255 := by
  have hr : y < rows.length := by rw [h.1]; exact hy
  rw [h.2.2.2.2.1 _ hx _ hy]
  rw [List.all_eq_true] at hbw
  have hv := hbw _ (List.getElem_mem hr)
  rw [List.all_eq_true] at hv
  have hl : x < (rows[y]).length := by rw [h.2.2.1 _ (List.getElem_mem hr)]; exact hx
  have hv := hv _ (List.getElem_mem hl)
  rw [List.getD_eq_getElem?_getD (l := rows), List.getElem?_eq_getElem hr, Option.getD_some,
    List.getD_eq_getElem?_getD, List.getElem?_eq_getElem hl, Option.getD_some]
  simpa only [Bool.or_eq_true, beq_iff_eq] using hv

theorem wellMixed_of {g : GrayImage} {rows cols : List (List Nat)} (h : RowsOf g rows cols) {m : Nat} (hm : 1 ≤ m)
    (hbw : rows.all fun r => r.all fun v => v == 0 || v == 255) {table : List (List Nat)}
    (ht : blackTable rows m g.width = table) (hmix : mixedBy table m g.width g.height = true) : WellMixed g m := by
  refine ⟨hm, ?_⟩
  have hm0 : 0 < m := by omega
  intro img he x hx y hy
  have hx' : x < g.width * m := by rw [← he.1]; exact hx
  have hy' : y < g.height * m := by rw [← he.2.1]; exact hy
  -- the numbers of pixels
  have count : ∀ c : Nat × Nat → Bool, ((window 5 7 img x y).filter c).length =
      ((axisWindow (g.height * m) (y / 5)).map fun j => (axisWindow (g.width * m) (x / 5)).countP fun i => c (i, j)).sum := by
    intro c
    unfold window axisWindow
    rw [List.filter_filter, he.1, he.2.1, ← filter_positions]
    congr 1
    apply List.filter_congr
    intro p _
    exact Bool.and_comm _ _
  have all : windowCount 5 7 img x y = (axisWindow (g.width * m) (x / 5)).length * (axisWindow (g.height * m) (y / 5)).length := by
    have := count fun _ => true
    rw [List.filter_true] at this
    unfold windowCount
    rw [this]
    simp [Nat.mul_comm]
  have dark : ((window 5 7 img x y).filter fun p => grey img p.1 p.2 = 0).length =
      ((axisWindow (g.height * m) (y / 5)).map fun y => (table.getD (y / m) []).getD (x / 5) 0).sum := by
    rw [count]
    congr 1
    apply List.map_congr_left
    intro j hj
    have hj' : j < g.height * m := by
      unfold axisWindow at hj
      have := (List.mem_filter.mp hj).1
      rwa [List.mem_range] at this
    have hjm : j / m < rows.length := by rw [h.1]; exact (Nat.div_lt_iff_lt_mul hm0).mpr hj'
    have hxb : x / 5 < g.width * m / 5 + 1 := by omega
    rw [← ht]
    unfold blackTable
    rw [List.getD_eq_getElem?_getD (l := rows.map _), List.getElem?_map, List.getElem?_eq_getElem hjm]
    simp only [Option.map_some, Option.getD_some]
    rw [List.getD_eq_getElem?_getD, List.getElem?_map, List.getElem?_range hxb]
    simp only [Option.map_some, Option.getD_some]
    apply List.countP_congr
    intro i hi
    have hi' : i < g.width * m := by
      unfold axisWindow at hi
      have := (List.mem_filter.mp hi).1
      rwa [List.mem_range] at this
    rw [he.2.2 i (by rw [he.1]; exact hi') j (by rw [he.2.1]; exact hj'),
      h.2.2.2.2.1 _ ((Nat.div_lt_iff_lt_mul hm0).mpr hi') _ (by rw [← h.1]; exact hjm)]
    rw [List.getD_eq_getElem?_getD (l := rows), List.getElem?_eq_getElem hjm]
    simp
  have both : ((window 5 7 img x y).filter fun p => grey img p.1 p.2 = 0).length +
      ((window 5 7 img x y).filter fun p => grey img p.1 p.2 = 255).length = windowCount 5 7 img x y := by
    have e : ((window 5 7 img x y).filter fun p => grey img p.1 p.2 = 255) =
        (window 5 7 img x y).filter fun p => !decide (grey img p.1 p.2 = 0) := by
      apply List.filter_congr
      intro p hp
      unfold window at hp
      have hp := (List.mem_filter.mp hp).1
      rw [BlockedMean.mem_positions] at hp
      have h1 : p.1 / m < g.width := (Nat.div_lt_iff_lt_mul hm0).mpr (by rw [← he.1]; exact hp.1)
      have h2 : p.2 / m < g.height := (Nat.div_lt_iff_lt_mul hm0).mpr (by rw [← he.2.1]; exact hp.2)
      have hv := black_or_white h hbw h1 h2
      rw [he.2.2 _ hp.1 _ hp.2]
      rcases hv with hv | hv <;> simp [hv]
    rw [e]
    unfold windowCount
    generalize window 5 7 img x y = l
    induction l with
    | nil => rfl
    | cons p l ih =>
      by_cases hp : grey img p.1 p.2 = 0
      · rw [List.filter_cons_of_pos (by simp [hp]), List.filter_cons_of_neg (by simp [hp]), List.length_cons,
          List.length_cons]
        omega
      · rw [List.filter_cons_of_neg (by simp [hp]), List.filter_cons_of_pos (by simp [hp]), List.length_cons,
          List.length_cons]
        omega
  unfold mixedBy at hmix
  rw [List.all_eq_true] at hmix
  have hmix := hmix (x / 5) (List.mem_range.mpr (by omega))
  rw [List.all_eq_true] at hmix
  have hmix := hmix (y / 5) (List.mem_range.mpr (by omega))
  simp only [Bool.and_eq_true, decide_eq_true_eq] at hmix
  rw [← all, ← dark] at hmix
  rintro c (rfl | rfl)
  · exact ⟨hmix.1.1, hmix.1.2⟩
  · exact ⟨hmix.1.1, by omega⟩

end Verif
