import Verif.Model.BlockedMean
import Verif.Spec.Threshold
import Verif.Lemmas.Float

/-!
# Lemmas for the thresholding properties
-/
namespace Verif.BlockedMean

open Spec

theorem getD_eq {α : Type} {l : List α} {i : Nat} {d : α} (h : i < l.length) : l.getD i d = l[i] := by
  simp [List.getD_eq_getElem?_getD, h]

/-! ### Positions -/

theorem positions_eq (w h : Nat) :
    positions w h = (List.range (w * h)).map fun i => (i % w, i / w) := by
  induction h with
  | zero => simp [positions]
  | succ h ih =>
    rcases Nat.eq_zero_or_pos w with rfl | hw
    · simp [positions]
    · have e : positions w (h + 1) = positions w h ++ (List.range w).map fun x => (x, h) := by
        unfold positions
        rw [List.range_succ, List.flatMap_append]
        simp
      rw [e, ih, Nat.mul_succ, List.range_add, List.map_append, List.map_map]
      congr 1
      apply List.map_congr_left
      intro x hx
      rw [List.mem_range] at hx
      simp only [Function.comp]
      rw [Nat.mul_add_mod, Nat.mod_eq_of_lt hx, Nat.mul_add_div hw, Nat.div_eq_of_lt hx]
      simp

theorem mem_positions {w h : Nat} {p : Nat × Nat} : p ∈ positions w h ↔ p.1 < w ∧ p.2 < h := by
  obtain ⟨x, y⟩ := p
  simp only [positions, List.mem_flatMap, List.mem_range, List.mem_map, Prod.mk.injEq]
  constructor
  · rintro ⟨b, hb, a, ha, rfl, rfl⟩; exact ⟨ha, hb⟩
  · rintro ⟨ha, hb⟩; exact ⟨y, hb, x, ha, rfl, rfl⟩

theorem enumerate_eq {img : GrayImage} (hv : img.Valid) :
    img.enumeratePixels
      = (positions img.width img.height).map fun p =>
          (p.1, p.2, img.pixels.getD (p.2 * img.width + p.1) 0) := by
  rw [positions_eq, List.map_map]
  unfold GrayImage.enumeratePixels
  apply List.ext_getElem
  · simp [hv.1]
  · intro i h1 h2
    simp only [List.getElem_map, List.getElem_zipIdx, List.getElem_range, Function.comp, Nat.zero_add]
    simp only [List.length_map, List.length_zipIdx] at h1
    have : i / img.width * img.width + i % img.width = i := by
      rw [Nat.mul_comm]; exact Nat.div_add_mod i img.width
    rw [this, getD_eq h1]

/-! ### Indices -/

theorem toIndex_ret {a b bw bh : Nat} (ha : a ≤ bw) (hb : b ≤ bh)
    (hn : (bw + 1) * (bh + 1) < 2 ^ 32) :
    toIndex (a, b) bw = .ret (b * (bw + 1) + a) ∧ b * (bw + 1) + a < (bw + 1) * (bh + 1) := by
  have h1 : b * (bw + 1) + a < (bw + 1) * (bh + 1) := by
    have : b * (bw + 1) ≤ bh * (bw + 1) := Nat.mul_le_mul_right _ hb
    have e : (bw + 1) * (bh + 1) = bh * (bw + 1) + (bw + 1) := by
      rw [Nat.mul_comm, Nat.succ_mul]
    omega
  refine ⟨?_, h1⟩
  unfold toIndex addU32 mulU32
  have h2 : bw + 1 < 2 ^ 32 := by
    have : (bw + 1) * 1 ≤ (bw + 1) * (bh + 1) := Nat.mul_le_mul_left _ (by omega)
    omega
  rw [if_pos h2]
  simp only [Run.ret_bind]
  rw [if_pos (by omega)]
  simp only [Run.ret_bind]
  rw [if_pos (by omega)]

theorem toIndex_inj {a b c d bw : Nat} (ha : a ≤ bw) (hc : c ≤ bw)
    (h : b * (bw + 1) + a = d * (bw + 1) + c) : a = c ∧ b = d := by
  have h1 : (b * (bw + 1) + a) % (bw + 1) = a := by
    rw [Nat.mul_comm, Nat.mul_add_mod, Nat.mod_eq_of_lt (by omega)]
  have h2 : (d * (bw + 1) + c) % (bw + 1) = c := by
    rw [Nat.mul_comm, Nat.mul_add_mod, Nat.mod_eq_of_lt (by omega)]
  have e : a = c := by rw [← h1, ← h2, h]
  subst e
  refine ⟨rfl, ?_⟩
  have : b * (bw + 1) = d * (bw + 1) := by omega
  exact Nat.eq_of_mul_eq_mul_right (by omega) this

/-! ### Filling the blocks -/

/-- Total of block `i`. -/
def tot (blocks : List Stats) (i : Nat) : Nat := (blocks.getD i ⟨0, 0, .fin 0⟩).total
/-- Count of block `i`. -/
def cnt (blocks : List Stats) (i : Nat) : Nat := (blocks.getD i ⟨0, 0, .fin 0⟩).count

theorem getD_set {blocks : List Stats} {i j : Nat} {s d : Stats} (hi : i < blocks.length) :
    (blocks.set i s).getD j d = if i = j then s else blocks.getD j d := by
  rw [List.getD_eq_getElem?_getD, List.getD_eq_getElem?_getD, List.getElem?_set]
  split
  · rename_i h; subst h; simp [hi]
  · rfl

/-- Block of a pixel. -/
def blockIdx (bs bw : Nat) (q : Nat × Nat × U8) : Nat := q.2.1 / bs * (bw + 1) + q.1 / bs

theorem addPixel_ret {bs w h : Nat} (hbs : 0 < bs) (hn : (w / bs + 1) * (h / bs + 1) < 2 ^ 32)
    {blocks : List Stats} (hl : blocks.length = (w / bs + 1) * (h / bs + 1))
    {q : Nat × Nat × U8} (hx : q.1 < w) (hy : q.2.1 < h)
    (ht : tot blocks (blockIdx bs (w / bs) q) + 255 < 2 ^ 64)
    (hc : cnt blocks (blockIdx bs (w / bs) q) + 1 < 2 ^ 64) :
    ∃ blocks', addPixel bs (w / bs) blocks q = .ret blocks' ∧ blocks'.length = blocks.length ∧
      (∀ i, tot blocks' i = tot blocks i + if blockIdx bs (w / bs) q = i then q.2.2.toNat else 0) ∧
      (∀ i, cnt blocks' i = cnt blocks i + if blockIdx bs (w / bs) q = i then 1 else 0) := by
  obtain ⟨x, y, p⟩ := q
  have hx' : x / bs ≤ w / bs := Nat.div_le_div_right (Nat.le_of_lt hx)
  have hy' : y / bs ≤ h / bs := Nat.div_le_div_right (Nat.le_of_lt hy)
  obtain ⟨e1, e2⟩ := toIndex_ret hx' hy' hn
  have hi : blockIdx bs (w / bs) (x, y, p) < blocks.length := by rw [hl]; exact e2
  have hp : p.toNat < 256 := p.isLt
  unfold addPixel asBlockCoords
  rw [if_neg (by omega)]
  simp only [Run.ret_bind, e1]
  have hb : y / bs * (w / bs + 1) + x / bs = blockIdx bs (w / bs) (x, y, p) := rfl
  rw [hb]
  clear hb e1 e2
  simp only at hx hy
  generalize blockIdx bs (w / bs) (x, y, p) = I at *
  rw [List.getElem?_eq_getElem hi]
  simp only
  have et : tot blocks I = blocks[I].total := by unfold tot; rw [getD_eq hi]
  have ec : cnt blocks I = blocks[I].count := by unfold cnt; rw [getD_eq hi]
  unfold addU64
  rw [if_pos (by omega), if_pos (by omega)]
  simp only [Run.ret_bind, Run.pure_eq]
  refine ⟨_, rfl, by simp, ?_, ?_⟩
  · intro i
    unfold tot
    rw [getD_set hi]
    split
    · rename_i h; subst h; rw [getD_eq hi]
    · simp
  · intro i
    unfold cnt
    rw [getD_set hi]
    split
    · rename_i h; subst h; rw [getD_eq hi]
    · simp

theorem addPixels_ret {bs w h : Nat} (hbs : 0 < bs) (hn : (w / bs + 1) * (h / bs + 1) < 2 ^ 32)
    (qs : List (Nat × Nat × U8)) (hq : ∀ q ∈ qs, q.1 < w ∧ q.2.1 < h)
    (blocks : List Stats) (hl : blocks.length = (w / bs + 1) * (h / bs + 1))
    (ht : ∀ i, tot blocks i + 255 * qs.length + 255 < 2 ^ 64)
    (hc : ∀ i, cnt blocks i + qs.length + 1 < 2 ^ 64) :
    ∃ blocks', qs.foldlM (addPixel bs (w / bs)) blocks = .ret blocks' ∧
      blocks'.length = blocks.length ∧
      (∀ i, tot blocks' i = tot blocks i +
        (qs.map fun q => if blockIdx bs (w / bs) q = i then q.2.2.toNat else 0).sum) ∧
      (∀ i, cnt blocks' i = cnt blocks i +
        (qs.map fun q => if blockIdx bs (w / bs) q = i then 1 else 0).sum) := by
  induction qs generalizing blocks with
  | nil => exact ⟨blocks, rfl, rfl, by simp, by simp⟩
  | cons q qs ih =>
    simp only [List.length_cons] at ht hc
    obtain ⟨b1, e1, l1, t1, c1⟩ := addPixel_ret hbs hn hl (hq q (by simp)).1 (hq q (by simp)).2
      (by have := ht (blockIdx bs (w / bs) q); omega) (by have := hc (blockIdx bs (w / bs) q); omega)
    have hp : q.2.2.toNat < 256 := q.2.2.isLt
    obtain ⟨b2, e2, l2, t2, c2⟩ := ih (fun q' h' => hq q' (by simp [h'])) b1 (by omega)
      (by intro i; rw [t1 i]; have := ht i; split <;> omega)
      (by intro i; rw [c1 i]; have := hc i; split <;> omega)
    refine ⟨b2, ?_, by omega, ?_, ?_⟩
    · rw [List.foldlM_cons, e1, Run.ret_bind, e2]
    · intro i; rw [t2, t1]; simp; omega
    · intro i; rw [c2, c1]; simp; omega

/-! ### Window sums -/

theorem sumColumns_ret {blocks : List Stats} {bw bh x : Nat} (hx : x ≤ bw)
    (hn : (bw + 1) * (bh + 1) < 2 ^ 32) (hl : blocks.length = (bw + 1) * (bh + 1))
    (ys : List Nat) (hy : ∀ y ∈ ys, y ≤ bh) (acc : Nat × Nat)
    (h1 : acc.1 + (ys.map fun y => tot blocks (y * (bw + 1) + x)).sum < 2 ^ 64)
    (h2 : acc.2 + (ys.map fun y => cnt blocks (y * (bw + 1) + x)).sum < 2 ^ 64) :
    ys.foldlM (sumColumn blocks bw x) acc
      = .ret (acc.1 + (ys.map fun y => tot blocks (y * (bw + 1) + x)).sum,
          acc.2 + (ys.map fun y => cnt blocks (y * (bw + 1) + x)).sum) := by
  induction ys generalizing acc with
  | nil => rfl
  | cons y ys ih =>
    simp only [List.map_cons, List.sum_cons] at h1 h2 ⊢
    obtain ⟨e1, e2⟩ := toIndex_ret hx (hy y (by simp)) hn
    rw [← hl] at e2
    have et : tot blocks (y * (bw + 1) + x) = blocks[y * (bw + 1) + x].total := by
      unfold tot; rw [getD_eq e2]
    have ec : cnt blocks (y * (bw + 1) + x) = blocks[y * (bw + 1) + x].count := by
      unfold cnt; rw [getD_eq e2]
    rw [List.foldlM_cons]
    have es : sumColumn blocks bw x acc y
        = .ret (acc.1 + tot blocks (y * (bw + 1) + x), acc.2 + cnt blocks (y * (bw + 1) + x)) := by
      unfold sumColumn
      rw [e1]
      simp only [Run.ret_bind]
      rw [List.getElem?_eq_getElem e2]
      simp only
      unfold addU64
      rw [if_pos (by omega), if_pos (by omega), et, ec]
      rfl
    rw [es, Run.ret_bind, ih (fun y' h' => hy y' (by simp [h'])) _ (by simp only; omega) (by simp only; omega)]
    simp only [Run.ret.injEq, Prod.mk.injEq]
    omega

theorem sumRows_ret {blocks : List Stats} {bw bh : Nat}
    (hn : (bw + 1) * (bh + 1) < 2 ^ 32) (hl : blocks.length = (bw + 1) * (bh + 1))
    {a b : Nat} (ys : List Nat) (hr : range a b = .ret ys) (hy : ∀ y ∈ ys, y ≤ bh)
    (xs : List Nat) (hx : ∀ x ∈ xs, x ≤ bw) (acc : Nat × Nat)
    (h1 : acc.1 + (xs.map fun x => (ys.map fun y => tot blocks (y * (bw + 1) + x)).sum).sum < 2 ^ 64)
    (h2 : acc.2 + (xs.map fun x => (ys.map fun y => cnt blocks (y * (bw + 1) + x)).sum).sum < 2 ^ 64) :
    xs.foldlM (fun acc x => do
        let ys ← range a b
        ys.foldlM (sumColumn blocks bw x) acc) acc
      = .ret (acc.1 + (xs.map fun x => (ys.map fun y => tot blocks (y * (bw + 1) + x)).sum).sum,
          acc.2 + (xs.map fun x => (ys.map fun y => cnt blocks (y * (bw + 1) + x)).sum).sum) := by
  induction xs generalizing acc with
  | nil => rfl
  | cons x xs ih =>
    simp only [List.map_cons, List.sum_cons] at h1 h2 ⊢
    have ih' := ih (fun x' h' => hx x' (by simp [h']))
      (acc.1 + (ys.map fun y => tot blocks (y * (bw + 1) + x)).sum,
        acc.2 + (ys.map fun y => cnt blocks (y * (bw + 1) + x)).sum)
      (by simp only; omega) (by simp only; omega)
    rw [List.foldlM_cons]
    simp only [hr, Run.ret_bind] at ih' ⊢
    rw [sumColumns_ret (hx x (by simp)) hn hl ys hy acc (by omega) (by omega), Run.ret_bind, ih']
    simp only [Run.ret.injEq, Prod.mk.injEq]
    omega

/-- One pixel is counted once in the blocks of a rectangle, or not at all. -/
theorem rect_single {bw a b v : Nat} (ha : a ≤ bw) (xs ys : List Nat) (hx : ∀ x ∈ xs, x ≤ bw)
    (nx : xs.Nodup) (ny : ys.Nodup) :
    (xs.map fun x => (ys.map fun y =>
        if b * (bw + 1) + a = y * (bw + 1) + x then v else 0).sum).sum
      = if a ∈ xs ∧ b ∈ ys then v else 0 := by
  have hinner : ∀ x ≤ bw, ∀ ys : List Nat, ys.Nodup →
      (ys.map fun y => if b * (bw + 1) + a = y * (bw + 1) + x then v else 0).sum
        = if a = x ∧ b ∈ ys then v else 0 := by
    intro x hx ys ny
    induction ys with
    | nil => simp
    | cons y ys ih =>
      rw [List.nodup_cons] at ny
      rw [List.map_cons, List.sum_cons, ih ny.2]
      by_cases hax : a = x
      · subst hax
        by_cases hby : b = y
        · subst hby; simp [ny.1]
        · have : ¬ (b * (bw + 1) + a = y * (bw + 1) + a) := fun h => hby (toIndex_inj ha ha h).2
          simp [this, hby]
      · have : ¬ (b * (bw + 1) + a = y * (bw + 1) + x) := fun h => hax (toIndex_inj ha hx h).1
        simp [this, hax]
  induction xs with
  | nil => simp
  | cons x xs ih =>
    rw [List.nodup_cons] at nx
    rw [List.map_cons, List.sum_cons, ih (fun x' h' => hx x' (by simp [h'])) nx.2,
      hinner x (hx x (by simp)) ys ny]
    by_cases hax : a = x
    · subst hax; simp [nx.1]
    · simp [hax]

theorem sum_map_add {α : Type} (l : List α) (f g : α → Nat) :
    (l.map fun x => f x + g x).sum = (l.map f).sum + (l.map g).sum := by
  induction l with
  | nil => rfl
  | cons a l ih => simp only [List.map_cons, List.sum_cons, ih]; omega

theorem sum_map_zero {α : Type} (l : List α) : (l.map fun _ => 0).sum = 0 := by
  induction l with
  | nil => rfl
  | cons a l ih => simp only [List.map_cons, List.sum_cons, ih]

/-- The totals of the blocks of a rectangle add up to the sum over the pixels in these blocks. -/
theorem rect_sum {bs bw : Nat} (f : Nat × Nat × U8 → Nat) (qs : List (Nat × Nat × U8))
    (hq : ∀ q ∈ qs, q.1 / bs ≤ bw) (xs ys : List Nat) (hx : ∀ x ∈ xs, x ≤ bw)
    (nx : xs.Nodup) (ny : ys.Nodup) :
    (xs.map fun x => (ys.map fun y =>
        (qs.map fun q => if blockIdx bs bw q = y * (bw + 1) + x then f q else 0).sum).sum).sum
      = (qs.map fun q => if q.1 / bs ∈ xs ∧ q.2.1 / bs ∈ ys then f q else 0).sum := by
  induction qs with
  | nil => simp [sum_map_zero]
  | cons q qs ih =>
    simp only [List.map_cons, List.sum_cons]
    simp only [sum_map_add]
    rw [ih (fun q' h' => hq q' (by simp [h']))]
    congr 1
    unfold blockIdx
    exact rect_single (hq q (by simp)) xs ys hx nx ny

/-! ### Setting the means -/

theorem setMeans_inner {blocks : List Stats} {bw bh stride bx : Nat} (M : Nat → Nat → F64)
    (hn : (bw + 1) * (bh + 1) < 2 ^ 32) (hx : bx ≤ bw)
    (ys : List Nat) (hy : ∀ y ∈ ys, y ≤ bh)
    (hM : ∀ y ∈ ys, ∃ t c, windowSum blocks bw bh stride bx y = .ret (t, c) ∧
      F64.ofNat t / F64.ofNat c = M bx y)
    (means : List Stats) (hl : means.length = (bw + 1) * (bh + 1)) :
    ∃ means', ys.foldlM (setMean blocks bw bh stride bx) means = .ret means' ∧
      means'.length = means.length ∧
      ∀ a b, a ≤ bw → (means'.getD (b * (bw + 1) + a) ⟨0, 0, .fin 0⟩).mean
        = if a = bx ∧ b ∈ ys then M a b
          else (means.getD (b * (bw + 1) + a) ⟨0, 0, .fin 0⟩).mean := by
  induction ys generalizing means with
  | nil => exact ⟨means, rfl, rfl, by simp⟩
  | cons y ys ih =>
    obtain ⟨t, c, e1, e2⟩ := hM y (by simp)
    obtain ⟨i1, i2⟩ := toIndex_ret hx (hy y (by simp)) hn
    rw [← hl] at i2
    have es : setMean blocks bw bh stride bx means y
        = .ret (means.set (y * (bw + 1) + bx)
            { means[y * (bw + 1) + bx] with mean := M bx y }) := by
      unfold setMean
      rw [e1]
      simp only [Run.ret_bind, i1]
      rw [List.getElem?_eq_getElem i2, e2]
      rfl
    obtain ⟨m', f1, f2, f3⟩ := ih (fun y' h' => hy y' (by simp [h']))
      (fun y' h' => hM y' (by simp [h'])) (means.set (y * (bw + 1) + bx)
            { means[y * (bw + 1) + bx] with mean := M bx y }) (by simpa using hl)
    refine ⟨m', ?_, by simpa using f2, ?_⟩
    · rw [List.foldlM_cons, es, Run.ret_bind, f1]
    · intro a b ha
      rw [f3 a b ha]
      by_cases h1 : a = bx ∧ b ∈ ys
      · rw [if_pos h1, if_pos ⟨h1.1, by simp [h1.2]⟩]
      · rw [if_neg h1, getD_set i2]
        by_cases h2 : y * (bw + 1) + bx = b * (bw + 1) + a
        · obtain ⟨rfl, rfl⟩ := toIndex_inj hx ha h2
          simp
        · rw [if_neg h2, if_neg]
          rintro ⟨rfl, hb⟩
          rcases List.mem_cons.mp hb with rfl | hb
          · exact h2 rfl
          · exact h1 ⟨rfl, hb⟩

theorem setMeans_outer {blocks : List Stats} {bw bh stride : Nat} (M : Nat → Nat → F64)
    (hn : (bw + 1) * (bh + 1) < 2 ^ 32) (ys : List Nat) (hy : ∀ y ∈ ys, y ≤ bh)
    (xs : List Nat) (hx : ∀ x ∈ xs, x ≤ bw)
    (hM : ∀ x ∈ xs, ∀ y ∈ ys, ∃ t c, windowSum blocks bw bh stride x y = .ret (t, c) ∧
      F64.ofNat t / F64.ofNat c = M x y)
    (means : List Stats) (hl : means.length = (bw + 1) * (bh + 1)) :
    ∃ means', xs.foldlM (fun means bx => ys.foldlM (setMean blocks bw bh stride bx) means) means
        = .ret means' ∧
      means'.length = means.length ∧
      ∀ a b, a ≤ bw → (means'.getD (b * (bw + 1) + a) ⟨0, 0, .fin 0⟩).mean
        = if a ∈ xs ∧ b ∈ ys then M a b
          else (means.getD (b * (bw + 1) + a) ⟨0, 0, .fin 0⟩).mean := by
  induction xs generalizing means with
  | nil => exact ⟨means, rfl, rfl, by simp⟩
  | cons x xs ih =>
    obtain ⟨m1, e1, e2, e3⟩ := setMeans_inner M hn (hx x (by simp)) ys hy (hM x (by simp)) means hl
    obtain ⟨m2, f1, f2, f3⟩ := ih (fun x' h' => hx x' (by simp [h']))
      (fun x' h' => hM x' (by simp [h'])) m1 (by omega)
    refine ⟨m2, ?_, by omega, ?_⟩
    · rw [List.foldlM_cons, e1, Run.ret_bind, f1]
    · intro a b ha
      rw [f3 a b ha, e3 a b ha]
      by_cases h1 : a ∈ xs
      · by_cases hb : b ∈ ys <;> simp [h1, hb]
      · by_cases hax : a = x
        · subst hax; by_cases hb : b ∈ ys <;> simp [hb, h1]
        · simp [h1, hax]

instance : LawfulMonad Run := LawfulMonad.mk'
  (id_map := by intro α x; cases x <;> rfl)
  (pure_bind := by intros; rfl)
  (bind_assoc := by intro α β γ x f g; cases x <;> rfl)

theorem mapM_ret {α β : Type} (f : α → Run β) (g : α → β) (l : List α)
    (h : ∀ a ∈ l, f a = .ret (g a)) : l.mapM f = .ret (l.map g) := by
  induction l with
  | nil => rfl
  | cons a l ih =>
    rw [List.mapM_cons, h a (by simp), Run.ret_bind, ih (fun b hb => h b (by simp [hb]))]
    rfl

/-! ### The comparison with the mean -/

theorem mean_gt {t c k : Nat} (hc : 0 < c) (hc2 : c ≤ 2 ^ 44) (hk : k ≤ 255) :
    (k : ℚ) < F64.roundQ ((t : ℚ) / c) ↔ k * c < t := by
  have hc' : (0 : ℚ) < c := by exact_mod_cast hc
  constructor
  · intro h
    by_contra hle
    have h1 : (t : ℚ) / c ≤ k := by
      rw [div_le_iff₀ hc']; exact_mod_cast Nat.le_of_not_lt hle
    have h2 := F64.roundQ_mono h1
    rw [F64.roundQ_nat (by omega)] at h2
    linarith
  · intro h
    have h1 : ((k * 17592186044416 + 1 : Int) : ℚ) * F64.pow2 (-44) ≤ (t : ℚ) / c := by
      rw [le_div_iff₀ hc', F64.pow2_eq]
      have h2 : ((k * c + 1 : Nat) : ℚ) ≤ t := by exact_mod_cast h
      have h3 : (c : ℚ) ≤ 2 ^ 44 := by exact_mod_cast hc2
      push_cast at h2 ⊢
      have e : (2 : ℚ) ^ (-44 : Int) = 1 / 2 ^ 44 := by norm_num
      rw [e]
      have e2 : ((k : ℚ) * 17592186044416 + 1) * (1 / 2 ^ 44) * c = k * c + c / 2 ^ 44 := by
        norm_num; ring
      rw [e2]
      have h4 : (c : ℚ) / 2 ^ 44 ≤ 1 := by rw [div_le_one (by positivity)]; exact h3
      linarith
    have h2 := F64.le_roundQ ⟨_, _, rfl, by
      rw [abs_of_nonneg (by positivity)]
      have : (k : Int) ≤ 255 := by exact_mod_cast hk
      omega, by norm_num⟩ h1
    refine lt_of_lt_of_le ?_ h2
    rw [F64.pow2_eq]
    push_cast
    have e : (2 : ℚ) ^ (-44 : Int) = 1 / 2 ^ 44 := by norm_num
    rw [e]
    have e2 : ((k : ℚ) * 17592186044416 + 1) * (1 / 2 ^ 44) = k + 1 / 2 ^ 44 := by norm_num; ring
    rw [e2]
    have : (0 : ℚ) < 1 / 2 ^ 44 := by positivity
    linarith

theorem mean_lt {t c k : Nat} (hc : 0 < c) (hc2 : c ≤ 2 ^ 44) (hk : k ≤ 255) :
    F64.roundQ ((t : ℚ) / c) < (k : ℚ) ↔ t < k * c := by
  have hc' : (0 : ℚ) < c := by exact_mod_cast hc
  constructor
  · intro h
    by_contra hle
    have h1 : (k : ℚ) ≤ (t : ℚ) / c := by
      rw [le_div_iff₀ hc']; exact_mod_cast Nat.le_of_not_lt hle
    have h2 := F64.roundQ_mono h1
    rw [F64.roundQ_nat (by omega)] at h2
    linarith
  · intro h
    have h1 : (t : ℚ) / c ≤ ((k * 17592186044416 - 1 : Int) : ℚ) * F64.pow2 (-44) := by
      rw [div_le_iff₀ hc', F64.pow2_eq]
      have h2 : ((t + 1 : Nat) : ℚ) ≤ ((k * c : Nat) : ℚ) := by exact_mod_cast h
      have h3 : (c : ℚ) ≤ 2 ^ 44 := by exact_mod_cast hc2
      push_cast at h2 ⊢
      have e : (2 : ℚ) ^ (-44 : Int) = 1 / 2 ^ 44 := by norm_num
      rw [e]
      have e2 : ((k : ℚ) * 17592186044416 - 1) * (1 / 2 ^ 44) * c = k * c - c / 2 ^ 44 := by
        norm_num; ring
      rw [e2]
      have h4 : (c : ℚ) / 2 ^ 44 ≤ 1 := by rw [div_le_one (by positivity)]; exact h3
      linarith
    have hk1 : 0 < k := by
      rcases Nat.eq_zero_or_pos k with rfl | h'
      · simp at h
      · exact h'
    have h2 := F64.roundQ_le ⟨_, _, rfl, by
      rw [abs_le]
      have : (k : Int) ≤ 255 := by exact_mod_cast hk
      constructor <;> omega, by norm_num⟩ h1
    refine lt_of_le_of_lt h2 ?_
    rw [F64.pow2_eq]
    push_cast
    have e : (2 : ℚ) ^ (-44 : Int) = 1 / 2 ^ 44 := by norm_num
    rw [e]
    have e2 : ((k : ℚ) * 17592186044416 - 1) * (1 / 2 ^ 44) = k - 1 / 2 ^ 44 := by norm_num; ring
    rw [e2]
    have : (0 : ℚ) < 1 / 2 ^ 44 := by positivity
    linarith

theorem pow2_1023_ge {q : ℚ} (h : q ≤ 2 ^ 60) : q ≤ F64.pow2 1023 := by
  refine le_trans h (le_trans (le_of_eq ?_) (F64.pow2_le (show (60 : Int) ≤ 1023 by norm_num)))
  rw [F64.pow2_eq]; norm_num

theorem div_fin {t c : Nat} (hc : 0 < c) (hc2 : c ≤ 2 ^ 44) (ht : t ≤ 255 * c) :
    F64.ofNat t / F64.ofNat c = .fin (F64.roundQ ((t : ℚ) / c)) := by
  rw [F64.ofNat_fin (by omega), F64.ofNat_fin (by omega)]
  change F64.div _ _ = _
  unfold F64.div
  have hc' : (0 : ℚ) < c := by exact_mod_cast hc
  simp only
  rw [if_neg (ne_of_gt hc'), F64.ofExact_fin]
  rw [abs_of_nonneg (by positivity)]
  apply pow2_1023_ge
  rw [div_le_iff₀ hc']
  have : (t : ℚ) ≤ 255 * c := by exact_mod_cast ht
  nlinarith

theorem lit_fin {n : Nat} (h : n ≤ 2 ^ 53) : F64.lit n = .fin n := by
  have := F64.ofNat_fin h
  unfold F64.ofNat at this
  unfold F64.lit
  rw [Rat.mkRat_one]
  exact_mod_cast this

theorem thresholdPixel_eq {t c : Nat} (hc : 0 < c) (hc2 : c ≤ 2 ^ 44) (ht : t ≤ 255 * c) (p : U8) :
    thresholdPixel (F64.ofNat t / F64.ofNat c) p
      = if 250 * c < t ∨ (5 * c ≤ t ∧ t < p.toNat * c) then 255#8 else 0#8 := by
  have hp : p.toNat < 256 := p.isLt
  rw [div_fin hc hc2 ht]
  unfold thresholdPixel F64.gt
  rw [lit_fin (by omega), lit_fin (by omega), F64.ofNat_fin (by omega)]
  simp only [F64.lt, decide_eq_true_eq]
  simp only [mean_gt hc hc2 (show 250 ≤ 255 by omega), mean_lt hc hc2 (show 5 ≤ 255 by omega),
    mean_lt hc hc2 (show p.toNat ≤ 255 by omega)]
  by_cases h1 : 250 * c < t
  · rw [if_pos h1, if_pos (Or.inl h1)]
  · rw [if_neg h1]
    by_cases h2 : t < 5 * c
    · rw [if_pos h2, if_neg (by omega)]
    · rw [if_neg h2]
      by_cases h3 : t < p.toNat * c
      · rw [if_pos h3, if_pos (Or.inr ⟨by omega, h3⟩)]
      · rw [if_neg h3, if_neg (by rintro (h | h) <;> omega)]

end Verif.BlockedMean
