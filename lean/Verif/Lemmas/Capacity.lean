import Verif.Lemmas.Reading
import Mathlib.Data.List.Perm.Basic
import Mathlib.Data.List.Nodup
import Mathlib.Data.List.Dedup
import Mathlib.Algebra.BigOperators.Group.List.Basic
/-! The number of data modules of each version. -/
namespace Verif
open Spec

/-- Everything `is_data` asks about one coordinate. -/
structure Cls where
  eq6 : Bool
  lt9 : Bool
  gt9 : Bool
  gt12 : Bool
  lt6 : Bool
  eq9 : Bool
  al : Bool
deriving DecidableEq

/-- Class of coordinate `c`. -/
def cls (v c : Nat) : Cls :=
  ⟨decide (c = 6), decide (c < 9), decide (c > sideOf v - 9), decide (c > sideOf v - 12),
    decide (c < 6), decide (c = sideOf v - 9), isAlignmentCoord (locOf v) c⟩

/-- `is_data` on classes. -/
def clsData (v7 : Bool) (p q : Cls) : Bool :=
  !(p.eq6 || q.eq6) && !(p.lt9 && q.lt9) && !(p.gt9 && q.lt9) && !(p.lt9 && q.gt9) &&
  !(v7 && p.gt12 && q.lt6) && !(v7 && q.gt12 && p.lt6) &&
  ((p.eq9 && q.lt9) || (q.eq9 && p.lt9) || !(p.al && q.al))

theorem isDataModule_cls (v : Nat) (h1 : 1 ≤ v) (h40 : v ≤ 40) (x y : Nat) (hx : x < sideOf v)
    (hy : y < sideOf v) :
    decide (isDataModule v x y) = clsData (decide (v ≥ 7)) (cls v x) (cls v y) := by
  have h := isData_eq ⟨[], v, sideOf v⟩ v h1 h40 rfl rfl x y hx hy
  rw [isData_chain _ _ _ _ (by show 12 ≤ sideOf v; unfold sideOf; omega)] at h
  simp only [Run.ret.injEq] at h
  rw [← h]
  unfold clsData cls
  simp only [Bool.decide_and, Bool.decide_or, decide_not, Bool.and_assoc, Bool.decide_eq_true,
    Bool.or_assoc]

theorem sum_by_class {κ : Type} [DecidableEq κ] (C : List κ) (hC : C.Nodup) (f : κ → Nat)
    (L : List κ) (hL : ∀ a ∈ L, a ∈ C) :
    (L.map f).sum = (C.map fun q => L.count q * f q).sum := by
  induction L with
  | nil => simp
  | cons a L ih =>
    rw [List.map_cons, List.sum_cons, ih (fun b hb => hL b (List.mem_cons_of_mem _ hb))]
    have ha : a ∈ C := hL a List.mem_cons_self
    have key : ∀ D : List κ, D.Nodup → (D.map fun q => (a :: L).count q * f q).sum =
        (D.map fun q => L.count q * f q).sum + if a ∈ D then f a else 0 := by
      intro D hD
      induction D with
      | nil => simp
      | cons d D ihD =>
        rw [List.nodup_cons] at hD
        simp only [List.map_cons, List.sum_cons, ihD hD.2]
        by_cases hd : a = d
        · subst hd
          rw [if_neg hD.1, List.count_cons_self, if_pos List.mem_cons_self]
          rw [Nat.add_mul]
          omega
        · rw [List.count_cons_of_ne hd]
          have : (a ∈ d :: D) ↔ a ∈ D := by simp [hd]
          simp only [this]
          omega
    rw [key C hC, if_pos ha, Nat.add_comm]

/-- All modules in row order. -/
def grid (s : Nat) : List (Nat × Nat) :=
  (List.range s).flatMap fun y => (List.range s).map fun x => (x, y)

theorem mem_grid {s x y : Nat} : (x, y) ∈ grid s ↔ x < s ∧ y < s := by
  unfold grid
  simp only [List.mem_flatMap, List.mem_map, List.mem_range, Prod.mk.injEq]
  constructor
  · rintro ⟨b, hb, a, ha, rfl, rfl⟩; exact ⟨ha, hb⟩
  · rintro ⟨hx, hy⟩; exact ⟨y, hy, x, hx, rfl, rfl⟩

theorem grid_nodup (s : Nat) : (grid s).Nodup := by
  unfold grid
  rw [List.nodup_flatMap]
  refine ⟨fun y _ => List.nodup_range.map (fun a b h => (Prod.mk.inj h).1), ?_⟩
  apply List.Pairwise.imp _ (List.nodup_range (n := s))
  intro a b hab p hp hp'
  simp only [List.mem_map] at hp hp'
  obtain ⟨_, _, rfl⟩ := hp
  obtain ⟨_, _, h⟩ := hp'
  exact hab (Prod.mk.inj h).2.symm

theorem dataModules_perm (v : Nat) :
    (dataModules v).Perm ((grid (sideOf v)).filter fun p => decide (isDataModule v p.1 p.2)) := by
  unfold dataModules
  rw [List.perm_ext_iff_of_nodup ((zigzag_nodup v).filter _) ((grid_nodup _).filter _)]
  rintro ⟨x, y⟩
  simp only [List.mem_filter, mem_zigzag, mem_grid, decide_eq_true_eq]
  constructor
  · rintro ⟨⟨a, b, _⟩, h⟩; exact ⟨⟨a, b⟩, h⟩
  · rintro ⟨⟨a, b⟩, h⟩
    refine ⟨⟨a, b, ?_⟩, h⟩
    rintro rfl
    exact h.2.2 (.inr (.inl (.inl rfl)))

/-- The classes that occur. -/
def classes (v : Nat) : List Cls := ((List.range (sideOf v)).map (cls v)).dedup

/-- Number of coordinates of each class. -/
def histogram (v : Nat) : List (Cls × Nat) :=
  (classes v).map fun q => (q, ((List.range (sideOf v)).map (cls v)).count q)

/-- The number of data modules, computed by classes. -/
def countByClass (v : Nat) : Nat :=
  ((histogram v).map fun p => p.2 *
    ((histogram v).map fun q => q.2 * (clsData (decide (v ≥ 7)) q.1 p.1).toNat).sum).sum

theorem length_filter_eq_sum {α : Type} (l : List α) (p : α → Bool) :
    (l.filter p).length = (l.map fun a => (p a).toNat).sum := by
  induction l with
  | nil => rfl
  | cons a l ih =>
    rw [List.filter_cons, List.map_cons, List.sum_cons, ← ih]
    cases p a <;> simp <;> omega

theorem dataModules_length (v : Nat) (h1 : 1 ≤ v) (h40 : v ≤ 40) :
    (dataModules v).length = countByClass v := by
  rw [(dataModules_perm v).length_eq]
  unfold grid
  rw [List.filter_flatMap, List.length_flatMap]
  have hrow : ∀ y ∈ List.range (sideOf v),
      (((List.range (sideOf v)).map fun x => (x, y)).filter
        fun p => decide (isDataModule v p.1 p.2)).length =
      ((histogram v).map fun q => q.2 * (clsData (decide (v ≥ 7)) q.1 (cls v y)).toNat).sum := by
    intro y hy
    rw [length_filter_eq_sum, List.map_map]
    have : ((List.range (sideOf v)).map ((fun a => (decide (isDataModule v a.1 a.2)).toNat) ∘
        fun x => (x, y))) = ((List.range (sideOf v)).map (cls v)).map
          (fun q => (clsData (decide (v ≥ 7)) q (cls v y)).toNat) := by
      rw [List.map_map]
      apply List.map_congr_left
      intro x hx
      simp only [Function.comp]
      rw [isDataModule_cls v h1 h40 x y (List.mem_range.mp hx) (List.mem_range.mp hy)]
    rw [this, sum_by_class (classes v) (List.nodup_dedup _) _ _ (fun a ha => List.mem_dedup.mpr ha)]
    unfold histogram
    rw [List.map_map]
    rfl
  rw [List.map_congr_left hrow]
  have : ((List.range (sideOf v)).map fun y =>
      ((histogram v).map fun q => q.2 * (clsData (decide (v ≥ 7)) q.1 (cls v y)).toNat).sum) =
      ((List.range (sideOf v)).map (cls v)).map fun p =>
        ((histogram v).map fun q => q.2 * (clsData (decide (v ≥ 7)) q.1 p).toNat).sum := by
    rw [List.map_map]; rfl
  rw [this, sum_by_class (classes v) (List.nodup_dedup _) _ _ (fun a ha => List.mem_dedup.mpr ha)]
  unfold countByClass
  conv => rhs; rw [histogram, List.map_map]
  rfl

/-- Table 1 of ISO/IEC 18004: data modules of versions 1 to 40. -/
def moduleTable : List Nat :=
  [208, 359, 567, 807, 1079, 1383, 1568, 1936, 2336, 2768, 3232, 3728, 4256, 4651, 5243, 5867, 6523,
   7211, 7931, 8683, 9252, 10068, 10916, 11796, 12708, 13652, 14628, 15371, 16411, 17483, 18587, 19723,
   20891, 22091, 23008, 24272, 25568, 26896, 28256, 29648]

theorem countByClass_table : ∀ v ∈ List.range' 1 40, countByClass v = moduleTable.getD (v - 1) 0 := by
  decide +kernel

end Verif
