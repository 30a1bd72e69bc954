import Verif.Lemmas.Near
import Mathlib.Algebra.Group.Action.Defs

/-!
# The sampled points are close to the exact bilinear positions
-/
namespace Verif
namespace Extractor
open F64 Spec

/-! ### The loops as sequences of points -/

/-- The `j`-th point of a row. -/
def linePt (dx : Delta) (line : Point) (j : Nat) : Point := (fun q : Point => q + dx)^[j] line

/-- The variables of the outer loop. -/
abbrev LoopState := Point × Delta × Delta

/-- One pass of the outer loop. -/
def rowStep (p : Perspective) (s : LoopState) : LoopState := (s.1 + s.2.2, s.2.1 + p.ddx, s.2.2 + p.ddy)

/-- The variables at the beginning of row `i`. -/
def rowState (p : Perspective) (s : LoopState) (i : Nat) : LoopState := (rowStep p)^[i] s

/-- The point at which module `(i, j)` is sampled. -/
def gridPt (p : Perspective) (s : LoopState) (i j : Nat) : Point :=
  linePt (rowState p s i).2.1 ((rowState p s i).1 - F64.lit 3 * (rowState p s i).2.1) j

theorem sampleRow_iff (img : GrayImage) (dx : Delta) : ∀ (n : Nat) (line : Point) (row : List U8),
    sampleRow img dx n line = .ret row ↔
      row.length = n ∧ ∀ j < n, ∃ c, row[j]? = some c ∧ pixelAt img (linePt dx line j) = .ret c := by
  intro n
  induction n with
  | zero =>
    intro line row
    simp only [sampleRow, Run.pure_eq, Run.ret.injEq]
    constructor
    · rintro rfl; simp
    · rintro ⟨h, -⟩; exact (List.length_eq_zero_iff.mp h).symm
  | succ n ih =>
    intro line row
    have hl : ∀ j, linePt dx line (j + 1) = linePt dx (line + dx) j := fun j => rfl
    unfold sampleRow
    constructor
    · intro h
      cases hp : pixelAt img line with
      | panic => rw [hp] at h; cases h
      | ret c =>
        rw [hp, Run.ret_bind] at h
        cases hr : sampleRow img dx n (line + dx) with
        | panic => rw [hr] at h; cases h
        | ret r =>
          rw [hr, Run.ret_bind, Run.pure_eq] at h
          injection h with h
          subst h
          obtain ⟨h1, h2⟩ := (ih _ _).mp hr
          refine ⟨by simp [h1], ?_⟩
          intro j hj
          cases j with
          | zero => exact ⟨c, rfl, hp⟩
          | succ j => rw [hl]; exact h2 j (by omega)
    · rintro ⟨h1, h2⟩
      cases row with
      | nil => simp at h1
      | cons c r =>
        obtain ⟨c', hc', hp⟩ := h2 0 (by omega)
        simp only [List.getElem?_cons_zero, Option.some.injEq] at hc'
        subst hc'
        have hp : pixelAt img line = .ret c := hp
        have hr := (ih (line + dx) r).mpr ⟨by simpa using h1, fun j hj => by
          have := h2 (j + 1) (by omega)
          rwa [hl] at this⟩
        rw [hp, Run.ret_bind, hr, Run.ret_bind, Run.pure_eq]

theorem sampleRows_iff (img : GrayImage) (p : Perspective) (size : Nat) :
    ∀ (n : Nat) (s : LoopState) (data : List U8),
    sampleRows img p size n s.1 s.2.1 s.2.2 = .ret data ↔
      data.length = n * size ∧ ∀ i < n, ∀ j < size,
        ∃ c, data[i * size + j]? = some c ∧ pixelAt img (gridPt p s i j) = .ret c := by
  intro n
  induction n with
  | zero =>
    intro s data
    simp only [sampleRows, Run.pure_eq, Run.ret.injEq, Nat.zero_mul]
    constructor
    · rintro rfl; simp
    · rintro ⟨h, -⟩; exact (List.length_eq_zero_iff.mp h).symm
  | succ n ih =>
    intro s data
    have hl : ∀ i j, gridPt p s (i + 1) j = gridPt p (rowStep p s) i j := fun i j => rfl
    have hrec : ∀ d, sampleRows img p size n (s.1 + s.2.2) (s.2.1 + p.ddx) (s.2.2 + p.ddy) = .ret d ↔ _ :=
      fun d => ih (rowStep p s) d
    unfold sampleRows
    constructor
    · intro h
      cases hp : sampleRow img s.2.1 size (s.1 - F64.lit 3 * s.2.1) with
      | panic => rw [hp] at h; cases h
      | ret row =>
        rw [hp, Run.ret_bind] at h
        cases hr : sampleRows img p size n (s.1 + s.2.2) (s.2.1 + p.ddx) (s.2.2 + p.ddy) with
        | panic => rw [hr] at h; cases h
        | ret r =>
          rw [hr, Run.ret_bind, Run.pure_eq] at h
          injection h with h
          subst h
          obtain ⟨g1, g2⟩ := (sampleRow_iff _ _ _ _ _).mp hp
          obtain ⟨h1, h2⟩ := (hrec _).mp hr
          refine ⟨by rw [List.length_append, g1, h1, Nat.succ_mul, Nat.add_comm], ?_⟩
          intro i hi j hj
          cases i with
          | zero =>
            obtain ⟨c, hc, hpx⟩ := g2 j hj
            refine ⟨c, ?_, hpx⟩
            rw [Nat.zero_mul, Nat.zero_add, List.getElem?_append_left (by omega)]
            exact hc
          | succ i =>
            obtain ⟨c, hc, hpx⟩ := h2 i (by omega) j hj
            refine ⟨c, ?_, by rw [hl]; exact hpx⟩
            have e : (i + 1) * size + j = row.length + (i * size + j) := by rw [g1, Nat.succ_mul]; omega
            rw [e, List.getElem?_append_right (by omega), Nat.add_sub_cancel_left]
            exact hc
    · rintro ⟨h1, h2⟩
      rw [Nat.succ_mul] at h1
      have hp := (sampleRow_iff img s.2.1 size (s.1 - F64.lit 3 * s.2.1) (data.take size)).mpr
        ⟨by rw [List.length_take]; omega, fun j hj => by
          obtain ⟨c, hc, hpx⟩ := h2 0 (by omega) j hj
          refine ⟨c, ?_, hpx⟩
          rw [Nat.zero_mul, Nat.zero_add] at hc
          rw [List.getElem?_take, if_pos hj, hc]⟩
      have hr := (hrec (data.drop size)).mpr
        ⟨by rw [List.length_drop]; omega, fun i hi j hj => by
          obtain ⟨c, hc, hpx⟩ := h2 (i + 1) (by omega) j hj
          refine ⟨c, ?_, by rw [← hl]; exact hpx⟩
          rw [List.getElem?_drop, ← hc]
          congr 1
          rw [Nat.succ_mul]; omega⟩
      rw [hp, Run.ret_bind, hr, Run.ret_bind, Run.pure_eq, List.take_append_drop]

/-! ### Error bounds -/

/-- Largest coordinate that is considered. -/
def WQ : ℚ := 2 ^ 20

theorem WQ_val : WQ = 1048576 := by unfold WQ; norm_num

/-- Equality of pairs, one component at a time. -/
macro "ptring" : tactic => `(tactic| (
  apply Prod.ext <;> simp only [Prod.fst_add, Prod.snd_add, Prod.fst_sub, Prod.snd_sub, Prod.smul_fst,
    Prod.smul_snd, smul_eq_mul, Nat.cast_add, Nat.cast_one, Nat.cast_zero, Nat.cast_mul, Nat.cast_ofNat] <;> ring))

theorem linePt_near {dx : Delta} {D : Pt} {εd : ℚ} (hd : DNear dx D εd) {line : Point} {L : Pt} {ε : ℚ}
    (hl : PNear line L ε) {n : Nat} (hb : ∀ j : Nat, j ≤ n → mag (L + (j : ℚ) • D) ≤ 200 * WQ)
    (hε : ε + n * (εd + ηQ) ≤ 1) (h0 : 0 ≤ εd) :
    ∀ j ≤ n, PNear (linePt dx line j) (L + (j : ℚ) • D) (ε + j * (εd + ηQ)) := by
  intro j
  induction j with
  | zero =>
    intro _
    have e : L + ((0 : Nat) : ℚ) • D = L := by ptring
    rw [e, Nat.cast_zero, zero_mul, add_zero]
    exact hl
  | succ j ih =>
    intro hj
    have h := ih (by omega)
    have e : L + ((j + 1 : Nat) : ℚ) • D = (L + (j : ℚ) • D) + D := by ptring
    have hb' := hb (j + 1) hj
    have hη := ηQ_pos
    have hjn : ((j + 1 : Nat) : ℚ) ≤ n := by exact_mod_cast hj
    have hs : ε + (j + 1 : Nat) * (εd + ηQ) ≤ 1 :=
      le_trans (add_le_add_right (mul_le_mul_of_nonneg_right hjn (by linarith)) _) hε
    rw [e] at hb' ⊢
    have e2 : linePt dx line (j + 1) = linePt dx line j + dx := Function.iterate_succ_apply' _ _ _
    rw [e2]
    push_cast at hs
    refine (pnear_add h hd ?_).mono (le_of_eq (by push_cast; ring))
    rw [WQ_val] at hb'
    linarith

theorem lit3 : (F64.lit 3 : F64) = .fin 3 := by
  have := lit_nat (n := 3) (by norm_num); simpa using this
theorem lit2 : (F64.lit 2 : F64) = .fin 2 := by
  have := lit_nat (n := 2) (by norm_num); simpa using this
theorem lit0 : (F64.lit 0 : F64) = .fin 0 := by
  have := lit_nat (n := 0) (by norm_num); simpa using this

/-- Magnitudes that the sampling passes through. -/
structure SmallGrid (size : Nat) (S D E DD : Pt) : Prop where
  size_le : size ≤ 177
  start : ∀ i : Nat, i ≤ size → mag (S + (i : ℚ) • E) ≤ 200 * WQ
  col : ∀ i : Nat, i ≤ size → mag (D + (i : ℚ) • DD) ≤ WQ
  row : mag E ≤ WQ
  point : ∀ i j : Nat, i ≤ size → j ≤ size →
    mag (S + (i : ℚ) • E - (3 : ℚ) • (D + (i : ℚ) • DD) + (j : ℚ) • (D + (i : ℚ) • DD)) ≤ 200 * WQ

theorem rowState_near {p : Perspective} {size : Nat} {S D E DD : Pt} (hg : SmallGrid size S D E DD)
    (hdd : DNear p.ddx DD (3 * ηQ)) (hddy : p.ddy = Delta.zero) {s : LoopState}
    (h1 : PNear s.1 S (10 * ηQ)) (h2 : DNear s.2.1 D (13 * ηQ)) (h3 : DNear s.2.2 E (4 * ηQ)) :
    ∀ i ≤ size, PNear (rowState p s i).1 (S + (i : ℚ) • E) ((10 + 182 * i) * ηQ) ∧
      DNear (rowState p s i).2.1 (D + (i : ℚ) • DD) ((13 + 4 * i) * ηQ) ∧
      DNear (rowState p s i).2.2 E ((4 + i) * ηQ) := by
  have hzero : DNear p.ddy (0, 0) 0 := by
    rw [hddy]
    unfold Delta.zero DNear
    simp only [lit0]
    exact ⟨near_fin 0, near_fin 0⟩
  intro i
  induction i with
  | zero =>
    intro _
    have e1 : S + ((0 : Nat) : ℚ) • E = S := by ptring
    have e2 : D + ((0 : Nat) : ℚ) • DD = D := by ptring
    rw [e1, e2]
    exact ⟨h1.mono (le_of_eq (by push_cast; ring)), h2.mono (le_of_eq (by push_cast; ring)),
      h3.mono (le_of_eq (by push_cast; ring))⟩
  | succ i ih =>
    intro hi
    obtain ⟨g1, g2, g3⟩ := ih (by omega)
    have e : rowState p s (i + 1) = rowStep p (rowState p s i) := Function.iterate_succ_apply' _ _ _
    have hsz := hg.size_le
    have hi' : (i : ℚ) ≤ 176 := by exact_mod_cast (show i ≤ 176 by omega)
    have hi0 : (0 : ℚ) ≤ i := Nat.cast_nonneg i
    have b1 := hg.start (i + 1) hi
    have b2 := hg.col (i + 1) hi
    have b3 := hg.row
    have e1 : S + ((i + 1 : Nat) : ℚ) • E = (S + (i : ℚ) • E) + E := by ptring
    have e2 : D + ((i + 1 : Nat) : ℚ) • DD = (D + (i : ℚ) • DD) + DD := by ptring
    have e3 : E = E + (0, 0) := by ptring
    have hη := ηQ_val
    rw [e1] at b1 ⊢
    rw [e2] at b2 ⊢
    rw [WQ_val] at b1 b2 b3
    rw [e]
    refine ⟨?_, ?_, ?_⟩
    · refine (pnear_add g1 g3 ?_).mono ?_
      · rw [hη]; linarith
      · push_cast; rw [hη]; linarith
    · refine (dnear_add g2 hdd ?_).mono ?_
      · rw [hη]; linarith
      · push_cast; rw [hη]; linarith
    · conv => arg 2; rw [e3]
      refine (dnear_add g3 hzero ?_).mono ?_
      · rw [← e3, hη]; linarith
      · push_cast; rw [hη]; linarith

/-- Every sampled point is within a hundredth of a pixel of its exact position. -/
theorem gridPt_near {p : Perspective} {size : Nat} {S D E DD : Pt} (hg : SmallGrid size S D E DD)
    (hdd : DNear p.ddx DD (3 * ηQ)) (hddy : p.ddy = Delta.zero) {s : LoopState}
    (h1 : PNear s.1 S (10 * ηQ)) (h2 : DNear s.2.1 D (13 * ηQ)) (h3 : DNear s.2.2 E (4 * ηQ))
    {i j : Nat} (hi : i < size) (hj : j < size) :
    PNear (gridPt p s i j)
      (S + (i : ℚ) • E - (3 : ℚ) • (D + (i : ℚ) • DD) + (j : ℚ) • (D + (i : ℚ) • DD)) (1 / 100) := by
  obtain ⟨g1, g2, -⟩ := rowState_near hg hdd hddy h1 h2 h3 i (by omega)
  have hsz := hg.size_le
  have hη := ηQ_val
  have b2 := hg.col i (by omega)
  have b0 := hg.point i 0 (by omega) (by omega)
  have hi' : (i : ℚ) ≤ 176 := by exact_mod_cast (show i ≤ 176 by omega)
  have hj' : (j : ℚ) ≤ 176 := by exact_mod_cast (show j ≤ 176 by omega)
  have hs' : (size : ℚ) ≤ 177 := by exact_mod_cast hsz
  have hs0 : (0 : ℚ) ≤ size := Nat.cast_nonneg _
  have hi0 : (0 : ℚ) ≤ i := Nat.cast_nonneg i
  have hj0 : (0 : ℚ) ≤ j := Nat.cast_nonneg j
  have g2' := g2.mono (ε' := 721 * ηQ) (by rw [hη]; linarith)
  have g1' := g1.mono (ε' := 32224 * ηQ) (by rw [hη]; linarith)
  have m3 := dnear_mul g2' (c := 3) lit3 (by
    rw [abs_of_pos (by norm_num), hη]; rw [WQ_val] at b2; linarith)
  have l0 := (pnear_sub g1' m3 (by
    have e : S + (i : ℚ) • E - (3 : ℚ) • (D + (i : ℚ) • DD) =
      S + (i : ℚ) • E - (3 : ℚ) • (D + (i : ℚ) • DD) + ((0 : Nat) : ℚ) • (D + (i : ℚ) • DD) := by ptring
    rw [← e, WQ_val] at b0
    rw [abs_of_pos (by norm_num), hη]; linarith)).mono (ε' := 34389 * ηQ) (by
      rw [abs_of_pos (by norm_num), hη]; linarith)
  refine (linePt_near g2' l0 (n := size) (fun j hj => hg.point i j (by omega) hj) ?_ (by rw [hη]; norm_num) j
    (by omega)).mono ?_
  · rw [hη]; linarith
  · rw [hη]; linarith

end Extractor
end Verif
