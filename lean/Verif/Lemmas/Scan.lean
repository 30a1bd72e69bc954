import Verif.Lemmas.Finder
import Verif.Lemmas.Threshold

/-!
# Invariants of the line scanner
-/
namespace Verif
open F64 LineScan

namespace FinderPattern

/-- The sum of the seven run lengths. -/
def total (s : FinderPattern) : Nat := s.p0 + s.p1 + s.p2 + s.p3 + s.p4 + s.p5 + s.p6

/-- The sum of the last five. -/
def five (s : FinderPattern) : Nat := s.p2 + s.p3 + s.p4 + s.p5 + s.p6

theorem five_le (s : FinderPattern) : s.five ≤ s.total := by unfold five total; omega

theorem slide_ret {s : FinderPattern} (h : s.total < 2 ^ 32) :
    ∃ s', s.slide = .ret s' ∧ s'.total ≤ s.total + 1 := by
  unfold slide
  split
  · rw [addU32_ret (by unfold total at h; omega)]
    refine ⟨_, rfl, ?_⟩
    unfold total; simp only; omega
  · refine ⟨_, rfl, ?_⟩
    unfold total; simp only; omega

/-- Increasing the last run. -/
theorem grow_ret {s : FinderPattern} (h : s.total + 1 < 2 ^ 32) :
    addU32 s.p6 1 = .ret (s.p6 + 1) ∧ ({ s with p6 := s.p6 + 1 } : FinderPattern).total = s.total + 1 := by
  constructor
  · apply addU32_ret; unfold total at h; omega
  · unfold total; simp only; omega

theorem looks_ret {s : FinderPattern} (h : s.total < 2 ^ 32) :
    ∃ b, s.looksLikeFinder = .ret b ∧ (b = true → 7 ≤ s.five) := by
  have h5 : s.p2 + s.p3 + s.p4 + s.p5 + s.p6 < 2 ^ 32 := by unfold total at h; omega
  refine ⟨_, looksLikeFinder_eq h5, ?_⟩
  intro hb
  rw [Bool.and_eq_true, decide_eq_true_eq] at hb
  exact hb.1

theorem est_ret {s : FinderPattern} (h : s.total < 2 ^ 32) : s.estModSize = .ret (.fin (modQ s.five)) :=
  estModSize_eq (by unfold total at h; omega)

end FinderPattern

namespace LineScan
open FinderPattern

/-- What `refine` returns for a found finder, where `t` is the length of the five runs together. -/
def found (ms : F64) (x y t : Nat) : FinderPosition :=
  { location := ⟨F64.ofNat x, F64.ofNat y⟩
    module_size := (ms + .fin (modQ t)) / F64.lit 2
    last_module_size := .fin (modQ t) }

theorem accept_ret {ms : F64} {diag : Bool} {s : FinderPattern} {x y : Nat} (h : s.total < 2 ^ 32) :
    ∃ r, accept ms diag s x y = .ret r ∧
      ∀ pos, r = some pos → 7 ≤ s.five ∧ pos = found ms x y s.five := by
  obtain ⟨b, hb, hb7⟩ := looks_ret h
  unfold accept
  rw [hb, Run.ret_bind]
  cases b with
  | false => exact ⟨none, rfl, by simp⟩
  | true =>
    simp only [if_true]
    rw [est_ret h, Run.ret_bind]
    split
    · refine ⟨_, rfl, ?_⟩
      intro pos hp
      injection hp with hp
      exact ⟨hb7 rfl, hp.symm⟩
    · exact ⟨none, rfl, by simp⟩

theorem getPixel_ret {img : GrayImage} (hv : img.Valid) {x y : Nat} (hx : x < img.width) (hy : y < img.height) :
    ∃ p, img.getPixel x y = .ret p := by
  have hb : y * img.width + x < img.pixels.length := by
    rw [hv.1]
    calc y * img.width + x < y * img.width + img.width := by omega
      _ = (y + 1) * img.width := by ring
      _ ≤ img.height * img.width := Nat.mul_le_mul_right _ hy
      _ = img.width * img.height := Nat.mul_comm _ _
  refine ⟨img.pixels[y * img.width + x], ?_⟩
  unfold GrayImage.getPixel
  rw [if_pos ⟨hx, hy⟩, List.getElem?_eq_getElem hb]

/-- The loop of `refine` always returns, and a found finder ended at one of the positions, with no more
pixels than positions up to there. -/
theorem refineLoop_ret {img : GrayImage} (hv : img.Valid) {ms : F64} {diag : Bool}
    {all : List (Nat × Nat)} (hin : ∀ q ∈ all, q.1 < img.width ∧ q.2 < img.height) (hlen : all.length < 2 ^ 32) :
    ∀ (rest done : List (Nat × Nat)) (lp : U8) (s : FinderPattern) (lx ly : Nat),
      all = done ++ rest → s.total ≤ done.length →
      (done ≠ [] → done[done.length - 1]? = some (lx, ly)) →
      ∃ r, refineLoop img ms diag rest lp s lx ly = .ret r ∧
        ∀ pos, r = some pos → ∃ i x y t, all[i]? = some (x, y) ∧ 7 ≤ t ∧ t ≤ i + 1 ∧
          pos = found ms x y t := by
  intro rest
  induction rest with
  | nil =>
    intro done lp s lx ly ha ht hl
    rw [List.append_nil] at ha
    subst ha
    unfold refineLoop
    obtain ⟨r, hr, hspec⟩ := accept_ret (ms := ms) (diag := diag) (s := s) (x := lx) (y := ly) (by omega)
    refine ⟨r, hr, ?_⟩
    intro pos hp
    obtain ⟨h7, he⟩ := hspec pos hp
    have := five_le s
    refine ⟨all.length - 1, lx, ly, s.five, ?_, h7, by omega, he⟩
    apply hl
    intro hc
    rw [hc] at ht
    simp at ht
    omega
  | cons q rest ih =>
    intro done lp s lx ly ha ht hl
    obtain ⟨x, y⟩ := q
    have hmem : (x, y) ∈ all := by rw [ha]; simp
    have hlen' : done.length + 1 + rest.length = all.length := by rw [ha]; simp; omega
    obtain ⟨p, hp⟩ := getPixel_ret hv (hin _ hmem).1 (hin _ hmem).2
    have hidx : all[done.length]? = some (x, y) := by rw [ha]; simp
    have hstep : all = (done ++ [(x, y)]) ++ rest := by rw [ha]; simp
    have hlast : (done ++ [(x, y)]) ≠ [] → (done ++ [(x, y)])[(done ++ [(x, y)]).length - 1]? = some (x, y) := by
      intro _; simp
    unfold refineLoop
    rw [hp, Run.ret_bind]
    split
    · obtain ⟨g1, g2⟩ := grow_ret (s := s) (by omega)
      rw [g1, Run.ret_bind]
      exact ih (done ++ [(x, y)]) lp _ x y hstep (by rw [g2]; simp; omega) hlast
    · obtain ⟨r, hr, hspec⟩ := accept_ret (ms := ms) (diag := diag) (s := s) (x := x) (y := y) (by omega)
      rw [hr, Run.ret_bind]
      cases r with
      | some pos =>
        refine ⟨some pos, rfl, ?_⟩
        intro pos' hp'
        obtain ⟨h7, he⟩ := hspec pos' hp'
        have := five_le s
        exact ⟨done.length, x, y, s.five, hidx, h7, by omega, he⟩
      | none =>
        obtain ⟨s', hs', ht'⟩ := slide_ret (s := s) (by omega)
        simp only
        rw [hs', Run.ret_bind]
        exact ih (done ++ [(x, y)]) p s' x y hstep (by simp; omega) hlast

theorem refine_ret {img : GrayImage} (hv : img.Valid) {ms : F64} {diag : Bool} {all : List (Nat × Nat)}
    (hin : ∀ q ∈ all, q.1 < img.width ∧ q.2 < img.height) (hlen : all.length < 2 ^ 32) :
    ∃ r, refine img ms all diag = .ret r ∧
      ∀ pos, r = some pos → ∃ i x y t, all[i]? = some (x, y) ∧ 7 ≤ t ∧ t ≤ i + 1 ∧ pos = found ms x y t :=
  refineLoop_ret hv hin hlen all [] 127#8 {} 0 0 rfl (by simp [total]) (by simp)

theorem rangeList_get {a b i n : Nat} (h : (rangeList a b)[i]? = some n) : n = a + i ∧ n < b := by
  unfold rangeList at h
  rw [List.getElem?_eq_some_iff] at h
  obtain ⟨hi, h⟩ := h
  rw [List.getElem_range'] at h
  rw [List.length_range'] at hi
  omega

theorem mem_rangeList {a b n : Nat} (h : n ∈ rangeList a b) : n < b := by
  unfold rangeList at h
  rw [List.mem_range'_1] at h; omega

theorem rangeList_length (a b : Nat) : (rangeList a b).length ≤ b := by
  unfold rangeList; simp

/-- A horizontal refinement at a height inside the image. -/
theorem refineHorizontal_ret {img : GrayImage} (hv : img.Valid) {f : Point} {ms : F64}
    (hy : f.y.round.toU32 < img.height) :
    ∃ r, refineHorizontal img f ms = .ret r ∧ ∀ pos, r = some pos → ∃ x t, x < img.width ∧
      7 ≤ t ∧ t ≤ x + 1 ∧ pos = found ms x f.y.round.toU32 t := by
  unfold refineHorizontal
  simp only
  generalize hs : ((f.x - F64.lit 5 * ms).max (F64.lit 0)).round.toU32 = a
  generalize he : min (f.x + F64.lit 5 * ms).round.toU32 img.width = b
  have hb : b ≤ img.width := by omega
  obtain ⟨r, hr, hspec⟩ := refine_ret (ms := ms) (diag := false) hv
    (all := (rangeList a b).map fun x => (x, f.y.round.toU32)) (by
      intro q hq
      rw [List.mem_map] at hq
      obtain ⟨x, hx, rfl⟩ := hq
      have := mem_rangeList hx
      exact ⟨by simp only; omega, hy⟩) (by
      rw [List.length_map]; have := rangeList_length a b; have := hv.2.1; omega)
  refine ⟨r, hr, ?_⟩
  intro pos hp
  obtain ⟨i, x, y, t, hi, h7, ht, e⟩ := hspec pos hp
  rw [List.getElem?_map, Option.map_eq_some_iff] at hi
  obtain ⟨n, hn, hxy⟩ := hi
  injection hxy with h1 h2
  subst h1; subst h2
  obtain ⟨g1, g2⟩ := rangeList_get hn
  exact ⟨n, t, by omega, h7, by omega, e⟩

/-- A vertical refinement at a column inside the image. -/
theorem refineVertical_ret {img : GrayImage} (hv : img.Valid) {f : Point} {ms : F64}
    (hx : f.x.round.toU32 < img.width) :
    ∃ r, refineVertical img f ms = .ret r ∧ ∀ pos, r = some pos → ∃ y t, y < img.height ∧
      7 ≤ t ∧ t ≤ y + 1 ∧ pos = found ms f.x.round.toU32 y t := by
  unfold refineVertical
  simp only
  generalize hs : ((f.y - F64.lit 5 * ms).max (F64.lit 0)).round.toU32 = a
  generalize he : min (f.y + F64.lit 5 * ms).round.toU32 img.height = b
  have hb : b ≤ img.height := by omega
  obtain ⟨r, hr, hspec⟩ := refine_ret (ms := ms) (diag := false) hv
    (all := (rangeList a b).map fun y => (f.x.round.toU32, y)) (by
      intro q hq
      rw [List.mem_map] at hq
      obtain ⟨x, hx', rfl⟩ := hq
      have := mem_rangeList hx'
      exact ⟨hx, by simp only; omega⟩) (by
      rw [List.length_map]; have := rangeList_length a b; have := hv.2.2; omega)
  refine ⟨r, hr, ?_⟩
  intro pos hp
  obtain ⟨i, x, y, t, hi, h7, ht, e⟩ := hspec pos hp
  rw [List.getElem?_map, Option.map_eq_some_iff] at hi
  obtain ⟨n, hn, hxy⟩ := hi
  injection hxy with h1 h2
  subst h1; subst h2
  obtain ⟨g1, g2⟩ := rangeList_get hn
  exact ⟨n, t, by omega, h7, by omega, e⟩

theorem refineDiagonal_ret {img : GrayImage} (hv : img.Valid) {f : Point} {ms : F64} :
    ∃ r, refineDiagonal img f ms = .ret r := by
  unfold refineDiagonal
  simp only
  generalize (diagonalStart f (F64.lit 5 * ms)).1.round.toU32 = a
  generalize (diagonalStart f (F64.lit 5 * ms)).2.round.toU32 = a'
  generalize he : min (f.x + F64.lit 5 * ms).round.toU32 img.width = b
  generalize he' : min (f.y + F64.lit 5 * ms).round.toU32 img.height = b'
  obtain ⟨r, hr, -⟩ := refine_ret (ms := ms) (diag := true) hv
    (all := (rangeList a b).zip (rangeList a' b')) (by
      intro q hq
      obtain ⟨x, y⟩ := q
      have h1 := mem_rangeList (List.of_mem_zip hq).1
      have h2 := mem_rangeList (List.of_mem_zip hq).2
      exact ⟨by simp only; omega, by simp only; omega⟩) (by
      rw [List.length_zip]; have := rangeList_length a b; have := hv.2.1; omega)
  exact ⟨r, hr⟩

/-! ### The numbers -/

theorem half_finder {t : Nat} (h : t < 2 ^ 32) :
    ∃ q : ℚ, F64.lit 35 10 * F64.fin (modQ t) = .fin q ∧ F64.fin (modQ t) * F64.lit 35 10 = .fin q ∧
      |q - (t : ℚ) / 2| ≤ 1 / 2 ^ 20 ∧ q = roundQ (7 / 2 * modQ t) := by
  rw [lit_3_5]
  obtain ⟨b1, b2⟩ := modQ_bounds h
  have hm := modQ_near h
  have hb : |7 / 2 * modQ t| ≤ 2 ^ 32 := by rw [abs_of_nonneg (by positivity)]; linarith
  refine ⟨roundQ (7 / 2 * modQ t), mul_fin (by linarith), ?_, ?_, rfl⟩
  · rw [mul_fin]
    · rw [mul_comm]
    · rw [mul_comm]; linarith
  · have hr := round_near (B := 2 ^ 32) (by norm_num) hb
    rw [abs_le] at *
    constructor <;> linarith [hr.1, hr.2, hm.1, hm.2]

/-- The centre of a finder that ended at `x` after `t` pixels. -/
def centreQ (x t : Nat) : ℚ := roundQ ((x : ℚ) - roundQ (7 / 2 * modQ t))

theorem centreQ_bounds {x t : Nat} (hx : x + 1 < 2 ^ 32) (h7 : 7 ≤ t) (ht : t ≤ x + 1) :
    0 ≤ centreQ x t ∧ centreQ x t ≤ x := by
  obtain ⟨q, -, -, hn, hq⟩ := half_finder (t := t) (by omega)
  unfold centreQ
  rw [← hq]
  rw [abs_le] at hn
  have h1 : (7 : ℚ) ≤ t := by exact_mod_cast h7
  have h2 : (t : ℚ) ≤ x + 1 := by exact_mod_cast ht
  constructor
  · apply roundQ_nonneg; linarith [hn.1, hn.2]
  · apply roundQ_le_nat (by omega); linarith [hn.1, hn.2]

theorem centre_eq {x t : Nat} (hx : x < 2 ^ 32) (ht : t < 2 ^ 32) :
    F64.ofNat x - F64.lit 35 10 * F64.fin (modQ t) = .fin (centreQ x t) ∧
    F64.ofNat x - F64.fin (modQ t) * F64.lit 35 10 = .fin (centreQ x t) ∧
    F64.ofNat x - F64.lit 1 * (F64.lit 35 10 * F64.fin (modQ t)) = .fin (centreQ x t) ∧
    F64.ofNat x - F64.lit 0 * (F64.lit 35 10 * F64.fin (modQ t)) = .fin x := by
  obtain ⟨q, hq1, hq2, hn, hq⟩ := half_finder ht
  have hx' := cast_lt_u32 hx
  have hx0 : (0 : ℚ) ≤ x := Nat.cast_nonneg x
  have ht' := cast_lt_u32 ht
  have ht0 : (0 : ℚ) ≤ t := Nat.cast_nonneg t
  have hs : F64.ofNat x - F64.fin q = .fin (centreQ x t) := by
    rw [ofNat_fin (u32_53 hx), sub_fin]
    · unfold centreQ; rw [← hq]
    · rw [abs_le] at *; constructor <;> linarith [hn.1, hn.2]
  have hqb : |q| ≤ 2 ^ 33 := by rw [abs_le] at *; constructor <;> linarith [hn.1, hn.2]
  refine ⟨by rw [hq1, hs], by rw [hq2, hs], ?_, ?_⟩
  · rw [hq1, lit_nat (by norm_num), mul_fin]
    · rw [Nat.cast_one, one_mul, hq, roundQ_of_repr (representable_roundQ _), ← hq, hs]
    · rw [Nat.cast_one, one_mul]; linarith
  · rw [hq1, lit_nat (by norm_num), mul_fin]
    · rw [Nat.cast_zero, zero_mul, roundQ_zero, ofNat_fin (u32_53 hx), sub_fin]
      · rw [sub_zero, roundQ_nat (u32_53 hx)]
      · rw [sub_zero, abs_of_nonneg hx0]; linarith
    · rw [Nat.cast_zero, zero_mul]; norm_num

theorem centre_index {x t n : Nat} (hx : x + 1 < 2 ^ 32) (h7 : 7 ≤ t) (ht : t ≤ x + 1) (hn : x < n) :
    (F64.fin (centreQ x t)).round.toU32 < n := by
  obtain ⟨c1, c2⟩ := centreQ_bounds hx h7 ht
  have hx' := cast_lt_u32 (show x < 2 ^ 32 by omega)
  refine lt_of_le_of_lt (round_toU32_le ?_ c2) hn
  rw [abs_of_nonneg c1]; linarith

/-- A module size between 1 and `2^30`. -/
def GoodSize (ms : F64) : Prop := ∃ m : ℚ, ms = .fin m ∧ 1 ≤ m ∧ m ≤ 2 ^ 30

theorem goodSize_modQ {t : Nat} (h : t < 2 ^ 32) (h7 : 7 ≤ t) : GoodSize (.fin (modQ t)) :=
  ⟨_, rfl, modQ_ge_one h7, (modQ_bounds h).2⟩

theorem goodSize_mean {ms : F64} (h : GoodSize ms) {t : Nat} (ht : t < 2 ^ 32) (h7 : 7 ≤ t) :
    GoodSize ((ms + .fin (modQ t)) / F64.lit 2) := by
  obtain ⟨m, rfl, m1, m2⟩ := h
  have a1 := modQ_ge_one h7
  have a2 := (modQ_bounds ht).2
  rw [lit_nat (by norm_num), add_fin (by rw [abs_of_nonneg (by linarith)]; linarith)]
  have s1 : (2 : ℚ) ≤ roundQ (m + modQ t) := by
    have := nat_le_roundQ (n := 2) (by norm_num) (q := m + modQ t) (by push_cast; linarith)
    exact_mod_cast this
  have s2 : roundQ (m + modQ t) ≤ 2 ^ 31 := by
    have := roundQ_le_nat (n := 2 ^ 31) (by norm_num) (q := m + modQ t) (by push_cast; linarith)
    exact_mod_cast this
  rw [div_fin (by norm_num)]
  · refine ⟨_, rfl, ?_, ?_⟩
    · have := nat_le_roundQ (n := 1) (by norm_num) (q := roundQ (m + modQ t) / ((2 : Nat) : ℚ))
        (by rw [le_div_iff₀ (by norm_num)]; push_cast; linarith)
      exact_mod_cast this
    · have := roundQ_le_nat (n := 2 ^ 30) (by norm_num) (q := roundQ (m + modQ t) / ((2 : Nat) : ℚ))
        (by rw [div_le_iff₀ (by norm_num)]; push_cast; linarith)
      exact_mod_cast this
  · rw [abs_of_nonneg (by positivity), div_le_iff₀ (by norm_num)]; push_cast; linarith

/-- A point inside the image. -/
def Inside (img : GrayImage) (p : Point) : Prop :=
  ∃ x y : ℚ, p = ⟨.fin x, .fin y⟩ ∧ 0 ≤ x ∧ x + 1 ≤ img.width ∧ 0 ≤ y ∧ y + 1 ≤ img.height

/-- The three refinements return, with a point inside the image. -/
theorem refineAll_ret {img : GrayImage} (hv : img.Valid) {f : Point} {ms : F64} (hms : GoodSize ms)
    (hx : f.x.round.toU32 < img.width) :
    ∃ r, refineAll img f ms = .ret r ∧ ∀ p m, r = some (p, m) → Inside img p ∧ GoodSize m := by
  unfold refineAll
  have hw := hv.2.1
  have hh := hv.2.2
  obtain ⟨r, hr, hspec⟩ := refineVertical_ret (ms := ms) hv hx
  rw [hr, Run.ret_bind]
  cases r with
  | none => exact ⟨none, rfl, by simp⟩
  | some v =>
    obtain ⟨vy, t, hvy, h7, ht, rfl⟩ := hspec _ rfl
    simp only [found]
    generalize f.x.round.toU32 = vx at *
    rw [(centre_eq (x := vx) (t := t) (by omega) (by omega)).2.2.2,
      (centre_eq (x := vy) (t := t) (by omega) (by omega)).2.2.1]
    have hidx := centre_index (by omega) h7 ht hvy
    obtain ⟨r, hr, hspec⟩ := refineHorizontal_ret (f := ⟨.fin vx, .fin (centreQ vy t)⟩)
      (ms := (ms + F64.fin (modQ t)) / F64.lit 2) hv hidx
    have hg := goodSize_mean hms (t := t) (by omega) h7
    rw [hr, Run.ret_bind]
    cases r with
    | none => exact ⟨none, rfl, by simp⟩
    | some v =>
      obtain ⟨hx', t', hlt, h7', ht', rfl⟩ := hspec _ rfl
      simp only [found] at hidx ⊢
      generalize (F64.fin (centreQ vy t)).round.toU32 = y' at *
      rw [(centre_eq (x := hx') (t := t') (by omega) (by omega)).2.2.1,
        (centre_eq (x := y') (t := t') (by omega) (by omega)).2.2.2]
      obtain ⟨r, hr⟩ := refineDiagonal_ret (f := ⟨.fin (centreQ hx' t'), .fin y'⟩)
        (ms := ((ms + F64.fin (modQ t)) / F64.lit 2 + F64.fin (modQ t')) / F64.lit 2) hv
      rw [hr, Run.ret_bind]
      cases r with
      | none => exact ⟨none, rfl, by simp⟩
      | some v =>
        refine ⟨_, rfl, ?_⟩
        intro p m hpm
        injection hpm with hpm
        injection hpm with h1 h2
        subst h1; subst h2
        obtain ⟨c1, c2⟩ := centreQ_bounds (x := hx') (t := t') (by omega) h7' ht'
        refine ⟨⟨_, _, rfl, c1, ?_, Nat.cast_nonneg _, ?_⟩, goodSize_mean hg (by omega) h7'⟩
        · have : ((hx' + 1 : Nat) : ℚ) ≤ img.width := by exact_mod_cast hlt
          push_cast at this; linarith
        · have : ((y' + 1 : Nat) : ℚ) ≤ img.height := by exact_mod_cast hidx
          push_cast at this; linarith

/-! ### The scan -/

/-- A candidate with a position inside the image and a proper module size. -/
def GoodCandidate (img : GrayImage) (c : FinderPosition) : Prop := Inside img c.location ∧ GoodSize c.module_size

theorem atChange_ret {img : GrayImage} (hv : img.Valid) {x y : Nat} (hx : x < img.width) {p : U8} {st : Scan}
    (ht : st.pattern.total ≤ x + 1) (hc : ∀ c ∈ st.candidates, GoodCandidate img c) :
    ∃ st', atChange img x y p st = .ret st' ∧ st'.pattern.total ≤ st.pattern.total + 1 ∧
      ∀ c ∈ st'.candidates, GoodCandidate img c := by
  have hw := hv.2.1
  obtain ⟨s', hs', hts'⟩ := slide_ret (s := st.pattern) (by omega)
  obtain ⟨b, hb, hb7⟩ := looks_ret (s := st.pattern) (by omega)
  unfold atChange
  rw [hb, Run.ret_bind]
  cases b with
  | false =>
    simp only [Bool.false_eq_true, if_false]
    rw [hs', Run.ret_bind]
    exact ⟨_, rfl, hts', hc⟩
  | true =>
    simp only [if_true]
    have h5 := five_le st.pattern
    have h7 := hb7 rfl
    rw [est_ret (by omega), Run.ret_bind]
    rw [(centre_eq (x := x) (t := st.pattern.five) (by omega) (by omega)).2.1]
    split
    · rw [hs', Run.ret_bind]
      exact ⟨_, rfl, hts', hc⟩
    · obtain ⟨r, hr, hspec⟩ := refineAll_ret (f := ⟨.fin (centreQ x st.pattern.five), F64.ofNat y⟩) hv
        (goodSize_modQ (t := st.pattern.five) (by omega) h7)
        (centre_index (by omega) h7 (by omega) hx)
      rw [hr, Run.ret_bind]
      cases r with
      | none =>
        simp only
        rw [hs', Run.ret_bind]
        exact ⟨_, rfl, hts', hc⟩
      | some r =>
        obtain ⟨f, m⟩ := r
        simp only
        rw [hs', Run.ret_bind]
        refine ⟨_, rfl, hts', ?_⟩
        intro c hcm
        simp only [List.mem_append, List.mem_singleton] at hcm
        rcases hcm with hcm | rfl
        · exact hc c hcm
        · exact hspec f m rfl

/-- Invariant of the scan after `i` pixels. -/
def ScanInv (img : GrayImage) (i : Nat) (st : Scan) : Prop :=
  (∀ c ∈ st.candidates, GoodCandidate img c) ∧ (i % img.width ≠ 0 → st.pattern.total ≤ i % img.width)

theorem scanPixel_ret {img : GrayImage} (hv : img.Valid) {i : Nat} (hi : i < img.width * img.height) {p : U8}
    {st : Scan} (h : ScanInv img i st) :
    ∃ st', scanPixel img st (i % img.width, i / img.width, p) = .ret st' ∧ ScanInv img (i + 1) st' := by
  have hw0 : 0 < img.width := by
    rcases Nat.eq_zero_or_pos img.width with h | h
    · rw [h] at hi; simp at hi
    · exact h
  have hw := hv.2.1
  have hx := Nat.mod_lt i hw0
  generalize hxe : i % img.width = x at *
  generalize i / img.width = y at *
  -- the state with the reset at the start of a line
  obtain ⟨st1, hst1, hc1, ht1⟩ : ∃ st1 : Scan,
      (if x = 0 then { st with last_pixel := 127#8, pattern := {} } else st) = st1 ∧
      (∀ c ∈ st1.candidates, GoodCandidate img c) ∧ st1.pattern.total ≤ x := by
    refine ⟨_, rfl, ?_, ?_⟩
    · split
      · exact h.1
      · exact h.1
    · split
      · simp [total]
      · rename_i hne
        have := h.2
        rw [hxe] at this
        exact this hne
  have hnext : (i + 1) % img.width ≠ 0 → (i + 1) % img.width = x + 1 := by
    intro hne
    have : (i + 1) % img.width = (x + 1) % img.width := by rw [Nat.add_mod, hxe]; simp
    rw [this] at hne ⊢
    apply Nat.mod_eq_of_lt
    by_contra hge
    have : x + 1 = img.width := by omega
    rw [this] at hne
    simp at hne
  unfold scanPixel
  simp only
  rw [hst1]
  have hlast : checkedSub img.width 1 = .ret (img.width - 1) := by
    unfold checkedSub; rw [if_pos (by omega)]
  split
  · obtain ⟨g1, g2⟩ := grow_ret (s := st1.pattern) (by omega)
    rw [g1, Run.ret_bind, hlast, Run.ret_bind]
    split
    · refine ⟨_, rfl, hc1, ?_⟩
      intro hne
      rw [hnext hne]; simp only; omega
    · rename_i hxl
      obtain ⟨st', hr, ht', hc'⟩ := atChange_ret (y := y) (p := p) hv hx
        (st := { st1 with pattern := { st1.pattern with p6 := st1.pattern.p6 + 1 } }) (by simp only; omega) hc1
      refine ⟨st', hr, hc', ?_⟩
      intro hne
      exfalso
      have := hnext hne
      have := Nat.mod_lt (i + 1) hw0
      omega
  · obtain ⟨st', hr, ht', hc'⟩ := atChange_ret (y := y) (p := p) hv hx (st := st1) (by omega) hc1
    refine ⟨st', hr, hc', ?_⟩
    intro hne
    rw [hnext hne]; omega

theorem foldlM_inv {α σ : Type} {f : σ → α → Run σ} {I : Nat → σ → Prop} :
    ∀ (l : List α) (k : Nat) (s : σ), I k s →
    (∀ i s (h : i < l.length), I (k + i) s → ∃ s', f s l[i] = .ret s' ∧ I (k + i + 1) s') →
    ∃ s', l.foldlM f s = .ret s' ∧ I (k + l.length) s' := by
  intro l
  induction l with
  | nil => intro k s h _; exact ⟨s, rfl, h⟩
  | cons a l ih =>
    intro k s h hstep
    obtain ⟨s1, h1, i1⟩ := hstep 0 s (by simp) h
    simp only [List.getElem_cons_zero] at h1
    rw [List.foldlM_cons, h1, Run.ret_bind]
    obtain ⟨s', h2, i2⟩ := ih (k + 1) s1 i1 (by
      intro i s hi hI
      have := hstep (i + 1) s (by simpa using hi) (by rw [show k + (i + 1) = k + 1 + i by omega]; exact hI)
      simp only [List.getElem_cons_succ] at this
      rw [show k + (i + 1) + 1 = k + 1 + i + 1 by omega] at this
      exact this)
    refine ⟨s', h2, ?_⟩
    rw [List.length_cons, show k + (l.length + 1) = k + 1 + l.length by omega]
    exact i2

/-- The search for candidates returns, with candidates inside the image. -/
theorem candidates_ret {img : GrayImage} (hv : img.Valid) :
    ∃ cs, candidates img = .ret cs ∧ ∀ c ∈ cs, GoodCandidate img c := by
  unfold candidates
  obtain ⟨st, hst, hI⟩ := foldlM_inv (f := scanPixel img) (I := ScanInv img) img.enumeratePixels 0
    ⟨[], 127#8, {}⟩ ⟨by simp, by simp⟩ (by
      intro i s hi hI
      have hl : img.enumeratePixels.length = img.pixels.length := by simp [GrayImage.enumeratePixels]
      have he : img.enumeratePixels[i] = (i % img.width, i / img.width, img.pixels[i]'(by omega)) := by
        simp [GrayImage.enumeratePixels]
      rw [he]
      rw [Nat.zero_add] at hI ⊢
      exact scanPixel_ret hv (by rw [← hv.1]; omega) hI)
  rw [hst, Run.ret_bind]
  exact ⟨_, rfl, hI.1⟩

end LineScan
end Verif
