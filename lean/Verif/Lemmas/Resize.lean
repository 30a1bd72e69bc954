import Verif.Lemmas.RuledScan
import Verif.Lemmas.Enlarge
import Verif.Spec.Resized

/-!
# Finder patterns in resized images
-/
namespace Verif
namespace LineScan
open F64 FinderPattern Spec

/-- The first pixel of module `j`, when `n` modules have `w` pixels. -/
def edge (n w j : Nat) : Nat := (2 * w * j + n - 1) / (2 * n)

section
variable {n w : Nat}

theorem edge_bounds (hn : 0 < n) (j : Nat) :
    2 * n * edge n w j + 1 ≤ 2 * w * j + n ∧ 2 * w * j ≤ 2 * n * edge n w j + n := by
  have h1 : 2 * n * edge n w j ≤ 2 * w * j + n - 1 := Nat.mul_div_le _ _
  have h2 : 2 * w * j + n - 1 < 2 * n * edge n w j + 2 * n := Nat.lt_mul_div_succ _ (by omega)
  generalize 2 * n * edge n w j = A at *
  generalize 2 * w * j = B at *
  omega

theorem edge_iff (hn : 0 < n) (hw : 0 < w) (x j : Nat) : (2 * x + 1) * n / (2 * w) < j ↔ x < edge n w j := by
  obtain ⟨h1, h2⟩ := edge_bounds (w := w) hn j
  rw [Nat.div_lt_iff_lt_mul (by omega)]
  constructor
  · intro h
    by_contra hc
    have h3 : 2 * n * edge n w j ≤ 2 * n * x := Nat.mul_le_mul_left _ (by omega)
    have e1 : (2 * x + 1) * n = 2 * n * x + n := by ring
    have e2 : j * (2 * w) = 2 * w * j := by ring
    rw [e1, e2] at h
    omega
  · intro h
    have h3 : 2 * n * (x + 1) ≤ 2 * n * edge n w j := Nat.mul_le_mul_left _ (by omega)
    have e1 : (2 * x + 1) * n = 2 * n * x + n := by ring
    have e2 : j * (2 * w) = 2 * w * j := by ring
    have e3 : 2 * n * (x + 1) = 2 * n * x + 2 * n := by ring
    rw [e1, e2]
    omega

theorem edge_zero (hn : 0 < n) : edge n w 0 = 0 := by
  unfold edge
  rw [Nat.mul_zero, Nat.zero_add]
  exact Nat.div_eq_of_lt (by omega)

theorem edge_full (hn : 0 < n) : edge n w n = w := by
  unfold edge
  rw [show 2 * w * n + n - 1 = (n - 1) + 2 * n * w by
    have : 2 * w * n = 2 * n * w := by ring
    omega, Nat.add_mul_div_left _ _ (by omega), Nat.div_eq_of_lt (by omega), Nat.zero_add]

/-- The length of `k` modules. -/
theorem edge_length (hn : 0 < n) (a k : Nat) :
    n * edge n w (a + k) < n * edge n w a + k * w + n ∧ n * edge n w a + k * w < n * edge n w (a + k) + n := by
  obtain ⟨h1, h2⟩ := edge_bounds (w := w) hn a
  obtain ⟨h3, h4⟩ := edge_bounds (w := w) hn (a + k)
  have e : 2 * w * (a + k) = 2 * w * a + 2 * (k * w) := by ring
  have e1 : ∀ z, 2 * n * z = 2 * (n * z) := by intro z; ring
  rw [e, e1] at h3 h4
  rw [e1] at h1 h2
  generalize n * edge n w a = A at *
  generalize n * edge n w (a + k) = B at *
  generalize 2 * w * a = C at *
  generalize k * w = D at *
  omega

theorem edge_step (hn : 0 < n) (a k : Nat) :
    edge n w a + k * w / n ≤ edge n w (a + k) ∧ edge n w (a + k) ≤ edge n w a + k * w / n + 1 := by
  obtain ⟨h1, h2⟩ := edge_length (w := w) hn a k
  have h3 : n * (k * w / n) ≤ k * w := Nat.mul_div_le _ _
  have h4 : k * w < n * (k * w / n) + n := Nat.lt_mul_div_succ _ hn
  constructor
  · refine Nat.le_of_lt_succ (Nat.lt_of_mul_lt_mul_left (a := n) ?_)
    rw [Nat.mul_add, Nat.mul_succ]; linarith
  · refine Nat.le_of_lt_succ (Nat.lt_of_mul_lt_mul_left (a := n) ?_)
    rw [Nat.succ_eq_add_one, Nat.mul_add, Nat.mul_add, Nat.mul_add, Nat.mul_one]; linarith

theorem edge_mono (hn : 0 < n) {a b : Nat} (h : a ≤ b) : edge n w a ≤ edge n w b := by
  obtain ⟨k, rfl⟩ := Nat.exists_eq_add_of_le h
  have := (edge_step (w := w) hn a k).1
  exact le_trans (Nat.le_add_right _ _) this

/-- The lines of the finder pattern that begins with module `f`. -/
def resizedLines (n w f : Nat) : Lines :=
  ⟨edge n w f, edge n w (f + 1), edge n w (f + 2), edge n w (f + 5), edge n w (f + 6), edge n w (f + 7)⟩

theorem resized_spaced (hn : 0 < n) (f : Nat) :
    Spaced (resizedLines n w f) (w / n) (3 * w / n) (5 * w / n) (7 * w / n) := by
  have s := fun a k => edge_step (w := w) hn a k
  have s1 := fun a => s a 1
  simp only [Nat.one_mul] at s1
  exact ⟨s1 f, s1 (f + 1), s (f + 2) 3, s1 (f + 5), s1 (f + 6), s f 7, s (f + 2) 5⟩

theorem resized_numbers (hn : 0 < n) :
    (3 * (w / n) ≤ 3 * w / n ∧ 3 * w / n ≤ 3 * (w / n) + 2) ∧ (7 * (w / n) ≤ 7 * w / n ∧ 7 * w / n ≤ 7 * (w / n) + 6) ∧
    (7 * (5 * w / n) ≤ 5 * (7 * w / n) + 4 ∧ 5 * (7 * w / n) ≤ 7 * (5 * w / n) + 6) ∧ 2 * (7 * w / n) ≤ 14 * w / n := by
  have lo : ∀ k, n * (k * w / n) ≤ k * w := fun k => Nat.mul_div_le _ _
  have hi : ∀ k, k * w < n * (k * w / n) + n := fun k => Nat.lt_mul_div_succ _ hn
  have l1 := lo 1
  have h1 := hi 1
  rw [Nat.one_mul] at l1 h1
  have l3 := lo 3; have h3 := hi 3; have l5 := lo 5; have h5 := hi 5
  have l7 := lo 7; have h7 := hi 7; have l14 := lo 14; have h14 := hi 14
  generalize w / n = a at *
  generalize 3 * w / n = b at *
  generalize 5 * w / n = c at *
  generalize 7 * w / n = d at *
  generalize 14 * w / n = e at *
  have go : ∀ {x y : Nat}, n * x < n * (y + 1) → x ≤ y :=
    fun h => Nat.le_of_lt_succ (Nat.lt_of_mul_lt_mul_left h)
  refine ⟨⟨go ?_, go ?_⟩, ⟨go ?_, go ?_⟩, ⟨go ?_, go ?_⟩, go ?_⟩ <;> linarith

end

/-! ### Rows of a resized image -/

section
variable {img g : GrayImage} {n w : Nat}

/-- `img` shows the square image `g`, `n` modules wide, with `w` pixels. -/
structure Square (img g : GrayImage) (n w : Nat) : Prop where
  pos : 0 < n
  size : 8 * n ≤ w
  gw : g.width = n
  gh : g.height = n
  iw : img.width = w
  ih : img.height = w
  shows : Resized img g

/-- The module of a pixel. -/
def moduleOf (n w x : Nat) : Nat := (2 * x + 1) * n / (2 * w)

theorem Square.w0 (h : Square img g n w) : 0 < w := by
  have := h.pos; have := h.size; omega

theorem Square.grey (h : Square img g n w) {x y : Nat} (hx : x < w) (hy : y < w) :
    Spec.grey img x y = Spec.grey g (moduleOf n w x) (moduleOf n w y) := by
  have := h.shows x (by rw [h.iw]; exact hx) y (by rw [h.ih]; exact hy)
  rw [h.gw, h.gh, h.iw, h.ih] at this
  exact this

theorem Square.below (h : Square img g n w) (x j : Nat) : moduleOf n w x < j ↔ x < edge n w j :=
  edge_iff h.pos h.w0 x j

theorem Square.from (h : Square img g n w) (x j : Nat) : j ≤ moduleOf n w x ↔ edge n w j ≤ x := by
  rw [← not_lt, h.below, not_lt]

theorem Square.inside (h : Square img g n w) {x : Nat} (hx : x < w) : moduleOf n w x < n := by
  rw [h.below, edge_full h.pos]; exact hx

theorem Square.big (h : Square img g n w) : 8 ≤ w / n := (Nat.le_div_iff_mul_le h.pos).mpr h.size

theorem Square.next (h : Square img g n w) (j : Nat) : edge n w j + w / n ≤ edge n w (j + 1) := by
  have := (edge_step (w := w) h.pos j 1).1
  rwa [Nat.one_mul] at this

/-- A finder pattern is resized. -/
theorem Square.ruled (h : Square img g n w) {fx fy : Nat} (hc : CleanFinder g 1 fx fy) (x1 : 1 ≤ fx) (y1 : 1 ≤ fy)
    (x2 : fx + 8 ≤ n) (y2 : fy + 8 ≤ n) :
    Ruled img (resizedLines n w fx) (resizedLines n w fy) (w / n) (3 * w / n) (5 * w / n) (7 * w / n) := by
  obtain ⟨t1, t2, t3, -⟩ := resized_numbers (w := w) h.pos
  have low : ∀ f, 1 ≤ f → w / n ≤ edge n w f ∧ edge n w (f - 1) + w / n ≤ edge n w f := by
    intro f hf
    have := h.next (f - 1)
    rw [Nat.sub_add_cancel hf] at this
    exact ⟨by omega, this⟩
  have high : ∀ f, f + 8 ≤ n → edge n w (f + 7) + w / n ≤ w ∧ edge n w (f + 7) + w / n ≤ edge n w (f + 8) := by
    intro f hf
    have k1 := h.next (f + 7)
    have k2 := edge_mono (w := w) h.pos hf
    rw [edge_full h.pos] at k2
    exact ⟨le_trans k1 k2, k1⟩
  refine ⟨h.big, t1, t2, t3, resized_spaced h.pos fx, resized_spaced h.pos fy, (low fx x1).1, (low fy y1).1, ?_, ?_, ?_, ?_⟩
  · rw [h.iw]; exact (high fx x2).1
  · rw [h.ih]; exact (high fy y2).1
  · intro i j i1 i2 j1 j2 hd
    simp only [resizedLines] at i1 i2 j1 j2 hd
    have hi := (high fx x2).1
    have hj := (high fy y2).1
    have e := h.grey (x := i) (y := j) (by omega) (by omega)
    simp only [← h.from, ← h.below] at i1 i2 j1 j2 hd
    rw [grey_pix, grey_pix, BitVec.toNat_inj] at e
    rw [e]
    exact clean_dark hc (by omega) i1 j1 (by omega) (by omega) (by omega)
  · intro i j i1 i2 j1 j2 hd
    simp only [resizedLines] at i1 i2 j1 j2 hd
    have hi := high fx x2
    have hj := high fy y2
    have li := low fx x1
    have lj := low fy y1
    have iw : i < w := by omega
    have jw : j < w := by omega
    have e := h.grey iw jw
    have i3 : fx - 1 ≤ moduleOf n w i := (h.from _ _).mpr (by omega)
    have j3 : fy - 1 ≤ moduleOf n w j := (h.from _ _).mpr (by omega)
    have i4 : moduleOf n w i < fx + 8 := (h.below _ _).mpr (by omega)
    have j4 : moduleOf n w j < fy + 8 := (h.below _ _).mpr (by omega)
    simp only [← h.from, ← h.below] at hd
    rw [grey_pix, grey_pix, BitVec.toNat_inj] at e
    rw [e]
    exact clean_light hc (by omega) (by rw [h.gw]; exact h.inside iw) (by rw [h.gh]; exact h.inside jw) (by omega) (by omega)
      (by omega) (by omega) (by omega)

/-- Runs of modules, from module `j` to the left, and the same runs in pixels. -/
def Pieces (n w : Nat) : Nat → List Nat → List Nat → Prop
  | _, [], [] => True
  | j, k :: ks, p :: ps => k ≤ j ∧ edge n w j = edge n w (j - k) + p ∧ Pieces n w (j - k) ks ps
  | _, _, _ => False

theorem Square.pieces (h : Square img g n w) {y : Nat} (hy : y < w) (j : Nat) (hj : j ≤ n) :
    Pieces n w j (runs (leftOf g j (moduleOf n w y))) (runs (leftOf img (edge n w j) y)) := by
  induction j with
  | zero => rw [edge_zero h.pos]; exact trivial
  | succ j ih =>
    have ih := ih (by omega)
    have hb := h.big
    obtain ⟨p, hp⟩ := Nat.exists_eq_add_of_le (h.next j)
    have full := edge_mono (w := w) h.pos hj
    rw [edge_full h.pos] at full
    obtain ⟨q, hq⟩ : ∃ q, w / n + p = q + 1 := ⟨w / n + p - 1, by omega⟩
    have hq' : edge n w (j + 1) = edge n w j + (q + 1) := by rw [hp, Nat.add_assoc, hq]
    have blk : leftOf img (edge n w (j + 1)) y =
        List.replicate (q + 1) (Spec.grey g j (moduleOf n w y)) ++ leftOf img (edge n w j) y := by
      rw [hq']
      refine left_block _ _ _ _ ?_
      intro i i1 i2
      rw [h.grey (by omega) hy]
      congr 1
      have k1 := (h.from i j).mpr i1
      have k2 := (h.below i (j + 1)).mpr (by omega)
      omega
    rw [blk, leftOf_succ]
    cases j with
    | zero =>
      rw [edge_zero h.pos, show leftOf img 0 y = [] from rfl, show leftOf g 0 (moduleOf n w y) = [] from rfl]
      rw [runs_replicate _ _ _ (by intro b hb; cases hb)]
      refine ⟨by omega, ?_, trivial⟩
      rw [hq', edge_zero h.pos]
    | succ j =>
      have hlast : Spec.grey img (edge n w (j + 1) - 1) y = Spec.grey g j (moduleOf n w y) := by
        have := h.next j
        rw [h.grey (by omega) hy]
        congr 1
        have k1 := (h.from (edge n w (j + 1) - 1) j).mpr (by omega)
        have k2 := (h.below (edge n w (j + 1) - 1) (j + 1)).mpr (by omega)
        omega
      have hsplit : leftOf img (edge n w (j + 1)) y =
          Spec.grey g j (moduleOf n w y) :: leftOf img (edge n w (j + 1) - 1) y := by
        have := h.next j
        conv_lhs => rw [show edge n w (j + 1) = edge n w (j + 1) - 1 + 1 by omega]
        rw [leftOf_succ, hlast]
      rw [leftOf_succ] at ih ⊢
      rw [hsplit] at ih ⊢
      by_cases hs : Spec.grey g (j + 1) (moduleOf n w y) = Spec.grey g j (moduleOf n w y)
      · rw [hs]
        obtain ⟨k, ks, e⟩ := runs_ne_nil (Spec.grey g j (moduleOf n w y)) (leftOf g j (moduleOf n w y))
        obtain ⟨r, rs, e'⟩ := runs_ne_nil (Spec.grey g j (moduleOf n w y)) (leftOf img (edge n w (j + 1) - 1) y)
        rw [e, e'] at ih
        rw [runs_same e, runs_grow e' (q + 1)]
        obtain ⟨i1, i2, i3⟩ := ih
        refine ⟨by omega, ?_, ?_⟩
        · rw [show j + 1 + 1 - (k + 1 + 1) = j + 1 - (k + 1) by omega, hq', i2]; omega
        · rw [show j + 1 + 1 - (k + 1 + 1) = j + 1 - (k + 1) by omega]; exact i3
      · rw [runs_diff hs, runs_replicate _ _ _ (by
          intro b hb
          rw [List.head?_cons, Option.some.injEq] at hb
          rw [← hb]; exact hs)]
        exact ⟨by omega, hq', ih⟩

/-- A piece is within one pixel of its length. -/
theorem piece_length (hn : 0 < n) {j k p : Nat} (hk : k ≤ j) (h : edge n w j = edge n w (j - k) + p) :
    n * p < k * w + n ∧ k * w < n * p + n := by
  obtain ⟨h1, h2⟩ := edge_length (w := w) hn (j - k) k
  rw [Nat.sub_add_cancel hk, h, Nat.mul_add] at h1 h2
  constructor <;> linarith

theorem Pieces.steady (hn : 0 < n) (hw : 8 * n ≤ w) {j : Nat} {ks ps : List Nat} (h : Pieces n w j ks ps)
    (hs : Calm ks) : Steady ps := by
  rcases ks with _ | ⟨b, _ | ⟨a, _ | ⟨c, ks⟩⟩⟩ <;> rcases ps with _ | ⟨b', _ | ⟨a', _ | ⟨c', ps⟩⟩⟩ <;>
    simp only [Pieces, and_false] at h <;> try exact trivial
  obtain ⟨b1, b2, a1, a2, -⟩ := h
  have hb := piece_length hn b1 b2
  have ha := piece_length hn a1 a2
  replace hs : a + 2 ≤ 10 * b := hs
  show a' ≤ 10 * b'
  refine Nat.le_of_lt_succ (Nat.lt_of_mul_lt_mul_left (a := n) ?_)
  have k1 : (a + 2) * w ≤ 10 * b * w := Nat.mul_le_mul_right _ hs
  have k2 : n * a' < n * (10 * b' + 1) := by nlinarith
  exact k2

theorem Pieces.nearly (hn : 0 < n) (hw : 8 * n ≤ w) {j t : Nat} {ks ps : List Nat} (h : Pieces n w j ks ps)
    (hf : finderEnd ps = some t) : NearlyEnd ks := by
  rcases ps with _ | ⟨e', _ | ⟨d', _ | ⟨c', _ | ⟨b', _ | ⟨a', ps⟩⟩⟩⟩⟩ <;> try (simp [finderEnd] at hf; done)
  rcases ks with _ | ⟨e, _ | ⟨d, _ | ⟨c, _ | ⟨b, _ | ⟨a, ks⟩⟩⟩⟩⟩ <;> try (simp only [Pieces, and_false] at h; done)
  simp only [Pieces] at h
  obtain ⟨e1, e2, d1, d2, c1, c2, b1, b2, a1, a2, -⟩ := h
  have he := piece_length hn e1 e2
  have hd := piece_length hn d1 d2
  have hc := piece_length hn c1 c2
  have hb := piece_length hn b1 b2
  have ha := piece_length hn a1 a2
  have ht : n * (a' + b' + c' + d' + e') < (a + b + c + d + e) * w + n ∧
      (a + b + c + d + e) * w < n * (a' + b' + c' + d' + e') + n := by
    refine piece_length hn (j := j) (by omega) ?_
    rw [e2, d2, c2, b2, a2, show j - (a + b + c + d + e) = j - e - d - c - b - a by omega]
    ring
  simp only [finderEnd] at hf
  split at hf
  swap
  · cases hf
  rename_i hs
  unfold FinderShaped at hs
  simp only at hs
  obtain ⟨-, ⟨sa1, sa2⟩, ⟨sb1, sb2⟩, ⟨sc1, sc2⟩, ⟨sd1, sd2⟩, ⟨se1, se2⟩⟩ := hs
  show NearlyShaped a b c d e
  unfold NearlyShaped
  simp only
  generalize a + b + c + d + e = τ at *
  generalize a' + b' + c' + d' + e' = T at *
  clear e1 e2 d1 d2 c1 c2 b1 b2 a1 a2
  have w0 : 0 < w := by omega
  have go : ∀ {x y : Nat}, x * w < (y + 1) * w → x ≤ y :=
    fun h => Nat.le_of_lt_succ (Nat.lt_of_mul_lt_mul_right h)
  have outer : ∀ z z' : Nat, (n * z' < z * w + n ∧ z * w < n * z' + n) → T ≤ 21 * z' → 21 * z' ≤ 5 * T →
      τ ≤ 21 * z + 2 ∧ 21 * z ≤ 5 * τ + 3 := by
    intro z z' hz k1 k2
    have m1 : n * T ≤ n * (21 * z') := Nat.mul_le_mul_left _ k1
    have m2 : n * (21 * z') ≤ n * (5 * T) := Nat.mul_le_mul_left _ k2
    constructor
    · refine go ?_
      linarith
    · refine go ?_
      linarith
  refine ⟨outer a a' ha sa1 sa2, outer b b' hb sb1 sb2, ?_, outer d d' hd sd1 sd2, outer e e' he se1 se2⟩
  have m1 : n * (7 * T) ≤ n * (21 * c') := Nat.mul_le_mul_left _ sc1
  have m2 : n * (21 * c') ≤ n * (11 * T) := Nat.mul_le_mul_left _ sc2
  constructor
  · refine go ?_
    linarith
  · refine go ?_
    linarith

/-- Where the colour changes, a module begins, and the colour of the modules changes. -/
theorem Square.change (h : Square img g n w) {x y : Nat} (hx : x < w) (hy : y < w) (hc : changesAt img x y) :
    x = edge n w (moduleOf n w x) ∧ changesAt g (moduleOf n w x) (moduleOf n w y) := by
  unfold changesAt at hc
  rw [h.grey (by omega) hy, h.grey hx hy] at hc
  have hne : moduleOf n w (x - 1) ≠ moduleOf n w x := by
    intro e; rw [e] at hc; exact hc rfl
  have hx0 : 0 < x := by
    rcases Nat.eq_zero_or_pos x with rfl | h0
    · exact absurd rfl hne
    · exact h0
  have k1 := (h.from x _).mp (le_refl (moduleOf n w x))
  have k2 : moduleOf n w (x - 1) < moduleOf n w x := by
    refine lt_of_le_of_ne ?_ hne
    have k := (h.below x (moduleOf n w x + 1)).mp (by omega)
    have k' : moduleOf n w (x - 1) < moduleOf n w x + 1 := (h.below _ _).mpr (by omega)
    omega
  have k3 := (h.below _ _).mp k2
  have he : x = edge n w (moduleOf n w x) := by omega
  refine ⟨he, ?_⟩
  have k4 : moduleOf n w x - 1 ≤ moduleOf n w (x - 1) := by
    rw [h.from]
    have k := h.next (moduleOf n w x - 1)
    rw [Nat.sub_add_cancel (by omega)] at k
    have := h.big
    omega
  have k5 : moduleOf n w (x - 1) = moduleOf n w x - 1 := by omega
  unfold changesAt
  rw [← k5]
  exact hc

theorem Square.steady (h : Square img g n w) (hc : CalmRows g) : ∀ y < img.height, SteadyRow img img.width y := by
  intro y hy x hx hch
  rw [h.ih] at hy
  rw [h.iw] at hx
  obtain ⟨e, hg⟩ := h.change hx hy hch
  have hp := h.pieces hy (moduleOf n w x) (le_of_lt (h.inside hx))
  rw [← e] at hp
  exact hp.steady h.pos h.size (hc _ (by rw [h.gh]; exact h.inside hy) _ (by rw [h.gw]; exact h.inside hx) hg)

theorem Square.only (h : Square img g n w) {fs : List (Nat × Nat)} (hfs : ∀ f ∈ fs, f.1 + 8 ≤ n) (hn : NothingAlike g fs) :
    OnlyRuled img (fs.map fun f => (resizedLines n w f.1, resizedLines n w f.2)) := by
  intro y hy x hx t ht
  rw [h.ih] at hy
  rw [h.iw] at hx
  have yn : moduleOf n w y < g.height := by rw [h.gh]; exact h.inside hy
  unfold runsAt at ht
  split at ht
  · rename_i hch
    obtain ⟨e, hg⟩ := h.change hx hy hch
    have hp := h.pieces hy (moduleOf n w x) (le_of_lt (h.inside hx))
    rw [← e] at hp
    have xn : moduleOf n w x < g.width := by rw [h.gw]; exact h.inside hx
    obtain ⟨f, hf, f1, f2, f3⟩ := hn _ yn _ (le_of_lt xn) (Or.inr ⟨xn, hg⟩) (hp.nearly h.pos h.size ht)
    refine ⟨_, List.mem_map.mpr ⟨f, hf, rfl⟩, ?_, (h.from _ _).mp f2, (h.below _ _).mp f3⟩
    rw [f1] at e
    exact e
  · split at ht
    · have hp := h.pieces hy n (le_refl n)
      rw [edge_full h.pos] at hp
      rw [h.iw] at ht
      obtain ⟨f, hf, f1, -, -⟩ := hn _ yn n (by rw [h.gw]) (Or.inl h.gw.symm) (hp.nearly h.pos h.size ht)
      have := hfs f hf
      omega
    · simp [finderEnd] at ht

end
end LineScan
end Verif
