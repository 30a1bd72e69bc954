import Verif.Lemmas.Spurious
import Verif.Props.Detection

/-!
# A scan of an image whose finder patterns are known
-/
namespace Verif
namespace LineScan
open F64 FinderPattern Spec

theorem filter_next {α : Type} (key : α → Nat) :
    ∀ (l : List α) (i : Nat), l.Pairwise (fun a b => key a < key b) →
    (∀ f ∈ l, key f = i → l.filter (fun a => decide (key a < i + 1)) = l.filter (fun a => decide (key a < i)) ++ [f]) ∧
    ((∀ f ∈ l, key f ≠ i) → l.filter (fun a => decide (key a < i + 1)) = l.filter (fun a => decide (key a < i))) := by
  intro l i h
  constructor
  · induction l with
    | nil => intro f hf; simp at hf
    | cons a l ih =>
      intro f hf hk
      rw [List.pairwise_cons] at h
      rw [List.mem_cons] at hf
      rcases hf with rfl | hf
      · have e1 : ∀ j ≤ i + 1, l.filter (fun a => decide (key a < j)) = [] := by
          intro j hj
          rw [List.filter_eq_nil_iff]
          intro b hb
          have := h.1 b hb
          simp only [decide_eq_true_eq]
          omega
        rw [List.filter_cons, List.filter_cons, e1 _ (le_refl _), e1 _ (by omega)]
        simp [hk]
      · have := h.1 f hf
        rw [List.filter_cons, List.filter_cons, ih h.2 f hf hk]
        rw [if_pos (by simp; omega), if_pos (by simp; omega)]
        rfl
  · intro hne
    apply List.filter_congr
    intro a ha
    have := hne a ha
    rw [decide_eq_decide]
    omega

theorem pairwise_cases {α : Type} {R : α → α → Prop} {l : List α} (h : l.Pairwise R) {a b : α} (ha : a ∈ l) (hb : b ∈ l) :
    R a b ∨ R b a ∨ a = b := by
  induction l with
  | nil => simp at ha
  | cons c l ih =>
    rw [List.pairwise_cons] at h
    rw [List.mem_cons] at ha hb
    rcases ha with rfl | ha <;> rcases hb with rfl | hb
    · exact Or.inr (Or.inr rfl)
    · exact Or.inl (h.1 b hb)
    · exact Or.inr (Or.inl (h.1 a ha))
    · exact ih h.2 ha hb

section
variable {img : GrayImage}

theorem near_yes {x y y' : Int} {m : Nat} (hm : 1 ≤ m) (hm' : m < 2 ^ 32) (h : |y - y'| ≤ 4 * m) :
    F64.lt (dist ⟨hf x, hf y⟩ ⟨hf x, hf y'⟩) (F64.lit 7 * .fin (m : ℚ)) = true := by
  have hm1 : (1 : ℚ) ≤ m := by exact_mod_cast hm
  have hmu := cast_lt_u32 hm'
  have h7 : F64.lit 7 * F64.fin (m : ℚ) = .fin ((7 * m : Nat) : ℚ) := by
    rw [lit_nat (by norm_num), mul_fin, ← Nat.cast_mul, roundQ_nat (by omega)]
    rw [abs_of_nonneg (by positivity)]; push_cast; linarith
  have hy : |(y : ℚ) - y'| ≤ 4 * m := by exact_mod_cast h
  have hy2 : |(y' : ℚ) / 2 - (y : ℚ) / 2| ≤ 2 * m := by
    rw [abs_le] at *; constructor <;> linarith [hy.1, hy.2]
  obtain ⟨L, -, hL, L0, hn⟩ := len_fin (x1 := (x : ℚ) / 2) (x2 := (x : ℚ) / 2) (y1 := (y : ℚ) / 2) (y2 := (y' : ℚ) / 2)
    (M := 2 * m) (by linarith) (by linarith) (by rw [sub_self, abs_zero]; linarith) hy2
  have hd : dist ⟨hf x, hf y⟩ ⟨hf x, hf y'⟩ = .fin L := hL
  rw [hd, h7, lt_fin, decide_eq_true_eq]
  push_cast
  have hu := uQ_small
  have hu0 := uQ_pos
  have hsq : ((y' : ℚ) / 2 - (y : ℚ) / 2) ^ 2 ≤ (2 * m) ^ 2 := by
    rw [← sq_abs]; exact pow_le_pow_left₀ (abs_nonneg _) hy2 2
  rw [abs_le] at hn
  have : ((2 * m : ℚ)) ^ 2 * uQ ≤ (2 * m) ^ 2 * (1 / 10 ^ 15) := mul_le_mul_of_nonneg_left hu (by positivity)
  rw [sub_self] at hn
  have : L ^ 2 < (7 * m) ^ 2 := by nlinarith [hn.1, hn.2]
  exact lt_of_pow_lt_pow_left₀ 2 (by positivity) this

/-- The candidate of a finder pattern keeps the following scan lines through it from being refined again. -/
theorem own_blocked {m fx fy y : Nat} {cs : List FinderPosition} (hm : 1 ≤ m) (hb : fy + 7 * m < 2 ^ 32)
    (h1 : fy + 2 * m ≤ y) (h2 : y < fy + 5 * m) (h : exactCandidate m fx fy ∈ cs) : blocked m fx y cs = true := by
  unfold blocked
  rw [List.any_eq_true]
  refine ⟨_, h, ?_⟩
  unfold exactCandidate
  simp only
  rw [hf_ofNat (by omega), hf_ofNat (by omega)]
  apply near_yes hm (by omega)
  rw [abs_le]
  omega

/-- Other finder patterns are too far away to matter. -/
theorem others_far {m fx fy : Nat} {cs : List (Nat × Nat)} (hv : img.Valid) (hm : 2 ≤ m) (hc : CleanFinder img m fx fy)
    (h : ∀ g ∈ cs, CleanFinder img m g.1 g.2 ∧ ScanOrder m g (fx, fy)) :
    blocked m fx (fy + 2 * m) (cs.map fun g => exactCandidate m g.1 g.2) = false := by
  have hw := hv.2.1
  have hh := hv.2.2
  have c1 := hc.1
  have c2 := hc.2.1
  unfold blocked
  rw [List.any_eq_false]
  intro c hcm
  rw [List.mem_map] at hcm
  obtain ⟨g, hg, rfl⟩ := hcm
  obtain ⟨⟨g1, g2, -⟩, ho⟩ := h g hg
  intro hlt
  unfold exactCandidate at hlt
  simp only at hlt
  rw [hf_ofNat (by omega), hf_ofNat (by omega)] at hlt
  have hlt : F64.lt (dist ⟨hf (2 * fx + 7 * m), hf (2 * (fy + 2 * m : Nat))⟩ ⟨.fin (((2 * g.1 + 7 * m : Int) : ℚ) / 2),
    .fin (((2 * (g.2 + (7 * m - 1) / 2 : Nat) : Int) : ℚ) / 2)⟩) (F64.lit 7 * .fin (m : ℚ)) = true := hlt
  have habs : ∀ a b : Int, |a - b| ≤ 2 ^ 34 → |(a : ℚ) / 2 - (b : ℚ) / 2| ≤ 2 ^ 34 := by
    intro a b hab
    have : |(a : ℚ) - b| ≤ 2 ^ 34 := by exact_mod_cast hab
    rw [abs_le] at *
    constructor <;> linarith [this.1, this.2]
  have hnear := near_of_lt (by omega) (by omega) (habs _ _ (by rw [abs_le]; omega)) (habs _ _ (by rw [abs_le]; omega)) hlt
  have e : ∀ a b : Int, ((a : ℚ) / 2 - (b : ℚ) / 2) ^ 2 = (((a - b) ^ 2 : Int) : ℚ) / 4 := by
    intro a b; push_cast; ring
  rw [e, e] at hnear
  have hnear' : ((((2 * g.1 + 7 * m : Int) - (2 * fx + 7 * m)) ^ 2 : Int) : ℚ) + (((2 * ((g.2 + (7 * m - 1) / 2 : Nat) : Int) - (2 * ((fy + 2 * m : Nat) : Int))) ^ 2 : Int) : ℚ)
      < (((16 * m) ^ 2 : Int) : ℚ) := by
    push_cast at hnear ⊢
    linarith
  have hnear2 : ((2 * g.1 + 7 * m : Int) - (2 * fx + 7 * m)) ^ 2 + (2 * ((g.2 + (7 * m - 1) / 2 : Nat) : Int) - (2 * ((fy + 2 * m : Nat) : Int))) ^ 2
      < ((16 : Int) * m) ^ 2 := by exact_mod_cast hnear'
  generalize hA : (2 * g.1 + 7 * m : Int) - (2 * fx + 7 * m) = A at hnear2
  generalize hB : (2 * ((g.2 + (7 * m - 1) / 2 : Nat) : Int) - (2 * ((fy + 2 * m : Nat) : Int))) = B at hnear2
  have hbound : (16 * (m : Int) ≤ A ∨ A ≤ - (16 * (m : Int))) ∨ B ≤ - (16 * (m : Int)) := by
    unfold ScanOrder at ho
    simp only at ho
    omega
  have hm0 : (0 : Int) ≤ 16 * m := by omega
  rcases hbound with (h | h) | h
  · nlinarith [sq_nonneg B]
  · nlinarith [sq_nonneg B]
  · nlinarith [sq_nonneg A]

/-- A run boundary at which nothing is confirmed leaves the candidates alone. -/
theorem atChange_spurious (hv : img.Valid) {x y : Nat} (hx : x < img.width) (hy : y < img.height) {p : U8} {st : Scan}
    {rs : List Nat} (hst : st.pattern = of rs) (hsum : rs.sum ≤ x + 1)
    (hn : ∀ t, finderEnd rs = some t →
      ∀ c < img.width, 2 * x ≤ 2 * c + t + 1 → 2 * c + t ≤ 2 * x + 1 → NotConfirmed img c y t) :
    ∃ st', atChange img x y p st = .ret st' ∧ st'.candidates = st.candidates := by
  have hw := hv.2.1
  have htot := of_total rs
  rw [← hst] at htot
  obtain ⟨s', hs', -⟩ := slide_ret (s := st.pattern) (by omega)
  rcases looks_cases (s := st.pattern) (by omega) with hl | hl
  · exact ⟨_, atChange_none hl hs', rfl⟩
  · have hfe := of_accepted (rs := rs) (by omega) (by rw [← hst]; exact hl)
    rw [← hst] at hfe
    have h7 : 7 ≤ st.pattern.five := by
      obtain ⟨b, hb, hb7⟩ := looks_ret (s := st.pattern) (by omega)
      rw [hl] at hb
      exact hb7 (Run.ret.inj hb).symm
    have h5 := five_le st.pattern
    have hr := refineAll_none hv hx hy h7 (by omega) (hn _ hfe)
    unfold atChange
    rw [hl, Run.ret_bind]
    simp only [if_true]
    rw [est_ret (by omega), Run.ret_bind, (centre_eq (by omega) (by omega)).2.1]
    split
    · rw [hs', Run.ret_bind]; exact ⟨_, rfl, rfl⟩
    · rw [hr, Run.ret_bind]
      simp only
      rw [hs', Run.ret_bind]; exact ⟨_, rfl, rfl⟩

theorem scan_first_keeps {y : Nat} (hw : 0 < img.width) {st : Scan} {p : U8} :
    ∃ st', scanPixel img st (0, y, p) = .ret st' ∧ st'.candidates = st.candidates := by
  unfold scanPixel
  simp only [if_true]
  have hsl : ∀ k, k ≤ 1 → (FinderPattern.mk 0 0 0 0 0 0 k).slide = .ret ⟨0, 0, 0, 0, 0, k, 1⟩ := by
    intro k hk
    rw [slide_regular (by simp [total]; omega) (by simp)]
  have hlk : ∀ k, k ≤ 1 → (FinderPattern.mk 0 0 0 0 0 0 k).looksLikeFinder = .ret false := by
    intro k hk
    exact Props.missing_run_rejected _ (by simp; omega) (by simp)
  split
  · have hlast : checkedSub img.width 1 = .ret (img.width - 1) := by
      unfold checkedSub; rw [if_pos (by omega)]
    rw [addU32_ret (by norm_num), Run.ret_bind, hlast, Run.ret_bind]
    split
    · exact ⟨_, rfl, rfl⟩
    · rw [atChange_none (s' := ⟨0, 0, 0, 0, 0, 1, 1⟩)]
      · exact ⟨_, rfl, rfl⟩
      · exact hlk 1 (le_refl _)
      · exact hsl 1 (le_refl _)
  · rw [atChange_none (s' := ⟨0, 0, 0, 0, 0, 0, 1⟩)]
    · exact ⟨_, rfl, rfl⟩
    · exact hlk 0 (by omega)
    · exact hsl 0 (by omega)

/-- The pixel at which a finder pattern is noticed. -/
def noticeIndex (w m : Nat) (f : Nat × Nat) : Nat := (f.2 + 2 * m) * w + (f.1 + 7 * m)

theorem noticeIndex_lt {w m : Nat} {a b : Nat × Nat} (ha : a.1 + 7 * m < w) (h : ScanOrder m a b) :
    noticeIndex w m a < noticeIndex w m b := by
  unfold noticeIndex
  rcases h.1 with h | ⟨h1, h2⟩
  · have : (a.2 + 2 * m + 1) * w ≤ (b.2 + 2 * m) * w := Nat.mul_le_mul_right _ (by omega)
    rw [Nat.succ_mul] at this
    omega
  · rw [h1]; omega

/-- What the scan knows before pixel `i`. -/
def ExactInv (img : GrayImage) (m : Nat) (fs : List (Nat × Nat)) (i : Nat) (st : Scan) : Prop :=
  ScanInv img i st ∧ (0 < i % img.width → RowState img (i % img.width) (i / img.width) st) ∧
  st.candidates = (fs.filter fun f => decide (noticeIndex img.width m f < i)).map fun f => exactCandidate m f.1 f.2

theorem exact_step (hv : img.Valid) {m : Nat} (hm : 2 ≤ m) {fs : List (Nat × Nat)}
    (hc : ∀ f ∈ fs, CleanFinder img m f.1 f.2) (ho : fs.Pairwise (ScanOrder m))
    (hs : ∀ y < img.height, SteadyRow img img.width y) (hn : NoOtherFinders img m fs)
    {i : Nat} (hi : i < img.width * img.height) {st : Scan} (h : ExactInv img m fs i st) :
    ∃ st', scanPixel img st (i % img.width, i / img.width, pix img (i % img.width) (i / img.width)) = .ret st' ∧
      ExactInv img m fs (i + 1) st' := by
  have hw := hv.2.1
  have hh := hv.2.2
  have hw0 : 0 < img.width := by
    rcases Nat.eq_zero_or_pos img.width with h | h
    · rw [h] at hi; simp at hi
    · exact h
  have hord : fs.Pairwise fun a b => noticeIndex img.width m a < noticeIndex img.width m b := by
    apply List.Pairwise.imp_of_mem _ ho
    intro a b ha _ hab
    exact noticeIndex_lt (hc a ha).1 hab
  obtain ⟨hnext, hskip⟩ := filter_next (noticeIndex img.width m) fs i hord
  obtain ⟨h1, h2, h3⟩ := h
  obtain ⟨st', hr, hinv⟩ := scanPixel_ret (p := pix img (i % img.width) (i / img.width)) hv hi h1
  have hyh : i / img.width < img.height := Nat.div_lt_of_lt_mul hi
  have hxw : i % img.width < img.width := Nat.mod_lt _ hw0
  have hie : i = i / img.width * img.width + i % img.width := (Nat.div_add_mod' i img.width).symm
  generalize hx : i % img.width = x at *
  generalize hy : i / img.width = y at *
  refine ⟨st', hr, hinv, ?_, ?_⟩
  · -- the counters
    by_cases hend : x + 1 < img.width
    · have hie' : i + 1 = y * img.width + (x + 1) := by omega
      obtain ⟨e1, e2⟩ := row_index (y := y) hend
      rw [← hie'] at e1 e2
      rw [e1, e2]
      intro _
      obtain ⟨st'', hr', hst'⟩ := row_step (x := x) (y := y) hv hend (st := st) h2 h1.1
        (hs y hyh x hxw)
      rw [hr] at hr'
      have := Run.ret.inj hr'
      subst this
      exact hst'
    · intro hpos
      exfalso
      have : i + 1 = (y + 1) * img.width := by rw [Nat.succ_mul]; omega
      rw [this, Nat.mul_mod_left] at hpos
      omega
  · -- the candidates
    -- a finder pattern that is noticed here
    have at_index : ∀ f ∈ fs, noticeIndex img.width m f = i → x = f.1 + 7 * m ∧ y = f.2 + 2 * m := by
      intro f hf he
      obtain ⟨e1, e2⟩ := row_index (y := f.2 + 2 * m) (hc f hf).1
      unfold noticeIndex at he
      rw [he] at e1 e2
      rw [← hx, ← hy]
      exact ⟨e1, e2⟩
    have keep : (∀ f ∈ fs, noticeIndex img.width m f ≠ i) → st'.candidates = st.candidates →
        st'.candidates = (fs.filter fun f => decide (noticeIndex img.width m f < i + 1)).map
          fun f => exactCandidate m f.1 f.2 := by
      intro hne he
      rw [he, h3, hskip hne]
    by_cases h0 : x = 0
    · subst h0
      obtain ⟨st'', hr', he⟩ := scan_first_keeps (y := y) (p := pix img 0 y) hw0 (st := st)
      rw [hr] at hr'
      have := Run.ret.inj hr'
      subst this
      exact keep (fun f hf he => by have := (at_index f hf he).1; omega) he
    have h2 := h2 (by omega)
    have hsum := leftOf_runs_sum img x y
    by_cases hch : changesAt img x y
    · rw [scan_change (by omega) h2 hch] at hr
      have hrun : runsAt img x y = runs (leftOf img x y) := by unfold runsAt; rw [if_pos hch]
      by_cases hhit : ∃ f ∈ fs, noticeIndex img.width m f = i
      · obtain ⟨f, hf, he⟩ := hhit
        obtain ⟨rfl, rfl⟩ := at_index f hf he
        have hbl : blocked m f.1 (f.2 + 2 * m) st.candidates = false := by
          rw [h3]
          apply others_far hv hm (hc f hf)
          intro g hg
          rw [List.mem_filter, decide_eq_true_eq] at hg
          refine ⟨hc g hg.1, ?_⟩
          have hne : g ≠ f := by rintro rfl; omega
          rcases pairwise_cases ho hg.1 hf with h | h | h
          · exact h
          · have := noticeIndex_lt (hc f hf).1 h; omega
          · exact absurd h hne
        have hshape := atChange_shape hr
        rw [hit_new (hc f hf) hv hm h2.1 hbl hshape.2.1] at hr
        have hr := Run.ret.inj hr
        rw [← hr, hnext f hf he, List.map_append, ← h3]
        rfl
      · have hne : ∀ f ∈ fs, noticeIndex img.width m f ≠ i := fun f hf he => hhit ⟨f, hf, he⟩
        apply keep hne
        by_cases hin : ∃ f ∈ fs, x = f.1 + 7 * m ∧ f.2 + 2 * m ≤ y ∧ y < f.2 + 5 * m
        · obtain ⟨f, hf, rfl, b1, b2⟩ := hin
          have hshape := atChange_shape hr
          have hlt : f.2 + 2 * m < y := by
            rcases Nat.lt_or_eq_of_le b1 with h | h
            · exact h
            · exfalso
              apply hne f hf
              unfold noticeIndex
              rw [h]
              exact hie.symm
          have hmem : exactCandidate m f.1 f.2 ∈ st.candidates := by
            rw [h3]
            apply List.mem_map_of_mem (f := fun f : Nat × Nat => exactCandidate m f.1 f.2)
            rw [List.mem_filter, decide_eq_true_eq]
            refine ⟨hf, ?_⟩
            unfold noticeIndex
            have : (f.2 + 2 * m + 1) * img.width ≤ y * img.width := Nat.mul_le_mul_right _ (by omega)
            rw [Nat.succ_mul] at this
            have := (hc f hf).1
            omega
          have c2 := (hc f hf).2.1
          rw [hit_blocked (hc f hf) hv (by omega) b1 b2 h2.1 (own_blocked (by omega) (by omega) b1 b2 hmem)
            hshape.2.1] at hr
          rw [← Run.ret.inj hr]
        · obtain ⟨st'', hr', he⟩ := atChange_spurious (p := pix img x y) hv hxw hyh h2.1 (by omega) (by
            intro t ht
            rw [← hrun] at ht
            rcases hn y hyh x hxw t ht with h | h
            · exact absurd h hin
            · exact h)
          rw [hr] at hr'
          rw [Run.ret.inj hr']
          exact he
    · have hne : ∀ f ∈ fs, ¬ (x = f.1 + 7 * m ∧ f.2 + 2 * m ≤ y ∧ y < f.2 + 5 * m) := by
        rintro f hf ⟨rfl, b1, b2⟩
        exact hch (finder_changes (hc f hf) (by omega) b1 b2)
      have hne' : ∀ f ∈ fs, noticeIndex img.width m f ≠ i := by
        intro f hf he
        obtain ⟨e1, e2⟩ := at_index f hf he
        exact hne f hf ⟨e1, by omega, by omega⟩
      apply keep hne'
      by_cases hend : x + 1 < img.width
      · obtain ⟨st'', hr', -, he⟩ := scan_stay hw (by omega) hend h2 hch
        rw [hr] at hr'
        rw [Run.ret.inj hr']
        exact he
      · have hend : x + 1 = img.width := by omega
        rw [scan_last hw (by omega) hend h2 hch] at hr
        have hrun : runsAt img x y = runs (leftOf img img.width y) := by
          unfold runsAt; rw [if_neg hch, if_pos hend]
        obtain ⟨st'', hr', he⟩ := atChange_spurious (p := pix img x y) (rs := runs (leftOf img img.width y))
          (st := { st with pattern := of (runs (leftOf img img.width y)) }) hv hxw hyh rfl
          (by rw [leftOf_runs_sum]; omega) (by
            intro t ht
            rw [← hrun] at ht
            rcases hn y hyh x hxw t ht with ⟨f, hf, h⟩ | h
            · exact absurd h (hne f hf)
            · exact h)
        rw [hr] at hr'
        rw [Run.ret.inj hr']
        exact he

/-- The candidates are exactly the finder patterns. -/
theorem candidates_exact (hv : img.Valid) {m : Nat} (hm : 2 ≤ m) {fs : List (Nat × Nat)}
    (hc : ∀ f ∈ fs, CleanFinder img m f.1 f.2) (ho : fs.Pairwise (ScanOrder m))
    (hs : ∀ y < img.height, SteadyRow img img.width y) (hn : NoOtherFinders img m fs) :
    candidates img = .ret (fs.map fun f => exactCandidate m f.1 f.2) := by
  unfold candidates
  have hl : img.enumeratePixels.length = img.pixels.length := by simp [GrayImage.enumeratePixels]
  obtain ⟨st, hst, hinv⟩ := foldlM_inv (f := scanPixel img) (I := ExactInv img m fs) img.enumeratePixels 0
    ⟨[], 127#8, {}⟩ ⟨⟨by simp, by simp⟩, by simp, by simp⟩ (by
      intro i s hi hI'
      rw [enumerate_get hi]
      rw [Nat.zero_add] at hI' ⊢
      exact exact_step hv hm hc ho hs hn (by rw [← hv.1]; omega) hI')
  rw [hst, Run.ret_bind, hinv.2.2]
  have : (fs.filter fun f => decide (noticeIndex img.width m f < 0 + img.enumeratePixels.length)) = fs := by
    rw [List.filter_eq_self]
    intro f hf
    rw [decide_eq_true_eq, hl, hv.1, Nat.zero_add]
    have c1 := (hc f hf).1
    have c2 := (hc f hf).2.1
    unfold noticeIndex
    have : (f.2 + 2 * m + 1) * img.width ≤ img.height * img.width := Nat.mul_le_mul_right _ (by omega)
    rw [Nat.mul_comm img.width]
    rw [Nat.succ_mul] at this
    omega
  rw [this]
  rfl

end
end LineScan
end Verif
