import Verif.Lemmas.Moves

/-!
# A scan of an image that shows finder patterns among other things
-/
namespace Verif
namespace LineScan
open F64 FinderPattern Spec

section
variable {img : GrayImage}

theorem blocked_append (m fx y : Nat) (a b : List FinderPosition) :
    blocked m fx y (a ++ b) = (blocked m fx y a || blocked m fx y b) := by
  unfold blocked; rw [List.any_append]

theorem sq_far {a b r : ℚ} (hr : 0 ≤ r) (h : r ≤ a ∨ r ≤ - a ∨ r ≤ - b) : ¬ a ^ 2 + b ^ 2 < r ^ 2 := by
  intro hlt
  rcases h with h | h | h
  · have := pow_le_pow_left₀ hr h 2
    linarith [sq_nonneg b]
  · have := pow_le_pow_left₀ hr h 2
    rw [neg_sq] at this
    linarith [sq_nonneg b]
  · have := pow_le_pow_left₀ hr h 2
    rw [neg_sq] at this
    linarith [sq_nonneg a]

/-- A candidate found far away does not matter. -/
theorem far_not_blocked (hv : img.Valid) {m : Nat} (hm : 2 ≤ m) {f : Nat × Nat} (hc : CleanFinder img m f.1 f.2)
    {x y t : Nat} (hx : x < img.width) (hy : y < img.height) (ht7 : 7 ≤ t) (ht : t ≤ x + 1) (hf : FarFrom m f x y t) {px py : ℚ}
    (h1 : x - 7 * (t : ℚ) / 8 - 13 / 5 ≤ px) (h2 : px ≤ x - (t : ℚ) / 8 + 1) (h3 : py ≤ y + (t : ℚ) / 3)
    (h4 : 0 ≤ py) {ms d : F64} :
    blocked m f.1 (f.2 + 2 * m) [⟨⟨.fin px, .fin py⟩, ms, d⟩] = false := by
  have hw := hv.2.1
  have hh := hv.2.2
  have c1 := hc.1
  have c2 := hc.2.1
  have hwq := cast_lt_u32 hw
  have hhq := cast_lt_u32 hh
  have hmq : (2 : ℚ) ≤ m := by exact_mod_cast hm
  have htq : (7 : ℚ) ≤ t := by exact_mod_cast ht7
  have htx : (t : ℚ) ≤ x + 1 := by exact_mod_cast ht
  have hxq : (x : ℚ) + 1 ≤ img.width := by exact_mod_cast hx
  have hyq : (y : ℚ) + 1 ≤ img.height := by exact_mod_cast hy
  have c1q : (f.1 : ℚ) + 7 * m ≤ img.width := by exact_mod_cast (le_of_lt c1)
  have c2q : (f.2 : ℚ) + 7 * m ≤ img.height := by exact_mod_cast (le_of_lt c2)
  have f1 : (0 : ℚ) ≤ f.1 := Nat.cast_nonneg _
  have f2 : (0 : ℚ) ≤ f.2 := Nat.cast_nonneg _
  unfold blocked
  rw [List.any_cons, List.any_nil, Bool.or_false]
  rw [Bool.eq_false_iff]
  intro hlt
  simp only at hlt
  rw [hf_ofNat (by omega)] at hlt
  have hnear := near_of_lt_sharp (by omega) (by omega)
    (by push_cast; rw [abs_le]; constructor <;> linarith) (by push_cast; rw [abs_le]; constructor <;> linarith) hlt
  push_cast at hnear
  refine sq_far (by linarith) ?_ hnear
  unfold FarFrom at hf
  rcases hf with hf | hf | hf
  · have hf' : 2 * (f.1 : ℚ) + 23 * m + 2 * t ≤ 2 * x := by exact_mod_cast hf
    exact Or.inl (by linarith)
  · have hf' : 2 * (x : ℚ) + 8 * m ≤ 2 * f.1 := by exact_mod_cast hf
    exact Or.inr (Or.inl (by linarith))
  · have hf' : 6 * (y : ℚ) + 31 * m + 2 * t ≤ 6 * f.2 := by exact_mod_cast hf
    exact Or.inr (Or.inr (by linarith))

/-- What a run boundary can add to the candidates. -/
theorem atChange_adds (hv : img.Valid) {x y : Nat} (hx : x < img.width) (hy : y < img.height) {p : U8} {st st' : Scan}
    {rs : List Nat} (hst : st.pattern = of rs) (hsum : rs.sum ≤ x + 1) (hr : atChange img x y p st = .ret st') :
    st'.candidates = st.candidates ∨ ∃ t px py ms, finderEnd rs = some t ∧ 7 ≤ t ∧ t ≤ x + 1 ∧
      st'.candidates = st.candidates ++ [⟨⟨.fin px, .fin py⟩, ms, F64.lit 0⟩] ∧
      x - 7 * (t : ℚ) / 8 - 13 / 5 ≤ px ∧ px ≤ x - (t : ℚ) / 8 + 1 ∧ py ≤ y + (t : ℚ) / 3 := by
  have hw := hv.2.1
  have htot := of_total rs
  rw [← hst] at htot
  obtain ⟨s', hs', -⟩ := slide_ret (s := st.pattern) (by omega)
  rcases looks_cases (s := st.pattern) (by omega) with hl | hl
  · rw [atChange_none hl hs'] at hr
    rw [← Run.ret.inj hr]
    exact Or.inl rfl
  · have hfe := of_accepted (rs := rs) (by omega) (by rw [← hst]; exact hl)
    rw [← hst] at hfe
    have h7 : 7 ≤ st.pattern.five := by
      obtain ⟨b, hb, hb7⟩ := looks_ret (s := st.pattern) (by omega)
      rw [hl] at hb
      exact hb7 (Run.ret.inj hb).symm
    have h5 := five_le st.pattern
    unfold atChange at hr
    rw [hl, Run.ret_bind] at hr
    simp only [if_true] at hr
    rw [est_ret (by omega), Run.ret_bind, (centre_eq (by omega) (by omega)).2.1] at hr
    split at hr
    · rw [hs', Run.ret_bind] at hr; rw [← Run.ret.inj hr]; exact Or.inl rfl
    · cases hra : refineAll img ⟨.fin (centreQ x st.pattern.five), F64.ofNat y⟩ (.fin (modQ st.pattern.five)) with
      | panic => rw [hra] at hr; cases hr
      | ret r =>
        rw [hra, Run.ret_bind] at hr
        cases r with
        | none =>
          simp only at hr
          rw [hs', Run.ret_bind] at hr; rw [← Run.ret.inj hr]; exact Or.inl rfl
        | some v =>
          obtain ⟨q, ms⟩ := v
          simp only at hr
          rw [hs', Run.ret_bind] at hr
          obtain ⟨px, py, rfl, b1, b2, b3⟩ := refineAll_moves hv hx hy h7 (by omega) hra
          rw [← Run.ret.inj hr]
          exact Or.inr ⟨_, px, py, ms, hfe, h7, by omega, rfl, b1, b2, b3⟩

/-- What the scan knows before pixel `i`. -/
def LocalInv (img : GrayImage) (m : Nat) (fs : List (Nat × Nat)) (i : Nat) (st : Scan) : Prop :=
  ScanInv img i st ∧
  (0 < i % img.width → (∃ f ∈ fs, i / img.width ≤ f.2 + 2 * m) → RowState img (i % img.width) (i / img.width) st) ∧
  ((fs.filter fun f => decide (noticeIndex img.width m f < i)).map fun f => exactCandidate m f.1 f.2).Sublist
    st.candidates ∧
  ∀ f ∈ fs, i ≤ noticeIndex img.width m f → blocked m f.1 (f.2 + 2 * m) st.candidates = false

/-- A step that adds nothing. -/
theorem local_keep {m : Nat} {fs : List (Nat × Nat)} {i : Nat} {st st' : Scan}
    (ho : fs.Pairwise fun a b => noticeIndex img.width m a < noticeIndex img.width m b)
    (h3 : ((fs.filter fun f => decide (noticeIndex img.width m f < i)).map fun f => exactCandidate m f.1 f.2).Sublist
      st.candidates)
    (h4 : ∀ f ∈ fs, i ≤ noticeIndex img.width m f → blocked m f.1 (f.2 + 2 * m) st.candidates = false)
    (hne : ∀ f ∈ fs, noticeIndex img.width m f ≠ i) {l : List FinderPosition}
    (he : st'.candidates = st.candidates ++ l)
    (hl : ∀ f ∈ fs, i < noticeIndex img.width m f → blocked m f.1 (f.2 + 2 * m) l = false) :
    ((fs.filter fun f => decide (noticeIndex img.width m f < i + 1)).map fun f => exactCandidate m f.1 f.2).Sublist
      st'.candidates ∧
    ∀ f ∈ fs, i + 1 ≤ noticeIndex img.width m f → blocked m f.1 (f.2 + 2 * m) st'.candidates = false := by
  obtain ⟨-, hskip⟩ := filter_next (noticeIndex img.width m) fs i ho
  rw [hskip hne, he]
  refine ⟨h3.trans (List.sublist_append_left _ _), ?_⟩
  intro f hf hlt
  rw [blocked_append, h4 f hf (by omega), hl f hf (by omega)]
  rfl

/-- What a run boundary that is not one of the known finder patterns adds. -/
theorem local_spurious (hv : img.Valid) {m : Nat} (hm : 2 ≤ m) {fs : List (Nat × Nat)}
    (hc : ∀ f ∈ fs, CleanFinder img m f.1 f.2) (hn : NoOtherFindersNear img m fs)
    {x y : Nat} (hx : x < img.width) (hy : y < img.height) {p : U8} {st st' : Scan}
    (hst : st.pattern = of (runsAt img x y)) (hsum : (runsAt img x y).sum ≤ x + 1) (hr : atChange img x y p st = .ret st')
    (hg : ∀ c ∈ st'.candidates, GoodCandidate img c)
    (hin : ¬ ∃ f ∈ fs, x = f.1 + 7 * m ∧ f.2 + 2 * m ≤ y ∧ y < f.2 + 5 * m) :
    ∃ l, st'.candidates = st.candidates ++ l ∧ ∀ f ∈ fs, y * img.width + x < noticeIndex img.width m f →
      blocked m f.1 (f.2 + 2 * m) l = false := by
  rcases atChange_adds hv hx hy hst hsum hr with he | ⟨t, px, py, ms, ht, h7, htx, he, b1, b2, b3⟩
  · exact ⟨[], by rw [he, List.append_nil], fun _ _ _ => rfl⟩
  · rcases hn y hy x hx t ht with h | h | h
    · exact absurd h hin
    · obtain ⟨st'', hr', he'⟩ := atChange_spurious (p := p) hv hx hy hst hsum (by
        intro t' ht'
        rw [ht] at ht'
        injection ht' with e
        rw [← e]
        exact h)
      rw [hr] at hr'
      rw [← Run.ret.inj hr'] at he'
      exact ⟨[], by rw [he', List.append_nil], fun _ _ _ => rfl⟩
    · refine ⟨_, he, ?_⟩
      intro f hf hlt
      have hgood := hg _ (by rw [he]; exact List.mem_append_right _ (List.mem_singleton.mpr rfl))
      obtain ⟨⟨gx, gy, hl, -, -, g0, -⟩, -⟩ := hgood
      simp only [Point.mk.injEq, F64.fin.injEq] at hl
      refine far_not_blocked hv hm (hc f hf) hx hy h7 htx (h f hf ?_) b1 b2 b3 (by rw [hl.2]; exact g0)
      unfold noticeIndex at hlt
      by_contra hcon
      have c1 := (hc f hf).1
      rcases Nat.lt_trichotomy y (f.2 + 2 * m) with h | h | h
      · exact hcon (Or.inl h)
      · rw [h] at hlt
        exact hcon (Or.inr ⟨h, by omega⟩)
      · have : (f.2 + 2 * m + 1) * img.width ≤ y * img.width := Nat.mul_le_mul_right _ (by omega)
        rw [Nat.succ_mul] at this
        omega

/-- The counters after a step. -/
theorem local_rows (hv : img.Valid) {m : Nat} {fs : List (Nat × Nat)}
    (hs : ∀ f ∈ fs, ∀ y ≤ f.2 + 2 * m, SteadyRow img img.width y)
    {i : Nat} (hi : i < img.width * img.height) {st st' : Scan} (h1 : ScanInv img i st)
    (h2 : 0 < i % img.width → (∃ f ∈ fs, i / img.width ≤ f.2 + 2 * m) → RowState img (i % img.width) (i / img.width) st)
    (hr : scanPixel img st (i % img.width, i / img.width, pix img (i % img.width) (i / img.width)) = .ret st') :
    0 < (i + 1) % img.width → (∃ f ∈ fs, (i + 1) / img.width ≤ f.2 + 2 * m) →
      RowState img ((i + 1) % img.width) ((i + 1) / img.width) st' := by
  have hw0 : 0 < img.width := by
    rcases Nat.eq_zero_or_pos img.width with h | h
    · rw [h] at hi; simp at hi
    · exact h
  have hxw : i % img.width < img.width := Nat.mod_lt _ hw0
  have hie : i = i / img.width * img.width + i % img.width := (Nat.div_add_mod' i img.width).symm
  generalize hx : i % img.width = x at *
  generalize hy : i / img.width = y at *
  by_cases hend : x + 1 < img.width
  · have hie' : i + 1 = y * img.width + (x + 1) := by omega
    obtain ⟨e1, e2⟩ := row_index (y := y) hend
    rw [← hie'] at e1 e2
    rw [e1, e2]
    rintro _ ⟨f, hf, hfy⟩
    obtain ⟨st'', hr', hst'⟩ := row_step (x := x) (y := y) hv hend (st := st) (fun h => h2 h ⟨f, hf, hfy⟩) h1.1
      (hs f hf y hfy x hxw)
    rw [hr] at hr'
    have := Run.ret.inj hr'
    subst this
    exact hst'
  · intro hpos
    exfalso
    have : i + 1 = (y + 1) * img.width := by rw [Nat.succ_mul]; omega
    rw [this, Nat.mul_mod_left] at hpos
    omega

/-- A finder pattern that is noticed. -/
theorem local_notice (hv : img.Valid) {m : Nat} (hm : 2 ≤ m) {fs : List (Nat × Nat)}
    (hc : ∀ f ∈ fs, CleanFinder img m f.1 f.2) (ho : fs.Pairwise (ScanOrder m))
    (hord : fs.Pairwise fun a b => noticeIndex img.width m a < noticeIndex img.width m b) {st st' : Scan} {f : Nat × Nat}
    (hf : f ∈ fs)
    (h3 : ((fs.filter fun g => decide (noticeIndex img.width m g < noticeIndex img.width m f)).map
      fun f => exactCandidate m f.1 f.2).Sublist st.candidates)
    (h4 : ∀ g ∈ fs, noticeIndex img.width m f ≤ noticeIndex img.width m g →
      blocked m g.1 (g.2 + 2 * m) st.candidates = false)
    (he : st'.candidates = st.candidates ++ [exactCandidate m f.1 f.2]) :
    ((fs.filter fun g => decide (noticeIndex img.width m g < noticeIndex img.width m f + 1)).map
      fun f => exactCandidate m f.1 f.2).Sublist st'.candidates ∧
    ∀ g ∈ fs, noticeIndex img.width m f + 1 ≤ noticeIndex img.width m g →
      blocked m g.1 (g.2 + 2 * m) st'.candidates = false := by
  obtain ⟨hnext, -⟩ := filter_next (noticeIndex img.width m) fs _ hord
  rw [hnext f hf rfl, List.map_append, he]
  refine ⟨h3.append (List.Sublist.refl _), ?_⟩
  intro g hg hlt
  rw [blocked_append, h4 g hg (by omega), Bool.false_or]
  apply others_far (cs := [f]) hv hm (hc g hg)
  intro f' hf'
  rw [List.mem_singleton] at hf'
  subst hf'
  refine ⟨hc f' hf, ?_⟩
  rcases pairwise_cases ho hf hg with h | h | h
  · exact h
  · have := noticeIndex_lt (hc g hg).1 h; omega
  · rw [h] at hlt; omega

theorem local_step (hv : img.Valid) {m : Nat} (hm : 2 ≤ m) {fs : List (Nat × Nat)}
    (hc : ∀ f ∈ fs, CleanFinder img m f.1 f.2) (ho : fs.Pairwise (ScanOrder m))
    (hs : ∀ f ∈ fs, ∀ y ≤ f.2 + 2 * m, SteadyRow img img.width y) (hn : NoOtherFindersNear img m fs)
    {i : Nat} (hi : i < img.width * img.height) {st : Scan} (h : LocalInv img m fs i st) :
    ∃ st', scanPixel img st (i % img.width, i / img.width, pix img (i % img.width) (i / img.width)) = .ret st' ∧
      LocalInv img m fs (i + 1) st' := by
  have hw := hv.2.1
  have hh := hv.2.2
  have hw0 : 0 < img.width := by
    rcases Nat.eq_zero_or_pos img.width with h | h
    · rw [h] at hi; simp at hi
    · exact h
  have hord : fs.Pairwise fun a b => noticeIndex img.width m a < noticeIndex img.width m b := by
    apply List.Pairwise.imp_of_mem _ ho
    intro a b ha _ hab
    exact noticeIndex_lt (hc a ha).1 hab
  obtain ⟨h1, h2, h3, h4⟩ := h
  obtain ⟨st', hr, hinv⟩ := scanPixel_ret (p := pix img (i % img.width) (i / img.width)) hv hi h1
  refine ⟨st', hr, hinv, local_rows hv hs hi h1 h2 hr, ?_⟩
  have hyh : i / img.width < img.height := Nat.div_lt_of_lt_mul hi
  have hxw : i % img.width < img.width := Nat.mod_lt _ hw0
  have hie : i = i / img.width * img.width + i % img.width := (Nat.div_add_mod' i img.width).symm
  generalize hx : i % img.width = x at *
  generalize hy : i / img.width = y at *
  have at_index : ∀ f ∈ fs, noticeIndex img.width m f = i → x = f.1 + 7 * m ∧ y = f.2 + 2 * m := by
    intro f hf he
    obtain ⟨e1, e2⟩ := row_index (y := f.2 + 2 * m) (hc f hf).1
    unfold noticeIndex at he
    rw [he] at e1 e2
    rw [← hx, ← hy]
    exact ⟨e1, e2⟩
  by_cases hlate : ∃ f ∈ fs, y ≤ f.2 + 2 * m
  swap
  · obtain ⟨l, hl⟩ := scanPixel_grows hr
    refine local_keep hord h3 h4 ?_ hl ?_
    · intro f hf he
      exact hlate ⟨f, hf, by have := (at_index f hf he).2; omega⟩
    · intro f hf hlt
      exfalso
      apply hlate
      refine ⟨f, hf, ?_⟩
      by_contra hcon
      have : (f.2 + 2 * m + 1) * img.width ≤ y * img.width := Nat.mul_le_mul_right _ (by omega)
      rw [Nat.succ_mul] at this
      have c1 := (hc f hf).1
      unfold noticeIndex at hlt
      omega
  have keep : (∀ f ∈ fs, noticeIndex img.width m f ≠ i) → st'.candidates = st.candidates →
      ((fs.filter fun f => decide (noticeIndex img.width m f < i + 1)).map fun f => exactCandidate m f.1 f.2).Sublist
        st'.candidates ∧
      ∀ f ∈ fs, i + 1 ≤ noticeIndex img.width m f → blocked m f.1 (f.2 + 2 * m) st'.candidates = false := by
    intro hne he
    exact local_keep hord h3 h4 hne (l := []) (by rw [he, List.append_nil]) (fun _ _ _ => rfl)
  by_cases h0 : x = 0
  · subst h0
    obtain ⟨st'', hr', he⟩ := scan_first_keeps (y := y) (p := pix img 0 y) hw0 (st := st)
    rw [hr] at hr'
    have := Run.ret.inj hr'
    subst this
    exact keep (fun f hf he => by have := (at_index f hf he).1; omega) he
  have h2 := h2 (by omega) hlate
  have hsum := leftOf_runs_sum img x y
  by_cases hch : changesAt img x y
  · rw [scan_change (by omega) h2 hch] at hr
    have hrun : runsAt img x y = runs (leftOf img x y) := by unfold runsAt; rw [if_pos hch]
    by_cases hhit : ∃ f ∈ fs, noticeIndex img.width m f = i
    · obtain ⟨f, hf, he⟩ := hhit
      obtain ⟨rfl, rfl⟩ := at_index f hf he
      subst he
      have hshape := atChange_shape hr
      rw [hit_new (hc f hf) hv hm h2.1 (h4 f hf (le_refl _)) hshape.2.1] at hr
      exact local_notice hv hm hc ho hord hf h3 h4 (by rw [← Run.ret.inj hr])
    · have hne : ∀ f ∈ fs, noticeIndex img.width m f ≠ i := fun f hf he => hhit ⟨f, hf, he⟩
      by_cases hin : ∃ f ∈ fs, x = f.1 + 7 * m ∧ f.2 + 2 * m ≤ y ∧ y < f.2 + 5 * m
      · apply keep hne
        obtain ⟨f, hf, rfl, b1, b2⟩ := hin
        have hshape := atChange_shape hr
        have hlt : f.2 + 2 * m < y := by
          rcases Nat.lt_or_eq_of_le b1 with h | h
          · exact h
          · exfalso
            apply hne f hf
            unfold noticeIndex
            rw [h]
            exact hie.symm
        have hmem : exactCandidate m f.1 f.2 ∈ st.candidates := by
          apply h3.subset
          apply List.mem_map_of_mem (f := fun f : Nat × Nat => exactCandidate m f.1 f.2)
          rw [List.mem_filter, decide_eq_true_eq]
          refine ⟨hf, ?_⟩
          unfold noticeIndex
          have : (f.2 + 2 * m + 1) * img.width ≤ y * img.width := Nat.mul_le_mul_right _ (by omega)
          rw [Nat.succ_mul] at this
          have := (hc f hf).1
          omega
        have c2 := (hc f hf).2.1
        rw [hit_blocked (hc f hf) hv (by omega) b1 b2 h2.1 (own_blocked (by omega) (by omega) b1 b2 hmem)
          hshape.2.1] at hr
        rw [← Run.ret.inj hr]
      · obtain ⟨l, hl, hb⟩ := local_spurious hv hm hc hn hxw hyh (by rw [hrun]; exact h2.1) (by rw [hrun]; omega) hr
          hinv.1 hin
        exact local_keep hord h3 h4 hne hl (by rw [← hie] at hb; exact hb)
  · have hin : ¬ ∃ f ∈ fs, x = f.1 + 7 * m ∧ f.2 + 2 * m ≤ y ∧ y < f.2 + 5 * m := by
      rintro ⟨f, hf, rfl, b1, b2⟩
      exact hch (finder_changes (hc f hf) (by omega) b1 b2)
    have hne' : ∀ f ∈ fs, noticeIndex img.width m f ≠ i := by
      intro f hf he
      obtain ⟨e1, e2⟩ := at_index f hf he
      exact hin ⟨f, hf, e1, by omega, by omega⟩
    by_cases hend : x + 1 < img.width
    · apply keep hne'
      obtain ⟨st'', hr', -, he⟩ := scan_stay hw (by omega) hend h2 hch
      rw [hr] at hr'
      rw [Run.ret.inj hr']
      exact he
    · have hend : x + 1 = img.width := by omega
      rw [scan_last hw (by omega) hend h2 hch] at hr
      have hrun : runsAt img x y = runs (leftOf img img.width y) := by
        unfold runsAt; rw [if_neg hch, if_pos hend]
      obtain ⟨l, hl, hb⟩ := local_spurious hv hm hc hn hxw hyh (by rw [hrun])
        (by rw [hrun, leftOf_runs_sum]; omega) hr hinv.1 hin
      exact local_keep hord h3 h4 hne' hl (by rw [← hie] at hb; exact hb)

/-- The finder patterns are among the candidates, in their order. -/
theorem candidates_local (hv : img.Valid) {m : Nat} (hm : 2 ≤ m) {fs : List (Nat × Nat)}
    (hc : ∀ f ∈ fs, CleanFinder img m f.1 f.2) (ho : fs.Pairwise (ScanOrder m))
    (hs : ∀ f ∈ fs, ∀ y ≤ f.2 + 2 * m, SteadyRow img img.width y) (hn : NoOtherFindersNear img m fs) :
    ∃ cs, candidates img = .ret cs ∧ (fs.map fun f => exactCandidate m f.1 f.2).Sublist cs ∧
      ∀ c ∈ cs, GoodCandidate img c := by
  unfold candidates
  have hl : img.enumeratePixels.length = img.pixels.length := by simp [GrayImage.enumeratePixels]
  obtain ⟨st, hst, hinv⟩ := foldlM_inv (f := scanPixel img) (I := LocalInv img m fs) img.enumeratePixels 0
    ⟨[], 127#8, {}⟩ ⟨⟨by simp, by simp⟩, by simp, by simp, fun _ _ _ => rfl⟩ (by
      intro i s hi hI'
      rw [enumerate_get hi]
      rw [Nat.zero_add] at hI' ⊢
      exact local_step hv hm hc ho hs hn (by rw [← hv.1]; omega) hI')
  rw [hst, Run.ret_bind]
  refine ⟨_, rfl, ?_, hinv.1.1⟩
  have : (fs.filter fun f => decide (noticeIndex img.width m f < 0 + img.enumeratePixels.length)) = fs := by
    rw [List.filter_eq_self]
    intro f hf
    rw [decide_eq_true_eq, hl, hv.1, Nat.zero_add]
    have c1 := (hc f hf).1
    have c2 := (hc f hf).2.1
    unfold noticeIndex
    have : (f.2 + 2 * m + 1) * img.width ≤ img.height * img.width := Nat.mul_le_mul_right _ (by omega)
    rw [Nat.mul_comm img.width]
    rw [Nat.succ_mul] at this
    omega
  have h3 := hinv.2.2.1
  rwa [this] at h3

end
end LineScan
end Verif
