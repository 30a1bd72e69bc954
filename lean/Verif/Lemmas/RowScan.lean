import Verif.Lemmas.FinderHit

/-!
# The scan of a row
-/
namespace Verif
namespace LineScan
open F64 FinderPattern Spec

section
variable {img : GrayImage}

theorem leftOf_succ (img : GrayImage) (x y : Nat) : leftOf img (x + 1) y = grey img x y :: leftOf img x y := by
  unfold leftOf
  rw [List.range_succ, List.reverse_append]
  rfl

theorem leftOf_length (img : GrayImage) (x y : Nat) : (leftOf img x y).length = x := by
  unfold leftOf; simp

theorem leftOf_runs_sum (img : GrayImage) (x y : Nat) : (runs (leftOf img x y)).sum = x := by
  rw [runs_sum, leftOf_length]

theorem runs_first (img : GrayImage) (y : Nat) : runs (leftOf img 1 y) = [1] := by
  rw [leftOf_succ]; rfl

theorem runs_stay {x y : Nat} (hx : 0 < x) (h : ¬ changesAt img x y) :
    of (runs (leftOf img (x + 1) y)) =
      { of (runs (leftOf img x y)) with p6 := (of (runs (leftOf img x y))).p6 + 1 } := by
  unfold changesAt at h
  rw [not_not] at h
  obtain ⟨x, rfl⟩ : ∃ k, x = k + 1 := ⟨x - 1, by omega⟩
  rw [Nat.add_sub_cancel] at h
  rw [leftOf_succ img (x + 1), leftOf_succ img x, h]
  obtain ⟨n, ns, e⟩ := runs_ne_nil (grey img (x + 1) y) (leftOf img x y)
  rw [runs_same e, e, of_grow]

theorem runs_change {x y : Nat} (hx : 0 < x) (h : changesAt img x y) :
    runs (leftOf img (x + 1) y) = 1 :: runs (leftOf img x y) := by
  unfold changesAt at h
  obtain ⟨x, rfl⟩ : ∃ k, x = k + 1 := ⟨x - 1, by omega⟩
  rw [Nat.add_sub_cancel] at h
  rw [leftOf_succ img (x + 1), leftOf_succ img x]
  exact runs_diff (Ne.symm h)

/-- The counters and the last pixel in the middle of a row. -/
def RowState (img : GrayImage) (x y : Nat) (st : Scan) : Prop :=
  st.pattern = of (runs (leftOf img x y)) ∧ st.last_pixel = pix img (x - 1) y

theorem atChange_none {x y : Nat} {p : U8} {st : Scan} {s' : FinderPattern}
    (hl : st.pattern.looksLikeFinder = .ret false) (hs : st.pattern.slide = .ret s') :
    atChange img x y p st = .ret { st with last_pixel := p, pattern := s' } := by
  unfold atChange
  rw [hl, Run.ret_bind]
  simp only [Bool.false_eq_true, if_false]
  rw [hs, Run.ret_bind]
  rfl

/-- The first pixel of a row. -/
theorem scan_first (hw : 1 < img.width) {y : Nat} {st : Scan} :
    scanPixel img st (0, y, pix img 0 y) = .ret { st with last_pixel := pix img 0 y, pattern := of [1] } := by
  unfold scanPixel
  simp only [if_true]
  split
  · rename_i h
    have hlast : checkedSub img.width 1 = .ret (img.width - 1) := by
      unfold checkedSub; rw [if_pos (by omega)]
    rw [addU32_ret (by norm_num), Run.ret_bind, hlast, Run.ret_bind, if_pos (by omega), h]
    rfl
  · rw [atChange_none (s' := of [1])]
    · exact Props.missing_run_rejected _ (by norm_num) (by simp)
    · rw [slide_regular (by simp [total]) (by simp)]; rfl

/-- No colour change in the middle of a row. -/
theorem scan_stay (hw : img.width < 2 ^ 32) {x y : Nat} (h0 : 0 < x) (hx : x + 1 < img.width) {st : Scan} (hst : RowState img x y st)
    (hc : ¬ changesAt img x y) :
    ∃ st', scanPixel img st (x, y, pix img x y) = .ret st' ∧ RowState img (x + 1) y st' ∧
      st'.candidates = st.candidates := by
  have hp : pix img x y = st.last_pixel := by
    rw [hst.2, pix_eq_iff]; unfold changesAt at hc; rw [not_not] at hc; exact hc.symm
  have ht := of_total (runs (leftOf img x y))
  rw [leftOf_runs_sum] at ht
  have hlast : checkedSub img.width 1 = .ret (img.width - 1) := by
    unfold checkedSub; rw [if_pos (by omega)]
  unfold scanPixel
  simp only
  rw [if_neg (show ¬ x = 0 by omega), if_pos hp, (grow_ret (by rw [hst.1]; omega)).1, Run.ret_bind, hlast, Run.ret_bind,
    if_pos (by omega)]
  refine ⟨_, rfl, ⟨?_, ?_⟩, rfl⟩
  · simp only; rw [hst.1, runs_stay h0 hc]
  · simp only; rw [← hp, Nat.add_sub_cancel]

/-- A colour change. -/
theorem scan_change {x y : Nat} (h0 : 0 < x) {st : Scan} (hst : RowState img x y st)
    (hc : changesAt img x y) : scanPixel img st (x, y, pix img x y) = atChange img x y (pix img x y) st := by
  have hp : pix img x y ≠ st.last_pixel := by
    rw [hst.2, Ne, pix_eq_iff]; unfold changesAt at hc; exact Ne.symm hc
  unfold scanPixel
  simp only
  rw [if_neg (show ¬ x = 0 by omega), if_neg hp]

/-- No colour change at the end of a row. -/
theorem scan_last (hw : img.width < 2 ^ 32) {x y : Nat} (h0 : 0 < x) (hx : x + 1 = img.width) {st : Scan}
    (hst : RowState img x y st) (hc : ¬ changesAt img x y) :
    scanPixel img st (x, y, pix img x y) =
      atChange img x y (pix img x y) { st with pattern := of (runs (leftOf img img.width y)) } := by
  have hp : pix img x y = st.last_pixel := by
    rw [hst.2, pix_eq_iff]; unfold changesAt at hc; rw [not_not] at hc; exact hc.symm
  have ht := of_total (runs (leftOf img x y))
  rw [leftOf_runs_sum] at ht
  have hlast : checkedSub img.width 1 = .ret (img.width - 1) := by
    unfold checkedSub; rw [if_pos (by omega)]
  unfold scanPixel
  simp only
  rw [if_neg (show ¬ x = 0 by omega), if_pos hp, (grow_ret (by rw [hst.1]; omega)).1, Run.ret_bind, hlast, Run.ret_bind,
    if_neg (by omega), hst.1, ← runs_stay h0 hc, hx]

theorem atChange_shape {x y : Nat} {p : U8} {st st' : Scan} (h : atChange img x y p st = .ret st') :
    (∃ l, st'.candidates = st.candidates ++ l) ∧ st.pattern.slide = .ret st'.pattern ∧ st'.last_pixel = p := by
  unfold atChange at h
  cases hl : st.pattern.looksLikeFinder with
  | panic => rw [hl] at h; cases h
  | ret b =>
    rw [hl, Run.ret_bind] at h
    cases hs : st.pattern.slide with
    | panic =>
      exfalso
      rw [hs] at h
      cases b with
      | false => cases h
      | true =>
        simp only [if_true] at h
        cases he : st.pattern.estModSize with
        | panic => rw [he] at h; cases h
        | ret ms =>
          rw [he, Run.ret_bind] at h
          split at h
          · cases h
          · cases hr : refineAll img ⟨F64.ofNat x - ms * F64.lit 35 10, F64.ofNat y⟩ ms with
            | panic => rw [hr] at h; cases h
            | ret r =>
              rw [hr, Run.ret_bind] at h
              cases r with
              | none => cases h
              | some r => cases h
    | ret s' =>
      rw [hs] at h
      cases b with
      | false =>
        simp only [Bool.false_eq_true, if_false, Run.ret_bind, Run.pure_eq, Run.ret.injEq] at h
        exact ⟨⟨[], by rw [← h]; simp⟩, by rw [← h], by rw [← h]⟩
      | true =>
        simp only [if_true] at h
        cases he : st.pattern.estModSize with
        | panic => rw [he] at h; cases h
        | ret ms =>
          rw [he, Run.ret_bind] at h
          split at h
          · simp only [Run.ret_bind, Run.pure_eq, Run.ret.injEq] at h
            exact ⟨⟨[], by rw [← h]; simp⟩, by rw [← h], by rw [← h]⟩
          · cases hr : refineAll img ⟨F64.ofNat x - ms * F64.lit 35 10, F64.ofNat y⟩ ms with
            | panic => rw [hr] at h; cases h
            | ret r =>
              rw [hr, Run.ret_bind] at h
              cases r with
              | none =>
                simp only [Run.ret_bind, Run.pure_eq, Run.ret.injEq] at h
                exact ⟨⟨[], by rw [← h]; simp⟩, by rw [← h], by rw [← h]⟩
              | some r =>
                simp only [Run.ret_bind, Run.pure_eq, Run.ret.injEq] at h
                exact ⟨⟨_, by rw [← h]⟩, by rw [← h], by rw [← h]⟩

theorem atChange_grows {x y : Nat} {p : U8} {st st' : Scan} (h : atChange img x y p st = .ret st') :
    ∃ l, st'.candidates = st.candidates ++ l := (atChange_shape h).1

theorem scanPixel_grows {q : Nat × Nat × U8} {st st' : Scan} (h : scanPixel img st q = .ret st') :
    ∃ l, st'.candidates = st.candidates ++ l := by
  obtain ⟨x, y, p⟩ := q
  unfold scanPixel at h
  simp only at h
  have hc : (if x = 0 then { st with last_pixel := 127#8, pattern := {} } else st : Scan).candidates = st.candidates := by
    split <;> rfl
  rw [← hc]
  generalize (if x = 0 then { st with last_pixel := 127#8, pattern := {} } else st : Scan) = st1 at *
  split at h
  · cases ha : addU32 st1.pattern.p6 1 with
    | panic => rw [ha] at h; cases h
    | ret p6 =>
      rw [ha, Run.ret_bind] at h
      cases hl : checkedSub img.width 1 with
      | panic => rw [hl] at h; cases h
      | ret n =>
        rw [hl, Run.ret_bind] at h
        split at h
        · simp only [Run.pure_eq, Run.ret.injEq] at h
          exact ⟨[], by rw [← h]; simp⟩
        · obtain ⟨l, e⟩ := atChange_grows h
          exact ⟨l, e⟩
  · exact atChange_grows h

/-- What a scan line sees at the end of a finder pattern. -/
theorem finder_row {m fx fy y : Nat} (hc : CleanFinder img m fx fy) (hm : 0 < m) (h1 : fy + 2 * m ≤ y)
    (h2 : y < fy + 5 * m) :
    ∃ rest, runs (leftOf img (fx + 7 * m) y) = m :: m :: 3 * m :: m :: m :: rest := by
  have block : ∀ (a n c : Nat), (∀ x, a ≤ x → x < a + n → grey img x y = c) →
      leftOf img (a + n) y = List.replicate n c ++ leftOf img a y := by
    intro a n c
    induction n with
    | zero => intro _; rfl
    | succ n ih =>
      intro h
      rw [← Nat.add_assoc, leftOf_succ, h (a + n) (by omega) (by omega), ih (fun x h1 h2 => h x h1 (by omega)),
        List.replicate_succ, List.cons_append]
  have c1 := hc.1
  have c2 := hc.2.1
  have dark : ∀ x, fx ≤ x → x < fx + 7 * m → (x < fx + m ∨ fx + 6 * m ≤ x ∨ (fx + 2 * m ≤ x ∧ x < fx + 5 * m)) →
      grey img x y = 0 := by
    intro x h1 h2 h3
    rw [grey_pix, clean_dark hc hm h1 (by omega) h2 (by omega) (by omega)]; rfl
  have light : ∀ x, fx + m ≤ x → x < fx + 6 * m → (x < fx + 2 * m ∨ fx + 5 * m ≤ x) → grey img x y = 255 := by
    intro x h1 h2 h3
    rw [grey_pix, clean_light hc hm (by omega) (by omega) (by omega) (by omega) (by omega) (by omega) (by omega)]; rfl
  have e : leftOf img (fx + 7 * m) y = List.replicate m 0 ++ (List.replicate m 255 ++ (List.replicate (3 * m) 0 ++
      (List.replicate m 255 ++ (List.replicate m 0 ++ leftOf img fx y)))) := by
    rw [show fx + 7 * m = fx + m + m + 3 * m + m + m by omega]
    rw [block (fx + m + m + 3 * m + m) m 0 (fun x h1 h2 => dark x (by omega) (by omega) (by omega)),
      block (fx + m + m + 3 * m) m 255 (fun x h1 h2 => light x (by omega) (by omega) (by omega)),
      block (fx + m + m) (3 * m) 0 (fun x h1 h2 => dark x (by omega) (by omega) (by omega)),
      block (fx + m) m 255 (fun x h1 h2 => light x (by omega) (by omega) (by omega)),
      block fx m 0 (fun x h1 h2 => dark x (by omega) (by omega) (by omega))]
  obtain ⟨k, rfl⟩ : ∃ k, m = k + 1 := ⟨m - 1, by omega⟩
  have e3 : 3 * (k + 1) = 3 * k + 2 + 1 := by omega
  refine ⟨runs (leftOf img fx y), ?_⟩
  rw [e]
  have hd : ∀ (n c : Nat) (l : List Nat) b, (List.replicate (n + 1) c ++ l).head? = some b → b = c := by
    intro n c l b h
    rw [List.replicate_succ, List.cons_append, List.head?_cons, Option.some.injEq] at h
    exact h.symm
  rw [runs_replicate, runs_replicate, e3, runs_replicate, runs_replicate, runs_replicate]
  · intro b hb
    cases fx with
    | zero => simp [leftOf] at hb
    | succ z =>
      rw [leftOf_succ, List.head?_cons, Option.some.injEq] at hb
      rw [← hb, grey_pix, clean_light hc hm (by omega) (by omega) (by omega) (by omega) (by omega) (by omega)
        (by omega)]
      decide
  · intro b hb; rw [hd _ _ _ _ hb]; decide
  · intro b hb; rw [hd _ _ _ _ hb]; decide
  · rw [e3]; intro b hb; rw [hd _ _ _ _ hb]; decide
  · intro b hb; rw [hd _ _ _ _ hb]; decide

theorem finder_changes {m fx fy y : Nat} (hc : CleanFinder img m fx fy) (hm : 0 < m) (h1 : fy + 2 * m ≤ y)
    (h2 : y < fy + 5 * m) : changesAt img (fx + 7 * m) y := by
  have c1 := hc.1
  have c2 := hc.2.1
  unfold changesAt
  rw [grey_pix, grey_pix, clean_dark hc hm (by omega) (by omega) (by omega) (by omega) (by omega),
    clean_light hc hm (by omega) (by omega) (by omega) (by omega) (by omega) (by omega) (by omega)]
  decide

end
end LineScan
end Verif
