import Verif.Lemmas.Threshold

/-!
# Properties C43-C47: preparation by local thresholds

`BlockedMean.mk block_size block_mean_size` is a configured preparer; `Spec.Threshold` says what it
should do, in exact arithmetic. Images with more than 2^44 pixels are outside the statements about exact
thresholds: beyond that size the `f64` mean is no longer precise enough.
-/
namespace Verif.Props

open Spec BlockedMean

/-! ### The preparer computes the specified image -/

/-- Pixels in the blocks around block `(bx, by_)`. -/
def blockWindow (bs ms : Nat) (img : GrayImage) (bx by_ : Nat) : List (Nat × Nat) :=
  (positions img.width img.height).filter fun p =>
    nearBlock (img.width / bs) ((ms - 1) / 2) bx (p.1 / bs) &&
    nearBlock (img.height / bs) ((ms - 1) / 2) by_ (p.2 / bs)

theorem sum_ite {α : Type} (l : List α) (f : α → Nat) (p : α → Bool) :
    (l.map fun a => if p a then f a else 0).sum = ((l.filter p).map f).sum := by
  induction l with
  | nil => rfl
  | cons a l ih =>
    rw [List.map_cons, List.sum_cons, ih, List.filter_cons]
    split <;> simp

theorem sum_one {α : Type} (l : List α) : (l.map fun _ => 1).sum = l.length := by
  induction l with
  | nil => rfl
  | cons a l ih => rw [List.map_cons, List.sum_cons, ih, List.length_cons]; omega

theorem sum_le_255 {α : Type} (l : List α) (f : α → Nat) (h : ∀ a ∈ l, f a ≤ 255) :
    (l.map f).sum ≤ 255 * l.length := by
  induction l with
  | nil => simp
  | cons a l ih =>
    rw [List.map_cons, List.sum_cons, List.length_cons]
    have h1 := h a (by simp)
    have h2 := ih (fun b hb => h b (by simp [hb]))
    omega

theorem grey_le (img : GrayImage) (x y : Nat) : grey img x y ≤ 255 := by
  unfold grey; have := (img.pixels.getD (y * img.width + x) 0).isLt; omega

theorem mem_range_iff {n stride b c : Nat} (hs : 1 ≤ stride) (hn : 1 ≤ n) (hb : b ≤ n) :
    ∃ l, BlockedMean.range (max 0 (b - stride)) (min n (b + stride)) = .ret l ∧ l.Nodup ∧
      (∀ c, c ∈ l ↔ nearBlock n stride b c = true) ∧ (∀ c ∈ l, c ≤ n) := by
  unfold BlockedMean.range checkedSub
  rw [if_pos (by omega)]
  refine ⟨_, rfl, List.nodup_range', ?_, ?_⟩
  · intro c
    simp only [List.mem_range'_1, nearBlock, Bool.and_eq_true, decide_eq_true_eq]
    omega
  · intro c
    simp only [List.mem_range'_1]
    omega

theorem positions_length (w h : Nat) : (positions w h).length = w * h := by
  rw [positions_eq]; simp

/-- The window of a block is never empty. -/
theorem blockWindow_ne {bs ms : Nat} {img : GrayImage} (hd : ThresholdDefined bs ms img.width img.height)
    {bx by_ : Nat} (hx : bx ≤ img.width / bs) (hy : by_ ≤ img.height / bs) :
    0 < (blockWindow bs ms img bx by_).length := by
  obtain ⟨h0, h3, hw, hh, hn, ho1, ho2⟩ := hd
  have hw1 : 1 ≤ img.width / bs := (Nat.le_div_iff_mul_le h0).mpr (by omega)
  have hh1 : 1 ≤ img.height / bs := (Nat.le_div_iff_mul_le h0).mpr (by omega)
  apply List.length_pos_of_mem (a := ((bx - (ms - 1) / 2) * bs, (by_ - (ms - 1) / 2) * bs))
  unfold blockWindow
  rw [List.mem_filter, mem_positions]
  simp only [nearBlock, Nat.mul_div_cancel _ h0, Bool.and_eq_true, decide_eq_true_eq]
  have k1 : bx - (ms - 1) / 2 + 1 ≤ img.width / bs := by omega
  have k2 : by_ - (ms - 1) / 2 + 1 ≤ img.height / bs := by omega
  have l1 := Nat.mul_le_mul_right bs k1
  have l2 := Nat.mul_le_mul_right bs k2
  have m1 := Nat.div_mul_le_self img.width bs
  have m2 := Nat.div_mul_le_self img.height bs
  rw [Nat.succ_mul] at l1 l2
  refine ⟨⟨by omega, by omega⟩, ⟨?_, ?_⟩⟩ <;> omega

/-- **The preparer computes exactly the specified image**, whenever thresholding is defined. -/
theorem prepare_eq (bs ms : Nat) (img : GrayImage) (hv : img.Valid)
    (hs : img.width * img.height ≤ 2 ^ 44) (hd : ThresholdDefined bs ms img.width img.height) :
    (BlockedMean.mk bs ms).prepare img = .ret { img with
      pixels := (positions img.width img.height).map fun p =>
        if BecomesWhite bs ms img p.1 p.2 then 255#8 else 0#8 } := by
  obtain ⟨h0, h3, hw, hh, hn, ho1, ho2⟩ := hd
  have hd : ThresholdDefined bs ms img.width img.height := ⟨h0, h3, hw, hh, hn, ho1, ho2⟩
  have hw1 : 1 ≤ img.width / bs := (Nat.le_div_iff_mul_le h0).mpr (by omega)
  have hh1 : 1 ≤ img.height / bs := (Nat.le_div_iff_mul_le h0).mpr (by omega)
  have hst : 1 ≤ (ms - 1) / 2 := by omega
  have hA : ∀ x y, asBlockCoords x y bs = .ret (x / bs, y / bs) := by
    intro x y; unfold asBlockCoords; rw [if_neg (by omega)]
  have hN : numBlocks (img.width / bs) (img.height / bs)
      = .ret ((img.width / bs + 1) * (img.height / bs + 1)) := by
    unfold numBlocks addU32 mulU32
    have := Nat.le_mul_of_pos_right (img.width / bs + 1) (show 0 < img.height / bs + 1 by omega)
    have := Nat.le_mul_of_pos_left (img.height / bs + 1) (show 0 < img.width / bs + 1 by omega)
    rw [if_pos (by omega), Run.ret_bind, if_pos (by omega), Run.ret_bind, if_pos hn]
  -- the enumerated pixels
  have hE := enumerate_eq hv
  have hq : ∀ q ∈ img.enumeratePixels, q.1 < img.width ∧ q.2.1 < img.height := by
    intro q hq
    rw [hE, List.mem_map] at hq
    obtain ⟨p, hp, rfl⟩ := hq
    exact mem_positions.mp hp
  have hlen : img.enumeratePixels.length = img.width * img.height := by
    rw [hE, List.length_map, positions_length]
  have z1 : ∀ n i, tot (List.replicate n ⟨0, 0, .fin 0⟩) i = 0 := by
    intro n i; unfold tot
    rw [List.getD_eq_getElem?_getD, List.getElem?_replicate]; split <;> rfl
  have z2 : ∀ n i, cnt (List.replicate n ⟨0, 0, .fin 0⟩) i = 0 := by
    intro n i; unfold cnt
    rw [List.getD_eq_getElem?_getD, List.getElem?_replicate]; split <;> rfl
  obtain ⟨b1, e1, l1, t1, c1⟩ := addPixels_ret h0 hn img.enumeratePixels hq
    (List.replicate ((img.width / bs + 1) * (img.height / bs + 1)) ⟨0, 0, .fin 0⟩) (by simp)
    (by intro i; rw [z1, hlen]; omega) (by intro i; rw [z2, hlen]; omega)
  simp only [z1, z2, Nat.zero_add, List.length_replicate] at t1 c1 l1
  -- the block map
  generalize hB : (b1.map fun s => { s with mean := F64.ofNat s.total / F64.ofNat s.count }) = B
  have hmap : (BlockedMean.mk bs ms).asBlockMap img = .ret B := by
    unfold asBlockMap
    rw [hA]
    simp only [Run.ret_bind, hN]
    rw [e1]
    simp only [Run.ret_bind, Run.pure_eq, hB]
  have hBl : B.length = (img.width / bs + 1) * (img.height / bs + 1) := by rw [← hB]; simpa using l1
  have hBt : ∀ i, tot B i = tot b1 i := by
    intro i; unfold tot
    rw [← hB, List.getD_eq_getElem?_getD, List.getD_eq_getElem?_getD, List.getElem?_map]
    cases b1[i]? <;> rfl
  have hBc : ∀ i, cnt B i = cnt b1 i := by
    intro i; unfold cnt
    rw [← hB, List.getD_eq_getElem?_getD, List.getD_eq_getElem?_getD, List.getElem?_map]
    cases b1[i]? <;> rfl
  -- window sums
  have hW : ∀ bx ≤ img.width / bs, ∀ by_ ≤ img.height / bs,
      windowSum B (img.width / bs) (img.height / bs) ((ms - 1) / 2) bx by_
        = .ret (((blockWindow bs ms img bx by_).map fun p => grey img p.1 p.2).sum,
            (blockWindow bs ms img bx by_).length) := by
    intro bx hbx by_ hby
    obtain ⟨xs, rx, nx, mx, bx'⟩ := mem_range_iff (c := 0) hst hw1 hbx
    obtain ⟨ys, ry, ny, my, by'⟩ := mem_range_iff (c := 0) hst hh1 hby
    have hqb : ∀ q ∈ img.enumeratePixels, q.1 / bs ≤ img.width / bs := fun q h' =>
      Nat.div_le_div_right (Nat.le_of_lt (hq q h').1)
    have ft := rect_sum (bs := bs) (fun q => q.2.2.toNat) img.enumeratePixels hqb xs ys bx' nx ny
    have fc := rect_sum (bs := bs) (fun _ => 1) img.enumeratePixels hqb xs ys bx' nx ny
    have gt : (xs.map fun x => (ys.map fun y => tot B (y * (img.width / bs + 1) + x)).sum).sum
        = ((blockWindow bs ms img bx by_).map fun p => grey img p.1 p.2).sum := by
      simp only [hBt, t1]
      rw [ft, hE, List.map_map]
      unfold blockWindow
      rw [← sum_ite]
      apply congrArg List.sum
      apply List.map_congr_left
      intro p _
      simp only [Function.comp, mx, my, Bool.and_eq_true, grey]
    have gc : (xs.map fun x => (ys.map fun y => cnt B (y * (img.width / bs + 1) + x)).sum).sum
        = (blockWindow bs ms img bx by_).length := by
      simp only [hBc, c1]
      rw [fc, hE, List.map_map]
      unfold blockWindow
      rw [← sum_one, ← sum_ite]
      apply congrArg List.sum
      apply List.map_congr_left
      intro p _
      simp only [Function.comp, mx, my, Bool.and_eq_true]
    have hcl : (blockWindow bs ms img bx by_).length ≤ 2 ^ 44 := by
      refine le_trans (List.length_filter_le _ _) ?_
      rw [positions_length]; exact hs
    have htl : ((blockWindow bs ms img bx by_).map fun p => grey img p.1 p.2).sum
        ≤ 255 * (blockWindow bs ms img bx by_).length :=
      sum_le_255 _ _ (fun p _ => grey_le img p.1 p.2)
    unfold windowSum addU32
    rw [if_pos (by omega), if_pos (by omega)]
    simp only [Run.ret_bind]
    rw [rx]
    simp only [Run.ret_bind]
    have := sumRows_ret (blocks := B) hn hBl ys ry by' xs bx' (0, 0)
      (by rw [gt]; omega) (by rw [gc]; omega)
    rw [this, gt, gc]
    simp
  -- the means
  obtain ⟨m, em, hml, hm⟩ := setMeans_outer (blocks := B) (stride := (ms - 1) / 2)
    (fun a b => F64.ofNat ((blockWindow bs ms img a b).map fun p => grey img p.1 p.2).sum
      / F64.ofNat (blockWindow bs ms img a b).length)
    hn (rangeInc 0 (img.height / bs)) (by unfold rangeInc; intro y; rw [List.mem_range'_1]; omega)
    (rangeInc 0 (img.width / bs)) (by unfold rangeInc; intro y; rw [List.mem_range'_1]; omega)
    (by
      intro x hx y hy
      unfold rangeInc at hx hy
      rw [List.mem_range'_1] at hx hy
      exact ⟨_, _, hW x (by omega) y (by omega), rfl⟩)
    (List.replicate ((img.width / bs + 1) * (img.height / bs + 1)) ⟨0, 0, .fin 0⟩) (by simp)
  rw [List.length_replicate] at hml
  have hmean : (BlockedMean.mk bs ms).toBlockMeanMap B img.width img.height = .ret m := by
    unfold toBlockMeanMap checkedSub
    rw [if_pos (show 1 ≤ ms by omega)]
    simp only [Run.ret_bind, hA, hN]
    exact em
  -- the threshold
  unfold BlockedMean.prepare
  rw [hmap, Run.ret_bind, hmean, Run.ret_bind]
  unfold toThreshold
  rw [hE]
  rw [mapM_ret _ (fun q => if BecomesWhite bs ms img q.1 q.2.1 then 255#8 else 0#8)]
  · simp only [Run.ret_bind, Run.pure_eq, List.map_map]
    rfl
  · intro q hq'
    rw [List.mem_map] at hq'
    obtain ⟨p, hp, rfl⟩ := hq'
    rw [mem_positions] at hp
    have k1 : p.1 / bs ≤ img.width / bs := Nat.div_le_div_right (Nat.le_of_lt hp.1)
    have k2 : p.2 / bs ≤ img.height / bs := Nat.div_le_div_right (Nat.le_of_lt hp.2)
    obtain ⟨i1, i2⟩ := toIndex_ret k1 k2 hn
    rw [← hml] at i2
    unfold BlockedMean.threshold
    rw [hA, hA]
    simp only [Run.ret_bind, i1]
    rw [List.getElem?_eq_getElem i2]
    simp only [Run.pure_eq]
    have hmv := hm (p.1 / bs) (p.2 / bs) k1
    have hin : p.1 / bs ∈ rangeInc 0 (img.width / bs) ∧ p.2 / bs ∈ rangeInc 0 (img.height / bs) := by
      unfold rangeInc
      rw [List.mem_range'_1, List.mem_range'_1]
      refine ⟨⟨Nat.zero_le _, ?_⟩, ⟨Nat.zero_le _, ?_⟩⟩ <;> omega
    rw [if_pos hin, getD_eq i2] at hmv
    rw [hmv]
    have hcl : (blockWindow bs ms img (p.1 / bs) (p.2 / bs)).length ≤ 2 ^ 44 := by
      refine le_trans (List.length_filter_le _ _) ?_
      rw [positions_length]; exact hs
    rw [thresholdPixel_eq (blockWindow_ne hd k1 k2) hcl
      (sum_le_255 _ _ (fun p _ => grey_le img p.1 p.2))]
    rfl

/-! ### C43 -/

theorem mapM_mem {α β : Type} {f : α → Run β} {l : List α} {r : List β} (h : l.mapM f = .ret r) :
    r.length = l.length ∧ ∀ b ∈ r, ∃ a ∈ l, f a = .ret b := by
  induction l generalizing r with
  | nil =>
    have : r = [] := by simpa [Run.pure_eq] using h.symm
    subst this; simp
  | cons a l ih =>
    rw [List.mapM_cons] at h
    cases ha : f a with
    | panic => rw [ha] at h; simp at h
    | ret b =>
      cases hl : l.mapM f with
      | panic => rw [ha, hl] at h; simp at h
      | ret bs =>
        rw [ha, hl] at h
        simp only [Run.ret_bind, Run.pure_eq, Run.ret.injEq] at h
        subst h
        obtain ⟨h1, h2⟩ := ih hl
        refine ⟨by simp [h1], ?_⟩
        intro c hc
        rcases List.mem_cons.mp hc with rfl | hc
        · exact ⟨a, by simp, ha⟩
        · obtain ⟨x, hx, hfx⟩ := h2 c hc
          exact ⟨x, by simp [hx], hfx⟩

/-- **C43.** Whatever the sizes, an image the preparer returns has the dimensions of the input and consists
of black (0) and white (255) pixels only. -/
theorem prepare_black_white (bs ms : Nat) (img out : GrayImage)
    (h : (BlockedMean.mk bs ms).prepare img = .ret out) :
    out.width = img.width ∧ out.height = img.height ∧ out.pixels.length = img.pixels.length ∧
    ∀ p ∈ out.pixels, p = 0#8 ∨ p = 255#8 := by
  unfold BlockedMean.prepare at h
  cases h1 : (BlockedMean.mk bs ms).asBlockMap img with
  | panic => rw [h1] at h; simp at h
  | ret B =>
    rw [h1, Run.ret_bind] at h
    cases h2 : (BlockedMean.mk bs ms).toBlockMeanMap B img.width img.height with
    | panic => rw [h2] at h; simp at h
    | ret m =>
      rw [h2, Run.ret_bind] at h
      unfold toThreshold at h
      cases h3 : img.enumeratePixels.mapM
          ((BlockedMean.mk bs ms).threshold m img.width img.height) with
      | panic => rw [h3] at h; simp at h
      | ret px =>
        rw [h3] at h
        simp only [Run.ret_bind, Run.pure_eq, Run.ret.injEq] at h
        subst h
        obtain ⟨k1, k2⟩ := mapM_mem h3
        refine ⟨rfl, rfl, by simpa [GrayImage.enumeratePixels] using k1, ?_⟩
        intro p hp
        obtain ⟨q, _, hq⟩ := k2 p hp
        unfold BlockedMean.threshold at hq
        cases a1 : asBlockCoords img.width img.height bs with
        | panic => simp only [a1, Run.panic_bind] at hq; cases hq
        | ret c1 =>
          cases a2 : asBlockCoords q.1 q.2.1 bs with
          | panic => simp only [a1, a2, Run.ret_bind, Run.panic_bind] at hq; cases hq
          | ret c2 =>
            cases a3 : toIndex c2 c1.1 with
            | panic => simp only [a1, a2, a3, Run.ret_bind, Run.panic_bind] at hq; cases hq
            | ret i =>
              simp only [a1, a2, a3, Run.ret_bind, Run.pure_eq] at hq
              cases a4 : m[i]? with
              | none => simp only [a4] at hq; cases hq
              | some s =>
                simp only [a4, Run.ret.injEq] at hq
                subst hq
                unfold thresholdPixel
                repeat' split
                all_goals simp

/-! ### C45 -/

theorem foldlM_panic {α β : Type} {f : β → α → Run β} {l : List α} {a : α} (ha : a ∈ l)
    (h : ∀ acc, f acc a = .panic) (acc : β) : l.foldlM f acc = .panic := by
  induction l generalizing acc with
  | nil => simp at ha
  | cons x l ih =>
    rw [List.foldlM_cons]
    rcases List.mem_cons.mp ha with rfl | ha
    · rw [h]; rfl
    · cases f acc x with
      | panic => rfl
      | ret b => exact ih ha b

theorem prepare_panics (bs ms : Nat) (img : GrayImage) (hv : img.Valid)
    (hs : img.width * img.height ≤ 2 ^ 44) (hd : ¬ ThresholdDefined bs ms img.width img.height) :
    (BlockedMean.mk bs ms).prepare img = .panic := by
  by_cases h0 : bs = 0
  · subst h0
    simp [BlockedMean.prepare, asBlockMap, asBlockCoords]
  have h0 : 0 < bs := Nat.pos_of_ne_zero h0
  have hA : ∀ x y, asBlockCoords x y bs = .ret (x / bs, y / bs) := by
    intro x y; unfold asBlockCoords; rw [if_neg (by omega)]
  have q1 := Nat.zero_le (img.width / bs)
  have q2 := Nat.zero_le (img.height / bs)
  by_cases hn : (img.width / bs + 1) * (img.height / bs + 1) < 2 ^ 32
  swap
  · have hN : numBlocks (img.width / bs) (img.height / bs) = .panic := by
      unfold numBlocks addU32 mulU32
      by_cases a1 : img.width / bs + 1 < 2 ^ 32
      · rw [if_pos a1, Run.ret_bind]
        by_cases a2 : img.height / bs + 1 < 2 ^ 32
        · rw [if_pos a2, Run.ret_bind, if_neg hn]
        · rw [if_neg a2, Run.panic_bind]
      · rw [if_neg a1, Run.panic_bind]
    simp only [BlockedMean.prepare, asBlockMap, hA, Run.ret_bind, hN, Run.panic_bind]
  have hN : numBlocks (img.width / bs) (img.height / bs)
      = .ret ((img.width / bs + 1) * (img.height / bs + 1)) := by
    unfold numBlocks addU32 mulU32
    have := Nat.le_mul_of_pos_right (img.width / bs + 1) (show 0 < img.height / bs + 1 by omega)
    have := Nat.le_mul_of_pos_left (img.height / bs + 1) (show 0 < img.width / bs + 1 by omega)
    rw [if_pos (by omega), Run.ret_bind, if_pos (by omega), Run.ret_bind, if_pos hn]
  unfold BlockedMean.prepare
  cases hB : (BlockedMean.mk bs ms).asBlockMap img with
  | panic => rfl
  | ret B =>
    rw [Run.ret_bind]
    suffices hm : (BlockedMean.mk bs ms).toBlockMeanMap B img.width img.height = .panic by
      rw [hm, Run.panic_bind]
    unfold toBlockMeanMap checkedSub
    by_cases hms : 1 ≤ ms
    swap
    · rw [if_neg hms, Run.panic_bind]
    rw [if_pos hms]
    simp only [Run.ret_bind, hA, hN]
    -- some block has no mean
    suffices hex : ∃ bx ≤ img.width / bs, ∃ by_ ≤ img.height / bs,
        windowSum B (img.width / bs) (img.height / bs) ((ms - 1) / 2) bx by_ = .panic by
      obtain ⟨bx, hbx, by_, hby, hp⟩ := hex
      refine foldlM_panic (a := bx) (by unfold rangeInc; rw [List.mem_range'_1]; omega) ?_ _
      intro acc
      refine foldlM_panic (a := by_) (by unfold rangeInc; rw [List.mem_range'_1]; omega) ?_ _
      intro acc
      unfold setMean
      rw [hp]; rfl
    unfold windowSum addU32 BlockedMean.range checkedSub
    by_cases o1 : img.width / bs + (ms - 1) / 2 < 2 ^ 32
    swap
    · refine ⟨img.width / bs, le_refl _, 0, Nat.zero_le _, ?_⟩
      rw [if_neg o1, Run.panic_bind]
    by_cases o2 : img.height / bs + (ms - 1) / 2 < 2 ^ 32
    swap
    · refine ⟨0, Nat.zero_le _, img.height / bs, le_refl _, ?_⟩
      rw [if_pos (by omega), Run.ret_bind, if_neg o2, Run.panic_bind]
    refine ⟨0, Nat.zero_le _, 0, Nat.zero_le _, ?_⟩
    rw [if_pos (by omega)]
    simp only [Run.ret_bind]
    by_cases c1 : 1 ≤ min (img.width / bs) (0 + (ms - 1) / 2)
    swap
    · rw [if_neg c1]; rfl
    have c2 : ¬ 1 ≤ min (img.height / bs) (0 + (ms - 1) / 2) := by
      intro c2
      apply hd
      have hw1 : 1 * bs ≤ img.width := (Nat.le_div_iff_mul_le h0).mp (by omega)
      have hh1 : 1 * bs ≤ img.height := (Nat.le_div_iff_mul_le h0).mp (by omega)
      exact ⟨h0, by omega, by omega, by omega, hn, o1, o2⟩
    rw [if_pos c1]
    simp only [Run.ret_bind, Run.pure_eq]
    refine foldlM_panic (a := 0) (by rw [List.mem_range'_1]; omega) ?_ _
    intro acc
    rw [if_neg c2]; rfl

/-- **C45, what holds instead.** The preparer returns exactly when thresholding is defined: positive block
size, mean size at least 3, image at least one block wide and high, no overflow. -/
theorem prepare_returns_iff (bs ms : Nat) (img : GrayImage) (hv : img.Valid)
    (hs : img.width * img.height ≤ 2 ^ 44) :
    (BlockedMean.mk bs ms).prepare img ≠ .panic ↔ ThresholdDefined bs ms img.width img.height := by
  constructor
  · intro h
    by_contra hd
    exact h (prepare_panics bs ms img hv hs hd)
  · intro hd h
    rw [prepare_eq bs ms img hv hs hd] at h
    cases h

/-- **C45 is false.** With the default configuration (src/decoder.rs: block size 5, mean size 7) a valid
image of 4 by 4 pixels makes the preparer panic. -/
theorem prepare_never_panics_false :
    ¬ ∀ img : GrayImage, img.Valid → (BlockedMean.mk 5 7).prepare img ≠ .panic := by
  intro h
  refine h ⟨4, 4, List.replicate 16 0#8⟩ ⟨by simp, by norm_num, by norm_num⟩ ?_
  exact prepare_panics 5 7 _ ⟨by simp, by norm_num, by norm_num⟩ (by norm_num)
    (by unfold ThresholdDefined; norm_num)

/-- With the default configuration every image that is at least 5 pixels wide and high, and has at most
2^31 pixels, is prepared. -/
theorem default_prepare_returns (img : GrayImage) (hv : img.Valid) (hw : 5 ≤ img.width)
    (hh : 5 ≤ img.height) (hs : img.width * img.height ≤ 2 ^ 31) :
    (BlockedMean.mk 5 7).prepare img ≠ .panic := by
  rw [prepare_returns_iff 5 7 img hv (by omega)]
  obtain ⟨_, h1, h2⟩ := hv
  refine ⟨by omega, by omega, hw, hh, ?_, ?_, ?_⟩
  · have a1 : img.width / 5 + 1 ≤ img.width := by omega
    have a2 : img.height / 5 + 1 ≤ img.height := by omega
    have := Nat.mul_le_mul a1 a2
    omega
  · omega
  · omega

/-! ### C44 -/

theorem getPixel_map {img : GrayImage} (hv : img.Valid) (f : Nat × Nat → U8) {x y : Nat}
    (hx : x < img.width) (hy : y < img.height) :
    GrayImage.getPixel { img with pixels := (positions img.width img.height).map f } x y
      = .ret (f (x, y)) := by
  unfold GrayImage.getPixel
  simp only
  rw [if_pos ⟨hx, hy⟩, positions_eq, List.map_map]
  have hi : y * img.width + x < img.width * img.height := by
    have := Nat.mul_le_mul_right img.width (show y + 1 ≤ img.height by omega)
    rw [Nat.succ_mul] at this
    rw [Nat.mul_comm img.width]
    omega
  rw [List.getElem?_map, List.getElem?_range hi]
  simp only [Option.map_some, Function.comp]
  rw [show y * img.width + x = img.width * y + x by rw [Nat.mul_comm], Nat.mul_add_mod,
    Nat.mod_eq_of_lt hx, Nat.mul_add_div (by omega), Nat.div_eq_of_lt hx, Nat.add_zero]

/-- **C44.** In a returned image the pixel at `(x, y)` is white if the exact mean of the grey values around
it is above 250, or at least 5 and below the grey value at `(x, y)`; otherwise it is black. The
floating-point mean never decides differently. -/
theorem prepare_threshold (bs ms : Nat) (img out : GrayImage) (hv : img.Valid)
    (hs : img.width * img.height ≤ 2 ^ 44) (h : (BlockedMean.mk bs ms).prepare img = .ret out)
    (x y : Nat) (hx : x < img.width) (hy : y < img.height) :
    out.getPixel x y = .ret (if BecomesWhite bs ms img x y then 255#8 else 0#8) := by
  have hd : ThresholdDefined bs ms img.width img.height :=
    (prepare_returns_iff bs ms img hv hs).mp (by rw [h]; simp)
  rw [prepare_eq bs ms img hv hs hd, Run.ret.injEq] at h
  subst h
  exact getPixel_map hv (fun p => if BecomesWhite bs ms img p.1 p.2 then 255#8 else 0#8) hx hy

theorem windowCount_pos {bs ms : Nat} {img : GrayImage} (hd : ThresholdDefined bs ms img.width img.height)
    {x y : Nat} (hx : x < img.width) (hy : y < img.height) : 0 < windowCount bs ms img x y :=
  blockWindow_ne hd (Nat.div_le_div_right (Nat.le_of_lt hx)) (Nat.div_le_div_right (Nat.le_of_lt hy))

/-! ### C46 -/

/-- **C46.** A uniformly grey image becomes all white if its grey value is above 250, else all black. -/
theorem uniform_image (bs ms : Nat) (img out : GrayImage) (c : U8) (hv : img.Valid)
    (hs : img.width * img.height ≤ 2 ^ 44) (hc : ∀ p ∈ img.pixels, p = c)
    (h : (BlockedMean.mk bs ms).prepare img = .ret out)
    (x y : Nat) (hx : x < img.width) (hy : y < img.height) :
    out.getPixel x y = .ret (if 250 < c.toNat then 255#8 else 0#8) := by
  have hd : ThresholdDefined bs ms img.width img.height :=
    (prepare_returns_iff bs ms img hv hs).mp (by rw [h]; simp)
  rw [prepare_threshold bs ms img out hv hs h x y hx hy]
  have hg : ∀ u v, u < img.width → v < img.height → grey img u v = c.toNat := by
    intro u v hu hv'
    unfold grey
    have hi : v * img.width + u < img.pixels.length := by
      rw [hv.1]
      have := Nat.mul_le_mul_right img.width (show v + 1 ≤ img.height by omega)
      rw [Nat.succ_mul] at this
      rw [Nat.mul_comm img.width]
      omega
    rw [getD_eq hi, hc _ (List.getElem_mem hi)]
  have ht : windowTotal bs ms img x y = c.toNat * windowCount bs ms img x y := by
    unfold windowTotal windowCount
    have hmem : ∀ p ∈ window bs ms img x y, grey img p.1 p.2 = c.toNat := by
      intro p hp
      have := mem_positions.mp (List.mem_filter.mp hp).1
      exact hg p.1 p.2 this.1 this.2
    generalize window bs ms img x y = l at hmem
    induction l with
    | nil => simp
    | cons a l ih =>
      rw [List.map_cons, List.sum_cons, List.length_cons, hmem a (by simp),
        ih (fun p hp => hmem p (by simp [hp])), Nat.mul_succ]
      omega
  have hpos := windowCount_pos hd hx hy
  have : BecomesWhite bs ms img x y ↔ 250 < c.toNat := by
    unfold BecomesWhite
    rw [ht, hg x y hx hy]
    constructor
    · rintro (h' | h')
      · exact Nat.lt_of_mul_lt_mul_right h'
      · omega
    · intro h'
      exact Or.inl (Nat.mul_lt_mul_of_pos_right h' hpos)
  simp only [this]

/-! ### C47 -/

/-- **C47.** Of two pixels in the same block the brighter one does not become the darker one. -/
theorem brighter_stays_brighter (bs ms : Nat) (img out : GrayImage) (hv : img.Valid)
    (hs : img.width * img.height ≤ 2 ^ 44) (h : (BlockedMean.mk bs ms).prepare img = .ret out)
    (x y x' y' : Nat) (hx : x < img.width) (hy : y < img.height) (hx' : x' < img.width)
    (hy' : y' < img.height) (hbx : x / bs = x' / bs) (hby : y / bs = y' / bs)
    (p p' : U8) (hp : img.getPixel x y = .ret p) (hp' : img.getPixel x' y' = .ret p') (hpp : p ≤ p')
    (q q' : U8) (hq : out.getPixel x y = .ret q) (hq' : out.getPixel x' y' = .ret q') : q ≤ q' := by
  rw [prepare_threshold bs ms img out hv hs h x y hx hy, Run.ret.injEq] at hq
  rw [prepare_threshold bs ms img out hv hs h x' y' hx' hy', Run.ret.injEq] at hq'
  have hgp : ∀ u v r, u < img.width → v < img.height → img.getPixel u v = .ret r →
      grey img u v = r.toNat := by
    intro u v r hu hv' hr
    unfold GrayImage.getPixel at hr
    rw [if_pos ⟨hu, hv'⟩] at hr
    unfold grey
    rw [List.getD_eq_getElem?_getD]
    cases he : img.pixels[v * img.width + u]? with
    | none => rw [he] at hr; cases hr
    | some s => rw [he] at hr; cases hr; rfl
  have hw : window bs ms img x y = window bs ms img x' y' := by unfold window; rw [hbx, hby]
  have himp : BecomesWhite bs ms img x y → BecomesWhite bs ms img x' y' := by
    unfold BecomesWhite windowTotal windowCount
    rw [← hw, hgp x y p hx hy hp, hgp x' y' p' hx' hy' hp']
    rintro (h1 | ⟨h1, h2⟩)
    · exact Or.inl h1
    · refine Or.inr ⟨h1, lt_of_lt_of_le h2 (Nat.mul_le_mul_right _ ?_)⟩
      exact BitVec.le_def.mp hpp
  subst hq hq'
  by_cases h1 : BecomesWhite bs ms img x y
  · rw [if_pos h1, if_pos (himp h1)]; exact BitVec.le_refl _
  · rw [if_neg h1]; exact BitVec.le_def.mpr (by simp)

/-! ### C57 -/

/-- **C57.** The result at a position depends only on the grey values in the window around it and its own:
two images of the same size that agree there give the same result there. -/
theorem threshold_is_local (bs ms : Nat) (img img' out out' : GrayImage) (hv : img.Valid) (hv' : img'.Valid)
    (hw : img'.width = img.width) (hh : img'.height = img.height)
    (hs : img.width * img.height ≤ 2 ^ 44) (h : (BlockedMean.mk bs ms).prepare img = .ret out)
    (h' : (BlockedMean.mk bs ms).prepare img' = .ret out')
    (x y : Nat) (hx : x < img.width) (hy : y < img.height)
    (hown : img'.getPixel x y = img.getPixel x y)
    (hagree : ∀ u v, u < img.width → v < img.height →
      nearBlock (img.width / bs) ((ms - 1) / 2) (x / bs) (u / bs) →
      nearBlock (img.height / bs) ((ms - 1) / 2) (y / bs) (v / bs) →
      img'.getPixel u v = img.getPixel u v) :
    out'.getPixel x y = out.getPixel x y := by
  rw [prepare_threshold bs ms img out hv hs h x y hx hy,
    prepare_threshold bs ms img' out' hv' (by rw [hw, hh]; exact hs) h' x y (by omega) (by omega)]
  have hgp : ∀ (i : GrayImage) u v, i.Valid → u < i.width → v < i.height →
      i.getPixel u v = .ret (i.pixels.getD (v * i.width + u) 0) := by
    intro i u v hi hu hv'
    have hlt : v * i.width + u < i.pixels.length := by
      rw [hi.1]
      have := Nat.mul_le_mul_right i.width (show v + 1 ≤ i.height by omega)
      rw [Nat.succ_mul] at this
      rw [Nat.mul_comm i.width]
      omega
    unfold GrayImage.getPixel
    rw [if_pos ⟨hu, hv'⟩, List.getElem?_eq_getElem hlt, getD_eq hlt]
  have hg : ∀ u v, u < img.width → v < img.height → img'.getPixel u v = img.getPixel u v →
      grey img' u v = grey img u v := by
    intro u v hu hv2 he
    rw [hgp img u v hv hu hv2, hgp img' u v hv' (by omega) (by omega), Run.ret.injEq] at he
    unfold grey
    rw [he]
  have hwin : window bs ms img' x y = window bs ms img x y := by unfold window; rw [hw, hh]
  have ht : windowTotal bs ms img' x y = windowTotal bs ms img x y := by
    unfold windowTotal
    rw [hwin]
    apply congrArg List.sum
    apply List.map_congr_left
    intro p hp
    obtain ⟨m1, m2⟩ := List.mem_filter.mp hp
    rw [Bool.and_eq_true] at m2
    have := mem_positions.mp m1
    exact hg p.1 p.2 this.1 this.2 (hagree p.1 p.2 this.1 this.2 m2.1 m2.2)
  have : BecomesWhite bs ms img' x y ↔ BecomesWhite bs ms img x y := by
    unfold BecomesWhite windowCount
    rw [ht, hwin, hg x y hx hy hown]
  simp only [this]

/-! ### The hypotheses can be met -/

/-- A 6 by 4 image with a dark left half. -/
def halfDark : GrayImage :=
  ⟨6, 4, (List.replicate 4 ([10#8, 20#8, 30#8, 200#8, 210#8, 220#8] : List U8)).flatten⟩

example : halfDark.Valid ∧ halfDark.width * halfDark.height ≤ 2 ^ 44 ∧
    ThresholdDefined 2 3 halfDark.width halfDark.height :=
  ⟨⟨by decide, by decide, by decide⟩, by decide, by unfold ThresholdDefined; decide⟩

/-- The whole preparation evaluated: blocks of 2 pixels, windows of 2 by 2 blocks. -/
example : (BlockedMean.mk 2 3).prepare halfDark = .ret ⟨6, 4, (List.replicate 4
    ([0#8, 255#8, 0#8, 255#8, 255#8, 255#8] : List U8)).flatten⟩ := by decide +kernel

example : BecomesWhite 2 3 halfDark 3 1 := by decide +kernel

end Verif.Props
