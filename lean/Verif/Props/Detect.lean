import Verif.Lemmas.Detect
import Verif.Props.Finder

/-!
# C48-C50: the line scanning detector
-/
namespace Verif.Props
open Verif Verif.Spec F64 LineScan

/-- The exact coordinates of three points inside the image, for a location. -/
def ProperlyLocated (img : GrayImage) (qr : QRLocation) : Prop :=
  ∃ (tl tr bl : Pt) (m : ℚ),
    (qr.top_left = ⟨.fin tl.1, .fin tl.2⟩ ∧ qr.top_right = ⟨.fin tr.1, .fin tr.2⟩ ∧
      qr.bottom_left = ⟨.fin bl.1, .fin bl.2⟩ ∧ qr.module_size = .fin m) ∧
    (∀ p ∈ [tl, tr, bl], 0 ≤ p.1 ∧ p.1 ≤ img.width - 1 ∧ 0 ≤ p.2 ∧ p.2 ≤ img.height - 1) ∧
    ProperGeometry tl tr bl m qr.version

theorem inside_abs {img : GrayImage} (hv : img.Valid) {x y x' y' : ℚ}
    (a1 : 0 ≤ x) (a2 : x + 1 ≤ img.width) (a3 : 0 ≤ y) (a4 : y + 1 ≤ img.height)
    (b1 : 0 ≤ x') (b2 : x' + 1 ≤ img.width) (b3 : 0 ≤ y') (b4 : y' + 1 ≤ img.height) :
    |x' - x| ≤ 2 ^ 32 ∧ |y' - y| ≤ 2 ^ 32 := by
  have hw' := cast_lt_u32 hv.2.1
  have hh' := cast_lt_u32 hv.2.2
  constructor <;> rw [abs_le] <;> constructor <;> linarith

theorem findQr_ret {img : GrayImage} (hv : img.Valid) (hs : img.width * img.height < 2 ^ 63)
    {a b c : Point} {ms : F64} (ha : Inside img a) (hb : Inside img b) (hc : Inside img c) (hm : GoodSize ms) :
    ∃ r, findQr a b c ms = .ret r ∧ ∀ qr, r = some qr → ProperlyLocated img qr := by
  have key : ∀ a b c : Point, Inside img a → Inside img b → Inside img c →
      ∃ r, findQrInternal a b c ms = .ret r ∧ ∀ qr, r = some qr → ProperlyLocated img qr := by
    intro a b c ha hb hc
    obtain ⟨x1, y1, rfl, p1, p2, p3, p4⟩ := ha
    obtain ⟨x2, y2, rfl, q1, q2, q3, q4⟩ := hb
    obtain ⟨x3, y3, rfl, r1, r2, r3, r4⟩ := hc
    obtain ⟨m, rfl, m1, m2⟩ := hm
    obtain ⟨u1, u2⟩ := inside_abs hv p1 p2 p3 p4 q1 q2 q3 q4
    obtain ⟨v1, v2⟩ := inside_abs hv p1 p2 p3 p4 r1 r2 r3 r4
    obtain ⟨r, hr, hspec⟩ := findQrInternal_ret (one := (x1, y1)) (two := (x2, y2)) (three := (x3, y3))
      m1 u1 u2 v1 v2 (by
        have hwh : (img.width : ℚ) * img.height ≤ 2 ^ 63 := by exact_mod_cast (le_of_lt hs)
        refine le_trans (triangle_area (W := img.width) (H := img.height) p1 ?_ p3 ?_ q1 ?_ q3 ?_ r1 ?_ r3 ?_) hwh <;>
          linarith)
    refine ⟨r, hr, ?_⟩
    intro qr hqr
    obtain ⟨tr, bl, hor, hloc, hgeo⟩ := hspec qr hqr
    refine ⟨(x1, y1), tr, bl, m, hloc, ?_, hgeo⟩
    intro p hp
    simp only [List.mem_cons, List.not_mem_nil, or_false] at hp
    rcases hor with ⟨rfl, rfl⟩ | ⟨rfl, rfl⟩ <;> rcases hp with rfl | rfl | rfl <;>
      refine ⟨?_, ?_, ?_, ?_⟩ <;> simp only <;> linarith
  obtain ⟨r1, h1, s1⟩ := key a b c ha hb hc
  unfold findQr
  rw [h1, Run.ret_bind]
  cases r1 with
  | some qr => exact ⟨_, rfl, s1⟩
  | none =>
    obtain ⟨r2, h2, s2⟩ := key b a c hb ha hc
    simp only
    rw [h2, Run.ret_bind]
    cases r2 with
    | some qr => exact ⟨_, rfl, s2⟩
    | none => exact key c a b hc ha hb

theorem locations3_ret {img : GrayImage} (hv : img.Valid) (hs : img.width * img.height < 2 ^ 63)
    {c1 c2 : FinderPosition} (h1 : GoodCandidate img c1) (h2 : GoodCandidate img c2) :
    ∀ l : List FinderPosition, (∀ c ∈ l, GoodCandidate img c) →
      ∃ r, locations3 c1 c2 l = .ret r ∧ ∀ qr ∈ r, ProperlyLocated img qr := by
  intro l
  induction l with
  | nil => intro _; exact ⟨[], rfl, by simp⟩
  | cons c3 l ih =>
    intro h
    obtain ⟨r, hr, hg⟩ := ih (fun c hc => h c (List.mem_cons_of_mem _ hc))
    unfold locations3
    split
    · exact ⟨r, hr, hg⟩
    · obtain ⟨r', hr', hs'⟩ := findQr_ret hv hs h1.1 h2.1 (h c3 (by simp)).1 h1.2
      rw [hr', Run.ret_bind]
      cases r' with
      | none => exact ⟨r, hr, hg⟩
      | some qr =>
        simp only
        rw [hr, Run.ret_bind]
        refine ⟨_, rfl, ?_⟩
        intro q hq
        simp only [List.mem_cons] at hq
        rcases hq with rfl | hq
        · exact hs' q rfl
        · exact hg q hq

theorem locations2_ret {img : GrayImage} (hv : img.Valid) (hs : img.width * img.height < 2 ^ 63)
    {c1 : FinderPosition} (h1 : GoodCandidate img c1) :
    ∀ l : List FinderPosition, (∀ c ∈ l, GoodCandidate img c) →
      ∃ r, locations2 c1 l = .ret r ∧ ∀ qr ∈ r, ProperlyLocated img qr := by
  intro l
  induction l with
  | nil => intro _; exact ⟨[], rfl, by simp⟩
  | cons c2 l ih =>
    intro h
    have hl := fun c hc => h c (List.mem_cons_of_mem c2 hc)
    obtain ⟨r, hr, hg⟩ := ih hl
    unfold locations2
    split
    · exact ⟨r, hr, hg⟩
    · obtain ⟨r3, hr3, hs3⟩ := locations3_ret hv hs h1 (h c2 (by simp)) l hl
      rw [hr3, Run.ret_bind, hr, Run.ret_bind]
      refine ⟨_, rfl, ?_⟩
      intro q hq
      rw [List.mem_append] at hq
      rcases hq with hq | hq
      · exact hs3 q hq
      · exact hg q hq

theorem locations_ret {img : GrayImage} (hv : img.Valid) (hs : img.width * img.height < 2 ^ 63) :
    ∀ l : List FinderPosition, (∀ c ∈ l, GoodCandidate img c) →
      ∃ r, locations l = .ret r ∧ ∀ qr ∈ r, ProperlyLocated img qr := by
  intro l
  induction l with
  | nil => intro _; exact ⟨[], rfl, by simp⟩
  | cons c1 l ih =>
    intro h
    have hl := fun c hc => h c (List.mem_cons_of_mem c1 hc)
    obtain ⟨r, hr, hg⟩ := ih hl
    unfold locations
    obtain ⟨r3, hr3, hs3⟩ := locations2_ret hv hs (h c1 (by simp)) l hl
    rw [hr3, Run.ret_bind, hr, Run.ret_bind]
    refine ⟨_, rfl, ?_⟩
    intro q hq
    rw [List.mem_append] at hq
    rcases hq with hq | hq
    · exact hs3 q hq
    · exact hg q hq

theorem detect_spec (img : GrayImage) (hv : img.Valid) (hs : img.width * img.height < 2 ^ 63) :
    ∃ r, detect img = .ret r ∧ ∀ qr ∈ r, ProperlyLocated img qr := by
  obtain ⟨cs, hcs, hg⟩ := candidates_ret hv
  unfold detect
  rw [hcs, Run.ret_bind]
  exact locations_ret hv hs cs hg

/-- **C49.** Detection returns for every grey image of less than `2^63` pixels (more do not fit the
address space, and Rust's `Vec` holds at most `isize::MAX` bytes), whatever its
contents: no pixel outside the image is read and no counter overflows. -/
theorem detect_never_panics (img : GrayImage) (hv : img.Valid) (hs : img.width * img.height < 2 ^ 63)
    : detect img ≠ .panic := by
  obtain ⟨r, hr, -⟩ := detect_spec img hv hs
  rw [hr]; intro h; cases h

/-- **C48.** Every detected location lies inside the image and is a proper geometry: version at least 1,
modules of at least a pixel, not mirrored, nearly perpendicular sides of nearly the same length, and a
version that fits the distance of the finder patterns. All of this holds of the exact numbers, although the
detector computed with rounded ones. -/
theorem detected_locations_are_proper (img : GrayImage) (hv : img.Valid) (hs : img.width * img.height < 2 ^ 63)
    (qrs : List QRLocation) (hd : detect img = .ret qrs) :
    ∀ qr ∈ qrs, ProperlyLocated img qr := by
  obtain ⟨r, hr, hg⟩ := detect_spec img hv hs
  rw [hr] at hd
  injection hd with hd
  subst hd
  exact hg

/-! ### C50 -/

/-- Changes among the first `x + 1` pixels of a row. -/
def changesTo (img : GrayImage) (y x : Nat) : Nat :=
  ((List.range x).filter fun k => grey img k y != grey img (k + 1) y).length

theorem changesTo_succ (img : GrayImage) (y x : Nat) :
    changesTo img y (x + 1) = changesTo img y x + if grey img x y ≠ grey img (x + 1) y then 1 else 0 := by
  unfold changesTo
  rw [List.range_succ, List.filter_append, List.length_append]
  congr 1
  by_cases h : grey img x y = grey img (x + 1) y <;> simp [h]

theorem changesTo_mono (img : GrayImage) (y : Nat) {a b : Nat} (h : a ≤ b) :
    changesTo img y a ≤ changesTo img y b := by
  induction b with
  | zero => rw [Nat.le_zero.mp h]
  | succ b ih =>
    rcases Nat.lt_or_ge a (b + 1) with h' | h'
    · have := ih (by omega)
      rw [changesTo_succ]; omega
    · have : a = b + 1 := by omega
      rw [this]

theorem changesTo_eq (img : GrayImage) (y : Nat) : changesTo img y (img.width - 1) = colourChanges img y := rfl

/-- Number of runs that are not empty. -/
def nonEmpty (s : FinderPattern) : Nat :=
  (if s.p0 = 0 then 0 else 1) + (if s.p1 = 0 then 0 else 1) + (if s.p2 = 0 then 0 else 1) +
  (if s.p3 = 0 then 0 else 1) + (if s.p4 = 0 then 0 else 1) + (if s.p5 = 0 then 0 else 1) +
  (if s.p6 = 0 then 0 else 1)

theorem few_rejected {s : FinderPattern} (h : s.total < 2 ^ 32) (hn : nonEmpty s ≤ 4) :
    s.looksLikeFinder = .ret false := by
  have h5 := s.five_le
  unfold FinderPattern.five at h5
  apply missing_run_rejected s (by omega)
  by_contra hc
  unfold nonEmpty at hn
  split_ifs at hn <;> omega

theorem slide_few {s : FinderPattern} (h : s.total < 2 ^ 32) :
    ∃ s', s.slide = .ret s' ∧ nonEmpty s' ≤ nonEmpty s + 1 ∧ s'.total ≤ s.total + 1 ∧ 1 ≤ s'.p6 := by
  unfold FinderPattern.slide
  split
  · rename_i hc
    rw [addU32_ret (by unfold FinderPattern.total at h; omega)]
    have h5 : 0 < s.p5 := by
      by_contra h0
      have h0 : s.p5 = 0 := by omega
      rw [Bool.and_eq_true, h0] at hc
      have h6 : s.p6 < 2 ^ 32 := by unfold FinderPattern.total at h; omega
      have := hc.1
      rw [ofNat_fin (u32_53 h6), ofNat_fin (by norm_num), lit_nat (by norm_num),
        div_fin (by norm_num) (by norm_num), lt_fin, decide_eq_true_eq] at this
      rw [Nat.cast_zero, zero_div, roundQ_zero] at this
      have : (0 : ℚ) ≤ s.p6 := Nat.cast_nonneg _
      linarith
    refine ⟨_, rfl, ?_, ?_, ?_⟩
    · unfold nonEmpty; simp only; split_ifs <;> omega
    · unfold FinderPattern.total; simp only; omega
    · simp only; omega
  · refine ⟨_, rfl, ?_, ?_, ?_⟩
    · unfold nonEmpty; simp only; split_ifs <;> omega
    · unfold FinderPattern.total; simp only; omega
    · simp only; omega

/-- Invariant of the scan of an image with few changes per row. -/
def FewInv (img : GrayImage) (i : Nat) (st : Scan) : Prop :=
  st.candidates = [] ∧ (i % img.width ≠ 0 →
    st.pattern.total ≤ i % img.width ∧ st.last_pixel = img.pixels.getD (i - 1) 0 ∧ 1 ≤ st.pattern.p6 ∧
    nonEmpty st.pattern ≤ 1 + changesTo img (i / img.width) (i % img.width - 1))

theorem few_step {img : GrayImage} (hv : img.Valid) (hf : ∀ y < img.height, colourChanges img y ≤ 3) {i : Nat}
    (hi : i < img.width * img.height) {st : Scan} (h : FewInv img i st) :
    ∃ st', scanPixel img st (i % img.width, i / img.width, img.pixels.getD i 0) = .ret st' ∧
      FewInv img (i + 1) st' := by
  have hw0 : 0 < img.width := by
    rcases Nat.eq_zero_or_pos img.width with h | h
    · rw [h] at hi; simp at hi
    · exact h
  have hw := hv.2.1
  have hx := Nat.mod_lt i hw0
  have hy : i / img.width < img.height := Nat.div_lt_of_lt_mul hi
  have hyx : i / img.width * img.width + i % img.width = i := by
    have := Nat.div_add_mod i img.width; rw [Nat.mul_comm] at this; exact this
  have hlim : ∀ k, k < img.width → changesTo img (i / img.width) k ≤ 3 := by
    intro k hk
    refine le_trans (changesTo_mono img _ (show k ≤ img.width - 1 by omega)) ?_
    rw [changesTo_eq]; exact hf _ hy
  -- what the next pixel sees
  have hnext : (i + 1) % img.width ≠ 0 → (i + 1) % img.width = i % img.width + 1 ∧
      (i + 1) / img.width = i / img.width := by
    intro hne
    have hlt : i % img.width + 1 < img.width := by
      by_contra hge
      have he : i % img.width + 1 = img.width := by omega
      apply hne
      rw [Nat.add_mod, ← Nat.mod_add_mod]
      simp [he]
    constructor
    · rw [Nat.add_mod, Nat.mod_eq_of_lt (show 1 < img.width by omega)]
      exact Nat.mod_eq_of_lt hlt
    · apply Nat.div_eq_of_lt_le
      · omega
      · rw [Nat.succ_mul]; omega
  have hch : ∀ s' : FinderPattern, nonEmpty s' ≤ 1 + changesTo img (i / img.width) (i % img.width) →
      s'.total ≤ i % img.width + 1 → 1 ≤ s'.p6 →
      FewInv img (i + 1) ⟨[], img.pixels.getD i 0, s'⟩ := by
    intro s' h1 h2 h3
    refine ⟨rfl, ?_⟩
    intro hne
    obtain ⟨e1, e2⟩ := hnext hne
    rw [e1, e2]
    exact ⟨h2, rfl, h3, h1⟩
  -- changing colour
  have hchange : ∀ (s : FinderPattern) (lp : U8), s.total ≤ i % img.width + 1 → nonEmpty s ≤ 4 →
      ((s.total ≤ i % img.width ∧ nonEmpty s ≤ changesTo img (i / img.width) (i % img.width)) ∨
        (s.total = 0 ∧ nonEmpty s = 0) ∨ i % img.width + 1 = img.width) →
      ∃ st', atChange img (i % img.width) (i / img.width) (img.pixels.getD i 0) ⟨[], lp, s⟩ = .ret st' ∧
        FewInv img (i + 1) st' := by
    intro s lp ht hn hc
    have hrej := few_rejected (s := s) (by omega) hn
    obtain ⟨s', hs', a, b, c⟩ := slide_few (s := s) (by omega)
    unfold atChange
    simp only
    rw [hrej, Run.ret_bind]
    simp only [Bool.false_eq_true, if_false]
    rw [hs', Run.ret_bind]
    refine ⟨_, rfl, ?_⟩
    rcases hc with ⟨h1, h2⟩ | ⟨h1, h2⟩ | h2
    · exact hch s' (by omega) (by omega) c
    · exact hch s' (by omega) (by omega) c
    · refine ⟨rfl, ?_⟩
      intro hne
      have h1 := (hnext hne).1
      have := Nat.mod_lt (i + 1) hw0
      omega
  unfold scanPixel
  simp only
  have hlast : checkedSub img.width 1 = .ret (img.width - 1) := by
    unfold checkedSub; rw [if_pos (by omega)]
  obtain ⟨hcand, hrow⟩ := h
  obtain ⟨cands, lp, s⟩ := st
  simp only at hcand
  subst hcand
  by_cases hx0 : i % img.width = 0
  · rw [if_pos hx0]
    simp only
    split
    · rw [addU32_ret (by norm_num), Run.ret_bind, hlast, Run.ret_bind]
      rename_i hpe
      split
      · refine ⟨_, rfl, ?_⟩
        rw [← hpe]
        exact hch _ (by simp [nonEmpty]) (by simp [FinderPattern.total]) (by simp)
      · rename_i hne
        exact hchange _ _ (by simp [FinderPattern.total]) (by simp [nonEmpty]) (Or.inr (Or.inr (by omega)))
    · exact hchange _ _ (by simp [FinderPattern.total]) (by simp [nonEmpty])
        (Or.inr (Or.inl ⟨by simp [FinderPattern.total], by simp [nonEmpty]⟩))
  · rw [if_neg hx0]
    obtain ⟨r1, r2, r3, r4⟩ := hrow hx0
    simp only at r1 r2 r3 r4
    have hstep := changesTo_succ img (i / img.width) (i % img.width - 1)
    rw [show i % img.width - 1 + 1 = i % img.width by omega] at hstep
    have g1 : grey img (i % img.width - 1) (i / img.width) = (img.pixels.getD (i - 1) 0).toNat := by
      unfold grey; congr 2; omega
    have g2 : grey img (i % img.width) (i / img.width) = (img.pixels.getD i 0).toNat := by
      unfold grey; rw [hyx]
    have hb := hlim (i % img.width) hx
    simp only
    split
    · rename_i hpe
      have hp6 : s.p6 + 1 < 2 ^ 32 := by unfold FinderPattern.total at r1; omega
      rw [addU32_ret hp6, Run.ret_bind, hlast, Run.ret_bind]
      have hne4 : nonEmpty { s with p6 := s.p6 + 1 } = nonEmpty s := by
        have h6 : s.p6 ≠ 0 := by omega
        unfold nonEmpty; simp [h6]
      have htot : ({ s with p6 := s.p6 + 1 } : FinderPattern).total = s.total + 1 := by
        unfold FinderPattern.total; simp only; omega
      have hm := changesTo_mono img (i / img.width) (show i % img.width - 1 ≤ i % img.width by omega)
      split
      · refine ⟨_, rfl, ?_⟩
        rw [← hpe]
        exact hch _ (by rw [hne4]; omega) (by rw [htot]; omega) (by simp only; omega)
      · exact hchange _ _ (by rw [htot]; omega) (by rw [hne4]; omega) (Or.inr (Or.inr (by omega)))
    · rename_i hpe
      have hdiff : grey img (i % img.width - 1) (i / img.width) ≠ grey img (i % img.width) (i / img.width) := by
        rw [g1, g2]
        intro he
        apply hpe
        rw [r2]
        exact (BitVec.eq_of_toNat_eq he).symm
      rw [if_pos hdiff] at hstep
      exact hchange _ _ (by omega) (by omega) (Or.inl ⟨r1, by omega⟩)

/-- **C50.** If every row has at most three colour changes, that is at most four runs, nothing is detected
(a finder pattern needs five runs). -/
theorem few_changes_no_detection (img : GrayImage) (hv : img.Valid)
    (hf : ∀ y < img.height, colourChanges img y ≤ 3) : detect img = .ret [] := by
  unfold detect candidates
  obtain ⟨st, hst, hI⟩ := foldlM_inv (f := scanPixel img) (I := FewInv img) img.enumeratePixels 0
    ⟨[], 127#8, {}⟩ ⟨rfl, by simp⟩ (by
      intro i s hi hI
      have hl : img.enumeratePixels.length = img.pixels.length := by simp [GrayImage.enumeratePixels]
      have he : img.enumeratePixels[i] = (i % img.width, i / img.width, img.pixels.getD i 0) := by
        rw [BlockedMean.getD_eq (show i < img.pixels.length by omega)]
        simp [GrayImage.enumeratePixels]
      rw [he]
      rw [Nat.zero_add] at hI ⊢
      exact few_step hv hf (by rw [← hv.1]; omega) hI)
  rw [hst, Run.ret_bind]
  rw [Run.pure_eq, Run.ret_bind, hI.1]
  rfl

end Verif.Props
