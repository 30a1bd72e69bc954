import Verif.Lemmas.Hits
import Verif.Props.Detect

/-!
# C61: no finder pattern is overlooked
-/
namespace Verif
namespace LineScan
open F64 FinderPattern Spec

theorem row_index {w y x : Nat} (hx : x < w) : (y * w + x) % w = x ∧ (y * w + x) / w = y := by
  constructor
  · rw [Nat.add_comm, Nat.add_mul_mod_self_right, Nat.mod_eq_of_lt hx]
  · rw [Nat.add_comm, Nat.add_mul_div_right _ _ (by omega), Nat.div_eq_of_lt hx, Nat.zero_add]

theorem enumerate_get {img : GrayImage} {i : Nat} (hi : i < img.enumeratePixels.length) :
    img.enumeratePixels[i] = (i % img.width, i / img.width, pix img (i % img.width) (i / img.width)) := by
  have hl : img.enumeratePixels.length = img.pixels.length := by simp [GrayImage.enumeratePixels]
  have he : img.enumeratePixels[i] = (i % img.width, i / img.width, img.pixels[i]'(by omega)) := by
    simp [GrayImage.enumeratePixels]
  rw [he]
  unfold pix
  have : i / img.width * img.width + i % img.width = i := Nat.div_add_mod' i img.width
  rw [this, List.getD_eq_getElem?_getD, List.getElem?_eq_getElem (by omega)]; rfl

/-- Either exactly the centre of the finder pattern or a candidate that was close. -/
def Noticed (img : GrayImage) (m fx fy : Nat) (c : FinderPosition) : Prop :=
  GoodCandidate img c ∧ (c = exactCandidate m fx fy ∨
    F64.lt (dist ⟨hf (2 * fx + 7 * m), F64.ofNat (fy + 2 * m)⟩ c.location) (F64.lit 7 * .fin (m : ℚ)) = true)

theorem candidates_notice {img : GrayImage} (hv : img.Valid) {m fx fy : Nat} (hm : 2 ≤ m)
    (hc : CleanFinder img m fx fy) (hs : SteadyRow img (fx + 7 * m) (fy + 2 * m)) :
    ∃ cs, candidates img = .ret cs ∧ ∃ c ∈ cs, Noticed img m fx fy c := by
  have c1 := hc.1
  have c2 := hc.2.1
  have hw := hv.2.1
  have hw0 : 0 < img.width := by omega
  obtain ⟨k, hk⟩ : ∃ k, (fy + 2 * m) * img.width = k := ⟨_, rfl⟩
  have hI : ∀ i : Nat, i < img.width * img.height → ∀ st : Scan,
      (ScanInv img i st ∧ (k < i → i ≤ k + (fx + 7 * m) → RowState img (i - k) (fy + 2 * m) st) ∧
        (k + (fx + 7 * m) < i → ∃ c ∈ st.candidates, Noticed img m fx fy c)) →
      ∃ st', scanPixel img st (i % img.width, i / img.width, pix img (i % img.width) (i / img.width)) = .ret st' ∧
        (ScanInv img (i + 1) st' ∧ (k < i + 1 → i + 1 ≤ k + (fx + 7 * m) → RowState img (i + 1 - k) (fy + 2 * m) st') ∧
        (k + (fx + 7 * m) < i + 1 → ∃ c ∈ st'.candidates, Noticed img m fx fy c)) := by
    intro i hi st ⟨h1, h2, h3⟩
    obtain ⟨st', hr, hinv⟩ := scanPixel_ret (p := pix img (i % img.width) (i / img.width)) hv hi h1
    refine ⟨st', hr, hinv, ?_, ?_⟩
    · intro ha hb
      obtain ⟨x, rfl⟩ : ∃ x, i = k + x := ⟨i - k, by omega⟩
      have hx : x < img.width := by omega
      obtain ⟨e1, e2⟩ := row_index (y := fy + 2 * m) hx
      rw [hk] at e1 e2
      rw [e1, e2] at hr
      obtain ⟨st'', hr', hst'⟩ := row_step (x := x) (y := fy + 2 * m) hv (by omega) (st := st)
        (by intro h0; have := h2 (by omega) (by omega); rwa [Nat.add_sub_cancel_left] at this) h1.1
        (hs x (by omega))
      rw [hr] at hr'
      have := Run.ret.inj hr'
      subst this
      rwa [show k + x + 1 - k = x + 1 by omega]
    · intro ha
      by_cases hlt : k + (fx + 7 * m) < i
      · obtain ⟨l, hl⟩ := scanPixel_grows hr
        obtain ⟨c, hcm, hcn⟩ := h3 hlt
        exact ⟨c, by rw [hl]; exact List.mem_append_left _ hcm, hcn⟩
      · have hi' : i = k + (fx + 7 * m) := by omega
        subst hi'
        obtain ⟨e1, e2⟩ := row_index (w := img.width) (y := fy + 2 * m) (x := fx + 7 * m) c1
        rw [hk] at e1 e2
        rw [e1, e2] at hr
        have hst := h2 (by omega) (le_refl _)
        rw [Nat.add_sub_cancel_left] at hst
        rw [scan_change (by omega) hst (finder_changes hc (by omega) (le_refl _) (by omega))] at hr
        have hshape := atChange_shape hr
        cases hb : blocked m fx (fy + 2 * m) st.candidates with
        | true =>
          obtain ⟨l, hl⟩ := hshape.1
          unfold blocked at hb
          rw [List.any_eq_true] at hb
          obtain ⟨c, hcm, hlt⟩ := hb
          exact ⟨c, by rw [hl]; exact List.mem_append_left _ hcm, h1.1 c hcm, Or.inr hlt⟩
        | false =>
          rw [hit_new hc hv hm hst.1 hb hshape.2.1] at hr
          have hr := Run.ret.inj hr
          rw [← hr]
          have hmem : exactCandidate m fx fy ∈ st'.candidates := by rw [← hr]; simp
          exact ⟨exactCandidate m fx fy, by simp, hinv.1 _ hmem, Or.inl rfl⟩
  unfold candidates
  obtain ⟨st, hst, hinv⟩ := foldlM_inv (f := scanPixel img) (I := fun i st =>
      ScanInv img i st ∧ (k < i → i ≤ k + (fx + 7 * m) → RowState img (i - k) (fy + 2 * m) st) ∧
        (k + (fx + 7 * m) < i → ∃ c ∈ st.candidates, Noticed img m fx fy c)) img.enumeratePixels 0
    ⟨[], 127#8, {}⟩ ⟨⟨by simp, by simp⟩, by omega, by omega⟩ (by
      intro i s hi hI'
      rw [enumerate_get hi]
      rw [Nat.zero_add] at hI' ⊢
      have hl : img.enumeratePixels.length = img.pixels.length := by simp [GrayImage.enumeratePixels]
      exact hI i (by rw [← hv.1]; omega) s hI')
  rw [hst, Run.ret_bind]
  refine ⟨_, rfl, hinv.2.2 ?_⟩
  have hl : img.enumeratePixels.length = img.pixels.length := by simp [GrayImage.enumeratePixels]
  rw [hl, hv.1, ← hk]
  have : (fy + 2 * m + 1) * img.width ≤ img.height * img.width := Nat.mul_le_mul_right _ (by omega)
  rw [Nat.mul_comm img.width]
  rw [Nat.succ_mul] at this
  omega

end LineScan

namespace Props
open F64 LineScan Spec

/-- **C61.** No finder pattern is overlooked, whatever else the image shows: if the part of the scan line that
leads to its inner square has no runs shorter than a tenth of the one before, then a finder pattern with modules
of at least two pixels, surrounded by a light separator, becomes a candidate with its exact centre and module
size, unless there was another candidate closer than eight modules. -/
theorem finder_not_overlooked (img : GrayImage) (hv : img.Valid) (m fx fy : Nat) (hm : 2 ≤ m)
    (hc : CleanFinder img m fx fy) (hs : SteadyRow img (fx + 7 * m) (fy + 2 * m)) :
    ∃ cs, candidates img = .ret cs ∧ ∃ c ∈ cs, ∃ cx cy : ℚ, c.location = ⟨.fin cx, .fin cy⟩ ∧
      ((cx = fx + 7 * (m : ℚ) / 2 ∧ cy = fy + ((7 * m - 1) / 2 : Nat) ∧ c.module_size = .fin m) ∨
        (cx - (fx + 7 * (m : ℚ) / 2)) ^ 2 + (cy - (fy + 2 * m)) ^ 2 < (8 * m) ^ 2) := by
  have hw := hv.2.1
  have hh := hv.2.2
  have c1 := hc.1
  have c2 := hc.2.1
  obtain ⟨cs, hcs, c, hcm, ⟨⟨x, y, hl, x0, x1, y0, y1⟩, hgs⟩, hn⟩ := candidates_notice hv hm hc hs
  refine ⟨cs, hcs, c, hcm, x, y, hl, ?_⟩
  rcases hn with hn | hn
  · left
    rw [hn] at hl ⊢
    unfold exactCandidate at hl ⊢
    simp only [Point.mk.injEq] at hl
    obtain ⟨h1, h2⟩ := hl
    unfold hf at h1
    rw [ofNat_fin (by omega)] at h2
    injection h1 with h1
    injection h2 with h2
    refine ⟨?_, ?_, rfl⟩
    · rw [← h1]; push_cast; ring
    · rw [← h2]; push_cast; rfl
  · right
    have hw' := cast_lt_u32 hw
    have hh' := cast_lt_u32 hh
    have c1' : (fx : ℚ) + 7 * m ≤ img.width := by exact_mod_cast (le_of_lt c1)
    have c2' : (fy : ℚ) + 7 * m ≤ img.height := by exact_mod_cast (le_of_lt c2)
    have m0 : (0 : ℚ) ≤ m := Nat.cast_nonneg m
    have f0 : (0 : ℚ) ≤ fx := Nat.cast_nonneg fx
    have g0 : (0 : ℚ) ≤ fy := Nat.cast_nonneg fy
    rw [hl, hf_ofNat (by omega)] at hn
    have := near_of_lt (by omega) (by omega)
      (by push_cast; rw [abs_le]; constructor <;> linarith) (by push_cast; rw [abs_le]; constructor <;> linarith) hn
    push_cast at this
    have e1 : x - (fx + 7 * (m : ℚ) / 2) = x - (2 * (fx : ℚ) + 7 * m) / 2 := by ring
    have e2 : y - (fy + 2 * (m : ℚ)) = y - (2 * ((fy : ℚ) + 2 * m)) / 2 := by ring
    rw [e1, e2]
    exact this

end Props
end Verif
