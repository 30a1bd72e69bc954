import Verif.Spec.Placed
import Verif.Props.ExtractReach
import Verif.Props.Turned
import Verif.Lemmas.Lit

/-!
# C72: symbols in perspective

From version 2 on, the alignment pattern corrects the positions of the modules. It is looked for in a grid of half
modules around the place that the finder patterns suggest.
-/
namespace Verif.Props
open Verif Verif.Spec F64 Extractor

variable {σ IMG : Type}

/-- **C72.** Extraction reports an error only from version 2 on, always the same one, and only if in none of the tried
places and sizes there is something that must be taken for an alignment pattern. -/
theorem extraction_fails_without_alignment_only (img : GrayImage) (hv : img.Valid) (hw : img.width ≤ 2 ^ 20)
    (hh : img.height ≤ 2 ^ 20) (loc : QRLocation) (tl tr bl : Pt) (hl : LocatedAtPoints loc tl tr bl)
    (hver : 1 ≤ loc.version) (hver' : loc.version ≤ 40) (e : QRError) (h : extract img loc = .err e) :
    2 ≤ loc.version ∧ e.msg = "Unable to find alignment pattern" ∧
    ∀ x y z : Int, Tried x y z → ¬ MustBeAlignment img (sideOf loc.version) tl tr bl x y z := by
  have hle := hl.exact
  obtain ⟨size, hsize⟩ : ∃ size, size = sideOf loc.version := ⟨_, rfl⟩
  rw [← hsize]
  have hsz : size = 17 + loc.version * 4 := by rw [hsize]; unfold sideOf; omega
  have hlo : 21 ≤ size := by omega
  have hhi : size ≤ 177 := by omega
  have e1 : mulU32 loc.version 4 = .ret (loc.version * 4) := by unfold mulU32; rw [if_pos (by omega)]
  have e2 : addU32 17 (loc.version * 4) = .ret size := by unfold addU32; rw [if_pos (by omega), hsz]
  unfold extract at h
  rw [e1] at h
  simp only at h
  rw [e2] at h
  simp only at h
  cases hp : determinePerspective img loc.version size loc with
  | panic => rw [hp] at h; cases h
  | ok p =>
    rw [hp] at h
    simp only at h
    split at h
    · cases h
    · split at h <;> cases h
  | err e' =>
    rw [hp] at h
    injection h with h
    subst h
    unfold determinePerspective at hp
    simp only at hp
    by_cases hv1 : loc.version = 1
    · rw [if_pos hv1] at hp; cases hp
    · rw [if_neg hv1] at hp
      have ndx := step_near hlo hhi hle.near_tl hle.near_tr hle.tl_small hle.tr_small
      have ndy := step_near hlo hhi hle.near_tl hle.near_bl hle.tl_small hle.bl_small
      split at hp
      · cases hp
      · rename_i hfind
        injection hp with hp
        exact ⟨by omega, by rw [← hp], fun x y z ht => search_none hlo hhi hle hv hw hh ndx ndy hfind ht⟩
      · split at hp
        · cases hp
        · split at hp <;> cases hp

/-- **C72.** A symbol in perspective is extracted exactly: if the image shows the grid, with the alignment pattern up to
one and a half modules from where it would be without perspective, extraction returns the grid. -/
theorem shown_grid_extracts (img : GrayImage) (hv : img.Valid) (hw0 : 2 ≤ img.width) (hh0 : 1 ≤ img.height)
    (hw : img.width ≤ 2 ^ 20) (hh : img.height ≤ 2 ^ 20) (loc : QRLocation) (tl tr bl : Pt)
    (hl : LocatedAtPoints loc tl tr bl) (hver : 1 ≤ loc.version) (hver' : loc.version ≤ 40) (q : QRData)
    (hq : WellFormed q loc.version) (hs : ShowsGrid img q loc.version tl tr bl) : extract img loc = .ok q := by
  obtain ⟨s1, s2, s3⟩ := hs
  cases he : extract img loc with
  | panic =>
    rcases extraction_panics_beyond_the_image_only_partial img hv hw0 hh0 hw hh loc tl tr bl hl hver hver' he with
      ⟨h2, u, v, hu, hv', hb⟩ | ⟨al, h1, h2, i, hi, j, hj, hb⟩
    · exact absurd hb (s1 h2 u v hu hv')
    · exact absurd hb (s3 al h1 (fun a ha => (h2 a ha).2.2.2.2) i hi j hj).1
  | err e =>
    obtain ⟨h2, -, hno⟩ := extraction_fails_without_alignment_only img hv hw hh loc tl tr bl hl hver hver' e he
    obtain ⟨x, y, z, ht, hm⟩ := s2 h2
    exact absurd hm (hno x y z ht)
  | ok q' =>
    obtain ⟨w1, w2, w3, -⟩ := extracted_grid_is_well_formed img loc q' he
    obtain ⟨al, h1, h2, h3⟩ := samples_are_bilinear img hv hw hh loc tl tr bl hl hver hver' q' he
    rw [w2] at h2 h3 w3
    obtain ⟨q1, q2, q3⟩ := hq
    have hside : sideOf loc.version = 4 * loc.version + 17 := by unfold sideOf; omega
    congr 1
    have hdata : q'.data = q.data := by
      apply List.ext_getElem?
      intro n
      by_cases hn : n < sideOf loc.version * sideOf loc.version
      · have h0 : 0 < sideOf loc.version := by rw [hside]; omega
        have hi : n / sideOf loc.version < sideOf loc.version := Nat.div_lt_of_lt_mul hn
        have hj := Nat.mod_lt n h0
        obtain ⟨c, hc, hnear⟩ := h3 _ hi _ hj
        have hq := (s3 al h1 (fun a ha => (h2 a ha).2.2.2.2) _ hi _ hj).2 c hnear
        have e : n / sideOf loc.version * sideOf loc.version + n % sideOf loc.version = n := by
          have := Nat.div_add_mod n (sideOf loc.version); rw [Nat.mul_comm] at this; exact this
        rw [e] at hc hq
        rw [hc, hq]
      · rw [List.getElem?_eq_none (by omega), List.getElem?_eq_none]
        rw [q3]
        omega
    cases q; cases q'
    simp only at w1 w2 q1 q2 hdata ⊢
    subst hdata
    rw [w1, w2, q1, q2]

/-- Two images with the same grey values are the same. -/
theorem image_ext {a b : GrayImage} (ha : a.Valid) (hb : b.Valid) (hw : b.width = a.width) (hh : b.height = a.height)
    (h : ∀ x < a.width, ∀ y < a.height, grey b x y = grey a x y) : a = b := by
  have hpx : a.pixels = b.pixels := by
    apply List.ext_getElem
    · rw [ha.1, hb.1, hw, hh]
    · intro i i1 i2
      have i3 := i1
      rw [ha.1] at i3
      have hw0 : 0 < a.width := by
        rcases Nat.eq_zero_or_pos a.width with h | h
        · rw [h] at i3; omega
        · exact h
      have k := h (i % a.width) (Nat.mod_lt _ hw0) (i / a.width) (Nat.div_lt_of_lt_mul i3)
      unfold grey at k
      rw [hw, Nat.div_add_mod', BlockedMean.getD_eq i1, BlockedMean.getD_eq i2] at k
      exact BitVec.eq_of_toNat_eq k.symm
  cases a; cases b
  simp only at hw hh hpx
  rw [hw, hh, hpx]

/-- The reported location of three finder patterns is where the grid is shown. -/
theorem placed_location_extracts (img : GrayImage) (hv : img.Valid) (hw : img.width ≤ 2 ^ 20) (hh : img.height ≤ 2 ^ 20)
    (q : QRData) (v : Nat) (h1 : 1 ≤ v) (h40 : v ≤ 40) (hq : WellFormed q v) (ρ : Orientation) (m ox oy : Nat) (hm : 2 ≤ m)
    (hc : ∀ f ∈ turnedFinders ρ v m ox oy, CleanFinder img m f.1 f.2)
    (hsh : ShowsGrid img q v (finderCentre m (tlFinder ρ v m ox oy)) (finderCentre m (trFinder ρ v m ox oy))
      (finderCentre m (blFinder ρ v m ox oy))) :
    extract img (turnedLocation ρ v m ox oy) = .ok q := by
  have hall : ∀ f ∈ [tlFinder ρ v m ox oy, trFinder ρ v m ox oy, blFinder ρ v m ox oy], f ∈ turnedFinders ρ v m ox oy := by
    obtain ⟨fx, fy, sw⟩ := ρ
    unfold tlFinder trFinder blFinder turnedFinders
    cases fx <;> cases fy <;> cases sw <;> simp
  have hf1 := hc _ (hall _ (by simp : tlFinder ρ v m ox oy ∈ _))
  have c1 := hf1.1
  have c2 := hf1.2.1
  refine shown_grid_extracts img hv (by omega) (by omega) hw hh (turnedLocation ρ v m ox oy) _ _ _ ⟨rfl, rfl, rfl, ?_⟩ h1
    h40 q hq hsh
  intro p hp
  have key : ∀ f ∈ turnedFinders ρ v m ox oy, |(finderCentre m f).1| ≤ 2 ^ 20 ∧ |(finderCentre m f).2| ≤ 2 ^ 20 := by
    intro f hf
    have k1 := (hc f hf).1
    have k2 := (hc f hf).2.1
    have h1' : f.1 + 7 * m ≤ 2 ^ 20 := by omega
    have h1'' : (f.1 : ℚ) + 7 * m ≤ 2 ^ 20 := by exact_mod_cast h1'
    have h3 : f.2 + (7 * m - 1) / 2 ≤ 2 ^ 20 := by omega
    have h3' : (f.2 : ℚ) + ((7 * m - 1) / 2 : Nat) ≤ 2 ^ 20 := by exact_mod_cast h3
    have z1 : (0 : ℚ) ≤ f.1 := by positivity
    have z2 : (0 : ℚ) ≤ m := by positivity
    have z3 : (0 : ℚ) ≤ (f.2 : ℚ) + ((7 * m - 1) / 2 : Nat) := by positivity
    unfold finderCentre
    simp only
    rw [abs_of_nonneg (by linarith), abs_of_nonneg z3]
    exact ⟨by linarith, h3'⟩
  simp only [List.mem_cons, List.not_mem_nil, or_false] at hp
  rcases hp with rfl | rfl | rfl
  · exact key _ (hall _ (by simp))
  · exact key _ (hall _ (by simp))
  · exact key _ (hall _ (by simp))

/-- **C72.** The default decoders read a symbol whose finder patterns are in three corners of a square, in any of the four
turns, while the rest of it follows the alignment pattern: there is one result, that of decoding the grid. -/
theorem default_decoder_decodes_placed (grayscale : IMG → GrayImage) (source : IMG) (hg : (grayscale source).Valid)
    (img : GrayImage) (himg : img = thresholded 5 7 (grayscale source)) (hpx : img.width * img.height ≤ 2 ^ 36)
    (hw : img.width ≤ 2 ^ 20) (hh : img.height ≤ 2 ^ 20) (q : QRData) (v : Nat) (h1 : 1 ≤ v) (h40 : v ≤ 40)
    (hq : WellFormed q v) (ρ : Orientation) (hρ : ¬ ρ.Mirrored) (m ox oy : Nat) (hm : 2 ≤ m)
    (hc : ∀ f ∈ turnedFinders ρ v m ox oy, CleanFinder img m f.1 f.2)
    (hs : ∀ y < img.height, SteadyRow img img.width y) (hn : NoOtherFinders img m (turnedFinders ρ v m ox oy))
    (hsh : ShowsGrid img q v (finderCentre m (tlFinder ρ v m ox oy)) (finderCentre m (trFinder ρ v m ox oy))
      (finderCentre m (blFinder ρ v m ox oy))) :
    (∃ d : Decoder σ IMG GrayImage QRLocation QRData (List Char), defaultDecoder grayscale = .ret d ∧
      ∀ r, Gives (qrDecode (.ok q)) r → ∀ s, d.decode source s = .ret ([r], s)) ∧
    ∃ d : Decoder σ IMG GrayImage QRLocation QRData (List Char × QRInfo), defaultDecoderWithInfo grayscale = .ret d ∧
      ∀ r, Gives (qrDecodeWithInfo (.ok q)) r → ∀ s, d.decode source s = .ret ([r], s) := by
  obtain ⟨f, hf⟩ : ∃ f, f ∈ turnedFinders ρ v m ox oy := by
    obtain ⟨fx, fy, sw⟩ := ρ
    unfold turnedFinders
    cases fx <;> cases fy <;> simp
  have c1 := (hc f hf).1
  have c2 := (hc f hf).2.1
  obtain ⟨hprep, hv⟩ := prepares (grayscale source) hg img himg hpx hw hh (by omega) (by omega)
  have hdet := turned_symbol_is_detected img hv ρ hρ v m ox oy hm h1 hc hs hn
  have hext := placed_location_extracts img hv hw hh q v h1 h40 hq ρ m ox oy hm hc hsh
  constructor
  · obtain ⟨d, hd, hiff⟩ := default_decoder_results (σ := σ) grayscale
    refine ⟨d, hd, fun r hr s => (hiff _ _ _ _).mpr ⟨rfl, img, _, hprep, hdet, ?_⟩⟩
    exact .cons (Or.inl ⟨q, hext, hr⟩) .nil
  · obtain ⟨d, hd, hiff⟩ := default_decoder_with_info_results (σ := σ) grayscale
    refine ⟨d, hd, fun r hr s => (hiff _ _ _ _).mpr ⟨rfl, img, _, hprep, hdet, ?_⟩⟩
    exact .cons (Or.inl ⟨q, hext, hr⟩) .nil

/-- **C72.** A symbol in perspective is read in any light. -/
theorem default_decoder_reads_placed (grayscale : IMG → GrayImage) (source : IMG) (hg : (grayscale source).Valid)
    (img : GrayImage) (hmix : WellMixed img 1) (hlit : LitEnlargement (grayscale source) img 1) (hv : img.Valid)
    (hpx : img.width * img.height ≤ 2 ^ 36)
    (hw : img.width ≤ 2 ^ 20) (hh : img.height ≤ 2 ^ 20) (q : QRData) (v : Nat) (h1 : 1 ≤ v) (h40 : v ≤ 40)
    (l : ECLevel) (k : Nat) (hk : k < 8) (segments : List Segment) (hfit : ∀ s ∈ segments, s.fits v)
    (text : List Char) (htext : SegmentsText segments text) (hq : IsSymbol q v l k segments)
    (ρ : Orientation) (hρ : ¬ ρ.Mirrored) (m ox oy : Nat) (hm : 2 ≤ m)
    (hc : ∀ f ∈ turnedFinders ρ v m ox oy, CleanFinder img m f.1 f.2)
    (hs : ∀ y < img.height, SteadyRow img img.width y) (hn : NoOtherFinders img m (turnedFinders ρ v m ox oy))
    (hsh : ShowsGrid img q v (finderCentre m (tlFinder ρ v m ox oy)) (finderCentre m (trFinder ρ v m ox oy))
      (finderCentre m (blFinder ρ v m ox oy))) :
    (∃ d : Decoder σ IMG GrayImage QRLocation QRData (List Char), defaultDecoder grayscale = .ret d ∧
      ∀ s, d.decode source s = .ret ([.ok text], s)) ∧
    ∃ info, info.version = v ∧ info.ecLevel = l ∧ info.errors = 0 ∧
      ∃ d : Decoder σ IMG GrayImage QRLocation QRData (List Char × QRInfo), defaultDecoderWithInfo grayscale = .ret d ∧
        ∀ s, d.decode source s = .ret ([.ok (text, info)], s) := by
  obtain ⟨t1, info, t2, i1, i2, i3⟩ := symbol_decodes q v h1 h40 l k hk segments hfit text htext hq
  obtain ⟨he, hv'⟩ := lit_threshold hlit hg hmix
  have himg : img = thresholded 5 7 (grayscale source) := image_ext hv hv' (by rw [he.1, Nat.mul_one]) (by rw [he.2.1, Nat.mul_one])
    fun x hx y hy => by
      rw [he.2.2 x (by rw [he.1, Nat.mul_one]; exact hx) y (by rw [he.2.1, Nat.mul_one]; exact hy), Nat.div_one, Nat.div_one]
  obtain ⟨⟨d, e, h⟩, d', e', h'⟩ := default_decoder_decodes_placed (σ := σ) grayscale source hg img himg hpx hw hh q v h1 h40
    hq.1 ρ hρ m ox oy hm hc hs hn hsh
  exact ⟨⟨d, e, h _ (Or.inl ⟨text, t1, rfl⟩)⟩, info, i1, i2, i3, d', e', h' _ (Or.inl ⟨(text, info), t2, rfl⟩)⟩

/-- **C73.** As C72, for a symbol among other things: whenever decoding returns, the result of decoding the grid is among
the results. -/
theorem default_decoder_finds_placed (grayscale : IMG → GrayImage) (source : IMG) (hg : (grayscale source).Valid)
    (img : GrayImage) (himg : img = thresholded 5 7 (grayscale source)) (hpx : img.width * img.height ≤ 2 ^ 36)
    (hw : img.width ≤ 2 ^ 20) (hh : img.height ≤ 2 ^ 20) (m : Nat) (hm : 2 ≤ m) (fs : List (Nat × Nat))
    (hc : ∀ f ∈ fs, CleanFinder img m f.1 f.2) (ho : fs.Pairwise (ScanOrder m))
    (hs : ∀ f ∈ fs, ∀ y ≤ f.2 + 2 * m, SteadyRow img img.width y) (hn : NoOtherFindersNear img m fs)
    (q : QRData) (v : Nat) (h1 : 1 ≤ v) (h40 : v ≤ 40) (hq : WellFormed q v) (ρ : Orientation) (hρ : ¬ ρ.Mirrored) (ox oy : Nat)
    (hsym : (turnedFinders ρ v m ox oy).Sublist fs)
    (hsh : ShowsGrid img q v (finderCentre m (tlFinder ρ v m ox oy)) (finderCentre m (trFinder ρ v m ox oy))
      (finderCentre m (blFinder ρ v m ox oy))) :
    (∃ d : Decoder σ IMG GrayImage QRLocation QRData (List Char), defaultDecoder grayscale = .ret d ∧
      ∀ r, Gives (qrDecode (.ok q)) r → ∀ s rs s', d.decode source s = .ret (rs, s') → r ∈ rs) ∧
    ∃ d : Decoder σ IMG GrayImage QRLocation QRData (List Char × QRInfo), defaultDecoderWithInfo grayscale = .ret d ∧
      ∀ r, Gives (qrDecodeWithInfo (.ok q)) r → ∀ s rs s', d.decode source s = .ret (rs, s') → r ∈ rs := by
  obtain ⟨f, hf⟩ : ∃ f, f ∈ turnedFinders ρ v m ox oy := by
    obtain ⟨fx, fy, sw⟩ := ρ
    unfold turnedFinders
    cases fx <;> cases fy <;> simp
  have c1 := (hc f (hsym.subset hf)).1
  have c2 := (hc f (hsym.subset hf)).2.1
  obtain ⟨hprep, hv⟩ := prepares (grayscale source) hg img himg hpx hw hh (by omega) (by omega)
  obtain ⟨locs, hdet, hin⟩ := turned_symbol_is_among img hv (by omega) m hm fs hc ho hs hn
  have hin := hin ρ hρ v ox oy h1 hsym
  have hext := placed_location_extracts img hv hw hh q v h1 h40 hq ρ m ox oy hm (fun f hf => hc f (hsym.subset hf)) hsh
  constructor
  · obtain ⟨d, hd, hiff⟩ := default_decoder_results (σ := σ) grayscale
    refine ⟨d, hd, ?_⟩
    intro r hr s rs s' hrun
    obtain ⟨-, img', locs', hp', hd', hall⟩ := (hiff _ _ _ _).mp hrun
    rw [hprep] at hp'
    have := Run.ret.inj hp'
    subst this
    rw [hdet] at hd'
    have := Run.ret.inj hd'
    subst this
    exact result_among hall hin hext hr
  · obtain ⟨d, hd, hiff⟩ := default_decoder_with_info_results (σ := σ) grayscale
    refine ⟨d, hd, ?_⟩
    intro r hr s rs s' hrun
    obtain ⟨-, img', locs', hp', hd', hall⟩ := (hiff _ _ _ _).mp hrun
    rw [hprep] at hp'
    have := Run.ret.inj hp'
    subst this
    rw [hdet] at hd'
    have := Run.ret.inj hd'
    subst this
    exact result_among hall hin hext hr

/-- **C73.** Every symbol of a picture that shows several in perspective, or one among other things, in any light and each
in any of the four turns, is read: whenever decoding returns, its text is among the results. -/
theorem default_decoder_finds_in_perspective (grayscale : IMG → GrayImage) (source : IMG) (hg : (grayscale source).Valid)
    (img : GrayImage) (hmix : WellMixed img 1) (hlit : LitEnlargement (grayscale source) img 1) (hv : img.Valid)
    (hpx : img.width * img.height ≤ 2 ^ 36)
    (hw : img.width ≤ 2 ^ 20) (hh : img.height ≤ 2 ^ 20) (m : Nat) (hm : 2 ≤ m) (fs : List (Nat × Nat))
    (hc : ∀ f ∈ fs, CleanFinder img m f.1 f.2) (ho : fs.Pairwise (ScanOrder m))
    (hs : ∀ f ∈ fs, ∀ y ≤ f.2 + 2 * m, SteadyRow img img.width y) (hn : NoOtherFindersNear img m fs)
    (q : QRData) (v : Nat) (h1 : 1 ≤ v) (h40 : v ≤ 40)
    (l : ECLevel) (k : Nat) (hk : k < 8) (segments : List Segment) (hfit : ∀ s ∈ segments, s.fits v)
    (text : List Char) (htext : SegmentsText segments text) (hq : IsSymbol q v l k segments)
    (ρ : Orientation) (hρ : ¬ ρ.Mirrored) (ox oy : Nat) (hsym : (turnedFinders ρ v m ox oy).Sublist fs)
    (hsh : ShowsGrid img q v (finderCentre m (tlFinder ρ v m ox oy)) (finderCentre m (trFinder ρ v m ox oy))
      (finderCentre m (blFinder ρ v m ox oy))) :
    (∃ d : Decoder σ IMG GrayImage QRLocation QRData (List Char), defaultDecoder grayscale = .ret d ∧
      ∀ s rs s', d.decode source s = .ret (rs, s') → .ok text ∈ rs) ∧
    ∃ info, info.version = v ∧ info.ecLevel = l ∧ info.errors = 0 ∧
      ∃ d : Decoder σ IMG GrayImage QRLocation QRData (List Char × QRInfo), defaultDecoderWithInfo grayscale = .ret d ∧
        ∀ s rs s', d.decode source s = .ret (rs, s') → .ok (text, info) ∈ rs := by
  obtain ⟨t1, info, t2, i1, i2, i3⟩ := symbol_decodes q v h1 h40 l k hk segments hfit text htext hq
  obtain ⟨he, hv'⟩ := lit_threshold hlit hg hmix
  have himg : img = thresholded 5 7 (grayscale source) := image_ext hv hv' (by rw [he.1, Nat.mul_one]) (by rw [he.2.1, Nat.mul_one])
    fun x hx y hy => by
      rw [he.2.2 x (by rw [he.1, Nat.mul_one]; exact hx) y (by rw [he.2.1, Nat.mul_one]; exact hy), Nat.div_one, Nat.div_one]
  obtain ⟨⟨d, e, h⟩, d', e', h'⟩ := default_decoder_finds_placed (σ := σ) grayscale source hg img himg hpx hw hh m hm fs hc ho
    hs hn q v h1 h40 hq.1 ρ hρ ox oy hsym hsh
  exact ⟨⟨d, e, h _ (Or.inl ⟨text, t1, rfl⟩)⟩, info, i1, i2, i3, d', e', h' _ (Or.inl ⟨(text, info), t2, rfl⟩)⟩

end Verif.Props
