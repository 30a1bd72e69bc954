import Verif.Model.Default
import Verif.Props.Pipeline
import Verif.Props.Threshold
import Verif.Props.Rendering
import Verif.Props.Located
import Verif.Lemmas.Finders

/-!
# C64, C65: the default decoders
-/
namespace Verif.Props
open Verif Verif.Spec F64

variable {σ IMG : Type}

/-- An outcome as the caller sees it, if there is no panic. -/
def Gives {α : Type} (o : Outcome α) (r : Except QRError α) : Prop :=
  (∃ a, o = .ok a ∧ r = .ok a) ∨ (∃ e, o = .err e ∧ r = .error e)

/-- The result for one location: extract the grid, then decode it; an error of either is the result. -/
def ResultAt {α : Type} (decode : Except QRError QRData → Outcome α) (img : GrayImage) (loc : QRLocation)
    (r : Except QRError α) : Prop :=
  (∃ g, Extractor.extract img loc = .ok g ∧ Gives (decode (.ok g)) r) ∨
  (∃ e, Extractor.extract img loc = .err e ∧ r = .error e)

theorem lift_ret {α : Type} (o : Outcome α) (s s' : σ) (r : Except QRError α) :
    Outcome.lift o s = .ret (r, s') ↔ Gives o r ∧ s' = s := by
  cases o with
  | ok a => simp [Outcome.lift, Gives, eq_comm]
  | err e => simp [Outcome.lift, Gives, eq_comm]
  | panic => simp [Outcome.lift, Gives]

theorem runLift_ret {α : Type} (o : Run α) (s s' : σ) (a : α) :
    Run.lift o s = .ret (a, s') ↔ o = .ret a ∧ s' = s := by
  cases o with
  | ret b => simp [Run.lift, eq_comm]
  | panic => simp [Run.lift]

theorem detectComponent_ret (img : GrayImage) (s s' : σ) (locs : List (Location QRLocation)) :
    LineScan.component img s = .ret (locs, s') ↔
      ∃ ls, LineScan.detect img = .ret ls ∧ locs = ls.map .qr ∧ s' = s := by
  unfold LineScan.component Eff.bind
  cases h : LineScan.detect img with
  | ret b => simp [Run.lift, Eff.pure, eq_comm]
  | panic => simp [Run.lift]

theorem calls_default {α : Type} (decode : Except QRError QRData → Outcome α) (hd : ∀ e, decode (.error e) = .err e)
    (img : GrayImage) (ls : List QRLocation) (s s' : σ) (rs : List (Except QRError α)) :
    Calls extractComponent (fun x => Outcome.lift (decode x)) img (ls.map .qr) s rs s' ↔
      s' = s ∧ List.Forall₂ (ResultAt decode img) ls rs := by
  induction ls generalizing s rs with
  | nil =>
    constructor
    · intro h; cases h; exact ⟨rfl, .nil⟩
    · rintro ⟨rfl, h⟩; cases h; exact .nil _
  | cons l ls ih =>
    constructor
    · intro h
      cases h with
      | cons hx hr hc =>
        obtain ⟨h1, rfl⟩ := (lift_ret _ _ _ _).mp hx
        obtain ⟨h2, rfl⟩ := (lift_ret _ _ _ _).mp hr
        obtain ⟨rfl, h3⟩ := (ih _ _).mp hc
        refine ⟨rfl, .cons ?_ h3⟩
        rcases h1 with ⟨g, h1, rfl⟩ | ⟨e, h1, rfl⟩
        · exact Or.inl ⟨g, h1, h2⟩
        · refine Or.inr ⟨e, h1, ?_⟩
          rw [hd] at h2
          rcases h2 with ⟨_, h2, -⟩ | ⟨_, h2, rfl⟩
          · cases h2
          · cases h2; rfl
    · rintro ⟨rfl, h⟩
      cases h with
      | cons h1 h3 =>
        have hc := (ih _ _).mpr ⟨rfl, h3⟩
        rcases h1 with ⟨g, h1, h2⟩ | ⟨e, h1, rfl⟩
        · exact .cons ((lift_ret _ _ _ _).mpr ⟨Or.inl ⟨g, h1, rfl⟩, rfl⟩) ((lift_ret _ _ _ _).mpr ⟨h2, rfl⟩) hc
        · refine .cons ((lift_ret _ _ _ _).mpr ⟨Or.inr ⟨e, h1, rfl⟩, rfl⟩) ((lift_ret _ _ _ _).mpr ⟨?_, rfl⟩) hc
          exact Or.inr ⟨e, hd e, rfl⟩

/-- **C64.** The default decoder can be built, and for every image, whatever the conversion to grey does: it
returns the results `rs` iff local thresholding (blocks of 5 pixels, means over 7) and detection return, and there is
exactly one result per location, in the order of detection: the decoded text, or the error of the extraction or
decoding at that location. It keeps no state: the results depend on the image alone. -/
theorem default_decoder_results (grayscale : IMG → GrayImage) :
    ∃ d : Decoder σ IMG GrayImage QRLocation QRData (List Char), defaultDecoder grayscale = .ret d ∧
      ∀ source s rs s', d.decode source s = .ret (rs, s') ↔
        s' = s ∧ ∃ img locs, (BlockedMean.mk 5 7).prepare (grayscale source) = .ret img ∧
          LineScan.detect img = .ret locs ∧ List.Forall₂ (ResultAt qrDecode img) locs rs := by
  refine ⟨_, rfl, ?_⟩
  intro source s rs s'
  rw [decode_runs_all_locations]
  constructor
  · rintro ⟨img, s1, locs, s2, hp, hd, hc⟩
    obtain ⟨h1, rfl⟩ := (runLift_ret _ _ _ _).mp hp
    obtain ⟨ls, h2, rfl, rfl⟩ := (detectComponent_ret _ _ _ _).mp hd
    obtain ⟨rfl, h3⟩ := (calls_default qrDecode (fun _ => rfl) _ _ _ _ _).mp hc
    exact ⟨rfl, img, ls, h1, h2, h3⟩
  · rintro ⟨rfl, img, ls, h1, h2, h3⟩
    exact ⟨img, _, _, _, (runLift_ret _ _ _ _).mpr ⟨h1, rfl⟩, (detectComponent_ret _ _ _ _).mpr ⟨ls, h2, rfl, rfl⟩,
      (calls_default qrDecode (fun _ => rfl) _ _ _ _ _).mpr ⟨rfl, h3⟩⟩

/-- C64 for the default decoder with info. -/
theorem default_decoder_with_info_results (grayscale : IMG → GrayImage) :
    ∃ d : Decoder σ IMG GrayImage QRLocation QRData (List Char × QRInfo), defaultDecoderWithInfo grayscale = .ret d ∧
      ∀ source s rs s', d.decode source s = .ret (rs, s') ↔
        s' = s ∧ ∃ img locs, (BlockedMean.mk 5 7).prepare (grayscale source) = .ret img ∧
          LineScan.detect img = .ret locs ∧ List.Forall₂ (ResultAt qrDecodeWithInfo img) locs rs := by
  refine ⟨_, rfl, ?_⟩
  intro source s rs s'
  rw [decode_runs_all_locations]
  constructor
  · rintro ⟨img, s1, locs, s2, hp, hd, hc⟩
    obtain ⟨h1, rfl⟩ := (runLift_ret _ _ _ _).mp hp
    obtain ⟨ls, h2, rfl, rfl⟩ := (detectComponent_ret _ _ _ _).mp hd
    obtain ⟨rfl, h3⟩ := (calls_default qrDecodeWithInfo (fun _ => rfl) _ _ _ _ _).mp hc
    exact ⟨rfl, img, ls, h1, h2, h3⟩
  · rintro ⟨rfl, img, ls, h1, h2, h3⟩
    exact ⟨img, _, _, _, (runLift_ret _ _ _ _).mpr ⟨h1, rfl⟩, (detectComponent_ret _ _ _ _).mpr ⟨ls, h2, rfl, rfl⟩,
      (calls_default qrDecodeWithInfo (fun _ => rfl) _ _ _ _ _).mpr ⟨rfl, h3⟩⟩

/-- The point of a reported centre. -/
def reportedPt (m fx fy : Nat) : Pt := (fx + 7 * (m : ℚ) / 2, fy + ((7 * m - 1) / 2 : Nat))

theorem half_odd (m : Nat) (hm : 1 ≤ m) : ∃ δ : ℚ, (((7 * m - 1) / 2 : Nat) : ℚ) = 3 * m + ((m : ℚ) - 1) / 2 + δ ∧ |δ| ≤ 1 / 2 := by
  rcases Nat.even_or_odd' m with ⟨c, rfl | rfl⟩
  · refine ⟨-1 / 2, ?_, by norm_num⟩
    rw [show (7 * (2 * c) - 1) / 2 = 7 * c - 1 by omega, Nat.cast_sub (by omega)]
    push_cast; ring
  · refine ⟨0, ?_, by norm_num⟩
    rw [show (7 * (2 * c + 1) - 1) / 2 = 7 * c + 3 by omega]
    push_cast; ring

/-- The location reported for a drawn symbol is good enough to extract it. -/
theorem reported_location_extracts (img : GrayImage) (hv : img.Valid) (hw : img.width ≤ 2 ^ 20)
    (hh : img.height ≤ 2 ^ 20) (q : QRData) (v : Nat) (h1 : 1 ≤ v) (h40 : v ≤ 40) (hq : WellFormed q v)
    (hal : 2 ≤ v → HasAlignment q) (m ox oy : Nat) (hm : 2 ≤ m) (hd : Drawn img q m ox oy) :
    Extractor.extract img ⟨reportedCentre m ox oy, reportedCentre m (ox + (4 * v + 10) * m) oy,
      reportedCentre m ox (oy + (4 * v + 10) * m), .fin m, v⟩ = .ok q := by
  obtain ⟨δ, hδ, hδ'⟩ := half_odd m (by omega)
  have hs : q.side = 4 * v + 17 := hq.2.1
  have hm' : (2 : ℚ) ≤ m := by exact_mod_cast hm
  have d1 := hd.1
  have d2 := hd.2.1
  have e : q.side * m = (4 * v + 10) * m + 7 * m := by rw [hs]; ring
  have key : ∀ fx fy : Nat, fx + 7 * m ≤ 2 ^ 20 → fy + 7 * m ≤ 2 ^ 20 →
      |(reportedPt m fx fy).1| ≤ 2 ^ 20 ∧ |(reportedPt m fx fy).2| ≤ 2 ^ 20 := by
    intro fx fy h1 h2
    have h1' : (fx : ℚ) + 7 * m ≤ 2 ^ 20 := by exact_mod_cast h1
    have h3 : fy + (7 * m - 1) / 2 ≤ 2 ^ 20 := by omega
    have h3' : (fy : ℚ) + ((7 * m - 1) / 2 : Nat) ≤ 2 ^ 20 := by exact_mod_cast h3
    have z1 : (0 : ℚ) ≤ fx := by positivity
    have z2 : (0 : ℚ) ≤ (fy : ℚ) + ((7 * m - 1) / 2 : Nat) := by positivity
    unfold reportedPt
    simp only
    rw [abs_of_nonneg (by linarith), abs_of_nonneg z2]
    exact ⟨by linarith, h3'⟩
  have c4 : ((q.side - 4 : Nat) : ℚ) = 4 * v + 10 + 3 := by
    rw [hs, show 4 * v + 17 - 4 = 4 * v + 10 + 3 by omega]; push_cast; ring
  refine drawn_grid_is_extracted img hv hw hh q v h1 h40 hq hal m ox oy (by omega) hd _ rfl (reportedPt m ox oy)
    (reportedPt m (ox + (4 * v + 10) * m) oy) (reportedPt m ox (oy + (4 * v + 10) * m)) ⟨rfl, rfl, rfl, ?_⟩
    (1 / 2, δ) 0 (le_refl 0) ⟨⟨?_, ?_⟩, ⟨?_, ?_⟩, ⟨?_, ?_⟩⟩ ?_ ?_
  · intro p hp
    simp only [List.mem_cons, List.not_mem_nil, or_false] at hp
    rcases hp with rfl | rfl | rfl
    · exact key _ _ (by omega) (by omega)
    · exact key _ _ (by omega) (by omega)
    · exact key _ _ (by omega) (by omega)
  · simp only [reportedPt, moduleCentre]
    rw [le_iff_eq_or_lt]; left; rw [abs_eq_zero]; push_cast; ring
  · simp only [reportedPt, moduleCentre]
    rw [le_iff_eq_or_lt]; left; rw [abs_eq_zero, hδ]; push_cast; ring
  · simp only [reportedPt, moduleCentre]
    rw [le_iff_eq_or_lt]; left; rw [abs_eq_zero, c4]; push_cast; ring
  · simp only [reportedPt, moduleCentre]
    rw [le_iff_eq_or_lt]; left; rw [abs_eq_zero, hδ]; push_cast; ring
  · simp only [reportedPt, moduleCentre]
    rw [le_iff_eq_or_lt]; left; rw [abs_eq_zero]; push_cast; ring
  · simp only [reportedPt, moduleCentre]
    rw [le_iff_eq_or_lt]; left; rw [abs_eq_zero, c4, hδ]; push_cast; ring
  · simp only
    rw [abs_of_nonneg (by norm_num)]; linarith
  · simp only
    linarith

/-- Preparation of an image whose thresholded form is large enough for a symbol. -/
theorem prepares (g : GrayImage) (hg : g.Valid) (img : GrayImage) (himg : img = thresholded 5 7 g)
    (hpx : img.width * img.height ≤ 2 ^ 36) (hw : img.width ≤ 2 ^ 20) (hh : img.height ≤ 2 ^ 20)
    (hw5 : 5 ≤ img.width) (hh5 : 5 ≤ img.height) : (BlockedMean.mk 5 7).prepare g = .ret img ∧ img.Valid := by
  have ew : img.width = g.width := by rw [himg]; rfl
  have eh : img.height = g.height := by rw [himg]; rfl
  have hdef : ThresholdDefined 5 7 g.width g.height := by
    rw [← ew, ← eh]
    refine ⟨by omega, by omega, by omega, by omega, ?_, by omega, by omega⟩
    have h5 : (5 * (img.width / 5)) * (5 * (img.height / 5)) ≤ img.width * img.height :=
      Nat.mul_le_mul (by omega) (by omega)
    have e5 : (5 * (img.width / 5)) * (5 * (img.height / 5)) = 25 * ((img.width / 5) * (img.height / 5)) := by ring
    have e6 : (img.width / 5 + 1) * (img.height / 5 + 1) =
      (img.width / 5) * (img.height / 5) + img.width / 5 + img.height / 5 + 1 := by ring
    omega
  constructor
  · rw [prepare_eq 5 7 _ hg ?_ hdef, himg]; rfl
    rw [← ew, ← eh]
    calc _ ≤ 2 ^ 20 * 2 ^ 20 := Nat.mul_le_mul hw hh
      _ ≤ _ := by norm_num
  · refine ⟨?_, by omega, by omega⟩
    rw [himg]
    simp only [thresholded]
    rw [List.length_map, positions_length]

/-- **C68 (alone).** The default decoders give exactly the result of the grid decoder on a grid that is drawn upright.
`g` is the image in grey and `img` the black and white image that local thresholding makes of it. If `img` shows
the grid `q`, whatever its data modules, with modules of `m` by `m` pixels, `m` at least 2, with finder patterns,
alignment pattern and light border, no row with a run of less than a tenth of the one before, and nothing else that
row and column agree to be a finder pattern, then there is one result, that of decoding `q`, be it a text or an
error. -/
theorem default_decoder_decodes_grid (grayscale : IMG → GrayImage) (source : IMG) (hg : (grayscale source).Valid)
    (img : GrayImage) (himg : img = thresholded 5 7 (grayscale source)) (hpx : img.width * img.height ≤ 2 ^ 36)
    (hw : img.width ≤ 2 ^ 20) (hh : img.height ≤ 2 ^ 20) (q : QRData) (v : Nat) (h1 : 1 ≤ v) (h40 : v ≤ 40)
    (hq : WellFormed q v) (hf : HasFinders q) (hal : 2 ≤ v → HasAlignment q) (m ox oy : Nat) (hm : 2 ≤ m)
    (hd : Drawn img q m ox oy) (hz : QuietZone img q.side m ox oy)
    (hs : ∀ y < img.height, SteadyRow img img.width y) (hn : NoOtherFinders img m (symbolFinders v m ox oy)) :
    (∃ d : Decoder σ IMG GrayImage QRLocation QRData (List Char), defaultDecoder grayscale = .ret d ∧
      ∀ r, Gives (qrDecode (.ok q)) r → ∀ s, d.decode source s = .ret ([r], s)) ∧
    ∃ d : Decoder σ IMG GrayImage QRLocation QRData (List Char × QRInfo), defaultDecoderWithInfo grayscale = .ret d ∧
      ∀ r, Gives (qrDecodeWithInfo (.ok q)) r → ∀ s, d.decode source s = .ret ([r], s) := by
  have hside : q.side = 4 * v + 17 := hq.2.1
  have d1 := hd.1
  have d2 := hd.2.1
  have hlow : 21 * 2 ≤ q.side * m := Nat.mul_le_mul (by omega) hm
  obtain ⟨hprep, hv⟩ := prepares (grayscale source) hg img himg hpx hw hh (by omega) (by omega)
  have hdet := symbol_is_detected img hv v m ox oy hm h1 (drawn_clean (by omega) hq.2.1 hd hf hz) hs hn
  have hext := reported_location_extracts img hv hw hh q v h1 h40 hq hal m ox oy hm hd
  constructor
  · obtain ⟨d, hd, hiff⟩ := default_decoder_results (σ := σ) grayscale
    refine ⟨d, hd, fun r hr s => (hiff _ _ _ _).mpr ⟨rfl, img, _, hprep, hdet, ?_⟩⟩
    exact .cons (Or.inl ⟨q, hext, hr⟩) .nil
  · obtain ⟨d, hd, hiff⟩ := default_decoder_with_info_results (σ := σ) grayscale
    refine ⟨d, hd, fun r hr s => (hiff _ _ _ _).mpr ⟨rfl, img, _, hprep, hdet, ?_⟩⟩
    exact .cons (Or.inl ⟨q, hext, hr⟩) .nil

/-- **C65.** The default decoder reads an upright symbol. `g` is the image in grey and `img` the black and white image
that local thresholding makes of it. If `img` shows the grid `q` of a symbol, with modules of `m` by `m` pixels,
`m` at least 2, with finder patterns, alignment pattern and light border, no row with a run of less than a
tenth of the one before, and nothing else that row and column agree to be a finder pattern, then the result is
the text of the symbol and nothing else. -/
theorem default_decoder_reads_symbol (grayscale : IMG → GrayImage) (source : IMG) (hg : (grayscale source).Valid)
    (img : GrayImage) (himg : img = thresholded 5 7 (grayscale source)) (hpx : img.width * img.height ≤ 2 ^ 36)
    (hw : img.width ≤ 2 ^ 20) (hh : img.height ≤ 2 ^ 20) (q : QRData) (v : Nat) (h1 : 1 ≤ v) (h40 : v ≤ 40)
    (l : ECLevel) (k : Nat) (hk : k < 8) (segments : List Segment) (hfit : ∀ s ∈ segments, s.fits v)
    (text : List Char) (htext : SegmentsText segments text) (hq : IsSymbol q v l k segments)
    (hf : HasFinders q) (hal : 2 ≤ v → HasAlignment q) (m ox oy : Nat) (hm : 2 ≤ m) (hd : Drawn img q m ox oy)
    (hz : QuietZone img q.side m ox oy) (hs : ∀ y < img.height, SteadyRow img img.width y)
    (hn : NoOtherFinders img m (symbolFinders v m ox oy)) :
    (∃ d : Decoder σ IMG GrayImage QRLocation QRData (List Char), defaultDecoder grayscale = .ret d ∧
      ∀ s, d.decode source s = .ret ([.ok text], s)) ∧
    ∃ info, info.version = v ∧ info.ecLevel = l ∧ info.errors = 0 ∧
      ∃ d : Decoder σ IMG GrayImage QRLocation QRData (List Char × QRInfo), defaultDecoderWithInfo grayscale = .ret d ∧
        ∀ s, d.decode source s = .ret ([.ok (text, info)], s) := by
  obtain ⟨t1, info, t2, i1, i2, i3⟩ := symbol_decodes q v h1 h40 l k hk segments hfit text htext hq
  obtain ⟨⟨d, e, h⟩, d', e', h'⟩ := default_decoder_decodes_grid (σ := σ) grayscale source hg img himg hpx hw hh q v h1 h40
    hq.1 hf hal m ox oy hm hd hz hs hn
  exact ⟨⟨d, e, h _ (Or.inl ⟨text, t1, rfl⟩)⟩, info, i1, i2, i3, d', e', h' _ (Or.inl ⟨(text, info), t2, rfl⟩)⟩

end Verif.Props
