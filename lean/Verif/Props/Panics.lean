import Verif.Spec.Panics
import Verif.Props.Among
import Verif.Props.Data
import Verif.Props.Detect
import Verif.Props.ExtractReach

/-!
# C76: what makes the default decoders panic
-/
namespace Verif.Props
open Verif Verif.Spec F64 LineScan Extractor

variable {σ IMG : Type}

/-- The correction loop: an error, or all blocks are corrected. -/
theorem correctBlocks_cases (v : Nat) (l : ECLevel) (pairs : List (List U8 × BlockInfo))
    (hp : ∀ p ∈ pairs, IsRow v l p.2 ∧ p.1.length = p.2.total_per) (acc : List U8) :
    ((∃ e, correctBlocks pairs acc = .err e) ∧
      ¬ ∃ bs, List.Forall₂ (fun p b => correct p.1 p.2 = .ok b) pairs bs) ∨
    ∃ bs, List.Forall₂ (fun p b => correct p.1 p.2 = .ok b) pairs bs ∧
      correctBlocks pairs acc = .ok (acc ++ (bs.zip (pairs.map (·.2))).flatMap fun p => p.1.take p.2.data_per) := by
  induction pairs generalizing acc with
  | nil => exact .inr ⟨[], .nil, by simp [correctBlocks]⟩
  | cons p pairs ih =>
    obtain ⟨b, bi⟩ := p
    obtain ⟨h1, h2⟩ := hp (b, bi) List.mem_cons_self
    have ih := ih (fun p h => hp p (List.mem_cons_of_mem _ h))
    rw [correctBlocks]
    rcases correction_total v l bi h1 b h2 with ⟨c, n, -, hc, -⟩ | ⟨e, -, he⟩
    · simp only [hc, Outcome.ok_bind]
      rcases ih (acc ++ c.take bi.data_per) with ⟨he, hn⟩ | ⟨bs, hbs, hok⟩
      · refine .inl ⟨he, ?_⟩
        rintro ⟨bs, hbs⟩
        cases hbs with
        | cons _ h => exact hn ⟨_, h⟩
      · refine .inr ⟨c :: bs, .cons hc hbs, ?_⟩
        rw [hok]
        simp
    · refine .inl ⟨⟨e, by simp only [he, Outcome.err_bind]⟩, ?_⟩
      rintro ⟨bs, hbs⟩
      cases hbs with
      | cons h _ => simp only [he] at h; cases h

theorem forall₂_unique {α β : Type} {R : α → β → Prop} (hR : ∀ a b b', R a b → R a b' → b = b') {l : List α}
    {r r' : List β} (h : List.Forall₂ R l r) (h' : List.Forall₂ R l r') : r = r' := by
  induction h generalizing r' with
  | nil => cases h'; rfl
  | cons h _ ih =>
    cases h' with
    | cons h1 h2 => rw [hR _ _ _ h h1, ih h2]

/-- **C76, one grid.** Decoding a complete grid panics iff its version is known, its format information and blocks are
readable and can be corrected, and the corrected data end in an alphanumeric segment whose last, single character is
none. -/
theorem decode_panics_iff (q : QRData) (v : Nat) (hw : WellFormed q v) :
    qrDecode (.ok q) = .panic ↔
      1 ≤ v ∧ v ≤ 40 ∧ ∃ payload, CarriesData q payload ∧ LastCharacterIllegal v payload := by
  have hver := hw.1
  have hdata : ∀ payload, data payload q.version = .panic ↔ 1 ≤ v ∧ v ≤ 40 ∧ LastCharacterIllegal v payload := by
    intro payload
    rw [hver, data_panics_iff]
    rfl
  unfold qrDecode
  simp only
  constructor
  · intro h
    rcases format_total q v hw with ⟨⟨l, m⟩, hx⟩ | hx
    · simp only [hx, Outcome.ok_bind] at h
      by_cases hk : 1 ≤ v ∧ v ≤ 40
      · obtain ⟨k, hk'⟩ := format_mask q l m hx
        have hk8 : k < 8 := by
          by_contra hc
          rw [no_other_mask k (by omega)] at hk'
          cases hk'
        obtain ⟨bs, hb, hlen⟩ := blocks_always_ok q v hk.1 hk.2 hw l k hk8 m hk'
        obtain ⟨-, -, rows, hrows, hl⟩ := blocks_ok_inv q l m bs hb
        rw [hver] at hrows
        obtain ⟨hp, -, hlen'⟩ := pairs_facts v hk.1 hk.2 l rows hrows bs hl
        simp only [hb, hver, hrows, Outcome.ok_bind] at h
        rcases correctBlocks_cases v l (bs.zip rows) hp [] with ⟨⟨e, he⟩, -⟩ | ⟨cs, hcs, hok⟩
        · simp only [he, Outcome.err_bind] at h; cases h
        · rw [hok] at h
          simp only [Outcome.ok_bind, List.nil_append] at h
          rw [← hver, hdata] at h
          refine ⟨hk.1, hk.2, _, ⟨l, m, bs, rows, cs, hx, hb, by rw [hver]; exact hrows, hcs, rfl⟩, ?_⟩
          have e : (bs.zip rows).map (·.2) = rows := List.map_snd_zip (by omega)
          rw [e] at h
          exact h.2.2
      · obtain ⟨e, he, -⟩ := blocks_unknown_version q (by omega) l m
        simp only [he, Outcome.err_bind] at h; cases h
    · simp only [hx, Outcome.err_bind] at h; cases h
  · rintro ⟨h1, h40, payload, ⟨l, m, bs, rows, cs, hx, hb, hrows, hcs, rfl⟩, hbad⟩
    obtain ⟨-, -, rows', hrows', hl⟩ := blocks_ok_inv q l m bs hb
    rw [hrows] at hrows'
    cases hrows'
    obtain ⟨hp, -, hlen'⟩ := pairs_facts q.version (by omega) (by omega) l rows hrows bs hl
    have e : (bs.zip rows).map (·.2) = rows := List.map_snd_zip (by omega)
    simp only [hx, hb, hrows, Outcome.ok_bind]
    rcases correctBlocks_cases q.version l (bs.zip rows) hp [] with ⟨-, hn⟩ | ⟨cs', hcs', hok⟩
    · exact absurd ⟨cs, hcs⟩ hn
    · have : cs' = cs := forall₂_unique (fun p b b' h h' => by rw [h] at h'; exact Outcome.ok.inj h') hcs' hcs
      subst this
      rw [hok, e]
      simp only [Outcome.ok_bind, List.nil_append]
      exact (hdata _).mpr ⟨h1, h40, hbad⟩

/-- The decoder with info panics on the same inputs. -/
theorem info_decoder_panics_iff (input : Except QRError QRData) :
    qrDecodeWithInfo input = .panic ↔ qrDecode input = .panic := by
  rw [info_decoder_agrees]
  cases qrDecodeWithInfo input <;> simp [Outcome.map]

/-- One location does not lead to a panic iff it has a result. -/
theorem resultAt_iff {α : Type} (decode : Except QRError QRData → Outcome α) (img : GrayImage) (loc : QRLocation) :
    (∃ r, ResultAt decode img loc r) ↔
      ¬ (extract img loc = .panic ∨ ∃ q, extract img loc = .ok q ∧ decode (.ok q) = .panic) := by
  cases he : extract img loc with
  | panic => simp [ResultAt, he]
  | err e => simp [ResultAt, he]
  | ok q =>
    cases hd : decode (.ok q) with
    | panic => simp [ResultAt, Gives, he, hd]
    | err e => simp [ResultAt, Gives, he, hd]
    | ok a => simp [ResultAt, Gives, he, hd]

theorem forall₂_exists {α β : Type} {R : α → β → Prop} (l : List α) :
    (∃ r, List.Forall₂ R l r) ↔ ∀ a ∈ l, ∃ b, R a b := by
  induction l with
  | nil => exact ⟨fun _ => by simp, fun _ => ⟨[], .nil⟩⟩
  | cons a l ih =>
    constructor
    · rintro ⟨r, h⟩
      cases h with
      | cons h t =>
        intro c hc
        rcases List.mem_cons.mp hc with rfl | hc
        · exact ⟨_, h⟩
        · exact ih.mp ⟨_, t⟩ c hc
    · intro h
      obtain ⟨b, hb⟩ := h a List.mem_cons_self
      obtain ⟨r, hr⟩ := ih.mpr fun c hc => h c (List.mem_cons_of_mem _ hc)
      exact ⟨b :: r, .cons hb hr⟩

/-- What makes decoding of the image `g`, in grey, panic. -/
def MakesPanic (g : GrayImage) : Prop :=
  g.width < 5 ∨ g.height < 5 ∨
  ∃ locs, detect (thresholded 5 7 g) = .ret locs ∧ ∃ loc ∈ locs,
    extract (thresholded 5 7 g) loc = .panic ∨
    ∃ q payload, extract (thresholded 5 7 g) loc = .ok q ∧ loc.version ≤ 40 ∧ CarriesData q payload ∧
      LastCharacterIllegal loc.version payload

theorem panics_core {α : Type} (decode : Except QRError QRData → Outcome α)
    (hdec : ∀ q, decode (.ok q) = .panic ↔ qrDecode (.ok q) = .panic) (g : GrayImage) (hg : g.Valid)
    (hpx : g.width * g.height ≤ 2 ^ 36) (hw : g.width ≤ 2 ^ 20) (hh : g.height ≤ 2 ^ 20) :
    (∃ rs img locs, (BlockedMean.mk 5 7).prepare g = .ret img ∧ detect img = .ret locs ∧
      List.Forall₂ (ResultAt decode img) locs rs) ↔ ¬ MakesPanic g := by
  by_cases hsmall : g.width < 5 ∨ g.height < 5
  · have hp : (BlockedMean.mk 5 7).prepare g = .panic := by
      by_contra hc
      have := (prepare_returns_iff 5 7 g hg (by omega)).mp hc
      unfold ThresholdDefined at this
      omega
    constructor
    · rintro ⟨_, _, _, h, -⟩
      rw [hp] at h; cases h
    · intro h
      exact absurd (by unfold MakesPanic; omega) h
  · obtain ⟨hprep, hv⟩ := prepares g hg _ rfl hpx hw hh (by simp only [thresholded]; omega) (by simp only [thresholded]; omega)
    have hs : (thresholded 5 7 g).width * (thresholded 5 7 g).height < 2 ^ 63 := by
      simp only [thresholded]; omega
    have hnp := detect_never_panics _ hv hs
    cases hd : detect (thresholded 5 7 g) with
    | panic => exact absurd hd hnp
    | ret locs =>
      have hprop := detected_locations_are_proper _ hv hs locs hd
      have hloc : ∀ loc ∈ locs, (∃ r, ResultAt decode (thresholded 5 7 g) loc r) ↔
          ¬ (extract (thresholded 5 7 g) loc = .panic ∨
            ∃ q payload, extract (thresholded 5 7 g) loc = .ok q ∧ loc.version ≤ 40 ∧ CarriesData q payload ∧
              LastCharacterIllegal loc.version payload) := by
        intro loc hl
        rw [resultAt_iff]
        refine not_congr (or_congr Iff.rfl ?_)
        have hv1 : 1 ≤ loc.version := by
          obtain ⟨_, _, _, _, -, -, hgeo⟩ := hprop loc hl
          exact hgeo.1
        constructor
        · rintro ⟨q, hq, hpan⟩
          have hwf := extracted_grid_is_well_formed _ _ _ hq
          obtain ⟨-, h40, payload, hc, hb⟩ := (decode_panics_iff q loc.version
            ⟨hwf.1, hwf.2.1, by rw [hwf.2.2.1, hwf.2.1]⟩).mp ((hdec q).mp hpan)
          exact ⟨q, payload, hq, h40, hc, hb⟩
        · rintro ⟨q, payload, hq, h40, hc, hb⟩
          have hwf := extracted_grid_is_well_formed _ _ _ hq
          exact ⟨q, hq, (hdec q).mpr ((decode_panics_iff q loc.version
            ⟨hwf.1, hwf.2.1, by rw [hwf.2.2.1, hwf.2.1]⟩).mpr ⟨hv1, h40, payload, hc, hb⟩)⟩
      constructor
      · rintro ⟨rs, img, locs', h1, h2, h3⟩ hm
        rw [hprep] at h1; cases h1
        rw [hd] at h2; cases h2
        rcases hm with h | h | ⟨locs'', h4, loc, hl, hbad⟩
        · exact hsmall (.inl h)
        · exact hsmall (.inr h)
        · rw [hd] at h4; cases h4
          exact (hloc loc hl).mp ((forall₂_exists _).mp ⟨rs, h3⟩ loc hl) hbad
      · intro hm
        obtain ⟨rs, hrs⟩ := (forall₂_exists (R := ResultAt decode (thresholded 5 7 g)) locs).mpr
          fun loc hl => (hloc loc hl).mpr fun hbad => hm (.inr (.inr ⟨locs, hd, loc, hl, hbad⟩))
        exact ⟨rs, _, locs, hprep, hd, hrs⟩

/-- **C76.** The default decoders panic on an image of at most 2^20 by 2^20 and 2^36 pixels iff it is less than 5 pixels
wide or high, or extraction panics at a detected location, or the symbol extracted there carries, after correction, an
alphanumeric segment whose last, single character is none. One such location is enough: the results of all others are
lost. -/
theorem default_decoders_panic_iff (grayscale : IMG → GrayImage) :
    (∃ d : Decoder σ IMG GrayImage QRLocation QRData (List Char), defaultDecoder grayscale = .ret d ∧
      ∀ source s, (grayscale source).Valid → (grayscale source).width * (grayscale source).height ≤ 2 ^ 36 →
        (grayscale source).width ≤ 2 ^ 20 → (grayscale source).height ≤ 2 ^ 20 →
        (d.decode source s = .panic ↔ MakesPanic (grayscale source))) ∧
    ∃ d : Decoder σ IMG GrayImage QRLocation QRData (List Char × QRInfo), defaultDecoderWithInfo grayscale = .ret d ∧
      ∀ source s, (grayscale source).Valid → (grayscale source).width * (grayscale source).height ≤ 2 ^ 36 →
        (grayscale source).width ≤ 2 ^ 20 → (grayscale source).height ≤ 2 ^ 20 →
        (d.decode source s = .panic ↔ MakesPanic (grayscale source)) := by
  constructor
  · obtain ⟨d, hd, hiff⟩ := default_decoder_results (σ := σ) grayscale
    refine ⟨d, hd, fun source s hg hpx hw hh => ?_⟩
    have core := panics_core qrDecode (fun _ => Iff.rfl) _ hg hpx hw hh
    cases hr : d.decode source s with
    | panic =>
      simp only [true_iff]
      by_contra hm
      obtain ⟨rs, h⟩ := core.mpr hm
      rw [(hiff source s rs s).mpr ⟨rfl, h⟩] at hr
      cases hr
    | ret p =>
      obtain ⟨rs, s'⟩ := p
      simp only [reduceCtorEq, false_iff]
      exact core.mp ⟨rs, ((hiff _ _ _ _).mp hr).2⟩
  · obtain ⟨d, hd, hiff⟩ := default_decoder_with_info_results (σ := σ) grayscale
    refine ⟨d, hd, fun source s hg hpx hw hh => ?_⟩
    have core := panics_core qrDecodeWithInfo (fun q => info_decoder_panics_iff (.ok q)) _ hg hpx hw hh
    cases hr : d.decode source s with
    | panic =>
      simp only [true_iff]
      by_contra hm
      obtain ⟨rs, h⟩ := core.mpr hm
      rw [(hiff source s rs s).mpr ⟨rfl, h⟩] at hr
      cases hr
    | ret p =>
      obtain ⟨rs, s'⟩ := p
      simp only [reduceCtorEq, false_iff]
      exact core.mp ⟨rs, ((hiff _ _ _ _).mp hr).2⟩

/-- C76, geometry. At a detected location of a version up to 40 extraction panics only if the symbol reaches beyond
the right or lower edge of the image, give or take a fiftieth of a pixel. -/
theorem detected_extraction_panics_only (img : GrayImage) (hv : img.Valid) (hpx : img.width * img.height ≤ 2 ^ 36)
    (hw0 : 2 ≤ img.width) (hh0 : 1 ≤ img.height) (hw : img.width ≤ 2 ^ 20) (hh : img.height ≤ 2 ^ 20)
    (locs : List QRLocation) (hd : detect img = .ret locs) (loc : QRLocation) (hl : loc ∈ locs)
    (h40 : loc.version ≤ 40) (h : extract img loc = .panic) :
    ∃ tl tr bl : Pt, LocatedAtPoints loc tl tr bl ∧ ReachesBeyond img loc.version tl tr bl := by
  obtain ⟨tl, tr, bl, m, ⟨e1, e2, e3, -⟩, hin, hgeo⟩ := detected_locations_are_proper img hv (by omega) locs hd loc hl
  have hwq : (img.width : ℚ) ≤ 2 ^ 20 := by exact_mod_cast hw
  have hhq : (img.height : ℚ) ≤ 2 ^ 20 := by exact_mod_cast hh
  have hloc : LocatedAtPoints loc tl tr bl := by
    refine ⟨e1, e2, e3, fun p hp => ?_⟩
    obtain ⟨a, b, c, d⟩ := hin p hp
    rw [abs_of_nonneg a, abs_of_nonneg c]
    constructor <;> linarith
  exact ⟨tl, tr, bl, hloc, extraction_panics_beyond_the_image_only_partial img hv hw0 hh0 hw hh loc tl tr bl hloc
    hgeo.1 h40 h⟩

/-- **C76, a symbol is enough.** If the image shows a symbol as in C66, alone or among other things, and decoding its
grid panics, then the default decoders panic: no result is returned, not even those of the other symbols. -/
theorem shown_grid_panics (grayscale : IMG → GrayImage) (source : IMG) (hg : (grayscale source).Valid)
    (img : GrayImage) (himg : img = thresholded 5 7 (grayscale source)) (hpx : img.width * img.height ≤ 2 ^ 36)
    (hw : img.width ≤ 2 ^ 20) (hh : img.height ≤ 2 ^ 20) (m : Nat) (hm : 2 ≤ m) (fs : List (Nat × Nat))
    (hc : ∀ f ∈ fs, CleanFinder img m f.1 f.2) (ho : fs.Pairwise (ScanOrder m))
    (hs : ∀ f ∈ fs, ∀ y ≤ f.2 + 2 * m, SteadyRow img img.width y) (hn : NoOtherFindersNear img m fs)
    (q : QRData) (v : Nat) (h1 : 1 ≤ v) (h40 : v ≤ 40) (hq : WellFormed q v)
    (hal : 2 ≤ v → HasAlignment q) (ox oy : Nat) (hd : Drawn img q m ox oy)
    (hsym : (symbolFinders v m ox oy).Sublist fs) (payload : List U8) (hpay : CarriesData q payload)
    (hbad : LastCharacterIllegal v payload) :
    (∃ d : Decoder σ IMG GrayImage QRLocation QRData (List Char), defaultDecoder grayscale = .ret d ∧
      ∀ s, d.decode source s = .panic) ∧
    ∃ d : Decoder σ IMG GrayImage QRLocation QRData (List Char × QRInfo), defaultDecoderWithInfo grayscale = .ret d ∧
      ∀ s, d.decode source s = .panic := by
  have hside : q.side = 4 * v + 17 := hq.2.1
  have d1 := hd.1
  have d2 := hd.2.1
  have hlow : 21 * 2 ≤ q.side * m := Nat.mul_le_mul (by omega) hm
  obtain ⟨hprep, hv⟩ := prepares (grayscale source) hg img himg hpx hw hh (by omega) (by omega)
  obtain ⟨locs, hdet, hin⟩ := symbol_is_among img hv (by omega) m hm fs hc ho hs hn
  have hin := hin v ox oy h1 hsym
  have hext := reported_location_extracts img hv hw hh q v h1 h40 hq hal m ox oy hm hd
  have hmp : MakesPanic (grayscale source) := by
    refine .inr (.inr ⟨locs, by rw [← himg]; exact hdet, _, hin, .inr ⟨q, payload, by rw [← himg]; exact hext, ?_, hpay, ?_⟩⟩)
    · exact h40
    · exact hbad
  have ew : img.width = (grayscale source).width := by rw [himg]; rfl
  have eh : img.height = (grayscale source).height := by rw [himg]; rfl
  obtain ⟨⟨d, e, h⟩, d', e', h'⟩ := default_decoders_panic_iff (σ := σ) grayscale
  exact ⟨⟨d, e, fun s => (h source s hg (by rw [← ew, ← eh]; exact hpx) (by omega) (by omega)).mpr hmp⟩,
    d', e', fun s => (h' source s hg (by rw [← ew, ← eh]; exact hpx) (by omega) (by omega)).mpr hmp⟩

end Verif.Props
