import Verif.Lemmas.Decoder
/-!
# Properties C29, C35–C39, C42: the QR decoders on extracted grids

`qrDecode` and `qrDecodeWithInfo` model `QRDecoder::decode` and `QRDecoderWithInfo::decode`.
Specification: `Verif.Spec.Encode`. Concrete cases: `Verif.Props.DecoderExamples`.
-/
namespace Verif.Props
open Spec

/-- All modules named by positions inside the grid are shown. -/
theorem shows_exists (q : QRData) (ps : List (Nat × Nat)) (s : Nat) (hs : q.side = s)
    (hd : q.data.length = s * s) (hb : ∀ p ∈ ps, p.1 < s ∧ p.2 < s) : ∃ w, Shows q ps w := by
  refine ⟨ps.map fun p => (moduleAt q p.1 p.2).getD false, ?_⟩
  unfold Shows
  rw [List.map_map]
  apply List.map_congr_left
  intro p hp
  have hlt : p.2 * q.side + p.1 < q.data.length := by
    rw [hs, hd]
    have := hb p hp
    calc p.2 * s + p.1 < p.2 * s + s := by omega
      _ = (p.2 + 1) * s := by rw [Nat.add_mul, Nat.one_mul]
      _ ≤ s * s := Nat.mul_le_mul_right _ this.2
  simp only [Function.comp, moduleAt, List.getElem?_eq_getElem hlt, Option.map_some, Option.getD_some]

/-- The two words shown by the format modules of a complete grid. -/
theorem format_words (q : QRData) (v : Nat) (hw : WellFormed q v) :
    ∃ w1 w2, Shows q formatCopy1 w1 ∧ Shows q (formatCopy2 q.side) w2 := by
  have hside : sideOf v = 4 * v + 17 := rfl
  obtain ⟨w1, h1⟩ := shows_exists q formatCopy1 (sideOf v) hw.2.1 hw.2.2
    (fun p hp => by have := formatCopy1_bounds p hp; omega)
  obtain ⟨w2, h2⟩ := shows_exists q (formatCopy2 q.side) (sideOf v) hw.2.1 hw.2.2
    (fun p hp => by
      rw [hw.2.1] at hp
      exact formatCopy2_bounds (sideOf v) (by omega) p hp)
  exact ⟨w1, w2, h1, h2⟩

theorem format_total (q : QRData) (v : Nat) (hw : WellFormed q v) :
    (∃ x, format q = .ok x) ∨ format q = .err ⟨"Format information corrupted"⟩ := by
  obtain ⟨w1, w2, h1, h2⟩ := format_words q v hw
  have hside : sideOf v = 4 * v + 17 := rfl
  exact format_never_panics q (by rw [hw.2.1]; omega) w1 w2 h1 h2

/-! ### C29 -/

/-- C29. A complete grid whose version is 0 or above 40 gives an error from both decoders, whatever its
modules show. -/
theorem unknown_version_rejected (q : QRData) (v : Nat) (hv : v = 0 ∨ 40 < v) (hw : WellFormed q v) :
    (∃ e, qrDecode (.ok q) = .err e) ∧ (∃ e, qrDecodeWithInfo (.ok q) = .err e) := by
  unfold qrDecode qrDecodeWithInfo
  rcases format_total q v hw with ⟨x, hx⟩ | hx
  · obtain ⟨e, he, -⟩ := blocks_unknown_version q (by rw [hw.1]; exact hv) x.1 x.2
    simp only [hx, Outcome.ok_bind, he, Outcome.err_bind]
    exact ⟨⟨_, rfl⟩, ⟨_, rfl⟩⟩
  · simp only [hx, Outcome.err_bind]
    exact ⟨⟨_, rfl⟩, ⟨_, rfl⟩⟩

/-- C29, for incomplete grids too: such a version is never decoded. -/
theorem unknown_version_never_ok (q : QRData) (hv : q.version = 0 ∨ 40 < q.version) (t : List Char) :
    qrDecode (.ok q) ≠ .ok t := by
  unfold qrDecode
  intro h
  simp only at h
  cases hx : format q with
  | panic => rw [hx] at h; cases h
  | err e => rw [hx] at h; cases h
  | ok x =>
    obtain ⟨e, he, -⟩ := blocks_unknown_version q hv x.1 x.2
    rw [hx] at h
    simp only [Outcome.ok_bind, he, Outcome.err_bind] at h
    cases h

/-! ### C35 -/

/-- What both decoders do with a grid whose format is read as `(l, k)` and whose data modules show the
blocks `fam`, each of which is corrected to `F`. -/
theorem decode_family (q : QRData) (v : Nat) (h1 : 1 ≤ v) (h40 : v ≤ 40) (hw : WellFormed q v)
    (l : ECLevel) (k : Nat) (hr : ReadsAs q l k) (fam : List (List U8 × List U8)) (hf : HasShape v l fam)
    (rest : List Bool) (hrest : rest.length < 8)
    (hb : symbolBits q v k = streamOf (finalSequence fam) ++ rest)
    (rows : List BlockInfo) (hrows : blockInfo v l = .ok rows)
    (F : List U8 × BlockInfo → List U8)
    (hF : ∀ p ∈ (fam.map fun b => b.1 ++ b.2).zip rows, correct p.1 p.2 = .ok (F p)) :
    qrDecode (.ok q) = data (((fam.map fun b => b.1 ++ b.2).zip rows).flatMap
        fun p => (F p).take p.2.data_per) v ∧
    qrDecodeWithInfo (.ok q) = (data (((fam.map fun b => b.1 ++ b.2).zip rows).flatMap
        fun p => (F p).take p.2.data_per) v).map fun text => (text,
          { version := v, ecLevel := l, totalData := 8 * dataCapacity v l,
            errors := (((fam.map fun b => b.1 ++ b.2).zip rows).map fun p => bitDistance p.1 (F p)).sum }) := by
  have hside : sideOf v = 4 * v + 17 := rfl
  obtain ⟨m, hfmt, hm⟩ := hr
  have hbl := blocks_family q v h1 h40 hw.1 hw.2.1 l m (unmasked q k) (by
    intro p hp
    have hb := dataModules_bounds hp
    rw [hm q p.1 p.2 (by omega) (by omega)]
    obtain ⟨w, hsh⟩ := shows_exists q [p] (sideOf v) hw.2.1 hw.2.2 (by
      intro p' hp'
      simp only [List.mem_singleton] at hp'
      rw [hp']; exact hb)
    unfold Shows at hsh
    cases w with
    | nil => simp at hsh
    | cons b w =>
      simp only [List.map_cons, List.cons.injEq] at hsh
      unfold unmasked
      rw [hsh.1]
      rfl) fam hf rest hrest hb
  obtain ⟨rows', hrows', hlens⟩ : ∃ rows', blockInfo v l = .ok rows' ∧
      rows'.map (·.total_per) = (fam.map fun b => b.1 ++ b.2).map List.length := by
    obtain ⟨-, -, r, hr1, hr2⟩ := blocks_ok_inv q l m _ hbl
    rw [hw.1] at hr1
    exact ⟨r, hr1, hr2⟩
  rw [hrows] at hrows'
  cases hrows'
  obtain ⟨hp, hsum, -⟩ := pairs_facts v h1 h40 l rows hrows _ hlens
  generalize (fam.map fun b => b.1 ++ b.2) = bs at *
  have hFk : ∀ p ∈ bs.zip rows, correctWithErrorCount p.1 p.2 = .ok (F p, bitDistance p.1 (F p)) := by
    intro p hpm
    have h := hF p hpm
    rcases correction_total v l p.2 (hp p hpm).1 p.1 (hp p hpm).2 with ⟨b, k, h1, h2, -⟩ | ⟨e, h1, h2⟩
    · rw [h] at h2
      cases h2
      rw [h1, error_count_is_bit_distance v l p.2 (hp p hpm).1 p.1 _ k (hp p hpm).2 h1]
    · rw [h] at h2
      cases h2
  have hlenF : ∀ p ∈ bs.zip rows, (F p).length = p.1.length := fun p hpm =>
    correct_length v l p (hp p hpm).1 (hp p hpm).2 _ _ (hFk p hpm)
  have hbound : ((bs.zip rows).map fun p => bitDistance p.1 (F p)).sum ≤
      ((bs.zip rows).map fun p => 8 * p.1.length).sum := by
    generalize bs.zip rows = ps
    induction ps with
    | nil => simp
    | cons p ps ih =>
      simp only [List.map_cons, List.sum_cons]
      have := bitDistance_le p.1 (F p)
      omega
  have hcap := take_all_length v l rows hrows h1 h40 bs hlens F hlenF
  have hcap4 : dataCapacity v l < 4000 := by
    obtain ⟨r, hr1, -, hdat, hall, -, hs⟩ := blockInfo_facts v h1 h40 l
    have hle : (r.map (·.data_per)).sum ≤ (r.map (·.total_per)).sum := by
      clear hdat hr1 hs
      induction r with
      | nil => simp
      | cons b r ih =>
        have := (hall b List.mem_cons_self).2.1
        have := ih (fun b hb => hall b (List.mem_cons_of_mem _ hb))
        simp only [List.map_cons, List.sum_cons]
        omega
    rw [hdat, hs, totalCodewords_eq v h1 h40] at hle
    have := totals_small v (range1_40 h1 h40)
    unfold dataCapacity
    omega
  constructor
  · unfold qrDecode
    simp only [hfmt, Outcome.ok_bind, hbl, hw.1, hrows]
    rw [correctBlocks_ok _ F hF]
    simp only [Outcome.ok_bind, List.nil_append]
  · unfold qrDecodeWithInfo
    simp only [hfmt, Outcome.ok_bind, hbl, hw.1, hrows]
    rw [correctBlocksWithCount_ok _ (fun p => (F p, bitDistance p.1 (F p))) hFk _ _ (by simp only; omega)]
    simp only [Outcome.ok_bind, List.nil_append, Nat.zero_add]
    rw [hcap, mulU32, Nat.mod_eq_of_lt (by omega), if_pos (by omega)]
    simp only
    rw [Nat.mul_comm]
    cases data ((bs.zip rows).flatMap fun p => (F p).take p.2.data_per) v <;> rfl

theorem zip_take (v : Nat) (h1 : 1 ≤ v) (h40 : v ≤ 40) (l : ECLevel)
    (fam : List (List U8 × List U8)) (hf : HasShape v l fam) (rows : List BlockInfo)
    (hrows : blockInfo v l = .ok rows) :
    ((fam.map fun b => b.1 ++ b.2).zip rows).flatMap (fun p => p.1.take p.2.data_per) = fam.flatMap (·.1) := by
  obtain ⟨rows', hr', -, hdat, -⟩ := blockInfo_facts v h1 h40 l
  rw [hrows] at hr'
  cases hr'
  have hdp : rows.map (·.data_per) = fam.map (·.1.length) := by rw [hdat, hf.1]
  clear hdat hrows hf
  induction fam generalizing rows with
  | nil => rfl
  | cons b fam ih =>
    cases rows with
    | nil => simp at hdp
    | cons r rows =>
      simp only [List.map_cons, List.cons.injEq] at hdp
      simp only [List.map_cons, List.zip_cons_cons, List.flatMap_cons, hdp.1, List.take_left]
      rw [ih rows hdp.2]

theorem zip_lens (v : Nat) (h1 : 1 ≤ v) (h40 : v ≤ 40) (l : ECLevel)
    (fam : List (List U8 × List U8)) (hf : HasShape v l fam) (rows : List BlockInfo)
    (hrows : blockInfo v l = .ok rows) :
    rows.map (·.total_per) = (fam.map fun b => b.1 ++ b.2).map List.length := by
  obtain ⟨rows', hr', -, hdat, hall, -⟩ := blockInfo_facts v h1 h40 l
  rw [hrows] at hr'
  cases hr'
  have hdp : rows.map (·.data_per) = fam.map (·.1.length) := by rw [hdat, hf.1]
  have h2 := hf.2
  clear hdat hrows hf
  induction fam generalizing rows with
  | nil =>
    simp only [List.map_nil, List.map_eq_nil_iff] at hdp
    rw [hdp]; rfl
  | cons b fam ih =>
    cases rows with
    | nil => simp at hdp
    | cons r rows =>
      simp only [List.map_cons, List.cons.injEq] at hdp ⊢
      have := (hall r List.mem_cons_self).2.1
      have := h2 b List.mem_cons_self
      refine ⟨by rw [List.length_append]; omega, ?_⟩
      exact ih rows (fun b hb => hall b (List.mem_cons_of_mem _ hb)) hdp.2
        (fun b hb => h2 b (List.mem_cons_of_mem _ hb))

/-- C35. A grid that is a symbol for a list of segments (version 1..40, any level, any mask, any function
patterns, any padding) decodes to the text of the segments; the decoder with info also reports the
version, the level and no errors. -/
theorem symbol_decodes (q : QRData) (v : Nat) (h1 : 1 ≤ v) (h40 : v ≤ 40) (l : ECLevel) (k : Nat)
    (hk : k < 8) (segments : List Segment) (hfit : ∀ s ∈ segments, s.fits v) (text : List Char)
    (htext : SegmentsText segments text) (hq : IsSymbol q v l k segments) :
    qrDecode (.ok q) = .ok text ∧
    ∃ info, qrDecodeWithInfo (.ok q) = .ok (text, info) ∧ info.version = v ∧ info.ecLevel = l ∧
      info.errors = 0 := by
  obtain ⟨hw, hs1, -, fam, rest, tail, hf, hcw, hrest, hb, hst, hterm⟩ := hq
  obtain ⟨rows, hrows, -⟩ := blockInfo_facts v h1 h40 l
  have hlens := zip_lens v h1 h40 l fam hf rows hrows
  obtain ⟨hp, -, -⟩ := pairs_facts v h1 h40 l rows hrows _ hlens
  have hF : ∀ p ∈ (fam.map fun b => b.1 ++ b.2).zip rows, correct p.1 p.2 = .ok p.1 := by
    intro p hpm
    obtain ⟨b, hb, hbe⟩ := List.mem_map.mp (List.of_mem_zip (a := p.1) (b := p.2) hpm).1
    exact (codeword_untouched v l p.2 (hp p hpm).1 p.1 (hp p hpm).2 (hbe ▸ hcw b hb)).2
  obtain ⟨d1, d2⟩ := decode_family q v h1 h40 hw l k (clean_format_first_copy q l k hk hs1) fam hf rest hrest
    hb rows hrows Prod.fst hF
  rw [zip_take v h1 h40 l fam hf rows hrows] at d1 d2
  have hd := data_segments v h1 h40 segments text tail _ htext hfit hst hterm
  refine ⟨by rw [d1, hd], ⟨_, by rw [d2, hd]; rfl, rfl, rfl, ?_⟩⟩
  have : ∀ r : List U8, bitDistance r r = 0 := by
    intro r
    unfold bitDistance
    induction r with
    | nil => rfl
    | cons a r ih =>
      rw [List.zipWith_cons_cons, List.sum_cons, ih]
      simp [bitDiff]
  simp [this]

/-- C35, with the encoder: for every version, level, mask, list of segments that fits the symbol and
choice of function patterns, encoding and decoding gives back the text. -/
theorem encode_decode (v : Nat) (h1 : 1 ≤ v) (h40 : v ≤ 40) (l : ECLevel) (k : Nat)
    (hk : k < 8) (segments : List Segment) (hfit : ∀ s ∈ segments, s.fits v) (text : List Char)
    (htext : SegmentsText segments text)
    (hcap : (segments.flatMap (·.bits v)).length ≤ 8 * dataCapacity v l) (other : Nat → Nat → Bool) :
    qrDecode (.ok (encode v l k segments other)) = .ok text :=
  (symbol_decodes _ v h1 h40 l k hk segments hfit text htext
    (encode_isSymbol v h1 h40 l k segments hcap other)).1

/-! ### C36 -/

theorem format_mask (q : QRData) (l : ECLevel) (m : QRMask) (h : format q = .ok (l, m)) :
    ∃ k, mask k = some m := by
  unfold format at h
  simp only at h
  split at h
  · cases h
  · cases h
  · rename_i f0 f1 f2 f3 f4 rest _
    cases he : errorCorrection (2 * bitVal f0 + bitVal f1) with
    | none => rw [he] at h; cases h
    | some c =>
      cases hm : mask (4 * bitVal f2 + 2 * bitVal f3 + bitVal f4) with
      | none => rw [he, hm] at h; cases h
      | some m' =>
        rw [he, hm] at h
        simp only [Outcome.ok.injEq, Prod.mk.injEq] at h
        exact ⟨_, h.2 ▸ hm⟩
  · cases h

theorem mask_congr (k : Nat) (m : QRMask) (h : mask k = some m) (q q' : QRData) (x y : Nat)
    (hq : moduleAt q x y = moduleAt q' x y) : m q x y = m q' x y := by
  have hi : q.index x y = q'.index x y := by
    unfold moduleAt at hq
    unfold QRData.index
    cases h1 : q.data[y * q.side + x]? <;> cases h2 : q'.data[y * q'.side + x]? <;>
      rw [h1, h2] at hq <;> simp_all
  unfold mask at h
  rw [Option.map_eq_some_iff] at h
  obtain ⟨c, -, rfl⟩ := h
  unfold qrmask
  rw [hi]

theorem decode_congr (v : Nat) (q q' : QRData) (hw : WellFormed q v) (hw' : WellFormed q' v)
    (hd : ∀ x y, x < sideOf v → y < sideOf v → ¬ isFunction v x y → moduleAt q x y = moduleAt q' x y)
    (hf : format q = format q') :
    qrDecode (.ok q) = qrDecode (.ok q') ∧ qrDecodeWithInfo (.ok q) = qrDecodeWithInfo (.ok q') := by
  have hb : ∀ x, format q = .ok x → blocks q x.1 x.2 = blocks q' x.1 x.2 := by
    intro x hx
    obtain ⟨k, hk⟩ := format_mask q x.1 x.2 hx
    by_cases hv : 1 ≤ v ∧ v ≤ 40
    · exact (blocks_consults_exactly_data_modules q v hv.1 hv.2 hw.1 hw.2.1 x.1 x.2).1 q' x.2 hw'.1 hw'.2.1
        (fun a b ha hb hn => mask_congr k x.2 hk q q' a b (hd a b ha hb hn))
    · obtain ⟨e, he, hi⟩ := blocks_unknown_version q (by rw [hw.1]; omega) x.1 x.2
      obtain ⟨e', he', hi'⟩ := blocks_unknown_version q' (by rw [hw'.1]; omega) x.1 x.2
      rw [hw.1] at hi
      rw [hw'.1, hi] at hi'
      cases hi'
      rw [he, he']
  unfold qrDecode qrDecodeWithInfo
  simp only
  rw [← hf, hw.1, hw'.1]
  cases hx : format q with
  | panic => exact ⟨rfl, rfl⟩
  | err e => exact ⟨rfl, rfl⟩
  | ok x =>
    simp only [Outcome.ok_bind]
    rw [hb x hx]
    exact ⟨rfl, rfl⟩

/-- C36. Two complete grids of one version that agree on the modules outside the function patterns and
on the first format copy `w1`, which is readable (some grid showing it in both copies is read), decode
to the same result; nothing is assumed about finder, timing and alignment patterns, version
information, the dark module and the second format copy. -/
theorem only_data_and_first_format_matter (v : Nat) (q q' : QRData) (hw : WellFormed q v)
    (hw' : WellFormed q' v)
    (hd : ∀ x y, x < sideOf v → y < sideOf v → ¬ isFunction v x y → moduleAt q x y = moduleAt q' x y)
    (w1 : List Bool) (h1 : Shows q formatCopy1 w1) (h1' : Shows q' formatCopy1 w1)
    (hread : ∃ r x, 8 ≤ r.side ∧ Shows r formatCopy1 w1 ∧ Shows r (formatCopy2 r.side) w1 ∧
      format r = .ok x) :
    qrDecode (.ok q) = qrDecode (.ok q') ∧ qrDecodeWithInfo (.ok q) = qrDecodeWithInfo (.ok q') := by
  obtain ⟨r, x, hrs, hr1, hr2, hx⟩ := hread
  have hside : sideOf v = 4 * v + 17 := rfl
  have key : ∀ g : QRData, WellFormed g v → Shows g formatCopy1 w1 → format g = format r := by
    intro g hg hg1
    obtain ⟨-, u2, -, hu2⟩ := format_words g v hg
    rw [format_shows g (by rw [hg.2.1]; omega) _ _ hg1 hu2]
    rw [format_shows r hrs _ _ hr1 hr2] at hx ⊢
    rcases formatOf_cases w1 u2 (shows_length h1) (shows_length hu2) with ⟨y, h, h'⟩ | ⟨h, h', _⟩
    · rw [h, h']
    · exact absurd hx (h x)
  exact decode_congr v q q' hw hw' hd ((key q hw h1).trans (key q' hw' h1').symm)

/-- C36, for unreadable first copies: agreement on the second copy suffices then. -/
theorem only_data_and_formats_matter (v : Nat) (q q' : QRData) (hw : WellFormed q v)
    (hw' : WellFormed q' v)
    (hd : ∀ x y, x < sideOf v → y < sideOf v → ¬ isFunction v x y → moduleAt q x y = moduleAt q' x y)
    (h1 : ∀ p ∈ formatCopy1, moduleAt q p.1 p.2 = moduleAt q' p.1 p.2)
    (h2 : ∀ p ∈ formatCopy2 (sideOf v), moduleAt q p.1 p.2 = moduleAt q' p.1 p.2) :
    qrDecode (.ok q) = qrDecode (.ok q') ∧ qrDecodeWithInfo (.ok q) = qrDecodeWithInfo (.ok q') := by
  have hside : sideOf v = 4 * v + 17 := rfl
  obtain ⟨w1, w2, hw1, hw2⟩ := format_words q v hw
  refine decode_congr v q q' hw hw' hd ?_
  rw [format_shows q (by rw [hw.2.1]; omega) w1 w2 hw1 hw2,
    format_shows q' (by rw [hw'.2.1]; omega) w1 w2]
  · unfold Shows at hw1 ⊢
    rw [← hw1]
    exact (List.map_congr_left h1).symm
  · unfold Shows at hw2 ⊢
    rw [← hw2, hw'.2.1, hw.2.1]
    exact (List.map_congr_left h2).symm

/-! ### C37 -/

/-- C37. On every input (complete grid or not, any version, or an error) the decoder with info gives
the text, error or panic of the plain decoder. -/
theorem info_decoder_agrees (input : Except QRError QRData) :
    qrDecode input = (qrDecodeWithInfo input).map (·.1) := by
  cases input with
  | error e => rfl
  | ok q =>
    unfold qrDecode qrDecodeWithInfo
    simp only
    cases hx : format q with
    | panic => rfl
    | err e => rfl
    | ok x =>
      simp only [Outcome.ok_bind]
      cases hb : blocks q x.1 x.2 with
      | panic => rfl
      | err e => rfl
      | ok bs =>
        obtain ⟨h1, h40, rows, hrows, hl⟩ := blocks_ok_inv q x.1 x.2 bs hb
        obtain ⟨hp, hsum, -⟩ := pairs_facts q.version h1 h40 x.1 rows hrows bs hl
        simp only [Outcome.ok_bind, hrows]
        rw [loops_agree (bs.zip rows) (fun p => 8 * p.1.length)
          (fun p hpm b k hk => count_bound q.version x.1 p (hp p hpm).1 (hp p hpm).2 b k hk) [] 0 (by omega)]
        cases hc : correctBlocksWithCount (bs.zip rows) [] 0 with
        | panic => rfl
        | err e => rfl
        | ok r =>
          obtain ⟨out, tot⟩ := r
          obtain ⟨F, hF, hout, -⟩ := loop_inv q.version x.1 (bs.zip rows) hp [] 0 out tot hc
          have hcap := take_all_length q.version x.1 rows hrows h1 h40 bs hl F (fun p hpm => (hF p hpm).2)
          rw [List.nil_append] at hout
          rw [← hout] at hcap
          have : dataCapacity q.version x.1 ≤ 8 * out.length := by omega
          have hout4 : out.length < 32000 := by
            rw [hout, List.length_flatMap]
            refine lt_of_le_of_lt ?_ hsum
            generalize bs.zip rows = ps at hF
            clear hp hsum hc hcap hl hout
            induction ps with
            | nil => simp
            | cons p ps ih =>
              simp only [List.map_cons, List.sum_cons]
              have h1 := (hF p List.mem_cons_self).2
              have h2 := ih fun p hp => hF p (List.mem_cons_of_mem _ hp)
              have h3 : ((F p).take p.2.data_per).length ≤ (F p).length := List.length_take_le' _ _
              omega
          simp only [Outcome.map, Outcome.ok_bind]
          rw [mulU32, Nat.mod_eq_of_lt (by omega), if_pos (by omega)]
          simp only
          cases data out q.version <;> rfl

/-! ### C38 -/

/-- C38. An extraction error is passed on unchanged by both decoders. -/
theorem extraction_error_passed_on (e : QRError) :
    qrDecode (.error e) = .err e ∧ qrDecodeWithInfo (.error e) = .err e := ⟨rfl, rfl⟩

/-! ### C39 -/

/-- C39, the part that holds. Whenever a grid decodes, the version reported is the grid's, the level is
the one read from the format information, the error count is the number of bits changed by the
correction of its blocks, and `total_data` is the number of bits in the *data* codewords. Missing: the
documented meaning of `total_data`, which includes the error correction codewords (next theorem). -/
theorem info_describes_symbol_partial (q : QRData) (text : List Char) (info : QRInfo)
    (h : qrDecodeWithInfo (.ok q) = .ok (text, info)) :
    info.version = q.version ∧ 1 ≤ q.version ∧ q.version ≤ 40 ∧
    info.totalData = 8 * dataCapacity q.version info.ecLevel ∧
    ∃ m received corrected, format q = .ok (info.ecLevel, m) ∧ blocks q info.ecLevel m = .ok received ∧
      received.length = corrected.length ∧
      (∀ i (hi : i < received.length) (hj : i < corrected.length), ∃ bi, IsRow q.version info.ecLevel bi ∧
        correct received[i] bi = .ok corrected[i]) ∧
      info.errors = (received.zipWith bitDistance corrected).sum := by
  unfold qrDecodeWithInfo at h
  simp only at h
  cases hx : format q with
  | panic => rw [hx] at h; cases h
  | err e => rw [hx] at h; cases h
  | ok x =>
    rw [hx] at h
    simp only [Outcome.ok_bind] at h
    cases hb : blocks q x.1 x.2 with
    | panic => rw [hb] at h; cases h
    | err e => rw [hb] at h; cases h
    | ok bs =>
      obtain ⟨h1, h40, rows, hrows, hl⟩ := blocks_ok_inv q x.1 x.2 bs hb
      obtain ⟨hp, hsum, hlen⟩ := pairs_facts q.version h1 h40 x.1 rows hrows bs hl
      rw [hb] at h
      simp only [Outcome.ok_bind, hrows] at h
      cases hc : correctBlocksWithCount (bs.zip rows) [] 0 with
      | panic => rw [hc] at h; cases h
      | err e => rw [hc] at h; cases h
      | ok r =>
        obtain ⟨out, tot⟩ := r
        obtain ⟨F, hF, hout, htot⟩ := loop_inv q.version x.1 (bs.zip rows) hp [] 0 out tot hc
        have hcap := take_all_length q.version x.1 rows hrows h1 h40 bs hl F (fun p hpm => (hF p hpm).2)
        rw [List.nil_append] at hout
        rw [← hout] at hcap
        rw [hc] at h
        simp only [Outcome.ok_bind] at h
        cases hm : mulU32 (out.length % 2 ^ 32) 8 with
        | panic => rw [hm] at h; cases h
        | ret td =>
          rw [hm] at h
          simp only at h
          cases hd : data out q.version with
          | panic => rw [hd] at h; cases h
          | err e => rw [hd] at h; cases h
          | ok t =>
            rw [hd] at h
            simp only [Outcome.ok_bind, Outcome.pure_eq, Outcome.ok.injEq, Prod.mk.injEq] at h
            obtain ⟨-, rfl⟩ := h
            have hout4 : out.length < 32000 := by
              rw [hout, List.length_flatMap]
              refine lt_of_le_of_lt ?_ hsum
              generalize bs.zip rows = ps at hF
              clear hp hsum hc hcap hl hout htot
              induction ps with
              | nil => simp
              | cons p ps ih =>
                simp only [List.map_cons, List.sum_cons]
                have h1 := (hF p List.mem_cons_self).2
                have h2 := ih fun p hp => hF p (List.mem_cons_of_mem _ hp)
                have h3 : ((F p).take p.2.data_per).length ≤ (F p).length := List.length_take_le' _ _
                omega
            refine ⟨rfl, h1, h40, ?_, x.2, bs, (bs.zip rows).map F, rfl, hb, ?_, ?_, ?_⟩
            · unfold mulU32 at hm
              rw [Nat.mod_eq_of_lt (by omega)] at hm
              split at hm
              · cases hm
                simp only
                omega
              · cases hm
            · simp [hlen]
            · intro i hi hj
              have hpm : (bs.zip rows)[i]'(by simpa using hj) ∈ bs.zip rows := List.getElem_mem _
              refine ⟨rows[i]'(by omega), ?_, ?_⟩
              · have := (hp _ hpm).1
                rwa [List.getElem_zip] at this
              · have := (hF _ hpm).1
                rw [List.getElem_map]
                rw [List.getElem_zip] at this ⊢
                exact this
            · simp only [htot, Nat.zero_add]
              have : ∀ ps : List (List U8 × BlockInfo), (ps.map fun p => bitDistance p.1 (F p)) =
                  (ps.map Prod.fst).zipWith bitDistance (ps.map F) := by
                intro ps
                induction ps with
                | nil => rfl
                | cons p ps ih =>
                  rw [List.map_cons, List.map_cons, List.map_cons, List.zipWith_cons_cons, ih]
              rw [this, List.map_fst_zip (by omega)]

/-- C39, refuted for `total_data`: on every decoded symbol the reported number is smaller than the number
of bits in data and error correction codewords. -/
theorem total_data_omits_ec (q : QRData) (text : List Char) (info : QRInfo)
    (h : qrDecodeWithInfo (.ok q) = .ok (text, info)) :
    info.totalData < 8 * totalCodewords q.version := by
  obtain ⟨-, h1, h40, htd, -⟩ := info_describes_symbol_partial q text info h
  rw [htd]
  obtain ⟨rows, -, -, hdat, hall, hpos, hsum⟩ := blockInfo_facts q.version h1 h40 info.ecLevel
  have hlen : rows.length = numBlocks q.version info.ecLevel := by simpa using congrArg List.length hdat
  have hec := ecc_pos q.version h1 h40 info.ecLevel
  rw [dataCapacity, ← hdat, ← hsum]
  have hlt : (rows.map (·.data_per)).sum + rows.length ≤ (rows.map (·.total_per)).sum := by
    clear hdat hsum hlen hpos
    induction rows with
    | nil => simp
    | cons r rows ih =>
      have := (hall r List.mem_cons_self).2.1
      have := ih (fun b hb => hall b (List.mem_cons_of_mem _ hb))
      simp only [List.map_cons, List.sum_cons, List.length_cons]
      omega
  omega

/-! ### C42 -/

/-- C42. `QRData::new` of version `v` has side `4v + 17`; indexing such a grid at column `x`, row `y`
gives 1 iff the pixel number `y * side + x` is 0, and panics exactly outside the pixel vector; if there
are `side * side` pixels, no coordinate inside the symbol panics. -/
theorem grid_indexing (pixels : List U8) (v : Nat) (hv : 4 * v + 17 < 2 ^ 32) :
    ∃ q, QRData.new pixels v = .ret q ∧ q.version = v ∧ q.side = sideOf v ∧
      (∀ x y b, q.index x y = .ret b → ∃ h : y * sideOf v + x < pixels.length,
        (b = true ↔ pixels[y * sideOf v + x] = 0)) ∧
      (∀ x y, q.index x y = .panic ↔ pixels.length ≤ y * sideOf v + x) ∧
      (pixels.length = sideOf v * sideOf v → ∀ x y, x < sideOf v → y < sideOf v → ∃ b, q.index x y = .ret b) := by
  refine ⟨⟨pixels, v, sideOf v⟩, by rw [QRData.new, if_pos hv]; rfl, rfl, rfl, ?_, ?_, ?_⟩
  · intro x y b h
    unfold QRData.index at h
    simp only at h
    by_cases hlt : y * sideOf v + x < pixels.length
    · rw [List.getElem?_eq_getElem hlt] at h
      cases h
      exact ⟨hlt, by rw [beq_iff_eq]⟩
    · rw [List.getElem?_eq_none (by omega)] at h
      cases h
  · intro x y
    unfold QRData.index
    simp only
    by_cases hlt : y * sideOf v + x < pixels.length
    · rw [List.getElem?_eq_getElem hlt]
      simp only
      constructor
      · intro h; cases h
      · intro h; omega
    · rw [List.getElem?_eq_none (by omega)]
      simp only [true_iff]
      omega
  · intro hl x y hx hy
    unfold QRData.index
    simp only
    have hlt : y * sideOf v + x < pixels.length := by
      rw [hl]
      calc y * sideOf v + x < y * sideOf v + sideOf v := by omega
        _ = (y + 1) * sideOf v := by rw [Nat.add_mul, Nat.one_mul]
        _ ≤ sideOf v * sideOf v := Nat.mul_le_mul_right _ hy
    rw [List.getElem?_eq_getElem hlt]
    exact ⟨_, rfl⟩

end Verif.Props
