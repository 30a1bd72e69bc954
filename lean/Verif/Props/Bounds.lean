import Verif.Spec.Bounds
import Verif.Props.Texts

/-!
# C81, C82: what correction may change, and how long texts can be
-/
namespace Verif.Props
open Verif Verif.Spec LineScan Extractor

variable {σ IMG : Type}

/-! ### C81 -/

theorem zip_eq_map (a b : List U8) (h : a.length = b.length) :
    a.zip b = (List.range a.length).map fun i => (a.getD i 0, b.getD i 0) := by
  apply List.ext_getElem
  · simp [h]
  · intro i h1 h2
    simp only [List.length_map, List.length_range] at h2
    rw [List.getElem_zip, List.getElem_map, List.getElem_range, List.getD_eq_getElem?_getD, List.getD_eq_getElem?_getD,
      List.getElem?_eq_getElem h2, List.getElem?_eq_getElem (by omega)]
    rfl

theorem errAt_getD (b : List U8) (i : Nat) (hi : i < b.length) : errAt b (b.length - 1 - i) = ⟨b.getD i 0⟩ := by
  unfold errAt
  rw [List.getD_eq_getElem?_getD, List.getD_eq_getElem?_getD, List.getElem?_reverse (by omega),
    show b.length - 1 - (b.length - 1 - i) = i by omega]

theorem changedWords_self (a : List U8) : changedWords a a = 0 := by
  unfold changedWords
  rw [List.length_eq_zero_iff, List.filter_eq_nil_iff]
  intro p hp
  rw [zip_eq_map a a rfl] at hp
  obtain ⟨i, -, rfl⟩ := List.mem_map.mp hp
  simp

/-- If two blocks agree outside of the places of a list, they differ in at most as many codewords as the list is long. -/
theorem changedWords_le {a b : List U8} (h : b.length = a.length) {L : List Nat}
    (hL : ∀ l < a.length, l ∉ L → errAt b l = errAt a l) : changedWords a b ≤ L.length := by
  unfold changedWords
  rw [zip_eq_map a b h.symm, List.filter_map, List.length_map]
  set D := (List.range a.length).filter ((fun p : U8 × U8 => decide (p.1 ≠ p.2)) ∘ fun i => (a.getD i 0, b.getD i 0)) with hD
  have hmem : ∀ i ∈ D, i < a.length ∧ a.getD i 0 ≠ b.getD i 0 := by
    intro i hi
    rw [hD, List.mem_filter] at hi
    simpa using hi
  have hnd : (D.map fun i => a.length - 1 - i).Nodup := by
    refine List.Nodup.map_on ?_ (List.nodup_range.filter _)
    intro x hx y hy hxy
    have h1 := (hmem x hx).1
    have h2 := (hmem y hy).1
    omega
  have hsub : (D.map fun i => a.length - 1 - i) ⊆ L := by
    intro l hl
    obtain ⟨i, hi, rfl⟩ := List.mem_map.mp hl
    obtain ⟨h1, h2⟩ := hmem i hi
    refine Decidable.byContradiction fun hn => h2 ?_
    have := hL (a.length - 1 - i) (by omega) hn
    rw [errAt_getD a i h1] at this
    conv at this => lhs; rw [← h]
    rw [errAt_getD b i (by omega)] at this
    exact (congrArg GF8.val this).symm
  have := (List.subperm_of_subset hnd hsub).length_le
  rwa [List.length_map] at this

theorem bitDistance_words : ∀ a b : List U8, bitDistance a b ≤ 8 * changedWords a b
  | [], b => by simp [bitDistance]
  | a :: as, [] => by simp [bitDistance]
  | a :: as, b :: bs => by
    have ih := bitDistance_words as bs
    unfold bitDistance changedWords at *
    rw [List.zipWith_cons_cons, List.sum_cons, List.zip_cons_cons, List.filter_cons]
    by_cases h : a = b
    · subst h
      rw [if_neg (by simp), bitDiff_self]
      omega
    · have := bitDiff_le a b
      rw [if_pos (by simpa using h), List.length_cons]
      omega

/-- **C81, one block.** Whatever is received: an accepted block differs from it in at most half as many codewords as
the block has for error correction, and the reported count of changed bits is at most four for each of these. -/
theorem correction_changes_little (v : Nat) (l : ECLevel) (bi : BlockInfo) (hb : IsRow v l bi)
    (r b : List U8) (k : Nat) (hlen : r.length = bi.total_per) (h : correctWithErrorCount r bi = .ok (b, k)) :
    2 * changedWords r b ≤ eccPerBlock v l ∧ k ≤ 4 * eccPerBlock v l := by
  obtain ⟨hg, -, hcap, -⟩ := row_facts hb
  have key : changedWords r b ≤ bi.ec_cap := by
    obtain ⟨hm1, hm2⟩ := correct_master r bi hlen hg
    by_cases hall : ∀ i < 2 * bi.ec_cap, synd r i = 0
    · rw [hm1 hall] at h
      cases h
      rw [changedWords_self]
      omega
    · obtain ⟨x, -, hL⟩ := hm2 (by
        refine Decidable.byContradiction fun hno => hall fun i hi => ?_
        exact Decidable.byContradiction fun hc => hno ⟨i, hi, hc⟩)
      obtain ⟨hnil, hcons⟩ := hL _ rfl
      by_cases hr : rootList (sigmaPoly bi.ec_cap x) bi.total_per = []
      · rw [hnil hr] at h; cases h
      · obtain ⟨d, -, b', hl', -, hsame, -, hres⟩ := hcons hr
        rw [hres] at h
        split at h
        · cases h
        · cases h
          have hdeg := sigmaPoly_degree bi.ec_cap x
          have := rootList_length _ hdeg.1.ne_zero bi.total_per (by have := hg.2.2; omega)
          have := changedWords_le hl' hsame
          omega
  have hk := error_count_is_bit_distance v l bi hb r b k hlen h
  have := bitDistance_words r b
  omega

/-- **C81, a symbol.** The reported number of errors is at most four for every error correction codeword of the symbol. -/
theorem reported_errors_bounded (q : QRData) (text : List Char) (info : QRInfo)
    (h : qrDecodeWithInfo (.ok q) = .ok (text, info)) :
    info.errors ≤ 4 * (numBlocks info.version info.ecLevel * eccPerBlock info.version info.ecLevel) := by
  unfold qrDecodeWithInfo at h
  simp only at h
  cases hx : format q with
  | panic => rw [hx] at h; cases h
  | err e => rw [hx] at h; cases h
  | ok x =>
    rw [hx] at h
    simp only [Outcome.ok_bind] at h
    cases hb : blocks q x.1 x.2 with
    | panic => rw [hb] at h; cases h
    | err e => rw [hb] at h; cases h
    | ok bs =>
      obtain ⟨h1, h40, rows, hrows, hl⟩ := blocks_ok_inv q x.1 x.2 bs hb
      obtain ⟨hp, -, hlen⟩ := pairs_facts q.version h1 h40 x.1 rows hrows bs hl
      rw [hb] at h
      simp only [Outcome.ok_bind, hrows] at h
      cases hc : correctBlocksWithCount (bs.zip rows) [] 0 with
      | panic => rw [hc] at h; cases h
      | err e => rw [hc] at h; cases h
      | ok r =>
        obtain ⟨out, tot⟩ := r
        obtain ⟨F, hF, -, htot⟩ := loop_inv q.version x.1 (bs.zip rows) hp [] 0 out tot hc
        rw [hc] at h
        simp only [Outcome.ok_bind] at h
        cases hm : mulU32 (out.length % 2 ^ 32) 8 with
        | panic => rw [hm] at h; cases h
        | ret td =>
          rw [hm] at h
          simp only at h
          cases hd : data out q.version with
          | panic => rw [hd] at h; cases h
          | err e => rw [hd] at h; cases h
          | ok t =>
            rw [hd] at h
            simp only [Outcome.ok_bind, Outcome.pure_eq, Outcome.ok.injEq, Prod.mk.injEq] at h
            obtain ⟨-, rfl⟩ := h
            simp only
            rw [htot, Nat.zero_add]
            obtain ⟨rows', hr', -, hdat, -⟩ := blockInfo_facts q.version h1 h40 x.1
            rw [hrows] at hr'
            cases hr'
            have hn : rows.length = numBlocks q.version x.1 := by simpa using congrArg List.length hdat
            have hz : (bs.zip rows).length = numBlocks q.version x.1 := by rw [List.length_zip]; omega
            have key : ∀ ps : List (List U8 × BlockInfo), (∀ p ∈ ps, bitDistance p.1 (F p) ≤ 4 * eccPerBlock q.version x.1) →
                (ps.map fun p => bitDistance p.1 (F p)).sum ≤ 4 * (ps.length * eccPerBlock q.version x.1) := by
              intro ps
              induction ps with
              | nil => simp
              | cons p ps ih =>
                intro hps
                have e1 := hps p List.mem_cons_self
                have e2 := ih fun p hp => hps p (List.mem_cons_of_mem _ hp)
                rw [List.map_cons, List.sum_cons, List.length_cons,
                  show (ps.length + 1) * eccPerBlock q.version x.1 =
                    ps.length * eccPerBlock q.version x.1 + eccPerBlock q.version x.1 from Nat.succ_mul _ _]
                omega
            rw [← hz]
            apply key
            intro p hpm
            obtain ⟨hrow, hpl⟩ := hp p hpm
            have hco := (hF p hpm).1
            rcases correction_total q.version x.1 p.2 hrow p.1 hpl with ⟨b, k, hbk, hcb, -⟩ | ⟨msg, -, hcb⟩
            · rw [hco] at hcb
              cases hcb
              have e1 := error_count_is_bit_distance _ _ _ hrow _ _ _ hpl hbk
              have e2 := (correction_changes_little _ _ _ hrow _ _ _ hpl hbk).2
              omega
            · rw [hco] at hcb; cases hcb

/-! ### C82 -/

theorem decimals_length : ∀ k x, (decimals k x).length = k
  | 0, _ => rfl
  | k + 1, x => by simp [decimals, decimals_length k]

theorem groupText_length (w x : Nat) : (groupText w x).length = if x < 10 ^ w then w else w + 1 := by
  unfold groupText
  split <;> exact decimals_length _ _

theorem numericText_length_le : ∀ n p, 10 * (numericText n p).length ≤ 4 * Mode.numeric.payloadBits n + 4
  | n + 3, p => by
    have ih := numericText_length_le n (p.drop 10)
    rw [numericText, List.length_append, groupText_length]
    simp only [Mode.payloadBits] at *
    rw [show (n + 3) / 3 = n / 3 + 1 by omega, show (n + 3) % 3 = n % 3 by omega]
    split <;> omega
  | 2, p => by
    rw [numericText, groupText_length]
    simp only [Mode.payloadBits]
    split <;> simp
  | 1, p => by
    rw [numericText, groupText_length]
    simp only [Mode.payloadBits]
    split <;> simp
  | 0, p => by simp [numericText]

theorem segment_fits {version : Nat} {bits : List Bool} {t : List Char} (h : SegmentSays version bits t) :
    TextFits version bits.length t := by
  have hb : ∀ n, 1 ≤ n → 10 * n + 4 * (4 + Mode.numeric.countBits version) ≤
      4 * (4 + (Mode.byte.countBits version + 8 * n)) + 4 := by
    intro n hn
    simp only [Mode.countBits]
    split_ifs <;> omega
  unfold TextFits
  cases h with
  | numeric n payload hn hp =>
    have := numericText_length_le n payload
    simp only [List.length_append, length_natToBits]
    omega
  | alphanumeric cs hn =>
    simp only [List.length_append, length_natToBits, alnumPayload_length, List.length_map, List.map_eq_nil_iff]
    rw [← List.length_eq_zero_iff]
    simp only [Mode.countBits, Mode.payloadBits]
    split_ifs <;> omega
  | latin1 bs hn hc =>
    simp only [List.length_append, length_natToBits, length_streamOf, List.length_map, List.map_eq_nil_iff]
    rw [← List.length_eq_zero_iff]
    have := hb bs.length
    omega
  | utf8 text hn hc =>
    simp only [List.length_append, length_natToBits, length_streamOf]
    rw [← List.length_eq_zero_iff]
    have := hb t.length
    have := (utf8_length t).1
    omega

theorem countBits_pos (version : Nat) : 10 ≤ Mode.numeric.countBits version := by
  simp only [Mode.countBits]
  split_ifs <;> omega

/-- **C82, data.** A text that a stream says is empty, or not longer than a single numeric segment of the same length
can say. -/
theorem text_fits {version : Nat} {bits : List Bool} {t : List Char} (h : Says version bits t) :
    TextFits version bits.length t := by
  induction h with
  | done _ => exact .inl rfl
  | segment hs _ ih =>
    have h1 := segment_fits hs
    have := countBits_pos version
    unfold TextFits at *
    rw [List.length_append, List.length_append]
    rcases h1 with rfl | h1
    · rcases ih with rfl | ih
      · exact .inl rfl
      · right
        simp only [List.length_nil]
        omega
    · right
      rcases ih with rfl | ih
      · simp only [List.length_nil]
        omega
      · omega

theorem take_length (v : Nat) (l : ECLevel) : ∀ (rows : List BlockInfo) (bs cs : List (List U8)),
    (∀ p ∈ bs.zip rows, IsRow v l p.2 ∧ p.1.length = p.2.total_per) → bs.length = rows.length →
    List.Forall₂ (fun p b => correct p.1 p.2 = .ok b) (bs.zip rows) cs →
    ((cs.zip rows).flatMap fun p => p.1.take p.2.data_per).length = (rows.map (·.data_per)).sum
  | [], _, cs, _, _, _ => by simp
  | bi :: rows, [], _, _, hl, _ => by simp at hl
  | bi :: rows, b :: bs, cs, hp, hl, h => by
    rw [List.zip_cons_cons] at h hp
    cases h with
    | cons hc h =>
      next c cs =>
      have ih := take_length v l rows bs cs (fun p hpm => hp p (List.mem_cons_of_mem _ hpm)) (by simpa using hl) h
      obtain ⟨hrow, hlen⟩ := hp (b, bi) List.mem_cons_self
      obtain ⟨-, -, -, -, hd, -⟩ := row_facts hrow
      have hcl : c.length = b.length := by
        rcases correction_total v l bi hrow b hlen with ⟨b', k', -, h2, h3⟩ | ⟨m, -, h2⟩
        · simp only at hc
          rw [hc] at h2
          cases h2
          exact h3
        · simp only at hc
          rw [hc] at h2
          cases h2
      simp only at hlen
      rw [List.zip_cons_cons, List.flatMap_cons, List.length_append, ih, List.map_cons, List.sum_cons, List.length_take]
      simp only at hd ⊢
      omega

theorem carries_capacity {q : QRData} {payload : List U8} (h : CarriesData q payload) :
    1 ≤ q.version ∧ q.version ≤ 40 ∧ ∃ l m, format q = .ok (l, m) ∧ payload.length = dataCapacity q.version l := by
  obtain ⟨l, m, bs, rows, cs, hx, hb, hr, hcs, rfl⟩ := h
  obtain ⟨h1, h40, rows', hrows, hl⟩ := blocks_ok_inv q l m bs hb
  rw [hr] at hrows
  cases hrows
  refine ⟨h1, h40, l, m, hx, ?_⟩
  obtain ⟨hp, -, hlen⟩ := pairs_facts q.version h1 h40 l rows hr bs hl
  obtain ⟨rows', hr', -, hdat, -⟩ := blockInfo_facts q.version h1 h40 l
  rw [hr] at hr'
  cases hr'
  rw [take_length q.version l rows bs cs hp hlen hcs, hdat]
  rfl

theorem capacity_table : ∀ v ∈ List.range' 1 40, ∀ l ∈ [ECLevel.low, .medium, .quartile, .high],
    (match blockInfo v l with
    | .ok rows => decide (32 * (rows.map (·.data_per)).sum ≤ 4 * Mode.numeric.countBits v + 94541)
    | _ => false) = true := by
  decide +kernel

/-- The largest symbol has 2956 data codewords. -/
theorem capacity_le (v : Nat) (h1 : 1 ≤ v) (h40 : v ≤ 40) (l : ECLevel) :
    32 * dataCapacity v l ≤ 4 * Mode.numeric.countBits v + 94541 := by
  have h := capacity_table v (range1_40 h1 h40) l (level_mem l)
  obtain ⟨rows, hr, -, hdat, -⟩ := blockInfo_facts v h1 h40 l
  rw [hr] at h
  unfold dataCapacity
  rw [← hdat]
  exact of_decide_eq_true h

/-- **C82.** A text returned by the default decoder fits into the data codewords of a symbol of its version and level,
and has at most 9452 characters, whatever the image. -/
theorem returned_texts_are_short (grayscale : IMG → GrayImage) :
    ∃ d : Decoder σ IMG GrayImage QRLocation QRData (List Char), defaultDecoder grayscale = .ret d ∧
      ∀ source s rs s', d.decode source s = .ret (rs, s') → ∀ text, Except.ok text ∈ rs →
        text.length ≤ 9452 ∧ ∃ v l, 1 ≤ v ∧ v ≤ 40 ∧ TextFits v (8 * dataCapacity v l) text := by
  obtain ⟨d, hd, hiff⟩ := default_decoder_texts (σ := σ) grayscale
  refine ⟨d, hd, fun source s rs s' h text ht => ?_⟩
  obtain ⟨img, locs, loc, q, payload, -, -, -, hq, hc, hs⟩ := (hiff source s rs s' h text).mp ht
  have hv := (extracted_grid_is_well_formed _ _ _ hq).1
  obtain ⟨h1, h40, l, m, -, hlen⟩ := carries_capacity hc
  have hfit := text_fits hs
  rw [length_streamOf, hlen, ← hv] at hfit
  refine ⟨?_, q.version, l, h1, h40, hfit⟩
  have := capacity_le q.version h1 h40 l
  rcases hfit with rfl | hfit
  · simp
  · omega

/-- **C81, C82 (with info).** Every text returned by the default decoder with info fits into the data that the info
reports, and the reported number of errors is at most four for every error correction codeword of the symbol. -/
theorem returned_info_is_bounded (grayscale : IMG → GrayImage) :
    ∃ d : Decoder σ IMG GrayImage QRLocation QRData (List Char × QRInfo), defaultDecoderWithInfo grayscale = .ret d ∧
      ∀ source s rs s', d.decode source s = .ret (rs, s') → ∀ text info, Except.ok (text, info) ∈ rs →
        1 ≤ info.version ∧ info.version ≤ 40 ∧ TextFits info.version info.totalData text ∧
        info.errors ≤ 4 * (numBlocks info.version info.ecLevel * eccPerBlock info.version info.ecLevel) := by
  obtain ⟨d, hd, hiff⟩ := default_decoder_with_info_results (σ := σ) grayscale
  refine ⟨d, hd, fun source s rs s' h text info ht => ?_⟩
  obtain ⟨-, img, locs, -, -, hall⟩ := (hiff source s rs s').mp h
  obtain ⟨i, hi, he⟩ := List.getElem_of_mem ht
  have hl := hall.length_eq
  have hr := hall.get (i := i) (by omega) hi
  simp only [List.get_eq_getElem] at hr
  rw [he] at hr
  rcases hr with ⟨q, hq, ⟨a, ha, e⟩ | ⟨e', -, e⟩⟩ | ⟨e', -, e⟩
  · cases e
    obtain ⟨hv, h1, h40, htd, m, -, -, hf, -⟩ := info_describes_symbol_partial q text info ha
    have hwf := extracted_grid_is_well_formed _ _ _ hq
    have hdec : qrDecode (.ok q) = .ok text := by rw [info_decoder_agrees, ha]; rfl
    obtain ⟨payload, hc, hs⟩ := (decode_returns_iff q _ ⟨hwf.1, hwf.2.1, by rw [hwf.2.2.1, hwf.2.1]⟩ text).mp hdec
    obtain ⟨-, -, l, m', hf', hlen⟩ := carries_capacity hc
    rw [hf] at hf'
    simp only [Outcome.ok.injEq, Prod.mk.injEq] at hf'
    have hfit := text_fits hs
    rw [length_streamOf, hlen, ← hwf.1, ← hf'.1, ← htd, ← hv] at hfit
    exact ⟨by omega, by omega, hfit, reported_errors_bounded q text info ha⟩
  · cases e
  · cases e

/-! ### The bounds are attained -/

theorem groups_of_ones : ∀ (k : Nat) (p : List Bool), p = List.replicate (10 * k) true →
    (numericText (3 * k) p).length = 4 * k
  | 0, p, _ => by simp [numericText]
  | k + 1, p, h => by
    subst h
    rw [show 3 * (k + 1) = 3 * k + 3 by ring, numericText, List.length_append, groupText_length,
      show (List.replicate (10 * (k + 1)) true).take 10 = List.replicate 10 true by
        rw [List.take_replicate, show min 10 (10 * (k + 1)) = 10 by omega],
      if_neg (by decide), groups_of_ones k _ (by rw [List.drop_replicate, show 10 * (k + 1) - 10 = 10 * k by omega])]
    omega

/-- C82 (the bound is exact): there are 2956 data codewords, as many as a symbol of version 40-L has, that are read as
a text of 9452 characters. -/
theorem longest_text : ∃ input text, input.length = dataCapacity 40 .low ∧ data input 40 = .ok text ∧
    text.length = 9452 := by
  have hcap : dataCapacity 40 .low = 2956 := by
    obtain ⟨rows, hr, -, hdat, -⟩ := blockInfo_facts 40 (by decide) (by decide) .low
    unfold dataCapacity
    rw [← hdat]
    have : (match blockInfo 40 .low with | .ok rows => (rows.map (·.data_per)).sum | _ => 0) = 2956 := by decide +kernel
    rw [hr] at this
    exact this
  have hsay := SegmentSays.numeric (version := 40) 7089 (List.replicate (10 * 2363) true) (by decide)
    (by rw [List.length_replicate]; rfl)
  set bits := natToBits 4 Mode.numeric.indicator ++ (natToBits (Mode.numeric.countBits 40) 7089 ++
    List.replicate (10 * 2363) true) with hbits
  have hlen : bits.length = 8 * 2956 := by
    rw [hbits]
    simp only [List.length_append, length_natToBits, List.length_replicate]
    rfl
  have hstream := streamOf_bitsToBytes bits (by omega)
  have hl : (bitsToBytes bits).length = 2956 := by
    have := length_streamOf (bitsToBytes bits)
    rw [hstream] at this
    omega
  have hsays := Says.segment hsay (.done (version := 40) (tail := []) (.inl (by decide)))
  rw [List.append_nil, List.append_nil, ← hstream] at hsays
  exact ⟨bitsToBytes bits, _, by rw [hl, hcap], (data_returns_iff 40 (by decide) (by decide) _ _).mpr hsays,
    groups_of_ones 2363 _ rfl⟩

/-! ### Concrete cases -/

/-- C81 applies to a block with two wrong codewords, of which correction changes six bits. -/
example : correctWithErrorCount (damage isoBlock twoErrors) (BI 1 26 16 4) = .ok (isoBlock, 6) ∧
    changedWords (damage isoBlock twoErrors) isoBlock = 2 ∧ 2 * 2 ≤ eccPerBlock 1 .medium := by
  decide +kernel

/-- Correction may change more than is wrong: of a single wrong codeword it makes two. -/
example : ∃ b, correct (damage helloBlock (singleError 26 1 5)) (BI 1 26 19 2) = .ok b ∧ changedWords helloBlock b = 2 ∧
    changedWords (damage helloBlock (singleError 26 1 5)) b = 2 := by
  refine ⟨[65, 84, 134, 86, 198, 198, 240, 236, 17, 236, 17, 236, 17, 236, 17, 236, 17, 236, 17,
    173, 122, 150, 61, 133, 146, 94], ?_⟩
  decide +kernel

/-- C82 applies to a text of five characters in a symbol of version 1-L. -/
example : TextFits 1 (8 * 19) "HELLO".toList := by unfold TextFits; decide

end Verif.Props
