import Verif.Props.Decoder
import Verif.Lemmas.Damage
/-!
# Property C56: damaged symbols, end to end

Specification: `Verif.Spec.Damage`.
-/
namespace Verif.Props
open Spec

theorem stream_byte (a : List U8) (i : Nat) (hi : i < a.length) :
    ((streamOf a).drop (8 * i)).take 8 = byteBits a[i] := by
  induction a generalizing i with
  | nil => simp at hi
  | cons x a ih =>
    cases i with
    | zero =>
      rw [streamOf_cons, Nat.mul_zero, List.drop_zero, List.take_append_of_le_length (by simp),
        List.take_of_length_le (by simp)]
      rfl
    | succ i =>
      rw [streamOf_cons, show 8 * (i + 1) = (byteBits x).length + 8 * i by rw [length_byteBits]; omega,
        List.drop_append, List.drop_of_length_le (by omega), List.nil_append, Nat.add_sub_cancel_left,
        ih i (by simpa using hi)]
      rfl

theorem byteBits_inj {a b : U8} (h : byteBits a = byteBits b) : a = b := by
  unfold byteBits at h
  have := congrArg bitsToNat h
  rw [bitsToNat_natToBits, bitsToNat_natToBits] at this
  apply BitVec.eq_of_toNat_eq
  have ha := a.isLt
  have hb := b.isLt
  omega

/-- Bytes whose stream bits agree are equal. -/
theorem stream_byte_eq (a b : List U8) (h : a.length = b.length) (i : Nat)
    (hb : ∀ t < 8, (streamOf a)[8 * i + t]? = (streamOf b)[8 * i + t]?) : a[i]? = b[i]? := by
  by_cases hi : i < a.length
  · rw [List.getElem?_eq_getElem hi, List.getElem?_eq_getElem (h ▸ hi)]
    congr 1
    apply byteBits_inj
    rw [← stream_byte a i hi, ← stream_byte b i (h ▸ hi)]
    apply List.ext_getElem?
    intro t
    rw [List.getElem?_take, List.getElem?_take]
    split
    · rw [List.getElem?_drop, List.getElem?_drop, hb t (by assumption)]
    · rfl
  · rw [List.getElem?_eq_none (by omega), List.getElem?_eq_none (by omega)]

/-- Decoding a grid whose format is read as `(l, k)` and whose blocks `recv` are all corrected to the
blocks `sent`. -/
theorem decode_repaired (q : QRData) (v : Nat) (h1 : 1 ≤ v) (h40 : v ≤ 40) (hw : WellFormed q v)
    (l : ECLevel) (k : Nat) (hr : ReadsAs q l k) (segments : List Segment)
    (hfit : ∀ s ∈ segments, s.fits v) (text : List Char) (htext : SegmentsText segments text)
    (sent recv : List (List U8 × List U8)) (hs : HasShape v l sent) (hrc : HasShape v l recv)
    (rest tail : List Bool) (hrest : rest.length < 8)
    (hb : symbolBits q v k = streamOf (finalSequence recv) ++ rest)
    (hst : streamOf (sent.flatMap (·.1)) = segments.flatMap (·.bits v) ++ tail) (hterm : Terminated tail)
    (hcorr : ∀ i (hi : i < recv.length) (hj : i < sent.length) bi, IsRow v l bi →
      bi.total_per = (recv[i].1 ++ recv[i].2).length →
      correct (recv[i].1 ++ recv[i].2) bi = .ok (sent[i].1 ++ sent[i].2)) :
    qrDecode (.ok q) = .ok text ∧
    ∃ info, qrDecodeWithInfo (.ok q) = .ok (text, info) ∧ info.version = v ∧ info.ecLevel = l ∧
      info.errors = bitDistance (finalSequence recv) (finalSequence sent) := by
  obtain ⟨rows, hrows, -⟩ := blockInfo_facts v h1 h40 l
  have hlens := zip_lens v h1 h40 l recv hrc rows hrows
  obtain ⟨hp, -, -⟩ := pairs_facts v h1 h40 l rows hrows _ hlens
  have hrl : rows.length = recv.length := by simpa using congrArg List.length hlens
  obtain ⟨sl, -⟩ := family_range hs
  obtain ⟨rl, -⟩ := family_range hrc
  let F : List U8 × BlockInfo → List U8 := fun p => match correct p.1 p.2 with
    | .ok b => b
    | _ => []
  have hat : ∀ i (hi : i < recv.length) (hj : i < sent.length) (hk : i < rows.length),
      correct (recv[i].1 ++ recv[i].2) rows[i] = .ok (sent[i].1 ++ sent[i].2) := by
    intro i hi hj hk
    have hm : ((recv[i].1 ++ recv[i].2), rows[i]) ∈ (recv.map fun b => b.1 ++ b.2).zip rows := by
      have : ((recv.map fun b => b.1 ++ b.2).zip rows)[i]'(by simp; omega) =
          ((recv[i].1 ++ recv[i].2), rows[i]) := by simp
      rw [← this]
      exact List.getElem_mem _
    exact hcorr i hi hj rows[i] (hp _ hm).1 (hp _ hm).2.symm
  have hFmap : ((recv.map fun b => b.1 ++ b.2).zip rows).map F = sent.map fun b => b.1 ++ b.2 := by
    apply List.ext_getElem
    · simp; omega
    · intro i hi hj
      simp only [List.length_map] at hj
      simp only [List.getElem_map, List.getElem_zip, F]
      rw [hat i (by omega) hj (by omega)]
  have hF : ∀ p ∈ (recv.map fun b => b.1 ++ b.2).zip rows, correct p.1 p.2 = .ok (F p) := by
    intro p hpm
    obtain ⟨i, hi, rfl⟩ := List.mem_iff_getElem.mp hpm
    simp only [List.length_zip, List.length_map] at hi
    simp only [List.getElem_zip, List.getElem_map, F]
    rw [hat i (by omega) (by omega) (by omega)]
  obtain ⟨d1, d2⟩ := decode_family q v h1 h40 hw l k hr recv hrc rest hrest hb rows hrows F hF
  have htake : ((recv.map fun b => b.1 ++ b.2).zip rows).flatMap (fun p => (F p).take p.2.data_per) =
      sent.flatMap (·.1) := by
    rw [← zip_take v h1 h40 l sent hs rows hrows, ← hFmap]
    simp only [List.flatMap_def]
    congr 1
    apply List.ext_getElem
    · simp
    · intro i hi hj
      simp
  rw [htake] at d1 d2
  have hd := data_segments v h1 h40 segments text tail _ htext hfit hst hterm
  refine ⟨by rw [d1, hd], ⟨_, by rw [d2, hd]; rfl, rfl, rfl, ?_⟩⟩
  rw [← bitDistance_family (shapes_same hrc hs)]
  simp only
  congr 1
  apply List.ext_getElem
  · simp; omega
  · intro i hi hj
    simp only [List.length_map, List.length_zip, List.length_zipWith] at hi hj
    simp only [List.getElem_map, List.getElem_zip, List.getElem_zipWith]
    congr 1
    simp only [F]
    rw [hat i (by omega) (by omega) (by omega)]

theorem single_form (c : List U8) (p : Nat) (hp : p < c.length) (m : U8) :
    (List.replicate c.length (0 : U8)).set p m = singleError c.length (c.length - 1 - p) m := by
  unfold singleError
  apply List.ext_getElem
  · simp
  · intro i h1 h2
    simp only [List.length_set, List.length_replicate] at h1
    rw [List.getElem_reverse, List.getElem_set, List.getElem_set]
    simp only [List.length_set, List.length_replicate, List.getElem_replicate]
    split <;> split <;> first | rfl | omega

/-- C56. Take any symbol `s` (version and level in `singlesRepaired`, any mask, any segments). Damage it
arbitrarily within a set `J` of codewords of which no two belong to the same block, in all function
patterns and the second format copy, and in at most two modules of the first format copy other than the
last one. The damaged grid `q` still decodes to the message, and the decoder with info reports as
errors the number of damaged codeword modules. -/
theorem damaged_symbol_decodes (q s : QRData) (v : Nat) (h1 : 1 ≤ v) (h40 : v ≤ 40) (l : ECLevel) (k : Nat)
    (hk : k < 8) (hvl : (v, l) ∈ singlesRepaired) (segments : List Segment)
    (hfit : ∀ s ∈ segments, s.fits v) (text : List Char) (htext : SegmentsText segments text)
    (hs : IsSymbol s v l k segments) (hw : WellFormed q v)
    (e : List Bool) (he : e.length = 15) (hwe : weight e ≤ 2) (hlast : e.getD 14 false = false)
    (hfmt : Shows q formatCopy1 (flipBits (formatWord l k) e))
    (J : Nat → Prop)
    (hJ : ∀ i j b : Nat, J i → J j → (blockNumbers v l)[i]? = some b → (blockNumbers v l)[j]? = some b → i = j)
    (hsame : ∀ (i : Nat) p, (dataModules v)[i]? = some p → ¬ J (i / 8) →
      moduleAt q p.1 p.2 = moduleAt s p.1 p.2) :
    qrDecode (.ok q) = .ok text ∧
    ∃ info, qrDecodeWithInfo (.ok q) = .ok (text, info) ∧ info.version = v ∧ info.ecLevel = l ∧
      info.errors = ((dataModules v).take (8 * totalCodewords v)).countP
        fun p => moduleAt q p.1 p.2 ≠ moduleAt s p.1 p.2 := by
  obtain ⟨hws, -, -, sent, rest, tail, hf, hcw, hrest, hb, hst, hterm⟩ := hs
  obtain ⟨recv, rest', hrf, hrest', hb'⟩ := exists_family_bits v h1 h40 l (symbolBits q v k)
    (by rw [symbolBits, List.length_map])
  have hl1 : (finalSequence sent).length = totalCodewords v := finalSequence_length v h1 h40 l sent hf
  have hl2 : (finalSequence recv).length = totalCodewords v := finalSequence_length v h1 h40 l recv hrf
  have hbit : ∀ i, ¬ J (i / 8) → i < 8 * totalCodewords v →
      (streamOf (finalSequence recv))[i]? = (streamOf (finalSequence sent))[i]? := by
    intro i hi hlt
    have e1 : (streamOf (finalSequence recv))[i]? = (symbolBits q v k)[i]? := by
      rw [hb', List.getElem?_append_left (by rw [length_streamOf]; omega)]
    have e2 : (streamOf (finalSequence sent))[i]? = (symbolBits s v k)[i]? := by
      rw [hb, List.getElem?_append_left (by rw [length_streamOf]; omega)]
    rw [e1, e2]
    unfold symbolBits
    rw [List.getElem?_map, List.getElem?_map]
    cases hp : (dataModules v)[i]? with
    | none => rfl
    | some p =>
      simp only [Option.map_some]
      unfold unmasked
      rw [hsame i p hp hi]
  have hbyte : ∀ i, ¬ J i → (finalSequence recv)[i]? = (finalSequence sent)[i]? := by
    intro i hi
    by_cases hlt : i < totalCodewords v
    · apply stream_byte_eq _ _ (by omega)
      intro t ht
      exact hbit _ (by rwa [show (8 * i + t) / 8 = i by omega]) (by omega)
    · rw [List.getElem?_eq_none (by omega), List.getElem?_eq_none (by omega)]
  have hpb := distance_per_block hrf hf fun i j b hi hj di dj =>
    hJ i j b (Decidable.byContradiction (dec := Classical.dec _) fun h => di (hbyte i h))
      (Decidable.byContradiction (dec := Classical.dec _) fun h => dj (hbyte j h)) hi hj
  have hrep := (repairs_singles_iff_partial v h1 h40 l).mpr hvl
  obtain ⟨sl, si⟩ := family_range hf
  obtain ⟨rl, ri⟩ := family_range hrf
  obtain ⟨r1, info, r2, r3, r4, r5⟩ := decode_repaired q v h1 h40 hw l k
    (two_flips_corrected q l k hk e he hwe hlast hfmt) segments hfit text htext sent recv hf hrf rest' tail hrest'
    hb' hst hterm (by
      intro i hi hj bi hbi htot
      have hlen : (recv[i].1 ++ recv[i].2).length = (sent[i].1 ++ sent[i].2).length := by
        rw [List.length_append, List.length_append, (ri i hi).1, (ri i hi).2, (si i hj).1, (si i hj).2]
      have hc := hcw _ (List.getElem_mem hj)
      rcases distance_one _ _ hlen (hpb i hi hj) with heq | ⟨p, hp, m, hm, heq⟩
      · rw [heq]
        exact (codeword_untouched v l bi hbi _ (by omega) hc).2
      · rw [heq, single_form _ p hp m, ← hlen, ← htot]
        exact hrep bi hbi _ (by omega) hc _ (by omega) m hm)
  refine ⟨r1, info, r2, r3, r4, ?_⟩
  rw [r5, bitDistance_stream _ _ (by omega)]
  have e1 : streamOf (finalSequence recv) = ((dataModules v).take (8 * totalCodewords v)).map (unmasked q k) := by
    rw [List.map_take, show (dataModules v).map (unmasked q k) = symbolBits q v k from rfl, hb',
      List.take_append_of_le_length (by simp [hl2]), List.take_of_length_le (by simp [hl2])]
  have e2 : streamOf (finalSequence sent) = ((dataModules v).take (8 * totalCodewords v)).map (unmasked s k) := by
    rw [List.map_take, show (dataModules v).map (unmasked s k) = symbolBits s v k from rfl, hb,
      List.take_append_of_le_length (by simp [hl1]), List.take_of_length_le (by simp [hl1])]
  rw [e1, e2]
  unfold distance
  rw [List.zip_map', List.countP_map]
  apply List.countP_congr
  intro p hp
  have hbd := dataModules_bounds (List.mem_of_mem_take hp)
  have hmod : ∀ g : QRData, WellFormed g v → ∃ b, moduleAt g p.1 p.2 = some b := by
    intro g hg
    obtain ⟨w, hsh⟩ := shows_exists g [p] (sideOf v) hg.2.1 hg.2.2 (by
      intro p' hp'
      simp only [List.mem_singleton] at hp'
      rw [hp']; exact hbd)
    unfold Shows at hsh
    cases w with
    | nil => simp at hsh
    | cons b w =>
      simp only [List.map_cons, List.cons.injEq] at hsh
      exact ⟨b, hsh.1⟩
  obtain ⟨a, ha⟩ := hmod q hw
  obtain ⟨b, hb2⟩ := hmod s hws
  simp only [Function.comp, unmasked, ha, hb2, Option.getD_some, decide_eq_true_eq]
  cases a <;> cases b <;> cases isoMask k p.2 p.1 <;> simp

end Verif.Props
