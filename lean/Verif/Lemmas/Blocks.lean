import Verif.Lemmas.Interleave
import Verif.Lemmas.Capacity
/-! `blocks` returns the de-interleaved codewords of every well-formed grid. -/
namespace Verif
open Spec

/-! ### every sequence of the right length is an interleaving -/

theorem interleave_bound {α : Type} (bs : List (List α)) (M : Nat)
    (h : (bs.map List.length).foldr max 0 ≤ M) :
    interleave bs = (List.range M).flatMap (column bs) := by
  obtain ⟨d, rfl⟩ : ∃ d, M = (bs.map List.length).foldr max 0 + d := ⟨_, (Nat.add_sub_of_le h).symm⟩
  rw [List.range_add, List.flatMap_append, interleave]
  have : ((List.range d).map ((bs.map List.length).foldr max 0 + ·)).flatMap (column bs) = [] := by
    rw [List.flatMap_eq_nil_iff]
    intro r hr
    simp only [List.mem_map, List.mem_range] at hr
    obtain ⟨a, _, rfl⟩ := hr
    unfold column
    rw [List.filterMap_eq_nil_iff]
    intro b hb
    have := le_foldr_max (bs.map List.length) b.length (List.mem_map.mpr ⟨b, hb, rfl⟩)
    exact List.getElem?_eq_none (by omega)
  rw [this, List.append_nil]

theorem exists_heads {α : Type} (lens : List Nat) (heads : List α) (bs' : List (List α))
    (hh : heads.length = lens.countP (0 < ·)) (hb : bs'.map List.length = lens.map (· - 1)) :
    ∃ bs : List (List α), bs.map List.length = lens ∧ column bs 0 = heads ∧ bs.map List.tail = bs' := by
  induction lens generalizing heads bs' with
  | nil =>
    refine ⟨[], rfl, ?_, ?_⟩
    · simp at hh; simp [column, hh]
    · simp at hb; simp [hb]
  | cons n lens ih =>
    cases bs' with
    | nil => simp at hb
    | cons b' bs' =>
      simp only [List.map_cons, List.cons.injEq] at hb
      by_cases hn : 0 < n
      · rw [List.countP_cons_of_pos (by simpa using hn)] at hh
        cases heads with
        | nil => simp at hh
        | cons x heads =>
          obtain ⟨bs, h1, h2, h3⟩ := ih heads bs' (by simpa using hh) hb.2
          refine ⟨(x :: b') :: bs, ?_, ?_, ?_⟩
          · simp only [List.map_cons, List.length_cons, h1, hb.1]
            congr 1; omega
          · unfold column at h2 ⊢; simp [h2]
          · simp [h3]
      · rw [List.countP_cons_of_neg (by simpa using hn)] at hh
        obtain ⟨bs, h1, h2, h3⟩ := ih heads bs' hh hb.2
        have hb' : b' = [] := List.length_eq_zero_iff.mp (by omega)
        refine ⟨[] :: bs, ?_, ?_, ?_⟩
        · simp only [List.map_cons, List.length_nil, h1]
          congr 1; omega
        · unfold column at h2 ⊢; simp [h2]
        · simp [h3, hb']

theorem sum_pred (lens : List Nat) : lens.sum = lens.countP (0 < ·) + (lens.map (· - 1)).sum := by
  induction lens with
  | nil => rfl
  | cons n lens ih =>
    simp only [List.sum_cons, List.map_cons]
    by_cases h : 0 < n
    · rw [List.countP_cons_of_pos (by simpa using h)]; omega
    · rw [List.countP_cons_of_neg (by simpa using h)]; omega

theorem exists_interleaveN {α : Type} (M : Nat) (lens : List Nat) (hM : ∀ n ∈ lens, n ≤ M)
    (bytes : List α) (h : bytes.length = lens.sum) :
    ∃ bs : List (List α), bs.map List.length = lens ∧ (List.range M).flatMap (column bs) = bytes := by
  induction M generalizing lens bytes with
  | zero =>
    refine ⟨lens.map fun _ => [], ?_, ?_⟩
    · rw [List.map_map]
      conv => rhs; rw [← List.map_id lens]
      apply List.map_congr_left
      intro n hn
      have := hM n hn
      simp; omega
    · have : lens.sum = 0 := by
        apply List.sum_eq_zero
        intro n hn
        have := hM n hn
        omega
      rw [this] at h
      simp [List.length_eq_zero_iff.mp h]
  | succ M ih =>
    have hs := sum_pred lens
    obtain ⟨bs', hl', hi'⟩ := ih (lens.map (· - 1))
      (by
        intro n hn
        obtain ⟨m, hm, rfl⟩ := List.mem_map.mp hn
        have := hM m hm
        omega)
      (bytes.drop (lens.countP (0 < ·))) (by rw [List.length_drop]; omega)
    obtain ⟨bs, h1, h2, h3⟩ := exists_heads lens (bytes.take (lens.countP (0 < ·))) bs'
      (by rw [List.length_take]; omega) hl'
    refine ⟨bs, h1, ?_⟩
    rw [List.range_succ_eq_map, List.flatMap_cons, h2, List.flatMap_map]
    have : (fun r => column bs (Nat.succ r)) = column bs' := by
      funext r
      unfold column
      rw [← h3, List.filterMap_map]
      apply filterMap_congr'
      intro b _
      simp
    rw [this, hi', List.take_append_drop]

theorem exists_interleave {α : Type} (lens : List Nat) (bytes : List α) (h : bytes.length = lens.sum) :
    ∃ bs : List (List α), bs.map List.length = lens ∧ interleave bs = bytes := by
  obtain ⟨bs, h1, h2⟩ := exists_interleaveN (lens.foldr max 0) lens
    (fun n hn => le_foldr_max lens n hn) bytes h
  refine ⟨bs, h1, ?_⟩
  rw [interleave, h1, h2]

theorem exists_family (ds : List Nat) (e : Nat) (bytes : List U8)
    (h : bytes.length = ds.sum + ds.length * e) :
    ∃ fam : List (List U8 × List U8), fam.map (·.1.length) = ds ∧ (∀ b ∈ fam, b.2.length = e) ∧
      finalSequence fam = bytes := by
  obtain ⟨d, hd1, hd2⟩ := exists_interleave ds (bytes.take ds.sum) (by rw [List.length_take]; omega)
  obtain ⟨c, hc1, hc2⟩ := exists_interleave (List.replicate ds.length e) (bytes.drop ds.sum)
    (by rw [List.length_drop, List.sum_replicate]; show _ = ds.length * e; omega)
  have hdl : d.length = ds.length := by simpa using congrArg List.length hd1
  have hcl : c.length = ds.length := by simpa using congrArg List.length hc1
  have e1 : (d.zip c).map (·.1) = d := List.map_fst_zip (by omega)
  have e2 : (d.zip c).map (·.2) = c := List.map_snd_zip (by omega)
  refine ⟨d.zip c, ?_, ?_, ?_⟩
  · rw [← hd1]
    conv => rhs; rw [← e1, List.map_map]
    rfl
  · intro b hb
    have hb2 : b.2 ∈ c := by rw [← e2]; exact List.mem_map.mpr ⟨b, hb, rfl⟩
    have : b.2.length ∈ List.replicate ds.length e := by
      rw [← hc1]; exact List.mem_map.mpr ⟨_, hb2, rfl⟩
    exact List.eq_of_mem_replicate this
  · rw [finalSequence, e1, e2, hd2, hc2, List.take_append_drop]

/-! ### the block table -/

/-- `totalCodewords`, evaluated. -/
def totalTable (v : Nat) : Nat := moduleTable.getD (v - 1) 0 / 8

theorem dataModules_table (v : Nat) (h1 : 1 ≤ v) (h40 : v ≤ 40) :
    (dataModules v).length = moduleTable.getD (v - 1) 0 := by
  rw [dataModules_length v h1 h40, countByClass_table v (range1_40 h1 h40)]

theorem totalCodewords_eq (v : Nat) (h1 : 1 ≤ v) (h40 : v ≤ 40) : totalCodewords v = totalTable v := by
  rw [totalCodewords, dataModules_table v h1 h40, totalTable]

/-- The specification's row, with the evaluated totals. -/
def specRow (v : Nat) (l : ECLevel) (i : Nat) : Nat × Nat :=
  let t := totalTable v / numBlocks v l +
    (if numBlocks v l - totalTable v % numBlocks v l ≤ i then 1 else 0)
  (t, t - eccPerBlock v l)

theorem specRow_eq (v : Nat) (h1 : 1 ≤ v) (h40 : v ≤ 40) (l : ECLevel) (i : Nat) :
    specRow v l i = (blockTotal v l i, blockData v l i) := by
  unfold specRow blockData blockTotal
  rw [totalCodewords_eq v h1 h40]

/-- Everything checked about the table. -/
def rowOk (v : Nat) (l : ECLevel) : Bool :=
  match blockTable v l with
  | none => false
  | some rows =>
    let bi := unwind rows
    decide (bi.map (fun b => (b.total_per, b.data_per)) = (List.range (numBlocks v l)).map (specRow v l)) &&
    bi.all (fun b => decide (1 ≤ b.data_per ∧ b.data_per + eccPerBlock v l = b.total_per ∧
      2 * b.ec_cap ≤ eccPerBlock v l ∧ 1 ≤ b.ec_cap ∧ b.total_per < 255 ∧ b.block_count < 256)) &&
    decide (0 < numBlocks v l ∧ (bi.map (·.total_per)).sum = totalTable v)

theorem rows_ok : ∀ v ∈ List.range' 1 40, ∀ l ∈ [ECLevel.low, .medium, .quartile, .high],
    rowOk v l = true := by
  decide +kernel

theorem level_mem (l : ECLevel) : l ∈ [ECLevel.low, .medium, .quartile, .high] := by
  cases l <;> decide

/-- The facts about the table used below. -/
theorem blockInfo_facts (v : Nat) (h1 : 1 ≤ v) (h40 : v ≤ 40) (l : ECLevel) :
    ∃ bi, blockInfo v l = .ok bi ∧
      bi.map (·.total_per) = (List.range (numBlocks v l)).map (blockTotal v l) ∧
      bi.map (·.data_per) = (List.range (numBlocks v l)).map (blockData v l) ∧
      (∀ b ∈ bi, 1 ≤ b.data_per ∧ b.data_per + eccPerBlock v l = b.total_per ∧
        2 * b.ec_cap ≤ eccPerBlock v l ∧ 1 ≤ b.ec_cap ∧ b.total_per < 255 ∧ b.block_count < 256) ∧
      0 < numBlocks v l ∧ (bi.map (·.total_per)).sum = totalCodewords v := by
  have h := rows_ok v (range1_40 h1 h40) l (level_mem l)
  unfold rowOk at h
  unfold blockInfo
  cases hb : blockTable v l with
  | none => rw [hb] at h; cases h
  | some rows =>
    rw [hb] at h
    simp only [Bool.and_eq_true, decide_eq_true_eq, List.all_eq_true] at h
    obtain ⟨⟨ha, hc⟩, hn, hsum⟩ := h
    refine ⟨unwind rows, rfl, ?_, ?_, hc, hn, ?_⟩
    · have := congrArg (List.map Prod.fst) ha
      rw [List.map_map, List.map_map] at this
      rw [show (fun b : BlockInfo => b.total_per) = Prod.fst ∘ fun b => (b.total_per, b.data_per) from rfl,
        this]
      apply List.map_congr_left
      intro i _
      simp only [Function.comp, specRow_eq v h1 h40]
    · have := congrArg (List.map Prod.snd) ha
      rw [List.map_map, List.map_map] at this
      rw [show (fun b : BlockInfo => b.data_per) = Prod.snd ∘ fun b => (b.total_per, b.data_per) from rfl,
        this]
      apply List.map_congr_left
      intro i _
      simp only [Function.comp, specRow_eq v h1 h40]
    · rw [hsum, totalCodewords_eq v h1 h40]

theorem blockTable_none (v : Nat) (h : v = 0 ∨ 40 < v) (l : ECLevel) : blockTable v l = none := by
  rcases h with rfl | h
  · rfl
  · obtain ⟨n, rfl⟩ : ∃ n, v = n + 41 := ⟨v - 41, by omega⟩
    rfl

theorem alignmentTable_none (v : Nat) (h : v = 0 ∨ 40 < v) : alignmentTable v = none := by
  rcases h with rfl | h
  · rfl
  · obtain ⟨n, rfl⟩ : ∃ n, v = n + 41 := ⟨v - 41, by omega⟩
    rfl

/-! ### `blocks` -/

theorem checkLengths_ok (bi : List BlockInfo) (bs : List (List U8)) (i : Nat)
    (h : bi.map (·.total_per) = bs.map List.length) : checkLengths i bi bs = .ok () := by
  induction bi generalizing bs i with
  | nil =>
    cases bs with
    | nil => rfl
    | cons => simp at h
  | cons b bi ih =>
    cases bs with
    | nil => simp at h
    | cons c bs =>
      simp only [List.map_cons, List.cons.injEq] at h
      rw [checkLengths, if_neg (by simpa using h.1)]
      exact ih bs (i + 1) h.2

theorem alignmentLocation_ok (v : Nat) (h1 : 1 ≤ v) (h40 : v ≤ 40) :
    alignmentLocation v = .ok (locOf v) := by
  unfold alignmentLocation
  rw [alignmentTable_some v (range1_40 h1 h40)]

/-- A grid whose data modules carry the interleaved family is read as that family. -/
theorem blocks_family (q : QRData) (v : Nat) (h1 : 1 ≤ v) (h40 : v ≤ 40) (hv : q.version = v)
    (hs : q.side = sideOf v) (l : ECLevel) (m : QRMask) (bit : Nat × Nat → Bool)
    (hm : ∀ p ∈ dataModules v, m q p.1 p.2 = .ret (bit p))
    (fam : List (List U8 × List U8)) (hfam : HasShape v l fam) (rest : List Bool)
    (hrest : rest.length < 8)
    (hbits : (dataModules v).map bit = streamOf (finalSequence fam) ++ rest) :
    blocks q l m = .ok (fam.map fun b => b.1 ++ b.2) := by
  obtain ⟨bi, hbi, htot, hdat, hall, hpos, hsum⟩ := blockInfo_facts v h1 h40 l
  have hlen : bi.length = fam.length := by
    have h1 := congrArg List.length hdat
    have h2 := congrArg List.length hfam.1
    simp at h1 h2; omega
  have hbl : bi.length = numBlocks v l := by simpa using congrArg List.length hdat
  have hdp : bi.map (·.data_per) = fam.map (·.1.length) := by rw [hdat, hfam.1]
  have hdne : ∀ b ∈ fam, b.1 ≠ [] := by
    intro b hb he
    have : b.1.length ∈ bi.map (·.data_per) := by
      rw [hdp]; exact List.mem_map.mpr ⟨b, hb, rfl⟩
    obtain ⟨x, hx, hxe⟩ := List.mem_map.mp this
    have := (hall x hx).1
    rw [he] at hxe
    simp at hxe
    omega
  obtain ⟨s, hpush, hblocks⟩ := pushAll_finalSequence fam (eccPerBlock v l) bi
    (by intro h; rw [h, List.length_nil] at hlen; omega) hdne hfam.2 hdp
  unfold blocks
  rw [hv, hbi, alignmentLocation_ok v h1 h40]
  have hside : sideOf v = 4 * v + 17 := rfl
  simp only [Outcome.ok_bind]
  rw [if_neg (by omega), readColumns_bits q m v h1 h40 hv hs bit hm, hbits]
  rcases addBits_stream (finalSequence fam) rest hrest (Blocks.new bi) with ⟨_, hp⟩ | ⟨s', cb, bc, ha, hp⟩
  · rw [hpush] at hp; cases hp
  · rw [hpush] at hp
    cases hp
    rw [Codewords.new, ha]
    simp only [hblocks, List.length_map]
    rw [if_neg (by omega)]
    have hch : bi.map (·.total_per) = (fam.map fun b => b.1 ++ b.2).map List.length := by
      apply List.ext_getElem?
      intro i
      rw [List.map_map, List.getElem?_map, List.getElem?_map]
      by_cases hi : i < bi.length
      · have hif : i < fam.length := hlen ▸ hi
        rw [List.getElem?_eq_getElem hi, List.getElem?_eq_getElem hif]
        have hd := congrArg (fun l => l[i]?) hdp
        simp only [List.getElem?_map, List.getElem?_eq_getElem hi, List.getElem?_eq_getElem hif,
          Option.map_some, Option.some.injEq] at hd
        have := (hall _ (List.getElem_mem hi)).2.1
        have := hfam.2 _ (List.getElem_mem hif)
        simp only [Option.map_some, Function.comp, List.length_append, Option.some.injEq]
        omega
      · rw [List.getElem?_eq_none (by omega), List.getElem?_eq_none (by omega)]
        rfl
    rw [checkLengths_ok bi _ 0 hch]
    rfl

/-- Every assignment of bits to the data modules is the placement of a unique-shape family. -/
theorem exists_family_bits (v : Nat) (h1 : 1 ≤ v) (h40 : v ≤ 40) (l : ECLevel) (bits : List Bool)
    (hl : bits.length = (dataModules v).length) :
    ∃ fam rest, HasShape v l fam ∧ rest.length < 8 ∧ bits = streamOf (finalSequence fam) ++ rest := by
  obtain ⟨bi, hbi, htot, hdat, hall, hpos, hsum⟩ := blockInfo_facts v h1 h40 l
  have hbl : bi.length = numBlocks v l := by simpa using congrArg List.length hdat
  have htc : totalCodewords v = (dataModules v).length / 8 := rfl
  obtain ⟨bytes, hbytes, hst⟩ := exists_bytes (totalCodewords v) (bits.take (8 * totalCodewords v))
    (by rw [List.length_take]; omega)
  have hsum' : (bi.map (·.data_per)).sum + bi.length * eccPerBlock v l = totalCodewords v := by
    rw [← hsum]
    clear hdat htot hsum hbl hbi hst hbytes
    induction bi with
    | nil => simp
    | cons b bi ih =>
      have h := (hall b List.mem_cons_self).2.1
      have ih := ih (fun b hb => hall b (List.mem_cons_of_mem _ hb))
      simp only [List.map_cons, List.sum_cons, List.length_cons, Nat.add_mul, Nat.one_mul]
      omega
  obtain ⟨fam, hf1, hf2, hf3⟩ := exists_family (bi.map (·.data_per)) (eccPerBlock v l) bytes
    (by rw [List.length_map]; omega)
  refine ⟨fam, bits.drop (8 * totalCodewords v), ⟨by rw [hf1, hdat], hf2⟩, ?_, ?_⟩
  · rw [List.length_drop]; omega
  · rw [hf3, ← hst, List.take_append_drop]

end Verif
