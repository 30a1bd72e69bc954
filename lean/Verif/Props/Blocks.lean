import Verif.Lemmas.Blocks
import Verif.Lemmas.Format
/-!
# Properties C24–C29: codeword placement, block table, de-interleaving

Specification: `Verif.Spec.Symbol` (function modules, zigzag placement, Table 9, interleaving).
-/
namespace Verif.Props
open Spec

/-! ### C24 -/

/-- C24. For every version, the reader treats a module of the symbol as data iff it is a module of the
encoding region, i.e. not a finder pattern, separator, timing pattern, alignment pattern, format or
version information, or the dark module. -/
theorem data_iff_not_function (q : QRData) (v : Nat) (h1 : 1 ≤ v) (h40 : v ≤ 40)
    (hv : q.version = v) (hs : q.side = sideOf v) :
    ∃ loc, alignmentLocation v = .ok loc ∧ ∀ x y, x < sideOf v → y < sideOf v →
      isData q loc x y = .ret (decide (¬ isFunction v x y)) := by
  refine ⟨locOf v, alignmentLocation_ok v h1 h40, fun x y hx hy => ?_⟩
  rw [isData_eq q v h1 h40 hv hs x y hx hy]
  congr 1
  apply decide_eq_decide.mpr
  exact ⟨fun h => h.2.2, fun h => ⟨hx, hy, h⟩⟩

/-- C24, seen from outside: a module is consulted iff it is a data module. Whatever happens at the
other positions, the result depends only on what the mask function returns at data modules; and a mask
function that panics at some data module makes the block reader panic. -/
theorem blocks_consults_exactly_data_modules (q : QRData) (v : Nat) (h1 : 1 ≤ v) (h40 : v ≤ 40)
    (hv : q.version = v) (hs : q.side = sideOf v) (l : ECLevel) (m : QRMask) :
    (∀ q' m', q'.version = v → q'.side = sideOf v →
      (∀ x y, x < sideOf v → y < sideOf v → ¬ isFunction v x y → m q x y = m' q' x y) →
      blocks q l m = blocks q' l m') ∧
    (∀ x y, x < sideOf v → y < sideOf v → ¬ isFunction v x y → m q x y = .panic →
      blocks q l m = .panic) := by
  have hside : sideOf v = 4 * v + 17 := rfl
  obtain ⟨bi, hbi, -⟩ := blockInfo_facts v h1 h40 l
  constructor
  · intro q' m' hv' hs' hm
    have hread : ∀ ps : List (Nat × Nat), (∀ p ∈ ps, p.1 < sideOf v ∧ p.2 < sideOf v) → ∀ c,
        readPositions q (locOf v) m ps c = readPositions q' (locOf v) m' ps c := by
      intro ps
      induction ps with
      | nil => intro _ c; rfl
      | cons p ps ih =>
        intro hps c
        obtain ⟨hx, hy⟩ := hps p List.mem_cons_self
        rw [readPositions, readPositions, readModule, readModule,
          isData_eq q v h1 h40 hv hs _ _ hx hy, isData_eq q' v h1 h40 hv' hs' _ _ hx hy]
        by_cases hd : isDataModule v p.1 p.2
        · rw [decide_eq_true hd]
          simp only [hm _ _ hx hy hd.2.2]
          cases m' q' p.1 p.2 with
          | panic => rfl
          | ret b =>
            simp only
            cases c.addBit b with
            | panic => rfl
            | ret c => exact ih (fun p hp => hps p (List.mem_cons_of_mem _ hp)) c
        · rw [decide_eq_false hd]
          exact ih (fun p hp => hps p (List.mem_cons_of_mem _ hp)) c
    unfold blocks
    rw [hv, hv', hbi, alignmentLocation_ok v h1 h40]
    simp only [Outcome.ok_bind]
    rw [if_neg (by omega), if_neg (by omega), readColumns_zigzag q _ m v hs,
      readColumns_zigzag q' _ m' v hs', hread _ (fun p hp => ?_)]
    have := mem_zigzag.mp (show (p.1, p.2) ∈ zigzag v from hp)
    exact ⟨this.1, this.2.1⟩
  · intro x y hx hy hf hp
    unfold blocks
    rw [hv, hbi, alignmentLocation_ok v h1 h40]
    simp only [Outcome.ok_bind]
    rw [if_neg (by omega), readColumns_zigzag q _ m v hs]
    have hmem : (x, y) ∈ zigzag v := by
      refine mem_zigzag.mpr ⟨hx, hy, fun h6 => hf ?_⟩
      exact Or.inr (Or.inl (Or.inl h6))
    obtain ⟨a, b, hab⟩ := List.append_of_mem hmem
    rw [hab, readPositions_append]
    cases readPositions q (locOf v) m a (Codewords.new bi) with
    | panic => rfl
    | ret c =>
      simp only [readPositions, readModule, isData_eq q v h1 h40 hv hs x y hx hy]
      rw [decide_eq_true (show isDataModule v x y from ⟨hx, hy, hf⟩)]
      simp only [hp]

/-! ### C25 -/

/-- C25. The specified reading order visits every data module exactly once (and nothing else). -/
theorem data_modules_exactly_once (v : Nat) :
    (dataModules v).Nodup ∧
    ∀ x y, (x, y) ∈ dataModules v ↔ x < sideOf v ∧ y < sideOf v ∧ ¬ isFunction v x y := by
  refine ⟨(zigzag_nodup v).filter _, fun x y => ?_⟩
  unfold dataModules
  rw [List.mem_filter]
  constructor
  · intro h; exact of_decide_eq_true h.2
  · intro h
    exact ⟨mem_zigzag.mpr ⟨h.1, h.2.1, fun h6 => h.2.2 (Or.inr (Or.inl (Or.inl h6)))⟩,
      decide_eq_true h⟩

theorem mask_at_module (q : QRData) (v : Nat) (h40 : v ≤ 40) (hw : WellFormed q v) (k : Nat) (hk : k < 8)
    (m : QRMask) (hm : mask k = some m) (p : Nat × Nat) (hx : p.1 < sideOf v) (hy : p.2 < sideOf v) :
    m q p.1 p.2 = .ret (unmasked q k p) := by
  have hside : sideOf v = 4 * v + 17 := rfl
  rw [mask_reads k hk m hm q p.1 p.2 (by omega) (by omega)]
  have : ∃ b, moduleAt q p.1 p.2 = some b := by
    unfold moduleAt
    have hlt : p.2 * q.side + p.1 < q.data.length := by
      rw [hw.2.1, hw.2.2]
      calc p.2 * sideOf v + p.1 < p.2 * sideOf v + sideOf v := by omega
        _ = (p.2 + 1) * sideOf v := by rw [Nat.add_mul, Nat.one_mul]
        _ ≤ sideOf v * sideOf v := Nat.mul_le_mul_right _ hy
    rw [List.getElem?_eq_getElem hlt]
    exact ⟨_, rfl⟩
  obtain ⟨b, hb⟩ := this
  unfold unmasked
  rw [hb]
  rfl

/-- C25 and C28. For every version, level, mask and every complete grid, the block reader returns `Ok`
of the blocks of the prescribed shape whose final (interleaved) codeword sequence is what the unmasked
data modules show, in the ISO zigzag order; fewer than eight modules (the remainder bits) are left. -/
theorem blocks_reads_zigzag (q : QRData) (v : Nat) (h1 : 1 ≤ v) (h40 : v ≤ 40) (hw : WellFormed q v)
    (l : ECLevel) (k : Nat) (hk : k < 8) (m : QRMask) (hm : mask k = some m) :
    ∃ fam rest, HasShape v l fam ∧ rest.length < 8 ∧
      symbolBits q v k = streamOf (finalSequence fam) ++ rest ∧
      blocks q l m = .ok (fam.map fun b => b.1 ++ b.2) := by
  obtain ⟨fam, rest, hf, hr, hb⟩ := exists_family_bits v h1 h40 l (symbolBits q v k)
    (by rw [symbolBits, List.length_map])
  refine ⟨fam, rest, hf, hr, hb, ?_⟩
  exact blocks_family q v h1 h40 hw.1 hw.2.1 l m (unmasked q k)
    (fun p hp => mask_at_module q v h40 hw k hk m hm p (dataModules_bounds hp).1
      (dataModules_bounds hp).2) fam hf rest hr hb

/-! ### C26 -/

/-- C26. For all 160 version/level pairs: one table entry per block, with the ISO numbers of total and
data codewords, in block order; the totals add up to the capacity of the symbol; the correction
capacity is at least 1 and at most half of the EC codewords. -/
theorem block_table_is_iso (v : Nat) (h1 : 1 ≤ v) (h40 : v ≤ 40) (l : ECLevel) :
    ∃ bi, blockInfo v l = .ok bi ∧
      bi.map (·.total_per) = (List.range (numBlocks v l)).map (blockTotal v l) ∧
      bi.map (·.data_per) = (List.range (numBlocks v l)).map (blockData v l) ∧
      (bi.map (·.total_per)).sum = (dataModules v).length / 8 ∧
      ∀ b ∈ bi, b.total_per = b.data_per + eccPerBlock v l ∧ 1 ≤ b.data_per ∧
        1 ≤ b.ec_cap ∧ 2 * b.ec_cap ≤ eccPerBlock v l := by
  obtain ⟨bi, hbi, ht, hd, hall, -, hsum⟩ := blockInfo_facts v h1 h40 l
  refine ⟨bi, hbi, ht, hd, hsum, fun b hb => ?_⟩
  obtain ⟨h1, h2, h3, h4, -⟩ := hall b hb
  exact ⟨h2.symm, h1, h4, h3⟩

/-- C26. The number of data modules of every version (Table 1 of the standard, "data modules"
column: capacity in codewords times eight plus remainder bits). -/
theorem data_module_count (v : Nat) (h1 : 1 ≤ v) (h40 : v ≤ 40) :
    (dataModules v).length = moduleTable.getD (v - 1) 0 := dataModules_table v h1 h40

/-! ### C27 -/

theorem foldlM_push (bs : List U8) (s : Blocks) : bs.foldlM Blocks.push s = pushAll bs s := by
  induction bs generalizing s with
  | nil => rfl
  | cons b bs ih =>
    rw [List.foldlM_cons, pushAll]
    cases s.push b with
    | panic => rfl
    | ret s => exact ih s

/-- C27. For every non-empty family of blocks with non-empty data parts and EC parts of equal length,
pushing the ISO-interleaved codeword sequence byte by byte reproduces exactly the blocks. -/
theorem deinterleave_inverts_interleave (fam : List (List U8 × List U8)) (e : Nat)
    (bi : List BlockInfo) (hne : fam ≠ []) (hd : ∀ b ∈ fam, b.1 ≠ []) (he : ∀ b ∈ fam, b.2.length = e)
    (hbi : bi.map (·.data_per) = fam.map (·.1.length)) :
    ∃ s, (finalSequence fam).foldlM Blocks.push (Blocks.new bi) = .ret s ∧
      s.blocks = fam.map fun b => b.1 ++ b.2 := by
  rw [foldlM_push]
  exact pushAll_finalSequence fam e bi hne hd he hbi

/-- C27, end to end: a complete grid whose unmasked data modules show, in zigzag order, the interleaved
sequence of a family of blocks followed by remainder bits is read as exactly those blocks. -/
theorem blocks_of_placed_family (q : QRData) (v : Nat) (h1 : 1 ≤ v) (h40 : v ≤ 40)
    (hw : WellFormed q v) (l : ECLevel) (k : Nat) (hk : k < 8) (m : QRMask) (hm : mask k = some m)
    (fam : List (List U8 × List U8)) (hf : HasShape v l fam) (rest : List Bool) (hr : rest.length < 8)
    (hb : symbolBits q v k = streamOf (finalSequence fam) ++ rest) :
    blocks q l m = .ok (fam.map fun b => b.1 ++ b.2) :=
  blocks_family q v h1 h40 hw.1 hw.2.1 l m (unmasked q k)
    (fun p hp => mask_at_module q v h40 hw k hk m hm p (dataModules_bounds hp).1
      (dataModules_bounds hp).2) fam hf rest hr hb

/-! ### C28 -/

/-- C28. For every version, level, mask and every complete grid, whatever its content, the block reader
returns `Ok`, with one block per table row, each of the row's length. -/
theorem blocks_always_ok (q : QRData) (v : Nat) (h1 : 1 ≤ v) (h40 : v ≤ 40) (hw : WellFormed q v)
    (l : ECLevel) (k : Nat) (hk : k < 8) (m : QRMask) (hm : mask k = some m) :
    ∃ bs, blocks q l m = .ok bs ∧
      bs.map List.length = (List.range (numBlocks v l)).map (blockTotal v l) := by
  obtain ⟨fam, rest, hf, -, -, hb⟩ := blocks_reads_zigzag q v h1 h40 hw l k hk m hm
  refine ⟨_, hb, ?_⟩
  obtain ⟨bi, hbi, ht, hd, hall, -⟩ := blockInfo_facts v h1 h40 l
  have hdp : bi.map (·.data_per) = fam.map (·.1.length) := by rw [hd, hf.1]
  have hl : bi.length = fam.length := by simpa using congrArg List.length hdp
  rw [← ht, List.map_map]
  apply List.ext_getElem
  · simp [hl]
  · intro i hi hi'
    simp only [List.length_map] at hi hi'
    have e1 := (hall _ (List.getElem_mem hi')).2.1
    have e2 := hf.2 _ (List.getElem_mem hi)
    have e3 : bi[i].data_per = fam[i].1.length := by
      have := congrArg (fun l => l[i]?) hdp
      simpa [hi, hi'] using this
    simp only [List.getElem_map, Function.comp, List.length_append]
    omega

/-! ### C29 -/

/-- C29 (block layer). A grid whose version is not 1..40 gives an error naming the version, for every
level, mask and content; nothing panics. -/
theorem blocks_unknown_version (q : QRData) (h : q.version = 0 ∨ 40 < q.version) (l : ECLevel)
    (m : QRMask) : ∃ e, blocks q l m = .err e ∧ blockInfo q.version l = .err e := by
  unfold blocks blockInfo
  rw [blockTable_none _ h]
  exact ⟨_, rfl, rfl⟩

/-! ### Non-vacuity -/

/-- A version-1 grid with some structure. -/
def sampleGrid : QRData :=
  { data := (List.range 441).map fun i => if i * i % 7 < 3 then 0#8 else 255#8
    version := 1
    side := 21 }

example : WellFormed sampleGrid 1 := by unfold WellFormed; decide +kernel

/-- The block reader on the sample grid: one block of 26 codewords. -/
example : (match blocks sampleGrid .medium (fun q x y => q.index x y) with
    | .ok bs => bs.map List.length
    | _ => []) = [26] := by decide +kernel

/-- A family of the shape of version 5, level Q (two blocks of 15 + 18, two of 16 + 18). -/
example : HasShape 5 .quartile
    [(List.replicate 15 1, List.replicate 18 2), (List.replicate 15 3, List.replicate 18 4),
     (List.replicate 16 5, List.replicate 18 6), (List.replicate 16 7, List.replicate 18 8)] := by
  have hn : numBlocks 5 .quartile = 4 := by decide
  have hr : (List.range 4).map (blockData 5 .quartile) = (List.range 4).map (fun i => (specRow 5 .quartile i).2) := by
    apply List.map_congr_left
    intro i _
    rw [specRow_eq 5 (by decide) (by decide)]
  constructor
  · rw [hn, hr]; decide +kernel
  · decide +kernel

/-- Interleaving of blocks of unequal length: the short block is skipped. -/
example : finalSequence [([1#8, 2], [7#8, 8]), ([3, 4, 5], [9, 10])] =
    [1, 3, 2, 4, 5, 7, 9, 8, 10] := by decide +kernel

example : isFunction 7 34 0 ∧ ¬ isFunction 6 31 0 ∧ isFunction 2 18 18 ∧ isFunction 1 8 13 := by
  decide +kernel

/-- The placement starts in the lower right corner. -/
example : (dataModules 1).take 5 = [(20, 20), (19, 20), (20, 19), (19, 19), (20, 18)] := by
  decide +kernel

end Verif.Props
