import Verif.Lemmas.Reading
/-! De-interleaving. -/
namespace Verif
open Spec

theorem maxDataRound_ge (bi : List BlockInfo) (m : Nat) :
    m ≤ maxDataRound bi m ∧ ∀ b ∈ bi, b.data_per ≤ maxDataRound bi m := by
  induction bi generalizing m with
  | nil => simp [maxDataRound]
  | cons b bi ih =>
    rw [maxDataRound]
    have h := ih (if b.data_per > m then b.data_per else m)
    refine ⟨?_, ?_⟩
    · have := h.1; split at this <;> split <;> omega
    · intro b' hb'
      rcases List.mem_cons.mp hb' with rfl | hb'
      · have := h.1; split at this <;> split <;> omega
      · exact h.2 b' hb'

theorem maxDataRound_eq (bi : List BlockInfo) (m : Nat) :
    maxDataRound bi m = max m ((bi.map (·.data_per)).foldr max 0) := by
  induction bi generalizing m with
  | nil => simp [maxDataRound]
  | cons b bi ih =>
    rw [maxDataRound, ih]
    simp only [List.map_cons, List.foldr_cons]
    split <;> omega

theorem filterMap_congr' {α β : Type} {l : List α} {f g : α → Option β} (h : ∀ a ∈ l, f a = g a) :
    l.filterMap f = l.filterMap g := by
  induction l with
  | nil => rfl
  | cons x l ih =>
    rw [List.filterMap_cons, List.filterMap_cons, h x List.mem_cons_self,
      ih (fun a ha => h a (List.mem_cons_of_mem _ ha))]

section
variable (bi : List BlockInfo)

/-- The state whose next cell is number `p` in the order (round, block). -/
def stAt (p : Nat) (bl : List (List U8)) : Blocks :=
  { block_info := bi
    blocks := bl
    round := p / bi.length
    max_data_round := maxDataRound bi 0
    block := p % bi.length
    data_blocks := decide (p / bi.length < maxDataRound bi 0) }

/-- Cell `p` receives a byte. -/
def validCell (p : Nat) : Prop :=
  maxDataRound bi 0 ≤ p / bi.length ∨ ∃ b, bi[p % bi.length]? = some b ∧ p / bi.length < b.data_per

theorem incCount_stAt (hn : 0 < bi.length) (p : Nat) (bl : List (List U8)) :
    (stAt bi p bl).incCount = .ret (stAt bi (p + 1) bl) := by
  unfold Blocks.incCount stAt
  simp only
  rw [if_neg (by omega)]
  have hm : p % bi.length < bi.length := Nat.mod_lt _ hn
  have hdm := Nat.div_add_mod p bi.length
  split
  · rename_i h
    have h1 : (p + 1) % bi.length = 0 ∧ (p + 1) / bi.length = p / bi.length + 1 := by
      have : p + 1 = bi.length * (p / bi.length + 1) := by
        rw [Nat.mul_add, Nat.mul_one]; omega
      rw [this]
      exact ⟨Nat.mul_mod_right _ _, Nat.mul_div_cancel_left _ hn⟩
    rw [h1.1, h1.2]
    congr 2
    split
    · rename_i h2
      rw [eq_comm, decide_eq_false_iff_not]; omega
    · rename_i h2
      exact decide_eq_decide.mpr (by omega)
  · rename_i h
    have h1 : (p + 1) % bi.length = p % bi.length + 1 ∧ (p + 1) / bi.length = p / bi.length := by
      have hlt : p % bi.length + 1 < bi.length := by omega
      have e : p + 1 = (p % bi.length + 1) + bi.length * (p / bi.length) := by omega
      constructor
      · rw [e, Nat.add_mul_mod_self_left, Nat.mod_eq_of_lt hlt]
      · rw [e, Nat.add_mul_div_left _ _ hn, Nat.div_eq_of_lt hlt, Nat.zero_add]
    rw [h1.1, h1.2]

theorem skip_stAt (hn : 0 < bi.length) (hd : ∀ b ∈ bi, 1 ≤ b.data_per) (p' d p : Nat)
    (hp : p + d = p') (hinv : ∀ i, p ≤ i → i < p' → ¬ validCell bi i) (hv : validCell bi p')
    (fuel : Nat) (hf : d < fuel) (bl : List (List U8)) :
    Blocks.skip fuel (stAt bi p bl) = .ret (stAt bi p' bl) := by
  induction d generalizing p fuel with
  | zero =>
    cases fuel with
    | zero => omega
    | succ fuel =>
      have : p = p' := by omega
      subst this
      rw [Blocks.skip]
      by_cases hdb : p / bi.length < maxDataRound bi 0
      · rw [if_pos (by simpa [stAt] using hdb)]
        rcases hv with h | ⟨b, hb, hlt⟩
        · omega
        · have hb' : (stAt bi p bl).block_info[(stAt bi p bl).block]? = some b := hb
          rw [hb']
          simp only
          have hnd : ¬ b.data_per = 0 := Nat.ne_of_gt (Nat.lt_of_le_of_lt (Nat.zero_le _) hlt)
          have hle : ¬ p / bi.length > b.data_per - 1 := Nat.not_lt.mpr (Nat.le_sub_one_of_lt hlt)
          rw [if_neg hnd]
          exact if_neg hle
      · rw [if_neg (by simpa [stAt] using hdb)]
  | succ d ih =>
    cases fuel with
    | zero => omega
    | succ fuel =>
      have hni := hinv p (by omega) (by omega)
      unfold validCell at hni
      simp only [not_or, not_exists, not_and, Nat.not_le, Nat.not_lt] at hni
      have hm : p % bi.length < bi.length := Nat.mod_lt _ hn
      rw [Blocks.skip, if_pos (by simpa [stAt] using hni.1)]
      have hb' : (stAt bi p bl).block_info[(stAt bi p bl).block]? = some bi[p % bi.length] :=
        List.getElem?_eq_getElem hm
      rw [hb']
      simp only
      have h1 := hd _ (List.getElem_mem hm)
      have h2 := hni.2 _ (List.getElem?_eq_getElem hm)
      have hgt : (stAt bi p bl).round > bi[p % bi.length].data_per - 1 := by
        show p / bi.length > _
        omega
      rw [if_neg (by omega), if_pos hgt, incCount_stAt bi hn]
      simp only
      exact ih (p + 1) (by omega) (fun i h1 h2 => hinv i (by omega) h2) fuel (by omega)

theorem not_valid_lt (p : Nat) (h : ¬ validCell bi p) (hn : 0 < bi.length) :
    p < bi.length * maxDataRound bi 0 := by
  unfold validCell at h
  simp only [not_or, Nat.not_le] at h
  rw [Nat.mul_comm]
  exact (Nat.div_lt_iff_lt_mul hn).mp h.1

/-- Pushing a byte writes it into the next valid cell. -/
theorem push_stAt (hn : 0 < bi.length) (hd : ∀ b ∈ bi, 1 ≤ b.data_per) (p0 p : Nat) (hp : p0 ≤ p)
    (hinv : ∀ i, p0 ≤ i → i < p → ¬ validCell bi i) (hv : validCell bi p)
    (bl : List (List U8)) (hbl : bl.length = bi.length) (b : U8) :
    (stAt bi p0 bl).push b =
      .ret (stAt bi (p + 1) (bl.modify (p % bi.length) (· ++ [b]))) := by
  unfold Blocks.push
  have hfuel : p - p0 < (stAt bi p0 bl).block_info.length * (stAt bi p0 bl).max_data_round + 1 := by
    show p - p0 < bi.length * maxDataRound bi 0 + 1
    by_cases h : p0 = p
    · omega
    · have := not_valid_lt bi (p - 1) (hinv (p - 1) (by omega) (by omega)) hn
      omega
  rw [skip_stAt bi hn hd p (p - p0) p0 (by omega) hinv hv _ hfuel]
  simp only
  have hm : p % bi.length < bi.length := Nat.mod_lt _ hn
  have hlt : (stAt bi p bl).block < (stAt bi p bl).blocks.length := by
    show p % bi.length < bl.length
    omega
  rw [if_pos hlt]
  exact incCount_stAt bi hn p _

/-- Writing the contents of the cells `ps`. -/
def writeCells (cell : Nat → Option U8) (ps : List Nat) (bl : List (List U8)) : List (List U8) :=
  ps.foldl (fun bl p => match cell p with
    | some b => bl.modify (p % bi.length) (· ++ [b])
    | none => bl) bl

theorem pushAll_cells (hn : 0 < bi.length) (hd : ∀ b ∈ bi, 1 ≤ b.data_per) (cell : Nat → Option U8)
    (k p p0 : Nat) (hp : p0 ≤ p)
    (hcell : ∀ i, p ≤ i → i < p + k → ((cell i).isSome ↔ validCell bi i))
    (hinv : ∀ i, p0 ≤ i → i < p → ¬ validCell bi i)
    (bl : List (List U8)) (hbl : bl.length = bi.length) :
    ∃ p1, pushAll ((List.range' p k).filterMap cell) (stAt bi p0 bl) =
      .ret (stAt bi p1 (writeCells bi cell (List.range' p k) bl)) := by
  induction k generalizing p p0 bl with
  | zero => exact ⟨p0, rfl⟩
  | succ k ih =>
    have hc := hcell p (by omega) (by omega)
    rw [List.range'_succ, List.filterMap_cons]
    cases hcp : cell p with
    | none =>
      rw [hcp] at hc
      have hnv : ¬ validCell bi p := by simpa using hc
      have := ih (p + 1) p0 (by omega) (fun i h1 h2 => hcell i (by omega) (by omega))
        (fun i h1 h2 => by
          by_cases h : i = p
          · subst h; exact hnv
          · exact hinv i h1 (by omega)) bl hbl
      simpa [writeCells, hcp] using this
    | some b =>
      rw [hcp] at hc
      have hv : validCell bi p := by simpa using hc
      simp only [pushAll]
      rw [push_stAt bi hn hd p0 p hp hinv hv bl hbl b]
      have := ih (p + 1) (p + 1) (by omega) (fun i h1 h2 => hcell i (by omega) (by omega))
        (fun i h1 h2 => by omega) (bl.modify (p % bi.length) (· ++ [b])) (by simpa using hbl)
      simpa [writeCells, hcp] using this

theorem writeCells_length (cell : Nat → Option U8) (ps : List Nat) (bl : List (List U8)) :
    (writeCells bi cell ps bl).length = bl.length := by
  induction ps generalizing bl with
  | nil => rfl
  | cons p ps ih =>
    have h2 : writeCells bi cell (p :: ps) bl = writeCells bi cell ps (match cell p with
      | some b => bl.modify (p % bi.length) (· ++ [b])
      | none => bl) := rfl
    rw [h2, ih]
    cases cell p <;> simp

theorem writeCells_get (cell : Nat → Option U8) (ps : List Nat) (bl : List (List U8)) (i : Nat) :
    (writeCells bi cell ps bl)[i]? =
      (bl[i]?).map (· ++ ps.filterMap fun p => if p % bi.length = i then cell p else none) := by
  induction ps generalizing bl with
  | nil => simp [writeCells]
  | cons p ps ih =>
    have h2 : writeCells bi cell (p :: ps) bl = writeCells bi cell ps (match cell p with
      | some b => bl.modify (p % bi.length) (· ++ [b])
      | none => bl) := rfl
    rw [h2, ih, List.filterMap_cons]
    by_cases h : p % bi.length = i
    · rw [if_pos h]
      cases cell p with
      | none => rfl
      | some b =>
        simp only [h, List.getElem?_modify_eq]
        cases bl[i]? <;> simp
    · rw [if_neg h]
      cases cell p with
      | none => rfl
      | some b =>
        simp only [List.getElem?_modify, if_neg h]
        cases bl[i]? <;> rfl

end

/-! ### the interleaved sequence as cells -/

theorem range_mul_filterMap {α : Type} (n R : Nat) (f : Nat → Option α) :
    (List.range (n * R)).filterMap f =
      (List.range R).flatMap fun r => (List.range n).filterMap fun b => f (n * r + b) := by
  induction R with
  | zero => simp
  | succ R ih =>
    rw [Nat.mul_succ, List.range_add, List.filterMap_append, ih, List.range_succ, List.flatMap_append,
      List.filterMap_map]
    simp [Function.comp_def]

theorem filterMap_single {α : Type} (n i : Nat) (hi : i < n) (c : Nat → Option α) :
    (List.range n).filterMap (fun b => if b = i then c b else none) = (c i).toList := by
  induction n with
  | zero => omega
  | succ n ih =>
    rw [List.range_succ, List.filterMap_append]
    by_cases h : i = n
    · subst h
      have : (List.range i).filterMap (fun b => if b = i then c b else none) = [] := by
        apply List.filterMap_eq_nil_iff.mpr
        intro b hb
        rw [if_neg]
        have := List.mem_range.mp hb
        omega
      rw [this]
      cases hc : c i <;> simp [hc]
    · rw [ih (by omega)]
      simp [List.filterMap_cons, if_neg (Ne.symm h)]

theorem block_cells {α : Type} (n R i : Nat) (hi : i < n) (f : Nat → Option α) :
    (List.range (n * R)).filterMap (fun p => if p % n = i then f p else none) =
      (List.range R).filterMap fun r => f (n * r + i) := by
  rw [range_mul_filterMap]
  have : ∀ r, (List.range n).filterMap (fun b => if (n * r + b) % n = i then f (n * r + b) else none) =
      (f (n * r + i)).toList := by
    intro r
    rw [← filterMap_single n i hi (fun b => f (n * r + b))]
    apply filterMap_congr'
    intro b hb
    have := List.mem_range.mp hb
    rw [Nat.mul_add_mod, Nat.mod_eq_of_lt this]
  simp only [this]
  induction List.range R with
  | nil => rfl
  | cons r l ih =>
    rw [List.flatMap_cons, ih, List.filterMap_cons]
    cases f (n * r + i) <;> rfl

theorem filterMap_range_get {α : Type} (d : List α) (m : Nat) (h : d.length ≤ m) :
    (List.range m).filterMap (fun r => d[r]?) = d := by
  induction d generalizing m with
  | nil => simp [List.filterMap_eq_nil_iff]
  | cons x d ih =>
    cases m with
    | zero => simp at h
    | succ m =>
      rw [List.range_succ_eq_map, List.filterMap_cons, List.filterMap_map]
      simp only [List.getElem?_cons_zero]
      congr 1
      have : ((fun r => (x :: d)[r]?) ∘ Nat.succ) = fun r => d[r]? := by
        funext r; simp
      rw [this]
      exact ih m (by simpa using h)

theorem filterMap_eq_range {α β : Type} (bs : List α) (h : α → Option β) :
    bs.filterMap h = (List.range bs.length).filterMap (fun i => (bs[i]?).bind h) := by
  conv => lhs; rw [← filterMap_range_get bs bs.length (Nat.le_refl _)]
  rw [List.filterMap_filterMap]

theorem le_foldr_max (l : List Nat) (x : Nat) (h : x ∈ l) : x ≤ l.foldr max 0 := by
  induction l with
  | nil => cases h
  | cons y l ih =>
    rcases List.mem_cons.mp h with rfl | h
    · simp only [List.foldr_cons]; omega
    · have := ih h; simp only [List.foldr_cons]; omega

theorem foldr_max_const (l : List Nat) (e : Nat) (hne : l ≠ []) (h : ∀ x ∈ l, x = e) :
    l.foldr max 0 = e := by
  induction l with
  | nil => exact absurd rfl hne
  | cons y l ih =>
    have hy := h y List.mem_cons_self
    by_cases hl : l = []
    · subst hl; simp [hy]
    · rw [List.foldr_cons, ih hl (fun x hx => h x (List.mem_cons_of_mem _ hx)), hy]
      exact Nat.max_self e

/-- De-interleaving inverts interleaving. -/
theorem pushAll_finalSequence (fam : List (List U8 × List U8)) (e : Nat) (bi : List BlockInfo)
    (hne : fam ≠ []) (hd : ∀ b ∈ fam, b.1 ≠ []) (he : ∀ b ∈ fam, b.2.length = e)
    (hbi : bi.map (·.data_per) = fam.map (·.1.length)) :
    ∃ s, pushAll (finalSequence fam) (Blocks.new bi) = .ret s ∧
      s.blocks = fam.map fun b => b.1 ++ b.2 := by
  have hlen : bi.length = fam.length := by simpa using congrArg List.length hbi
  have hn : 0 < bi.length := by
    rw [hlen]; exact List.length_pos_iff.mpr hne
  have hdp : ∀ i, (hi : i < bi.length) → bi[i].data_per = (fam[i]'(hlen ▸ hi)).1.length := by
    intro i hi
    have := congrArg (fun l => l[i]?) hbi
    simp only [List.getElem?_map, List.getElem?_eq_getElem hi,
      List.getElem?_eq_getElem (show i < fam.length from hlen ▸ hi), Option.map_some] at this
    simpa using this
  have hd1 : ∀ b ∈ bi, 1 ≤ b.data_per := by
    intro b hb
    obtain ⟨i, hi, rfl⟩ := List.getElem_of_mem hb
    rw [hdp i hi]
    exact List.length_pos_iff.mpr (hd _ (List.getElem_mem _))
  -- the number of data rounds
  have hM : maxDataRound bi 0 = ((fam.map (·.1)).map List.length).foldr max 0 := by
    rw [maxDataRound_eq, Nat.zero_max, hbi, List.map_map]; rfl
  have hE : ((fam.map (·.2)).map List.length).foldr max 0 = e := by
    apply foldr_max_const
    · simpa using hne
    · intro x hx
      simp only [List.map_map, List.mem_map, Function.comp] at hx
      obtain ⟨b, hb, rfl⟩ := hx
      exact he b hb
  generalize hMd : maxDataRound bi 0 = M at *
  let n := bi.length
  -- the content of the cells
  let cell : Nat → Option U8 := fun p =>
    if p / n < M then (fam[p % n]?).bind fun b => b.1[p / n]?
    else (fam[p % n]?).bind fun b => b.2[p / n - M]?
  have hcellrb : ∀ r b, b < n → cell (n * r + b) =
      if r < M then (fam[b]?).bind fun x => x.1[r]? else (fam[b]?).bind fun x => x.2[r - M]? := by
    intro r b hb
    have h1 : (n * r + b) / n = r := by
      rw [Nat.mul_add_div hn, Nat.div_eq_of_lt hb, Nat.add_zero]
    have h2 : (n * r + b) % n = b := by
      rw [Nat.mul_add_mod, Nat.mod_eq_of_lt hb]
    simp only [cell, h1, h2]
  have hvalid : ∀ p, 0 ≤ p → p < 0 + n * (M + e) → ((cell p).isSome ↔ validCell bi p) := by
    intro p _ hp
    rw [Nat.zero_add] at hp
    have hm : p % n < n := Nat.mod_lt _ hn
    have hmf : p % n < fam.length := hlen ▸ hm
    have hr : p / n < M + e := by
      rw [Nat.div_lt_iff_lt_mul hn, Nat.mul_comm]; exact hp
    have hg : fam[p % n]? = some fam[p % n] := List.getElem?_eq_getElem hmf
    have hgb : bi[p % bi.length]? = some bi[p % n] := List.getElem?_eq_getElem hm
    unfold validCell
    rw [hMd]
    simp only [cell, hg, Option.bind_some]
    by_cases h : p / n < M
    · rw [if_pos h]
      constructor
      · intro hs
        right
        refine ⟨_, hgb, ?_⟩
        rw [hdp _ hm]
        simpa using hs
      · rintro (h' | ⟨b, hb, hlt⟩)
        · exact absurd h (Nat.not_lt.mpr h')
        · rw [hgb] at hb
          cases hb
          rw [hdp _ hm] at hlt
          simpa using hlt
    · rw [if_neg h]
      constructor
      · intro _; left; exact Nat.not_lt.mp h
      · intro _
        have := he _ (List.getElem_mem hmf)
        have hlt : p / n - M < fam[p % n].2.length := by omega
        simp [hlt]
  -- the interleaved sequence is the content of the cells in order
  have hseq : finalSequence fam = (List.range' 0 (n * (M + e))).filterMap cell := by
    rw [← List.range_eq_range', range_mul_filterMap, List.range_add, List.flatMap_append]
    unfold finalSequence interleave
    rw [← hM, hE]
    congr 1
    · unfold List.flatMap
      congr 1
      apply List.map_congr_left
      intro r hr
      have hr' := List.mem_range.mp hr
      unfold column
      rw [filterMap_eq_range, List.length_map, ← hlen]
      apply filterMap_congr'
      intro b hb
      rw [hcellrb r b (List.mem_range.mp hb), if_pos hr', List.getElem?_map]
      cases fam[b]? <;> rfl
    · unfold List.flatMap
      rw [List.map_map]
      congr 1
      apply List.map_congr_left
      intro r hr
      unfold column
      rw [filterMap_eq_range, List.length_map, ← hlen]
      simp only [Function.comp]
      apply filterMap_congr'
      intro b hb
      rw [hcellrb _ b (List.mem_range.mp hb), if_neg (by omega), List.getElem?_map]
      have : M + r - M = r := by omega
      rw [this]
      cases fam[b]? <;> rfl
  have hinit : Blocks.new bi = stAt bi 0 (bi.map fun _ => []) := by
    unfold Blocks.new stAt
    have h0 : 0 < maxDataRound bi 0 := by
      have := (maxDataRound_ge bi 0).2 bi[0] (List.getElem_mem _)
      have := hd1 bi[0] (List.getElem_mem _)
      omega
    simp [h0]
  obtain ⟨p1, hp1⟩ := pushAll_cells bi hn hd1 cell (n * (M + e)) 0 0 (Nat.le_refl _) hvalid
    (fun i h1 h2 => by omega) (bi.map fun _ => []) (by simp)
  refine ⟨_, by rw [hseq, hinit, hp1], ?_⟩
  apply List.ext_getElem?
  intro i
  show (writeCells bi cell (List.range' 0 (n * (M + e))) (bi.map fun _ => []))[i]? = _
  rw [writeCells_get, List.getElem?_map, List.getElem?_map]
  by_cases hi : i < bi.length
  · have hif : i < fam.length := hlen ▸ hi
    rw [List.getElem?_eq_getElem hi, List.getElem?_eq_getElem hif]
    simp only [Option.map_some, List.nil_append, Option.some.injEq]
    rw [← List.range_eq_range', block_cells n (M + e) i hi, List.range_add, List.filterMap_append]
    congr 1
    · rw [← filterMap_range_get fam[i].1 M]
      · apply filterMap_congr'
        intro r hr
        rw [hcellrb r i hi, if_pos (List.mem_range.mp hr), List.getElem?_eq_getElem hif]
        rfl
      · rw [hM]
        apply le_foldr_max
        simp only [List.map_map, List.mem_map, Function.comp]
        exact ⟨_, List.getElem_mem hif, rfl⟩
    · rw [List.filterMap_map]
      conv => rhs; rw [← filterMap_range_get fam[i].2 e (by rw [he _ (List.getElem_mem hif)]; exact Nat.le_refl _)]
      apply filterMap_congr'
      intro r _
      simp only [Function.comp]
      rw [hcellrb _ i hi, if_neg (by omega), List.getElem?_eq_getElem hif]
      have : M + r - M = r := by omega
      rw [this]
      rfl
  · rw [List.getElem?_eq_none (by omega), List.getElem?_eq_none (by omega)]
    rfl

end Verif
