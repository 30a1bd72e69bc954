import Verif.Props.TurnedPicture
import Verif.Props.Format

/-!
# C70: mirrored symbols
-/
namespace Verif.Props
open Verif Verif.Spec LineScan

variable {σ IMG : Type}

/-! ### The grid with rows and columns exchanged -/

theorem transposed_get {q : QRData} (hq : q.data.length = q.side * q.side) {i j : Nat} (hi : i < q.side) (hj : j < q.side) :
    (transposed q).data[i * q.side + j]? = q.data[j * q.side + i]? := by
  have lt : ∀ a b, a < q.side → b < q.side → a * q.side + b < q.side * q.side := by
    intro a b ha hb
    have : (a + 1) * q.side ≤ q.side * q.side := Nat.mul_le_mul_right _ ha
    rw [Nat.succ_mul] at this
    omega
  simp only [transposed, turned]
  rw [List.getElem?_map, List.getElem?_range (lt i j hi hj)]
  simp only [Option.map_some, if_true, flipIndex, Bool.false_eq_true, if_false]
  rw [Nat.mul_comm i, Nat.mul_add_mod, Nat.mod_eq_of_lt hj, Nat.mul_add_div (by omega), Nat.div_eq_of_lt hj, Nat.add_zero,
    BlockedMean.getD_eq (by rw [hq]; exact lt j i hj hi), List.getElem?_eq_getElem]

theorem transposed_wellFormed {q : QRData} {v : Nat} (hq : WellFormed q v) : WellFormed (transposed q) v := by
  refine ⟨hq.1, hq.2.1, ?_⟩
  simp only [transposed, turned, List.length_map, List.length_range]
  rw [hq.2.1]

/-- Exchanging rows and columns twice changes nothing. -/
theorem transposed_transposed {q : QRData} (hq : q.data.length = q.side * q.side) : transposed (transposed q) = q := by
  have hlen : (transposed (transposed q)).data.length = q.side * q.side := by
    simp only [transposed, turned, List.length_map, List.length_range]
  have h : (transposed (transposed q)).data = q.data := by
    apply List.ext_getElem?
    intro n
    by_cases hn : n < q.side * q.side
    · have hs : 0 < q.side := by
        rcases Nat.eq_zero_or_pos q.side with h | h
        · rw [h] at hn; omega
        · exact h
      have hi : n / q.side < q.side := Nat.div_lt_of_lt_mul hn
      have hj : n % q.side < q.side := Nat.mod_lt _ hs
      have e : n = n / q.side * q.side + n % q.side := by rw [Nat.mul_comm]; exact (Nat.div_add_mod _ _).symm
      rw [e]
      exact (transposed_get (q := transposed q) (by simp only [transposed, turned, List.length_map, List.length_range]) hi
        hj).trans (transposed_get hq hj hi)
    · rw [List.getElem?_eq_none (by omega), List.getElem?_eq_none (by omega)]
  calc transposed (transposed q) = { transposed (transposed q) with data := (transposed (transposed q)).data } := rfl
    _ = { q with data := (transposed (transposed q)).data } := rfl
    _ = q := by rw [h]

theorem transposed_finders {q : QRData} {v : Nat} (hq : WellFormed q v) (hf : HasFinders q) : HasFinders (transposed q) := by
  have hs : q.side = 4 * v + 17 := hq.2.1
  have hlen : q.data.length = q.side * q.side := by rw [hq.2.2, hq.2.1]
  have hside : (transposed q).side = q.side := rfl
  have hsym : ∀ i < 8, ∀ j < 8, finderModule i j = finderModule j i := by decide
  intro i hi j hj p hp
  rw [hside] at hp
  have f := hf j hj i hi
  simp only [List.mem_cons, List.not_mem_nil, or_false, forall_eq_or_imp, forall_eq] at f hp
  rw [hsym j hj i hi]
  rcases hp with rfl | rfl | rfl
  · rw [transposed_get hlen (by omega) (by omega)]; exact f.1
  · rw [transposed_get hlen (by omega) (by omega)]; exact f.2.2
  · rw [transposed_get hlen (by omega) (by omega)]; exact f.2.1

theorem transposed_alignment {q : QRData} {v : Nat} (hq : WellFormed q v) (ha : HasAlignment q) :
    HasAlignment (transposed q) := by
  have hs : q.side = 4 * v + 17 := hq.2.1
  have hlen : q.data.length = q.side * q.side := by rw [hq.2.2, hq.2.1]
  have hside : (transposed q).side = q.side := rfl
  intro di hdi dj hdj
  rw [hside, transposed_get hlen (by omega) (by omega), ha dj hdj di hdi]
  congr 1
  apply if_congr _ rfl rfl
  constructor
  · rintro ⟨h1, h2, h3⟩; exact ⟨h2, h1, fun h => h3 ⟨h.2, h.1⟩⟩
  · rintro ⟨h1, h2, h3⟩; exact ⟨h2, h1, fun h => h3 ⟨h.2, h.1⟩⟩

theorem transposed_drawnAs {img : GrayImage} {q : QRData} (hq : q.data.length = q.side * q.side) {ρ : Orientation} {m ox oy : Nat}
    (h : DrawnAs img q ρ m ox oy) : DrawnAs img (transposed q) ρ.exchanged m ox oy := by
  obtain ⟨h1, h2, h3⟩ := h
  have hside : (transposed q).side = q.side := rfl
  refine ⟨h1, h2, ?_⟩
  rw [hside]
  intro i hi j hj a ha b hb
  have e1 : ρ.exchanged.row q.side i j = ρ.row q.side j i := by
    unfold Orientation.row Orientation.exchanged
    cases ρ.swap <;> simp
  have e2 : ρ.exchanged.column q.side i j = ρ.column q.side j i := by
    unfold Orientation.column Orientation.exchanged
    cases ρ.swap <;> simp
  rw [e1, e2, h3 j hj i hi a ha b hb, transposed_get hq hi hj]

theorem exchanged_mirrored {ρ : Orientation} (h : ρ.Mirrored) : ¬ ρ.exchanged.Mirrored := by
  obtain ⟨fx, fy, sw⟩ := ρ
  unfold Orientation.Mirrored at *
  unfold Orientation.exchanged
  cases fx <;> cases fy <;> cases sw <;> simp at h ⊢

theorem exchanged_finders (ρ : Orientation) (v m ox oy : Nat) :
    turnedFinders ρ.exchanged v m ox oy = turnedFinders ρ v m ox oy := rfl

/-! ### Reading -/

/-- **C70.** A grid shown in a mirrored position is found, extracted and decoded like any other, except that its rows
and columns are exchanged: the only result is that of decoding the transposed grid. -/
theorem default_decoder_decodes_mirrored (grayscale : IMG → GrayImage) (source : IMG) (hg : (grayscale source).Valid)
    (img : GrayImage) (himg : img = thresholded 5 7 (grayscale source)) (hpx : img.width * img.height ≤ 2 ^ 36)
    (hw : img.width ≤ 2 ^ 20) (hh : img.height ≤ 2 ^ 20) (q : QRData) (v : Nat) (h1 : 1 ≤ v) (h40 : v ≤ 40)
    (hq : WellFormed q v) (hf : HasFinders q) (hal : 2 ≤ v → HasAlignment q) (ρ : Orientation) (hρ : ρ.Mirrored)
    (m ox oy : Nat) (hm : 2 ≤ m) (hd : DrawnAs img q ρ m ox oy) (hz : QuietZone img q.side m ox oy)
    (hs : ∀ y < img.height, SteadyRow img img.width y) (hn : NoOtherFinders img m (turnedFinders ρ v m ox oy)) :
    (∃ d : Decoder σ IMG GrayImage QRLocation QRData (List Char), defaultDecoder grayscale = .ret d ∧
      ∀ r, Gives (qrDecode (.ok (transposed q))) r → ∀ s, d.decode source s = .ret ([r], s)) ∧
    ∃ d : Decoder σ IMG GrayImage QRLocation QRData (List Char × QRInfo), defaultDecoderWithInfo grayscale = .ret d ∧
      ∀ r, Gives (qrDecodeWithInfo (.ok (transposed q))) r → ∀ s, d.decode source s = .ret ([r], s) :=
  default_decoder_decodes_turned grayscale source hg img himg hpx hw hh (transposed q) v h1 h40 (transposed_wellFormed hq)
    (transposed_finders hq hf) (fun h2 => transposed_alignment hq (hal h2)) ρ.exchanged (exchanged_mirrored hρ) m ox oy hm
    (transposed_drawnAs (by rw [hq.2.2, hq.2.1]) hd) hz hs hn

/-- C70 at every size, as C67. -/
theorem default_decoder_decodes_enlarged_mirrored (grayscale : IMG → GrayImage) (source : IMG)
    (hsrc : (grayscale source).Valid)
    (g : GrayImage) (hg : g.Valid) (m : Nat) (hm : Legible g m) (hc : CrispEnlargement (grayscale source) g m)
    (hpx : g.width * m * (g.height * m) ≤ 2 ^ 36) (hw : g.width * m ≤ 2 ^ 20)
    (hh : g.height * m ≤ 2 ^ 20) (q : QRData) (v : Nat) (h1 : 1 ≤ v) (h40 : v ≤ 40) (hq : WellFormed q v) (hf : HasFinders q)
    (hal : 2 ≤ v → HasAlignment q) (ρ : Orientation) (hρ : ρ.Mirrored) (ox oy : Nat) (hd : DrawnAs g q ρ 1 ox oy)
    (hz : QuietZone g q.side 1 ox oy)
    (hs : ∀ y < g.height, SteadyRow g g.width y) (hn : NeverOthers g (turnedFinders ρ v 1 ox oy)) :
    (∃ d : Decoder σ IMG GrayImage QRLocation QRData (List Char), defaultDecoder grayscale = .ret d ∧
      ∀ r, Gives (qrDecode (.ok (transposed q))) r → ∀ s, d.decode source s = .ret ([r], s)) ∧
    ∃ d : Decoder σ IMG GrayImage QRLocation QRData (List Char × QRInfo), defaultDecoderWithInfo grayscale = .ret d ∧
      ∀ r, Gives (qrDecodeWithInfo (.ok (transposed q))) r → ∀ s, d.decode source s = .ret ([r], s) :=
  default_decoder_decodes_enlarged_turned grayscale source hsrc g hg m hm hc hpx hw hh (transposed q) v h1 h40
    (transposed_wellFormed hq) (transposed_finders hq hf) (fun h2 => transposed_alignment hq (hal h2)) ρ.exchanged
    (exchanged_mirrored hρ) ox oy (transposed_drawnAs (by rw [hq.2.2, hq.2.1]) hd) hz hs hn

/-! ### The format information -/

theorem transposed_moduleAt {q : QRData} {v : Nat} (hq : WellFormed q v) {x y : Nat} (hx : x < sideOf v) (hy : y < sideOf v) :
    moduleAt (transposed q) x y = moduleAt q y x := by
  have hside : (transposed q).side = q.side := rfl
  unfold moduleAt
  rw [hside, transposed_get (by rw [hq.2.2, hq.2.1]) (by rw [hq.2.1]; exact hy) (by rw [hq.2.1]; exact hx)]

/-- The first copy, mirrored, shows the bits in reverse order. -/
theorem transposed_copy1 {q : QRData} {v : Nat} (hq : WellFormed q v) {w : List Bool} (h : Shows q formatCopy1 w) :
    Shows (transposed q) formatCopy1 w.reverse := by
  have hv : sideOf v = 4 * v + 17 := rfl
  unfold Shows at *
  rw [List.map_reverse, ← h, ← List.map_reverse]
  have e : formatCopy1.reverse = formatCopy1.map fun p => (p.2, p.1) := by decide
  rw [e, List.map_map]
  apply List.map_congr_left
  have hb : ∀ p ∈ formatCopy1, p.1 < 9 ∧ p.2 < 9 := by decide
  intro p hp
  have := hb p hp
  exact transposed_moduleAt hq (by omega) (by omega)

/-- The second copy, mirrored, shows the bits in reverse order as well, but with the dark module in the middle. -/
theorem transposed_copy2 {q : QRData} {v : Nat} (hq : WellFormed q v) {w : List Bool}
    (h : Shows q (formatCopy2 (sideOf v)) w) (hdark : moduleAt q 8 (sideOf v - 8) = some true) :
    Shows (transposed q) (formatCopy2 (sideOf v)) (w.reverse.set 7 true) := by
  have hv : sideOf v = 4 * v + 17 := rfl
  have e : (formatCopy2 (sideOf v)).map (fun p => moduleAt (transposed q) p.1 p.2) =
      (formatCopy2 (sideOf v)).map fun p => moduleAt q p.2 p.1 := by
    apply List.map_congr_left
    intro p hp
    have hb : p.1 < sideOf v ∧ p.2 < sideOf v := by
      simp only [formatCopy2, List.mem_cons, List.not_mem_nil, or_false] at hp
      rcases hp with rfl | rfl | rfl | rfl | rfl | rfl | rfl | rfl | rfl | rfl | rfl | rfl | rfl | rfl | rfl <;>
        constructor <;> simp only <;> omega
    exact transposed_moduleAt hq hb.1 hb.2
  unfold Shows at *
  rw [e, List.map_set, List.map_reverse, ← h]
  simp only [formatCopy2, List.map_cons, List.map_nil, List.reverse_cons, List.reverse_nil, List.nil_append,
    List.cons_append, List.set_cons_succ, List.set_cons_zero, hdark]

/-- The level and mask given by the first five bits. -/
def levelAndMask : List Bool → Option (ECLevel × Nat)
  | f0 :: f1 :: f2 :: f3 :: f4 :: _ =>
    (errorCorrection (2 * bitVal f0 + bitVal f1)).map fun l => (l, 4 * bitVal f2 + 2 * bitVal f3 + bitVal f4)
  | _ => none

theorem readsAs_of_bits {q : QRData} {r : List Bool} {l : ECLevel} {k : Nat} (h : format q = finishFormat (.ok r))
    (hr : levelAndMask r = some (l, k)) : ReadsAs q l k := by
  match r, hr with
  | f0 :: f1 :: f2 :: f3 :: f4 :: rest, hr =>
    simp only [levelAndMask, Option.map_eq_some_iff, Prod.mk.injEq] at hr
    obtain ⟨l', hl, rfl, rfl⟩ := hr
    obtain ⟨m, hm⟩ := mask_some f2 f3 f4
    have hk : 4 * bitVal f2 + 2 * bitVal f3 + bitVal f4 < 8 := by cases f2 <;> cases f3 <;> cases f4 <;> decide
    refine ⟨m, ?_, ?_⟩
    · rw [h]; simp only [finishFormat, hl, hm]
    · intro q' x y hx hy
      exact mask_reads _ hk m hm q' x y hx hy

/-- The bits that are used if the copies show these words. -/
def usedBits (w1 w2 : List Bool) : Outcome (List Bool) :=
  match formatCorrect (w1.zipWith xor MASK) with
  | .err _ => formatCorrect (w2.zipWith xor MASK)
  | r => r

/-- The bits are read as expected. -/
def readAs (o : Outcome (List Bool)) (e : Option (ECLevel × Nat)) : Bool :=
  match o with
  | .ok r => decide (levelAndMask r = e) && e.isSome
  | .err error => decide (error = ⟨"Format information corrupted"⟩) && decide (e = none)
  | .panic => false

/-- How the 32 words are read when mirrored. -/
theorem mirrored_table (l : ECLevel) : ∀ k < 8,
    readAs (usedBits (formatWord l k).reverse ((formatWord l k).reverse.set 7 true)) (mirroredFormat l k) = true := by
  cases l <;> decide +kernel

/-- **C70 (format).** The format information of a mirrored symbol is read, but never as what it says: it is
taken for another level or another mask, or refused. -/
theorem mirrored_format (q : QRData) (v : Nat) (hq : WellFormed q v) (l : ECLevel) (k : Nat) (hk : k < 8)
    (h1 : Shows q formatCopy1 (formatWord l k)) (h2 : Shows q (formatCopy2 (sideOf v)) (formatWord l k))
    (hdark : moduleAt q 8 (sideOf v - 8) = some true) :
    match mirroredFormat l k with
    | some (l', k') => ReadsAs (transposed q) l' k'
    | none => format (transposed q) = .err ⟨"Format information corrupted"⟩ := by
  have hside : (transposed q).side = sideOf v := hq.2.1
  have hv : sideOf v = 4 * v + 17 := rfl
  have hf := format_shows (transposed q) (by rw [hside]; omega) _ _ (transposed_copy1 hq h1)
    (by rw [hside]; exact transposed_copy2 hq h2 hdark)
  have ht := mirrored_table l k hk
  change format (transposed q) = finishFormat (usedBits _ _) at hf
  revert ht hf
  generalize usedBits (formatWord l k).reverse ((formatWord l k).reverse.set 7 true) = o
  intro ht hf
  match o with
  | .ok r =>
    simp only [readAs, Bool.and_eq_true, decide_eq_true_eq] at ht
    obtain ⟨t1, t2⟩ := ht
    match hm : mirroredFormat l k with
    | some (l', k') => exact readsAs_of_bits hf (by rw [t1, hm])
    | none => rw [hm] at t2; cases t2
  | .err e =>
    simp only [readAs, Bool.and_eq_true, decide_eq_true_eq] at ht
    obtain ⟨rfl, t2⟩ := ht
    rw [t2]
    exact hf
  | .panic => simp [readAs] at ht

theorem mirroredFormat_other : ∀ l, ∀ k < 8, mirroredFormat l k ≠ some (l, k) := by
  intro l
  cases l <;> decide

theorem mirroredFormat_lt : ∀ l, ∀ k < 8, ∀ p, mirroredFormat l k = some p → p.2 < 8 := by
  intro l k hk p hp
  have : ∀ k < 8, ∀ q ∈ mirroredFormat l k, q.2 < 8 := by cases l <;> decide
  exact this k hk p hp

/-- A format is read in one way only. -/
theorem readsAs_unique {q : QRData} {l l' : ECLevel} {k k' : Nat} (hk : k < 8) (hk' : k' < 8) (h : ReadsAs q l k)
    (h' : ReadsAs q l' k') : l = l' ∧ k = k' := by
  obtain ⟨m, e, hm⟩ := h
  obtain ⟨m', e', hm'⟩ := h'
  rw [e] at e'
  simp only [Outcome.ok.injEq, Prod.mk.injEq] at e'
  obtain ⟨rfl, rfl⟩ := e'
  refine ⟨rfl, ?_⟩
  have hdec : ∀ k < 8, ∀ k' < 8, (∀ x < 6, ∀ y < 6, isoMask k y x = isoMask k' y x) → k = k' := by decide +kernel
  refine hdec k hk k' hk' ?_
  intro x hx y hy
  have hmod : ∀ x < 6, ∀ y < 6, moduleAt ⟨List.replicate 36 0, 1, 6⟩ x y = some true := by decide +kernel
  have a := hm ⟨List.replicate 36 0, 1, 6⟩ x y (by omega) (by omega)
  have b := hm' ⟨List.replicate 36 0, 1, 6⟩ x y (by omega) (by omega)
  rw [a, hmod x hx y hy] at b
  simpa using b

/-- C70 (format), in short. -/
theorem mirrored_format_is_misread (q : QRData) (v : Nat) (hq : WellFormed q v) (l : ECLevel) (k : Nat) (hk : k < 8)
    (h1 : Shows q formatCopy1 (formatWord l k)) (h2 : Shows q (formatCopy2 (sideOf v)) (formatWord l k))
    (hdark : moduleAt q 8 (sideOf v - 8) = some true) : ReadsAs q l k ∧ ¬ ReadsAs (transposed q) l k := by
  refine ⟨clean_format_first_copy q l k hk h1, ?_⟩
  intro h
  have := mirrored_format q v hq l k hk h1 h2 hdark
  match hm : mirroredFormat l k with
  | some (l', k') =>
    rw [hm] at this
    obtain ⟨rfl, rfl⟩ := readsAs_unique hk (mirroredFormat_lt l k hk _ hm) h this
    exact mirroredFormat_other _ _ hk hm
  | none =>
    rw [hm] at this
    obtain ⟨m, e, -⟩ := h
    rw [this] at e
    cases e

/-- **C70 (refused).** The mirrored picture of a symbol with one of the seven formats that are refused gives an error
and nothing else, although the symbol is flawless. -/
theorem default_decoder_refuses_mirrored (grayscale : IMG → GrayImage) (source : IMG) (hg : (grayscale source).Valid)
    (img : GrayImage) (himg : img = thresholded 5 7 (grayscale source)) (hpx : img.width * img.height ≤ 2 ^ 36)
    (hw : img.width ≤ 2 ^ 20) (hh : img.height ≤ 2 ^ 20) (q : QRData) (v : Nat) (h1 : 1 ≤ v) (h40 : v ≤ 40)
    (l : ECLevel) (k : Nat) (hk : k < 8) (segments : List Segment) (hq : IsSymbol q v l k segments)
    (hdark : moduleAt q 8 (sideOf v - 8) = some true) (hlk : mirroredFormat l k = none)
    (hf : HasFinders q) (hal : 2 ≤ v → HasAlignment q) (ρ : Orientation) (hρ : ρ.Mirrored)
    (m ox oy : Nat) (hm : 2 ≤ m) (hd : DrawnAs img q ρ m ox oy) (hz : QuietZone img q.side m ox oy)
    (hs : ∀ y < img.height, SteadyRow img img.width y) (hn : NoOtherFinders img m (turnedFinders ρ v m ox oy)) :
    ∃ d : Decoder σ IMG GrayImage QRLocation QRData (List Char), defaultDecoder grayscale = .ret d ∧
      ∀ s, d.decode source s = .ret ([.error ⟨"Format information corrupted"⟩], s) := by
  have hfmt := mirrored_format q v hq.1 l k hk hq.2.1 hq.2.2.1 hdark
  rw [hlk] at hfmt
  simp only at hfmt
  obtain ⟨⟨d, e, h⟩, -⟩ := default_decoder_decodes_mirrored (σ := σ) grayscale source hg img himg hpx hw hh q v h1 h40
    hq.1 hf hal ρ hρ m ox oy hm hd hz hs hn
  refine ⟨d, e, h _ (Or.inr ⟨_, ?_, rfl⟩)⟩
  unfold qrDecode
  simp only
  rw [hfmt]
  rfl

end Verif.Props
