import Verif.Props.Turned

/-!
# C69 for pictures of encoded texts
-/
namespace Verif.Props
open Verif Verif.Spec LineScan

variable {σ IMG : Type}

theorem flipIndex_flipIndex {f : Bool} {side k : Nat} (h : k < side) : flipIndex f side (flipIndex f side k) = k := by
  unfold flipIndex
  cases f
  · rfl
  · simp only [if_true]
    omega

/-- An image that shows the turned grid shows the grid in that turn. -/
theorem drawn_turned {img : GrayImage} {q : QRData} (hq : q.data.length = q.side * q.side) {ρ : Orientation} {m ox oy : Nat}
    (h : Drawn img (turned ρ q) m ox oy) : DrawnAs img q ρ m ox oy := by
  obtain ⟨h1, h2, h3⟩ := h
  have hside : (turned ρ q).side = q.side := rfl
  rw [hside] at h1 h2 h3
  refine ⟨h1, h2, ?_⟩
  intro i hi j hj a ha b hb
  have hr := Extractor.row_lt (ρ := ρ) hi hj
  have hc := Extractor.column_lt (ρ := ρ) hi hj
  rw [h3 _ hr _ hc a ha b hb]
  have hlt : ρ.row q.side i j * q.side + ρ.column q.side i j < q.side * q.side := by
    have : (ρ.row q.side i j + 1) * q.side ≤ q.side * q.side := Nat.mul_le_mul_right _ hr
    rw [Nat.succ_mul] at this
    omega
  have hlt' : i * q.side + j < q.data.length := by
    rw [hq]
    have : (i + 1) * q.side ≤ q.side * q.side := Nat.mul_le_mul_right _ hi
    rw [Nat.succ_mul] at this
    omega
  simp only [turned]
  rw [List.getElem?_map, List.getElem?_range hlt]
  simp only [Option.map_some]
  rw [Nat.mul_comm (ρ.row q.side i j), Nat.mul_add_mod, Nat.mod_eq_of_lt hc, Nat.mul_add_div (by omega),
    Nat.div_eq_of_lt hc, Nat.add_zero]
  have e : (if ρ.swap then flipIndex ρ.flipX q.side (ρ.column q.side i j) * q.side + flipIndex ρ.flipY q.side (ρ.row q.side i j)
      else flipIndex ρ.flipY q.side (ρ.row q.side i j) * q.side + flipIndex ρ.flipX q.side (ρ.column q.side i j)) =
      i * q.side + j := by
    unfold Orientation.row Orientation.column
    cases ρ.swap
    · simp only [Bool.false_eq_true, if_false]
      rw [flipIndex_flipIndex hi, flipIndex_flipIndex hj]
    · simp only [if_true]
      rw [flipIndex_flipIndex hi, flipIndex_flipIndex hj]
  rw [e, BlockedMean.getD_eq hlt', List.getElem?_eq_getElem hlt']

/-- The picture of an encoded text is read in any of the four turns from an image that is, after thresholding, an
enlargement of it. -/
theorem shown_picture_reads (v : Nat) (h1 : 1 ≤ v) (h40 : v ≤ 40) (l : ECLevel) (k : Nat) (hk : k < 8)
    (segments : List Segment) (hfit : ∀ s ∈ segments, s.fits v) (text : List Char) (htext : SegmentsText segments text)
    (hcap : (segments.flatMap (·.bits v)).length ≤ 8 * dataCapacity v l) (b : Nat) (hb : 1 ≤ b) (t : Nat)
    (g : GrayImage) (hg : g = picture (turned (.quarterTurns t) (encode v l k segments (functionPatterns v))) 1 b)
    (hs : ∀ y < g.height, SteadyRow g g.width y) (hn : NeverOthers g (turnedFinders (.quarterTurns t) v 1 b b))
    (m : Nat) (hm : 2 ≤ m) (hsize : (sideOf v + 2 * b) * m ≤ 2 ^ 18) (grayscale : IMG → GrayImage) (source : IMG)
    (hsrc : (grayscale source).Valid) (he : Enlarged (thresholded 5 7 (grayscale source)) g m)
    (hv : (thresholded 5 7 (grayscale source)).Valid) :
    (∃ d : Decoder σ IMG GrayImage QRLocation QRData (List Char), defaultDecoder grayscale = .ret d ∧
      ∀ s, d.decode source s = .ret ([.ok text], s)) ∧
    ∃ info, info.version = v ∧ info.ecLevel = l ∧ info.errors = 0 ∧
      ∃ d : Decoder σ IMG GrayImage QRLocation QRData (List Char × QRInfo), defaultDecoderWithInfo grayscale = .ret d ∧
        ∀ s, d.decode source s = .ret ([.ok (text, info)], s) := by
  have hside : (turned (.quarterTurns t) (encode v l k segments (functionPatterns v))).side = sideOf v := rfl
  have hside' : (encode v l k segments (functionPatterns v)).side = sideOf v := rfl
  have hW : g.width = sideOf v + 2 * b := by rw [hg]; simp only [picture, hside, Nat.mul_one]
  have hH : g.height = sideOf v + 2 * b := by rw [hg]; simp only [picture, hside, Nat.mul_one]
  have hlt : sideOf v + 2 * b ≤ (sideOf v + 2 * b) * m := Nat.le_mul_of_pos_right _ (by omega)
  have hq := encode_isSymbol v h1 h40 l k segments hcap (functionPatterns v)
  have hgv : g.Valid := by rw [hg]; exact picture_valid (by rw [hside]; omega)
  obtain ⟨t1, info, t2, i1, i2, i3⟩ := symbol_decodes _ v h1 h40 l k hk segments hfit text htext hq
  obtain ⟨⟨d, e, h⟩, d', e', h'⟩ := default_decoder_decodes_shown_turned (σ := σ) grayscale source hsrc g hgv m hm he hv
    (by
      rw [hW, hH]
      calc _ ≤ 2 ^ 18 * 2 ^ 18 := Nat.mul_le_mul hsize hsize
        _ = _ := by norm_num) (by rw [hW]; omega) (by rw [hH]; omega) _ v h1 h40 hq.1 (encode_finders _ _ _ _)
    (fun h2 => encode_alignment h2 h40 l k segments (functionPatterns_alignment v h2 h40)) _
    ((not_mirrored_iff _).mpr ⟨t, rfl⟩) b b
    (drawn_turned (by rw [hq.1.2.2, hq.1.2.1]) (by
      rw [hg]
      exact picture_drawn (by simp only [turned, List.length_map, List.length_range]) (by omega)))
    (by rw [hg, hside', ← hside]; exact picture_quiet (by omega)) hs hn
  exact ⟨⟨d, e, h _ (Or.inl ⟨text, t1, rfl⟩)⟩, info, i1, i2, i3, d', e', h' _ (Or.inl ⟨(text, info), t2, rfl⟩)⟩

/-- C69 for the picture of an encoded text, in any of the four turns and at any size, as C67. -/
theorem turned_picture_reads_at_every_size (v : Nat) (h1 : 1 ≤ v) (h40 : v ≤ 40) (l : ECLevel) (k : Nat) (hk : k < 8)
    (segments : List Segment) (hfit : ∀ s ∈ segments, s.fits v) (text : List Char) (htext : SegmentsText segments text)
    (hcap : (segments.flatMap (·.bits v)).length ≤ 8 * dataCapacity v l) (b : Nat) (hb : 1 ≤ b) (t : Nat)
    (g : GrayImage) (hg : g = picture (turned (.quarterTurns t) (encode v l k segments (functionPatterns v))) 1 b)
    (hs : ∀ y < g.height, SteadyRow g g.width y) (hn : NeverOthers g (turnedFinders (.quarterTurns t) v 1 b b))
    (m : Nat) (hm : Legible g m) (hsize : (sideOf v + 2 * b) * m ≤ 2 ^ 18) (grayscale : IMG → GrayImage) (source : IMG)
    (hsrc : (grayscale source).Valid) (hc : CrispEnlargement (grayscale source) g m) :
    (∃ d : Decoder σ IMG GrayImage QRLocation QRData (List Char), defaultDecoder grayscale = .ret d ∧
      ∀ s, d.decode source s = .ret ([.ok text], s)) ∧
    ∃ info, info.version = v ∧ info.ecLevel = l ∧ info.errors = 0 ∧
      ∃ d : Decoder σ IMG GrayImage QRLocation QRData (List Char × QRInfo), defaultDecoderWithInfo grayscale = .ret d ∧
        ∀ s, d.decode source s = .ret ([.ok (text, info)], s) := by
  obtain ⟨he, hv⟩ := crisp_enlargement hc hsrc hm
  exact shown_picture_reads v h1 h40 l k hk segments hfit text htext hcap b hb t g hg hs hn m hm.le hsize grayscale source
    hsrc he hv

end Verif.Props
