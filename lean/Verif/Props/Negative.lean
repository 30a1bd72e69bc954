import Verif.Lemmas.Negative
import Verif.Props.Mirrored
import Verif.Props.Decoder
import Verif.Props.Lighting

/-!
# C80: light symbols on a dark ground
-/
namespace Verif.Props
open Verif Verif.Spec LineScan

variable {σ IMG : Type}

theorem opposite_opposite (p : U8) : opposite (opposite p) = p := by
  unfold opposite
  bv_omega

theorem negative_negative (img : GrayImage) : negative (negative img) = img := by
  have h : (img.pixels.map opposite).map opposite = img.pixels := by
    rw [List.map_map]
    exact List.map_id'' (f := opposite ∘ opposite) opposite_opposite _
  calc negative (negative img) = { img with pixels := (img.pixels.map opposite).map opposite } := rfl
    _ = img := by rw [h]

theorem negative_blackWhite {img : GrayImage} (h : BlackWhite img) : BlackWhite (negative img) := by
  intro p hp
  obtain ⟨a, ha, rfl⟩ := List.mem_map.mp hp
  rcases h a ha with rfl | rfl
  · exact Or.inr rfl
  · exact Or.inl rfl

theorem negative_valid {img : GrayImage} (h : (negative img).Valid) : img.Valid := by
  unfold GrayImage.Valid negative recoloured at *
  simpa only [List.length_map] using h

theorem thresholded_blackWhite (a b : Nat) (g : GrayImage) : BlackWhite (thresholded a b g) := by
  intro p hp
  obtain ⟨q, -, rfl⟩ := List.mem_map.mp hp
  split
  · exact Or.inr rfl
  · exact Or.inl rfl

/-! ### Detection -/

/-- **C80 (detection).** Detection sees where the colour changes, but not which colours there are: an image with the
grey values renamed in any way that keeps different values different, and the value 127 in place, has the same
locations. -/
theorem detection_sees_changes_only (img : GrayImage) (f : U8 → U8) (hf : Function.Injective f) (h127 : f 127#8 = 127#8) :
    detect (recoloured f img) = detect img := recoloured_detect hf h127

/-- **C80 (detection).** In a black and white image and in its negative the same symbols are located. -/
theorem negative_is_found_alike (img : GrayImage) (h : BlackWhite img) : detect (negative img) = detect img := by
  have e : negative img = recoloured (fun p => if p = 127#8 then 127#8 else if p = 128#8 then 128#8 else opposite p) img := by
    unfold negative recoloured
    congr 1
    apply List.map_congr_left
    intro p hp
    rcases h p hp with rfl | rfl <;> rfl
  rw [e]
  apply detection_sees_changes_only
  · intro a b hab
    simp only [opposite] at hab
    split at hab <;> split at hab <;> (try split at hab) <;> (try split at hab) <;> bv_omega
  · rfl

/-! ### Extraction -/

/-- **C80 (extraction).** At a location of version 1, the grid extracted from the negative is the negative of the grid
extracted from the image. -/
theorem negative_extracts_opposite (img : GrayImage) (loc : QRLocation) (h1 : loc.version = 1) (q : QRData) :
    Extractor.extract img loc = .ok q ↔ Extractor.extract (negative img) loc = .ok (negativeGrid q) := by
  have key : ∀ img q, Extractor.extract img loc = .ok q → Extractor.extract (negative img) loc = .ok (negativeGrid q) := by
    intro img q h
    unfold negative
    rw [Extractor.recoloured_extract opposite img loc h1, h]
    rfl
  refine ⟨key img q, fun h => ?_⟩
  have := key _ _ h
  rw [negative_negative] at this
  rw [this]
  have e : (q.data.map opposite).map opposite = q.data := by
    rw [List.map_map]
    exact List.map_id'' (f := opposite ∘ opposite) opposite_opposite _
  calc Outcome.ok (negativeGrid (negativeGrid q)) = .ok { q with data := (q.data.map opposite).map opposite } := rfl
    _ = .ok q := by rw [e]

/-! ### Reading -/

/-- **C80.** The picture of a version 1 symbol with light modules on a dark ground, in any of the four turns, is found and
decoded like any other, except that light and dark are exchanged: the only result is that of decoding the negative grid.
-/
theorem default_decoder_decodes_negative (grayscale : IMG → GrayImage) (source : IMG) (hg : (grayscale source).Valid)
    (img : GrayImage) (himg : negative img = thresholded 5 7 (grayscale source)) (hpx : img.width * img.height ≤ 2 ^ 36)
    (hw : img.width ≤ 2 ^ 20) (hh : img.height ≤ 2 ^ 20) (q : QRData) (hq : WellFormed q 1) (hf : HasFinders q)
    (ρ : Orientation) (hρ : ¬ ρ.Mirrored)
    (m ox oy : Nat) (hm : 2 ≤ m) (hd : DrawnAs img q ρ m ox oy) (hz : QuietZone img q.side m ox oy)
    (hs : ∀ y < img.height, SteadyRow img img.width y) (hn : NoOtherFinders img m (turnedFinders ρ 1 m ox oy)) :
    (∃ d : Decoder σ IMG GrayImage QRLocation QRData (List Char), defaultDecoder grayscale = .ret d ∧
      ∀ r, Gives (qrDecode (.ok (negativeGrid q))) r → ∀ s, d.decode source s = .ret ([r], s)) ∧
    ∃ d : Decoder σ IMG GrayImage QRLocation QRData (List Char × QRInfo), defaultDecoderWithInfo grayscale = .ret d ∧
      ∀ r, Gives (qrDecodeWithInfo (.ok (negativeGrid q))) r → ∀ s, d.decode source s = .ret ([r], s) := by
  have hside : q.side = 4 * 1 + 17 := hq.2.1
  have d1 := hd.1
  have d2 := hd.2.1
  have hlow : 21 * 2 ≤ q.side * m := Nat.mul_le_mul (by omega) hm
  obtain ⟨hprep, hv⟩ := prepares (grayscale source) hg (negative img) himg hpx hw hh (show 5 ≤ img.width by omega)
    (show 5 ≤ img.height by omega)
  have hv := negative_valid hv
  have hbw : BlackWhite img := by
    rw [← negative_negative img, himg]
    exact negative_blackWhite (thresholded_blackWhite _ _ _)
  have hdet := turned_symbol_is_detected img hv ρ hρ 1 m ox oy hm le_rfl
    (fun f hfm => turned_clean (by omega) hq.2.1 hd hf hz f (mem_turnedFinders hfm)) hs hn
  rw [← negative_is_found_alike img hbw] at hdet
  have hext := (negative_extracts_opposite img (turnedLocation ρ 1 m ox oy) rfl q).mp
    (turned_location_extracts img hv hw hh q 1 le_rfl (by omega) hq (by omega) ρ m ox oy hm hd)
  constructor
  · obtain ⟨d, hd, hiff⟩ := default_decoder_results (σ := σ) grayscale
    refine ⟨d, hd, fun r hr s => (hiff _ _ _ _).mpr ⟨rfl, negative img, _, hprep, hdet, ?_⟩⟩
    exact .cons (Or.inl ⟨_, hext, hr⟩) .nil
  · obtain ⟨d, hd, hiff⟩ := default_decoder_with_info_results (σ := σ) grayscale
    refine ⟨d, hd, fun r hr s => (hiff _ _ _ _).mpr ⟨rfl, negative img, _, hprep, hdet, ?_⟩⟩
    exact .cons (Or.inl ⟨_, hext, hr⟩) .nil

/-! ### In any light -/

theorem negative_grey {img : GrayImage} (hv : img.Valid) {x y : Nat} (hx : x < img.width) (hy : y < img.height) :
    grey (negative img) x y = 255 - grey img x y := by
  have hlt : y * img.width + x < img.pixels.length := by
    rw [hv.1]
    have : (y + 1) * img.width ≤ img.height * img.width := Nat.mul_le_mul_right _ hy
    rw [Nat.succ_mul, Nat.mul_comm img.height] at this
    omega
  unfold grey negative recoloured
  simp only [List.getD_eq_getElem?_getD, List.getElem?_map, List.getElem?_eq_getElem hlt, Option.map_some, Option.getD_some]
  generalize img.pixels[y * img.width + x] = p
  unfold opposite
  bv_omega

theorem negative_enlarged {img g : GrayImage} {m : Nat} (hv : img.Valid) (hg : g.Valid) (h : Enlarged img g m) :
    Enlarged (negative img) (negative g) m := by
  refine ⟨h.1, h.2.1, ?_⟩
  intro x hx y hy
  have hx' : x < img.width := hx
  have hy' : y < img.height := hy
  have e1 : x / m < g.width := Nat.div_lt_of_lt_mul (by rw [Nat.mul_comm, ← h.1]; exact hx)
  have e2 : y / m < g.height := Nat.div_lt_of_lt_mul (by rw [Nat.mul_comm, ← h.2.1]; exact hy)
  rw [negative_grey hv hx' hy', negative_grey hg e1 e2, h.2.2 x hx' y hy']

theorem mem_window {a b : Nat} {img : GrayImage} {x y : Nat} {p : Nat × Nat} (h : p ∈ window a b img x y) :
    p.1 < img.width ∧ p.2 < img.height := by
  unfold window at h
  have := (List.mem_filter.mp h).1
  rwa [BlockedMean.mem_positions] at this

theorem negative_mixed {g : GrayImage} {m : Nat} (hg : g.Valid) (h : WellMixed g m) : WellMixed (negative g) m := by
  refine ⟨h.1, ?_⟩
  intro img he x hx y hy c hc
  have e1 : (enlarge g m).width = img.width := he.1.symm
  have e2 : (enlarge g m).height = img.height := he.2.1.symm
  obtain ⟨h0, hn⟩ := h.2 (enlarge g m) (enlarge_enlarged g m) x (by rw [e1]; exact hx) y (by rw [e2]; exact hy) (255 - c)
    (by omega)
  have hwin : window 5 7 (enlarge g m) x y = window 5 7 img x y := by
    unfold window
    rw [e1, e2]
  unfold windowCount at *
  rw [hwin] at h0 hn
  refine ⟨h0, hn.trans_eq ?_⟩
  congr 2
  apply List.filter_congr
  intro p hp
  obtain ⟨p1, p2⟩ := mem_window hp
  have q1 : p.1 / m < g.width := Nat.div_lt_of_lt_mul (by rw [Nat.mul_comm]; exact lt_of_lt_of_eq p1 he.1)
  have q2 : p.2 / m < g.height := Nat.div_lt_of_lt_mul (by rw [Nat.mul_comm]; exact lt_of_lt_of_eq p2 he.2.1)
  have a1 := (enlarge_enlarged g m).2.2 p.1 (by rw [e1]; exact p1) p.2 (by rw [e2]; exact p2)
  have a2 := he.2.2 p.1 p1 p.2 p2
  rw [negative_grey hg q1 q2] at a2
  have := grey_le g (p.1 / m) (p.2 / m)
  rw [a1, a2]
  apply decide_eq_decide.mpr
  omega

/-- The negative of an image that shows `g` in some light shows the negative of `g` in some light. -/
theorem negative_lit {src g : GrayImage} {m : Nat} (hs : src.Valid) (hg : g.Valid) (hm : WellMixed g m)
    (h : LitEnlargement src g m) :
    LitEnlargement (negative src) (negative g) m := by
  refine ⟨h.1, h.2.1, ?_⟩
  intro x hx y hy
  obtain ⟨d, l, s, h1, h2, h3, hp⟩ := h.2.2 x hx y hy
  have hl : l ≤ 255 := by
    have e1 : (enlarge g m).width = src.width := h.1.symm
    have e2 : (enlarge g m).height = src.height := h.2.1.symm
    obtain ⟨h0, hn⟩ := hm.2 (enlarge g m) (enlarge_enlarged g m) x (by rw [e1]; exact hx) y (by rw [e2]; exact hy) 255
      (Or.inr rfl)
    have hwin : window 5 7 (enlarge g m) x y = window 5 7 src x y := by
      unfold window
      rw [e1, e2]
    unfold windowCount at h0 hn
    rw [hwin] at h0 hn
    obtain ⟨p, hpm⟩ := List.exists_mem_of_length_pos (by omega :
      0 < ((window 5 7 src x y).filter fun p => grey (enlarge g m) p.1 p.2 = 255).length)
    obtain ⟨hpw, hp255⟩ := List.mem_filter.mp hpm
    obtain ⟨p1, p2⟩ := mem_window hpw
    have a1 := (enlarge_enlarged g m).2.2 p.1 (by rw [e1]; exact p1) p.2 (by rw [e2]; exact p2)
    rw [decide_eq_true_eq, a1] at hp255
    have := grey_le src p.1 p.2
    rcases hp p (List.mem_cons_of_mem _ hpw) with ⟨e, g1, g2⟩ | ⟨e, g1, g2⟩ <;> omega
  refine ⟨255 - l, 255 - d, s, by omega, by omega, by omega, ?_⟩
  intro p hpw
  have hpw' : p ∈ (x, y) :: window 5 7 src x y := hpw
  have hin : p.1 < src.width ∧ p.2 < src.height := by
    rcases List.mem_cons.mp hpw' with rfl | hp
    · exact ⟨hx, hy⟩
    · exact mem_window hp
  have q1 : p.1 / m < g.width := Nat.div_lt_of_lt_mul (by rw [Nat.mul_comm]; exact lt_of_lt_of_eq hin.1 h.1)
  have q2 : p.2 / m < g.height := Nat.div_lt_of_lt_mul (by rw [Nat.mul_comm]; exact lt_of_lt_of_eq hin.2 h.2.1)
  rw [negative_grey hs hin.1 hin.2, negative_grey hg q1 q2]
  have := grey_le src p.1 p.2
  rcases hp p hpw' with ⟨e, g1, g2⟩ | ⟨e, g1, g2⟩
  · exact Or.inr ⟨by omega, by omega, by omega⟩
  · exact Or.inl ⟨by omega, by omega, by omega⟩

/-- **C80 (in any light).** As C71, for the negative of an image that shows a version 1 symbol. -/
theorem default_decoder_decodes_lit_negative (grayscale : IMG → GrayImage) (source : IMG) (hsrc : (grayscale source).Valid)
    (g : GrayImage) (hg : g.Valid) (m : Nat) (hm2 : 2 ≤ m) (hm : WellMixed g m)
    (hlit : LitEnlargement (negative (grayscale source)) g m) (hpx : g.width * m * (g.height * m) ≤ 2 ^ 36)
    (hw : g.width * m ≤ 2 ^ 20) (hh : g.height * m ≤ 2 ^ 20) (q : QRData) (hq : WellFormed q 1) (hf : HasFinders q)
    (ρ : Orientation) (hρ : ¬ ρ.Mirrored) (ox oy : Nat) (hd : DrawnAs g q ρ 1 ox oy) (hz : QuietZone g q.side 1 ox oy)
    (hs : ∀ y < g.height, SteadyRow g g.width y) (hn : NeverOthers g (turnedFinders ρ 1 1 ox oy)) :
    (∃ d : Decoder σ IMG GrayImage QRLocation QRData (List Char), defaultDecoder grayscale = .ret d ∧
      ∀ r, Gives (qrDecode (.ok (negativeGrid q))) r → ∀ s, d.decode source s = .ret ([r], s)) ∧
    ∃ d : Decoder σ IMG GrayImage QRLocation QRData (List Char × QRInfo), defaultDecoderWithInfo grayscale = .ret d ∧
      ∀ r, Gives (qrDecodeWithInfo (.ok (negativeGrid q))) r → ∀ s, d.decode source s = .ret ([r], s) := by
  have hsrc' : (negative (grayscale source)).Valid := negative_valid (by rw [negative_negative]; exact hsrc)
  have hng : (negative g).Valid := negative_valid (by rw [negative_negative]; exact hg)
  have hlit' := negative_lit hsrc' hg hm hlit
  rw [negative_negative] at hlit'
  obtain ⟨he, hv⟩ := lit_threshold hlit' hsrc (negative_mixed hg hm)
  have he := negative_enlarged hv hng he
  rw [negative_negative] at he
  have hv' : (negative (thresholded 5 7 (grayscale source))).Valid := negative_valid (by rw [negative_negative]; exact hv)
  have hm0 : 0 < m := by omega
  have hclean := turned_clean (m := 1) (by omega) hq.2.1 hd hf hz
  refine default_decoder_decodes_negative grayscale source hsrc _ (negative_negative _) (by rw [he.1, he.2.1]; exact hpx)
    (by rw [he.1]; exact hw) (by rw [he.2.1]; exact hh) q hq hf ρ hρ m (ox * m)
    (oy * m) (by omega) (enlarged_drawnAs he hm0 hv' hg hd) (enlarged_quiet he hm0 hz) ?_ ?_
  · intro y hy
    exact enlarged_steady he hm0 hy (hs _ ((Nat.div_lt_iff_lt_mul hm0).mpr (by rw [← he.2.1]; exact hy)))
  · rw [← scaled_turned]
    refine enlarged_no_others he (by omega) ?_ hn
    intro f hf'
    have := (hclean f (mem_turnedFinders hf')).1
    omega

/-! ### Format -/

/-- Inverting all bits of a format word gives the format word of the opposite level and the seventh complement of the
mask. -/
theorem formatWord_inverted (l : ECLevel) (k : Nat) (hk : k < 8) :
    (formatWord l k).map (!·) = formatWord (oppositeLevel l) (7 - k) := by
  revert k
  cases l <;> decide

theorem negative_shows {q : QRData} {ps : List (Nat × Nat)} {w : List Bool} (h : Shows q ps w)
    (hbw : ∀ p ∈ q.data, p = 0#8 ∨ p = 255#8) : Shows (negativeGrid q) ps (w.map (!·)) := by
  unfold Shows at *
  have e : ∀ x y, moduleAt (negativeGrid q) x y = (moduleAt q x y).map (!·) := by
    intro x y
    unfold moduleAt negativeGrid
    simp only [List.getElem?_map]
    match hp : q.data[y * q.side + x]? with
    | none => rfl
    | some p => rcases hbw p (List.mem_of_getElem? hp) with rfl | rfl <;> rfl
  simp only [e]
  rw [show (fun p : Nat × Nat => (moduleAt q p.1 p.2).map (!·)) = (Option.map (!·)) ∘ fun p : Nat × Nat => moduleAt q p.1 p.2
    from rfl, ← List.map_map, h, List.map_map, List.map_map]
  rfl

/-- **C80 (format).** The format information of a symbol with light and dark exchanged, of any version, is
accepted without a complaint, but read as the opposite level and mask `7 - k`, which are never those of the symbol. -/
theorem negative_format (q : QRData) (hbw : ∀ p ∈ q.data, p = 0#8 ∨ p = 255#8) (l : ECLevel) (k : Nat)
    (hk : k < 8) (h : Shows q formatCopy1 (formatWord l k)) :
    ReadsAs q l k ∧ ReadsAs (negativeGrid q) (oppositeLevel l) (7 - k) ∧ oppositeLevel l ≠ l ∧ 7 - k ≠ k := by
  refine ⟨clean_format_first_copy q l k hk h, clean_format_first_copy _ _ _ (by omega) ?_, by cases l <;> decide, by omega⟩
  rw [← formatWord_inverted l k hk]
  exact negative_shows h hbw

/-- **C80 (format).** A text that is read in spite of this is one of another level: nothing is ever decoded from the
negative of a symbol as what the symbol says it is. -/
theorem negative_level (q : QRData) (hbw : ∀ p ∈ q.data, p = 0#8 ∨ p = 255#8) (l : ECLevel) (k : Nat)
    (hk : k < 8) (h : Shows q formatCopy1 (formatWord l k)) (text : List Char) (info : QRInfo)
    (hok : qrDecodeWithInfo (.ok (negativeGrid q)) = .ok (text, info)) : info.ecLevel = oppositeLevel l := by
  obtain ⟨-, ⟨m, e, -⟩, -⟩ := negative_format q hbw l k hk h
  obtain ⟨-, -, -, -, m', -, -, e', -⟩ := info_describes_symbol_partial (negativeGrid q) text info hok
  rw [e] at e'
  simp only [Outcome.ok.injEq, Prod.mk.injEq] at e'
  exact e'.1.symm

end Verif.Props
