import Verif.Lemmas.TurnedQr
import Verif.Lemmas.TurnedFinders
import Verif.Props.Scales

/-!
# C69: symbols turned by quarter turns
-/
namespace Verif.Props
open Verif Verif.Spec F64 LineScan

variable {σ IMG : Type}

/-- The positions that are not mirrored are the quarter turns. -/
theorem not_mirrored_iff (ρ : Orientation) : ¬ ρ.Mirrored ↔ ∃ t, ρ = .quarterTurns t := by
  constructor
  · obtain ⟨fx, fy, sw⟩ := ρ
    intro h
    unfold Orientation.Mirrored at h
    cases fx <;> cases fy <;> cases sw <;> simp at h
    · exact ⟨0, rfl⟩
    · exact ⟨3, rfl⟩
    · exact ⟨1, rfl⟩
    · exact ⟨2, rfl⟩
  · rintro ⟨t, rfl⟩
    induction t using Nat.strongRecOn with
    | ind t ih =>
      match t with
      | 0 => unfold Orientation.Mirrored; decide
      | 1 => unfold Orientation.Mirrored; decide
      | 2 => unfold Orientation.Mirrored; decide
      | 3 => unfold Orientation.Mirrored; decide
      | t + 4 => exact ih t (by omega)

/-- **C69 (geometry).** Three points are recognised as the centres of the finder patterns of a symbol, whatever the
angle by which it is turned: if the sides from the first point to the two others have the length `d` of `4 v + 10`
modules and are perpendicular, then the version is `v`, the first point is the top left one, and of the others
the bottom left one follows the top right one clockwise on the screen. -/
theorem right_angle_is_located (one two three : Pt) (d m v : Nat) (hd : d = (4 * v + 10) * m) (hm : 1 ≤ m)
    (hd' : d < 2 ^ 32) (hv : 1 ≤ v) (h30 : 4 * v + 17 < 2 ^ 32)
    (h2 : (two.1 - one.1) ^ 2 + (two.2 - one.2) ^ 2 = (d : ℚ) ^ 2)
    (h3 : (three.1 - one.1) ^ 2 + (three.2 - one.2) ^ 2 = (d : ℚ) ^ 2)
    (h : (two.1 - one.1) * (three.1 - one.1) + (two.2 - one.2) * (three.2 - one.2) = 0) :
    ∃ tr bl : Pt, (tr = two ∧ bl = three ∨ tr = three ∧ bl = two) ∧
      0 < (tr.1 - one.1) * (bl.2 - one.2) - (tr.2 - one.2) * (bl.1 - one.1) ∧
      findQr ⟨.fin one.1, .fin one.2⟩ ⟨.fin two.1, .fin two.2⟩ ⟨.fin three.1, .fin three.2⟩ (.fin m) =
        .ret (some ⟨⟨.fin one.1, .fin one.2⟩, ⟨.fin tr.1, .fin tr.2⟩, ⟨.fin bl.1, .fin bl.2⟩, .fin m, v⟩) := by
  change ∃ tr bl : Pt, _ ∧ _ ∧ findQr (pt one.1 one.2) (pt two.1 two.2) (pt three.1 three.2) (.fin m) =
    .ret (some ⟨pt one.1 one.2, pt tr.1 tr.2, pt bl.1 bl.2, .fin m, v⟩)
  have hd1 : 1 ≤ d := by rw [hd]; exact Nat.mul_pos (by omega) hm
  have hdq : (1 : ℚ) ≤ d := by exact_mod_cast hd1
  have key : ∀ a b e f D : ℚ, a ^ 2 + b ^ 2 = D ^ 2 → e ^ 2 + f ^ 2 = D ^ 2 → a * e + b * f = 0 →
      a * f - b * e = D ^ 2 ∨ a * f - b * e = -D ^ 2 := by
    intro a b e f D h1 h2 h3
    have : (a * f - b * e - D ^ 2) * (a * f - b * e + D ^ 2) = 0 := by
      have : (a * f - b * e) ^ 2 = (a ^ 2 + b ^ 2) * (e ^ 2 + f ^ 2) - (a * e + b * f) ^ 2 := by ring
      rw [h1, h2, h3] at this
      linear_combination this
    rcases mul_eq_zero.mp this with h | h
    · left; linarith
    · right; linarith
  have hpos : (0 : ℚ) < (d : ℚ) ^ 2 := by positivity
  rcases key _ _ _ _ _ h2 h3 h with hx | hx
  · refine ⟨two, three, Or.inl ⟨rfl, rfl⟩, by rw [hx]; exact hpos, ?_⟩
    unfold findQr
    rw [internal_corner hd hm hd' hv h30 h2 h3 true (by simpa using hx), Run.ret_bind]
    rfl
  · refine ⟨three, two, Or.inr ⟨rfl, rfl⟩, by linarith, ?_⟩
    unfold findQr
    rw [internal_corner hd hm hd' hv h30 h2 h3 false (by simpa using hx), Run.ret_bind]
    rfl

/-- The location of a symbol in position `ρ`, as it is reported. -/
def turnedLocation (ρ : Orientation) (v m ox oy : Nat) : QRLocation :=
  ⟨reportedCentre m (tlFinder ρ v m ox oy).1 (tlFinder ρ v m ox oy).2,
    reportedCentre m (trFinder ρ v m ox oy).1 (trFinder ρ v m ox oy).2,
    reportedCentre m (blFinder ρ v m ox oy).1 (blFinder ρ v m ox oy).2, .fin m, v⟩

/-- A finder pattern in a corner is reported in the corner of a square. -/
theorem reported_corner (v m ox oy : Nat) (a b : Bool) :
    reportedCentre m (cornerFinder v m ox oy a b).1 (cornerFinder v m ox oy a b).2 =
      corner (ox + 7 * (m : ℚ) / 2) (oy + ((7 * m - 1) / 2 : Nat)) (((4 * v + 10) * m : Nat) : ℚ) (a, b) := by
  unfold reportedCentre corner pt cornerFinder
  simp only
  congr 2
  · cases a
    · simp
    · simp only [if_true]; push_cast; ring
  · cases b
    · simp
    · simp only [if_true]; push_cast; ring

/-- The three candidates of a symbol that is turned but not mirrored. -/
theorem findQr_turned {ρ : Orientation} {v m ox oy : Nat} (hρ : ¬ ρ.Mirrored) (hm : 1 ≤ m) (hv : 1 ≤ v)
    (h1 : ox + (4 * v + 17) * m < 2 ^ 32) (h2 : oy + (4 * v + 17) * m < 2 ^ 32) :
    ∃ f1 f2 f3, turnedFinders ρ v m ox oy = [f1, f2, f3] ∧
      findQr (exactCandidate m f1.1 f1.2).location (exactCandidate m f2.1 f2.2).location
        (exactCandidate m f3.1 f3.2).location (.fin m) = .ret (some (turnedLocation ρ v m ox oy)) := by
  have e : (4 * v + 17) * m = (4 * v + 10) * m + 7 * m := by ring
  have hvd : 4 * v + 17 ≤ (4 * v + 17) * m := Nat.le_mul_of_pos_right _ hm
  obtain ⟨k1, k2, k3, k4⟩ := findQr_corners (x := ox + 7 * (m : ℚ) / 2) (y := oy + ((7 * m - 1) / 2 : Nat))
    (d := (4 * v + 10) * m) (m := m) (v := v) rfl hm (by omega) hv (by omega)
  have loc : ∀ a b : Bool, (exactCandidate m (cornerFinder v m ox oy a b).1 (cornerFinder v m ox oy a b).2).location =
      corner (ox + 7 * (m : ℚ) / 2) (oy + ((7 * m - 1) / 2 : Nat)) (((4 * v + 10) * m : Nat) : ℚ) (a, b) := by
    intro a b
    rw [exactCandidate_location, reported_corner]
    cases b <;> simp only [cornerFinder, if_true, Bool.false_eq_true, if_false] <;> omega
  obtain ⟨fx, fy, sw⟩ := ρ
  unfold Orientation.Mirrored at hρ
  cases fx <;> cases fy <;> cases sw <;> simp at hρ
  · refine ⟨_, _, _, rfl, ?_⟩
    rw [loc, loc, loc, k1]
    simp only [turnedLocation, tlFinder, trFinder, blFinder, Bool.false_eq_true, if_false, Bool.not_false]
    rw [reported_corner, reported_corner, reported_corner]
  · refine ⟨_, _, _, rfl, ?_⟩
    rw [loc, loc, loc, k3]
    simp only [turnedLocation, tlFinder, trFinder, blFinder, if_true, Bool.not_false, Bool.not_true]
    rw [reported_corner, reported_corner, reported_corner]
  · refine ⟨_, _, _, rfl, ?_⟩
    rw [loc, loc, loc, k2]
    simp only [turnedLocation, tlFinder, trFinder, blFinder, if_true, Bool.not_false, Bool.not_true]
    rw [reported_corner, reported_corner, reported_corner]
  · refine ⟨_, _, _, rfl, ?_⟩
    rw [loc, loc, loc, k4]
    simp only [turnedLocation, tlFinder, trFinder, blFinder, Bool.false_eq_true, if_false, Bool.not_true]
    rw [reported_corner, reported_corner, reported_corner]

theorem locations_three {c1 c2 c3 : FinderPosition} {qr : QRLocation} {m : Nat} (hm : 1 ≤ m)
    (s1 : c1.module_size = .fin (m : ℚ)) (s2 : c2.module_size = .fin (m : ℚ)) (s3 : c3.module_size = .fin (m : ℚ))
    (hq : findQr c1.location c2.location c3.location (.fin m) = .ret (some qr)) : locations [c1, c2, c3] = .ret [qr] := by
  have hdiff := same_size hm
  have empty3 : ∀ c1 c2, locations3 c1 c2 [] = .ret [] := fun _ _ => rfl
  have empty2 : ∀ c1, locations2 c1 [] = .ret [] := fun _ => rfl
  have empty1 : locations [] = .ret [] := rfl
  have three : locations3 c1 c2 [c3] = .ret [qr] := by
    unfold locations3
    rw [s1, s3, hdiff]
    simp only [Bool.false_eq_true, if_false]
    rw [hq, Run.ret_bind]
    simp only
    rw [empty3, Run.ret_bind]
    rfl
  have two2 : ∀ a b : FinderPosition, a.module_size = .fin (m : ℚ) → b.module_size = .fin (m : ℚ) →
      locations2 a [b] = .ret [] := by
    intro a b ha hb
    unfold locations2
    rw [ha, hb, hdiff]
    simp only [Bool.false_eq_true, if_false]
    rw [empty3, Run.ret_bind, empty2, Run.ret_bind]
    rfl
  have two3 : locations2 c1 [c2, c3] = .ret [qr] := by
    rw [locations2, s1, s2, hdiff]
    simp only [Bool.false_eq_true, if_false]
    rw [three, Run.ret_bind, two2 _ _ s1 s3, Run.ret_bind]
    rfl
  rw [locations, two3, Run.ret_bind, locations, two2 _ _ s2 s3, Run.ret_bind, locations, empty2, Run.ret_bind, empty1, Run.ret_bind]
  rfl

theorem turned_fits {img : GrayImage} (hv : img.Valid) {ρ : Orientation} {v m ox oy : Nat}
    (hc : ∀ f ∈ turnedFinders ρ v m ox oy, CleanFinder img m f.1 f.2) :
    ox + (4 * v + 17) * m < 2 ^ 32 ∧ oy + (4 * v + 17) * m < 2 ^ 32 := by
  have hw := hv.2.1
  have hh := hv.2.2
  have e : (4 * v + 17) * m = (4 * v + 10) * m + 7 * m := by ring
  rw [e]
  generalize hd : (4 * v + 10) * m = d at *
  have key : (∃ b, cornerFinder v m ox oy true b ∈ turnedFinders ρ v m ox oy) ∧
      ∃ a, cornerFinder v m ox oy a true ∈ turnedFinders ρ v m ox oy := by
    obtain ⟨fx, fy, sw⟩ := ρ
    unfold turnedFinders
    constructor
    · refine ⟨fy, List.mem_map.mpr ⟨(true, fy), ?_, rfl⟩⟩
      cases fx <;> cases fy <;> simp
    · refine ⟨fx, List.mem_map.mpr ⟨(fx, true), ?_, rfl⟩⟩
      cases fx <;> cases fy <;> simp
  obtain ⟨⟨b, hb⟩, ⟨a, ha⟩⟩ := key
  have h1 := (hc _ hb).1
  have h2 := (hc _ ha).2.1
  simp only [cornerFinder, if_true] at h1 h2
  rw [hd] at h1 h2
  omega

/-- **C69 (detection).** A symbol turned by quarter turns is detected, alone and exactly, with its corners in the right
places. -/
theorem turned_symbol_is_detected (img : GrayImage) (hv : img.Valid) (ρ : Orientation) (hρ : ¬ ρ.Mirrored) (v m ox oy : Nat)
    (hm : 2 ≤ m) (h1 : 1 ≤ v) (hc : ∀ f ∈ turnedFinders ρ v m ox oy, CleanFinder img m f.1 f.2)
    (hs : ∀ y < img.height, SteadyRow img img.width y) (hn : NoOtherFinders img m (turnedFinders ρ v m ox oy)) :
    detect img = .ret [turnedLocation ρ v m ox oy] := by
  obtain ⟨b1, b2⟩ := turned_fits hv hc
  obtain ⟨f1, f2, f3, hf, hq⟩ := findQr_turned (ρ := ρ) hρ (by omega) h1 b1 b2
  unfold detect
  rw [candidates_exact hv hm hc (turnedFinders_order (by omega)) hs hn, Run.ret_bind, hf]
  exact locations_three (by omega) rfl rfl rfl hq

/-- C69 among other things: as C66, for symbols in any of the four turns. -/
theorem turned_symbol_is_among (img : GrayImage) (hv : img.Valid) (hpx : img.width * img.height < 2 ^ 63) (m : Nat)
    (hm : 2 ≤ m) (fs : List (Nat × Nat)) (hc : ∀ f ∈ fs, CleanFinder img m f.1 f.2) (ho : fs.Pairwise (ScanOrder m))
    (hs : ∀ f ∈ fs, ∀ y ≤ f.2 + 2 * m, SteadyRow img img.width y) (hn : NoOtherFindersNear img m fs) :
    ∃ locs, detect img = .ret locs ∧ ∀ ρ : Orientation, ¬ ρ.Mirrored → ∀ v ox oy, 1 ≤ v →
      (turnedFinders ρ v m ox oy).Sublist fs → turnedLocation ρ v m ox oy ∈ locs := by
  obtain ⟨cs, hcs, hsub, hg⟩ := candidates_local hv hm hc ho hs hn
  obtain ⟨locs, hl, -⟩ := locations_ret hv hpx cs hg
  unfold detect
  rw [hcs, Run.ret_bind]
  refine ⟨locs, hl, ?_⟩
  intro ρ hρ v ox oy h1 hsym
  obtain ⟨b1, b2⟩ := turned_fits hv (fun f hf => hc f (hsym.subset hf))
  obtain ⟨f1, f2, f3, hf, hq⟩ := findQr_turned (ρ := ρ) hρ (by omega) h1 b1 b2
  have hsub' := (hsym.map fun f : Nat × Nat => exactCandidate m f.1 f.2).trans hsub
  rw [hf] at hsub'
  exact locations_mem (same_size (by omega)) (same_size (by omega)) hq cs hsub' hl

/-- The reported location of a symbol in any position, mirrored or not, is good enough to extract it. -/
theorem turned_location_extracts (img : GrayImage) (hv : img.Valid) (hw : img.width ≤ 2 ^ 20)
    (hh : img.height ≤ 2 ^ 20) (q : QRData) (v : Nat) (h1 : 1 ≤ v) (h40 : v ≤ 40) (hq : WellFormed q v)
    (hal : 2 ≤ v → HasAlignment q) (ρ : Orientation) (m ox oy : Nat) (hm : 2 ≤ m) (hd : DrawnAs img q ρ m ox oy) :
    Extractor.extract img (turnedLocation ρ v m ox oy) = .ok q := by
  obtain ⟨δ, hδ, hδ'⟩ := half_odd m (by omega)
  have hs : q.side = 4 * v + 17 := hq.2.1
  have hm' : (2 : ℚ) ≤ m := by exact_mod_cast hm
  have d1 := hd.1
  have d2 := hd.2.1
  have e : q.side * m = (4 * v + 10) * m + 7 * m := by rw [hs]; ring
  have key : ∀ fx fy : Nat, fx + 7 * m ≤ 2 ^ 20 → fy + 7 * m ≤ 2 ^ 20 →
      |(reportedPt m fx fy).1| ≤ 2 ^ 20 ∧ |(reportedPt m fx fy).2| ≤ 2 ^ 20 := by
    intro fx fy h1 h2
    have h1' : (fx : ℚ) + 7 * m ≤ 2 ^ 20 := by exact_mod_cast h1
    have h3 : fy + (7 * m - 1) / 2 ≤ 2 ^ 20 := by omega
    have h3' : (fy : ℚ) + ((7 * m - 1) / 2 : Nat) ≤ 2 ^ 20 := by exact_mod_cast h3
    have z1 : (0 : ℚ) ≤ fx := by positivity
    have z2 : (0 : ℚ) ≤ (fy : ℚ) + ((7 * m - 1) / 2 : Nat) := by positivity
    unfold reportedPt
    simp only
    rw [abs_of_nonneg (by linarith), abs_of_nonneg z2]
    exact ⟨by linarith, h3'⟩
  have bnd : ∀ a b : Bool, (cornerFinder v m ox oy a b).1 + 7 * m ≤ 2 ^ 20 ∧ (cornerFinder v m ox oy a b).2 + 7 * m ≤ 2 ^ 20 := by
    intro a b
    unfold cornerFinder
    cases a <;> cases b <;> simp only [if_true, Bool.false_eq_true, if_false] <;> omega
  -- the centre of the finder pattern in a corner
  have cen : ∀ (a b : Bool) (c r : Nat), c = (if a then q.side - 4 else 3) → r = (if b then q.side - 4 else 3) →
      |(reportedPt m (cornerFinder v m ox oy a b).1 (cornerFinder v m ox oy a b).2).1 - (moduleCentre m ox c + 1 / 2)| ≤ 0 ∧
      |(reportedPt m (cornerFinder v m ox oy a b).1 (cornerFinder v m ox oy a b).2).2 - (moduleCentre m oy r + δ)| ≤ 0 := by
    intro a b c r hc hr
    have c4 : ((q.side - 4 : Nat) : ℚ) = 4 * v + 10 + 3 := by
      rw [hs, show 4 * v + 17 - 4 = 4 * v + 10 + 3 by omega]; push_cast; ring
    unfold reportedPt cornerFinder moduleCentre
    simp only
    constructor
    · rw [le_iff_eq_or_lt]; left; rw [abs_eq_zero, hc]
      cases a
      · simp only [Bool.false_eq_true, if_false]; push_cast; ring
      · simp only [if_true]; rw [c4]; push_cast; ring
    · rw [le_iff_eq_or_lt]; left; rw [abs_eq_zero, hr, hδ]
      cases b
      · simp only [Bool.false_eq_true, if_false]; push_cast; ring
      · simp only [if_true]; rw [c4]; push_cast; ring
  refine positioned_grid_is_extracted img hv hw hh q v h1 h40 hq hal ρ m ox oy (by omega) hd _ rfl
    (reportedPt m (tlFinder ρ v m ox oy).1 (tlFinder ρ v m ox oy).2)
    (reportedPt m (trFinder ρ v m ox oy).1 (trFinder ρ v m ox oy).2)
    (reportedPt m (blFinder ρ v m ox oy).1 (blFinder ρ v m ox oy).2) ⟨rfl, rfl, rfl, ?_⟩
    (1 / 2, δ) 0 (le_refl 0) ⟨?_, ?_, ?_⟩ ?_ ?_
  · intro p hp
    simp only [List.mem_cons, List.not_mem_nil, or_false] at hp
    rcases hp with rfl | rfl | rfl
    · exact key _ _ (bnd _ _).1 (bnd _ _).2
    · unfold trFinder
      split <;> exact key _ _ (bnd _ _).1 (bnd _ _).2
    · unfold blFinder
      split <;> exact key _ _ (bnd _ _).1 (bnd _ _).2
  · obtain ⟨fx, fy, sw⟩ := ρ
    refine cen fx fy _ _ ?_ ?_
    · simp only [Orientation.column, flipIndex]; cases fx <;> cases sw <;> simp <;> omega
    · simp only [Orientation.row, flipIndex]; cases fy <;> cases sw <;> simp <;> omega
  · obtain ⟨fx, fy, sw⟩ := ρ
    unfold trFinder
    cases sw
    · refine cen (!fx) fy _ _ ?_ ?_
      · simp only [Orientation.column, flipIndex]; cases fx <;> simp <;> omega
      · simp only [Orientation.row, flipIndex]; cases fy <;> simp <;> omega
    · refine cen fx (!fy) _ _ ?_ ?_
      · simp only [Orientation.column, flipIndex]; cases fx <;> simp <;> omega
      · simp only [Orientation.row, flipIndex]; cases fy <;> simp <;> omega
  · obtain ⟨fx, fy, sw⟩ := ρ
    unfold blFinder
    cases sw
    · refine cen fx (!fy) _ _ ?_ ?_
      · simp only [Orientation.column, flipIndex]; cases fx <;> simp <;> omega
      · simp only [Orientation.row, flipIndex]; cases fy <;> simp <;> omega
    · refine cen (!fx) fy _ _ ?_ ?_
      · simp only [Orientation.column, flipIndex]; cases fx <;> simp <;> omega
      · simp only [Orientation.row, flipIndex]; cases fy <;> simp <;> omega
  · simp only
    rw [abs_of_nonneg (by norm_num)]; linarith
  · simp only
    linarith

/-- **C69 (alone).** As C65 and C68, for a grid shown in any of the four turns: there is one result, that of
decoding the grid, be it a text or an error. -/
theorem default_decoder_decodes_turned (grayscale : IMG → GrayImage) (source : IMG) (hg : (grayscale source).Valid)
    (img : GrayImage) (himg : img = thresholded 5 7 (grayscale source)) (hpx : img.width * img.height ≤ 2 ^ 36)
    (hw : img.width ≤ 2 ^ 20) (hh : img.height ≤ 2 ^ 20) (q : QRData) (v : Nat) (h1 : 1 ≤ v) (h40 : v ≤ 40)
    (hq : WellFormed q v) (hf : HasFinders q) (hal : 2 ≤ v → HasAlignment q) (ρ : Orientation) (hρ : ¬ ρ.Mirrored)
    (m ox oy : Nat) (hm : 2 ≤ m) (hd : DrawnAs img q ρ m ox oy) (hz : QuietZone img q.side m ox oy)
    (hs : ∀ y < img.height, SteadyRow img img.width y) (hn : NoOtherFinders img m (turnedFinders ρ v m ox oy)) :
    (∃ d : Decoder σ IMG GrayImage QRLocation QRData (List Char), defaultDecoder grayscale = .ret d ∧
      ∀ r, Gives (qrDecode (.ok q)) r → ∀ s, d.decode source s = .ret ([r], s)) ∧
    ∃ d : Decoder σ IMG GrayImage QRLocation QRData (List Char × QRInfo), defaultDecoderWithInfo grayscale = .ret d ∧
      ∀ r, Gives (qrDecodeWithInfo (.ok q)) r → ∀ s, d.decode source s = .ret ([r], s) := by
  have hside : q.side = 4 * v + 17 := hq.2.1
  have d1 := hd.1
  have d2 := hd.2.1
  have hlow : 21 * 2 ≤ q.side * m := Nat.mul_le_mul (by omega) hm
  obtain ⟨hprep, hv⟩ := prepares (grayscale source) hg img himg hpx hw hh (by omega) (by omega)
  have hdet := turned_symbol_is_detected img hv ρ hρ v m ox oy hm h1
    (fun f hfm => turned_clean (by omega) hq.2.1 hd hf hz f (mem_turnedFinders hfm)) hs hn
  have hext := turned_location_extracts img hv hw hh q v h1 h40 hq hal ρ m ox oy hm hd
  constructor
  · obtain ⟨d, hd, hiff⟩ := default_decoder_results (σ := σ) grayscale
    refine ⟨d, hd, fun r hr s => (hiff _ _ _ _).mpr ⟨rfl, img, _, hprep, hdet, ?_⟩⟩
    exact .cons (Or.inl ⟨q, hext, hr⟩) .nil
  · obtain ⟨d, hd, hiff⟩ := default_decoder_with_info_results (σ := σ) grayscale
    refine ⟨d, hd, fun r hr s => (hiff _ _ _ _).mpr ⟨rfl, img, _, hprep, hdet, ?_⟩⟩
    exact .cons (Or.inl ⟨q, hext, hr⟩) .nil

/-- **C69 (among other things).** As C66, for a grid shown in any of the four turns: the result of decoding it is among
the results. -/
theorem default_decoder_finds_turned (grayscale : IMG → GrayImage) (source : IMG) (hg : (grayscale source).Valid)
    (img : GrayImage) (himg : img = thresholded 5 7 (grayscale source)) (hpx : img.width * img.height ≤ 2 ^ 36)
    (hw : img.width ≤ 2 ^ 20) (hh : img.height ≤ 2 ^ 20) (m : Nat) (hm : 2 ≤ m) (fs : List (Nat × Nat))
    (hc : ∀ f ∈ fs, CleanFinder img m f.1 f.2) (ho : fs.Pairwise (ScanOrder m))
    (hs : ∀ f ∈ fs, ∀ y ≤ f.2 + 2 * m, SteadyRow img img.width y) (hn : NoOtherFindersNear img m fs)
    (q : QRData) (v : Nat) (h1 : 1 ≤ v) (h40 : v ≤ 40) (hq : WellFormed q v)
    (hal : 2 ≤ v → HasAlignment q) (ρ : Orientation) (hρ : ¬ ρ.Mirrored) (ox oy : Nat) (hd : DrawnAs img q ρ m ox oy)
    (hsym : (turnedFinders ρ v m ox oy).Sublist fs) :
    (∃ d : Decoder σ IMG GrayImage QRLocation QRData (List Char), defaultDecoder grayscale = .ret d ∧
      ∀ r, Gives (qrDecode (.ok q)) r → ∀ s rs s', d.decode source s = .ret (rs, s') → r ∈ rs) ∧
    ∃ d : Decoder σ IMG GrayImage QRLocation QRData (List Char × QRInfo), defaultDecoderWithInfo grayscale = .ret d ∧
      ∀ r, Gives (qrDecodeWithInfo (.ok q)) r → ∀ s rs s', d.decode source s = .ret (rs, s') → r ∈ rs := by
  have hside : q.side = 4 * v + 17 := hq.2.1
  have d1 := hd.1
  have d2 := hd.2.1
  have hlow : 21 * 2 ≤ q.side * m := Nat.mul_le_mul (by omega) hm
  obtain ⟨hprep, hv⟩ := prepares (grayscale source) hg img himg hpx hw hh (by omega) (by omega)
  obtain ⟨locs, hdet, hin⟩ := turned_symbol_is_among img hv (by omega) m hm fs hc ho hs hn
  have hin := hin ρ hρ v ox oy h1 hsym
  have hext := turned_location_extracts img hv hw hh q v h1 h40 hq hal ρ m ox oy hm hd
  constructor
  · obtain ⟨d, hd, hiff⟩ := default_decoder_results (σ := σ) grayscale
    refine ⟨d, hd, ?_⟩
    intro r hr s rs s' hrun
    obtain ⟨-, img', locs', hp', hd', hall⟩ := (hiff _ _ _ _).mp hrun
    rw [hprep] at hp'
    have := Run.ret.inj hp'
    subst this
    rw [hdet] at hd'
    have := Run.ret.inj hd'
    subst this
    exact result_among hall hin hext hr
  · obtain ⟨d, hd, hiff⟩ := default_decoder_with_info_results (σ := σ) grayscale
    refine ⟨d, hd, ?_⟩
    intro r hr s rs s' hrun
    obtain ⟨-, img', locs', hp', hd', hall⟩ := (hiff _ _ _ _).mp hrun
    rw [hprep] at hp'
    have := Run.ret.inj hp'
    subst this
    rw [hdet] at hd'
    have := Run.ret.inj hd'
    subst this
    exact result_among hall hin hext hr

/-- **C69.** The default decoders read a symbol turned by any number of quarter turns, under the conditions of C65:
the result is the text of the symbol and nothing else. -/
theorem default_decoder_reads_turned (grayscale : IMG → GrayImage) (source : IMG) (hg : (grayscale source).Valid)
    (img : GrayImage) (himg : img = thresholded 5 7 (grayscale source)) (hpx : img.width * img.height ≤ 2 ^ 36)
    (hw : img.width ≤ 2 ^ 20) (hh : img.height ≤ 2 ^ 20) (q : QRData) (v : Nat) (h1 : 1 ≤ v) (h40 : v ≤ 40)
    (l : ECLevel) (k : Nat) (hk : k < 8) (segments : List Segment) (hfit : ∀ s ∈ segments, s.fits v)
    (text : List Char) (htext : SegmentsText segments text) (hq : IsSymbol q v l k segments)
    (hf : HasFinders q) (hal : 2 ≤ v → HasAlignment q) (t : Nat) (m ox oy : Nat) (hm : 2 ≤ m)
    (hd : DrawnAs img q (.quarterTurns t) m ox oy)
    (hz : QuietZone img q.side m ox oy) (hs : ∀ y < img.height, SteadyRow img img.width y)
    (hn : NoOtherFinders img m (turnedFinders (.quarterTurns t) v m ox oy)) :
    (∃ d : Decoder σ IMG GrayImage QRLocation QRData (List Char), defaultDecoder grayscale = .ret d ∧
      ∀ s, d.decode source s = .ret ([.ok text], s)) ∧
    ∃ info, info.version = v ∧ info.ecLevel = l ∧ info.errors = 0 ∧
      ∃ d : Decoder σ IMG GrayImage QRLocation QRData (List Char × QRInfo), defaultDecoderWithInfo grayscale = .ret d ∧
        ∀ s, d.decode source s = .ret ([.ok (text, info)], s) := by
  obtain ⟨t1, info, t2, i1, i2, i3⟩ := symbol_decodes q v h1 h40 l k hk segments hfit text htext hq
  obtain ⟨⟨d, e, h⟩, d', e', h'⟩ := default_decoder_decodes_turned (σ := σ) grayscale source hg img himg hpx hw hh q v h1 h40
    hq.1 hf hal _ ((not_mirrored_iff _).mpr ⟨t, rfl⟩) m ox oy hm hd hz hs hn
  exact ⟨⟨d, e, h _ (Or.inl ⟨text, t1, rfl⟩)⟩, info, i1, i2, i3, d', e', h' _ (Or.inl ⟨(text, info), t2, rfl⟩)⟩

theorem scaled_turned (ρ : Orientation) (v m ox oy : Nat) :
    scaled m (turnedFinders ρ v 1 ox oy) = turnedFinders ρ v m (ox * m) (oy * m) := by
  unfold scaled turnedFinders
  rw [List.map_map]
  apply List.map_congr_left
  rintro ⟨a, b⟩ -
  cases a <;> cases b <;> simp [cornerFinder, Nat.add_mul]

theorem enlarged_drawnAs {img g : GrayImage} {m : Nat} (he : Enlarged img g m) (hm : 0 < m) (hv : img.Valid) (hg : g.Valid)
    {q : QRData} {ρ : Orientation} {ox oy : Nat} (h : DrawnAs g q ρ 1 ox oy) : DrawnAs img q ρ m (ox * m) (oy * m) := by
  obtain ⟨h1, h2, h3⟩ := h
  have hw : ox * m + q.side * m ≤ img.width := by
    rw [he.1, ← Nat.add_mul]; exact Nat.mul_le_mul_right _ (by omega)
  have hh : oy * m + q.side * m ≤ img.height := by
    rw [he.2.1, ← Nat.add_mul]; exact Nat.mul_le_mul_right _ (by omega)
  refine ⟨hw, hh, ?_⟩
  intro i hi j hj a ha b hb
  have hr : ρ.row q.side i j < q.side := Extractor.row_lt hi hj
  have hc : ρ.column q.side i j < q.side := Extractor.column_lt hi hj
  have hi' : (ρ.row q.side i j + 1) * m ≤ q.side * m := Nat.mul_le_mul_right _ hr
  have hj' : (ρ.column q.side i j + 1) * m ≤ q.side * m := Nat.mul_le_mul_right _ hc
  rw [Nat.succ_mul] at hi' hj'
  rw [pixel_of_grey hv (by omega) (by omega), he.2.2 _ (by omega) _ (by omega), ← Nat.add_mul, ← Nat.add_mul,
    block_div _ ha, block_div _ hb, ← h3 i hi j hj 0 (by omega) 0 (by omega)]
  simp only [Nat.mul_one, Nat.add_zero]
  rw [pixel_of_grey hg (by omega) (by omega)]

/-- The default decoders read a grid shown in any of the four turns by an image that is, after thresholding, an
enlargement of it. -/
theorem default_decoder_decodes_shown_turned (grayscale : IMG → GrayImage) (source : IMG) (hsrc : (grayscale source).Valid)
    (g : GrayImage) (hg : g.Valid) (m : Nat) (hm : 2 ≤ m)
    (he : Enlarged (thresholded 5 7 (grayscale source)) g m) (hv : (thresholded 5 7 (grayscale source)).Valid)
    (hpx : g.width * m * (g.height * m) ≤ 2 ^ 36) (hw : g.width * m ≤ 2 ^ 20)
    (hh : g.height * m ≤ 2 ^ 20) (q : QRData) (v : Nat) (h1 : 1 ≤ v) (h40 : v ≤ 40) (hq : WellFormed q v) (hf : HasFinders q)
    (hal : 2 ≤ v → HasAlignment q) (ρ : Orientation) (hρ : ¬ ρ.Mirrored) (ox oy : Nat) (hd : DrawnAs g q ρ 1 ox oy)
    (hz : QuietZone g q.side 1 ox oy)
    (hs : ∀ y < g.height, SteadyRow g g.width y) (hn : NeverOthers g (turnedFinders ρ v 1 ox oy)) :
    (∃ d : Decoder σ IMG GrayImage QRLocation QRData (List Char), defaultDecoder grayscale = .ret d ∧
      ∀ r, Gives (qrDecode (.ok q)) r → ∀ s, d.decode source s = .ret ([r], s)) ∧
    ∃ d : Decoder σ IMG GrayImage QRLocation QRData (List Char × QRInfo), defaultDecoderWithInfo grayscale = .ret d ∧
      ∀ r, Gives (qrDecodeWithInfo (.ok q)) r → ∀ s, d.decode source s = .ret ([r], s) := by
  have hm0 : 0 < m := by omega
  have hclean := turned_clean (m := 1) (by omega) hq.2.1 hd hf hz
  refine default_decoder_decodes_turned grayscale source hsrc _ rfl (by rw [he.1, he.2.1]; exact hpx)
    (by rw [he.1]; exact hw) (by rw [he.2.1]; exact hh) q v h1 h40 hq hf hal ρ hρ m (ox * m)
    (oy * m) (by omega) (enlarged_drawnAs he hm0 hv hg hd) (enlarged_quiet he hm0 hz) ?_ ?_
  · intro y hy
    exact enlarged_steady he hm0 hy (hs _ ((Nat.div_lt_iff_lt_mul hm0).mpr (by rw [← he.2.1]; exact hy)))
  · rw [← scaled_turned]
    refine enlarged_no_others he (by omega) ?_ hn
    intro f hf'
    have := (hclean f (mem_turnedFinders hf')).1
    omega

/-- **C69 (at every size).** As C67 and C68, for a grid shown in any of the four turns. -/
theorem default_decoder_decodes_enlarged_turned (grayscale : IMG → GrayImage) (source : IMG) (hsrc : (grayscale source).Valid)
    (g : GrayImage) (hg : g.Valid) (m : Nat) (hm : Legible g m) (hc : CrispEnlargement (grayscale source) g m)
    (hpx : g.width * m * (g.height * m) ≤ 2 ^ 36) (hw : g.width * m ≤ 2 ^ 20)
    (hh : g.height * m ≤ 2 ^ 20) (q : QRData) (v : Nat) (h1 : 1 ≤ v) (h40 : v ≤ 40) (hq : WellFormed q v) (hf : HasFinders q)
    (hal : 2 ≤ v → HasAlignment q) (ρ : Orientation) (hρ : ¬ ρ.Mirrored) (ox oy : Nat) (hd : DrawnAs g q ρ 1 ox oy)
    (hz : QuietZone g q.side 1 ox oy)
    (hs : ∀ y < g.height, SteadyRow g g.width y) (hn : NeverOthers g (turnedFinders ρ v 1 ox oy)) :
    (∃ d : Decoder σ IMG GrayImage QRLocation QRData (List Char), defaultDecoder grayscale = .ret d ∧
      ∀ r, Gives (qrDecode (.ok q)) r → ∀ s, d.decode source s = .ret ([r], s)) ∧
    ∃ d : Decoder σ IMG GrayImage QRLocation QRData (List Char × QRInfo), defaultDecoderWithInfo grayscale = .ret d ∧
      ∀ r, Gives (qrDecodeWithInfo (.ok q)) r → ∀ s, d.decode source s = .ret ([r], s) := by
  obtain ⟨he, hv⟩ := crisp_enlargement hc hsrc hm
  exact default_decoder_decodes_shown_turned grayscale source hsrc g hg m hm.le he hv hpx hw hh q v h1 h40 hq hf hal ρ hρ
    ox oy hd hz hs hn

end Verif.Props
