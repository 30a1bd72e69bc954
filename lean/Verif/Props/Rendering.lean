import Verif.Props.Extract
import Verif.Lemmas.Alignment
import Verif.Props.Decoder
import Verif.Lemmas.Picture

/-!
# C54, C60: extracting upright pictures
-/
namespace Verif.Props
open Verif Verif.Spec F64 Extractor

/-- The perspective of a drawn symbol. -/
theorem perspective_drawn {img : GrayImage} (hv : img.Valid) {q : QRData} {ρ : Orientation} {m ox oy : Nat} {tl tr bl shift : Pt}
    {ε : ℚ} (H : AlignSetup img q ρ m ox oy tl tr bl shift ε) {loc : QRLocation} (hle : LocExact loc tl tr bl)
    (hver : loc.version ≠ 1) :
    ∃ p, determinePerspective img loc.version q.side loc = .ok p ∧
      p.dx = (loc.top_right - loc.top_left) / F64.ofNat (q.side - 7) ∧
      p.dy = (loc.bottom_left - loc.top_left) / F64.ofNat (q.side - 7) ∧ p.ddy = Delta.zero ∧
      DNear p.ddx (bendQ q.side tl tr bl (some (alignCentre ρ q.side m ox oy))) (3 * ηQ) := by
  have hlo := H.lo
  have hhi := H.hi
  have ndx := step_near (by omega) hhi hle.near_tl hle.near_tr hle.tl_small hle.tr_small
  have ndy := step_near (by omega) hhi hle.near_tl hle.near_bl hle.tl_small hle.bl_small
  have hest := estimate_near (by omega) hhi hle ndx ndy
  have hη := ηQ_val
  unfold determinePerspective
  simp only
  rw [if_neg hver]
  obtain ⟨rest, hr⟩ := attempts_head (estimate loc ((loc.top_right - loc.top_left) / F64.ofNat (q.side - 7))
    ((loc.bottom_left - loc.top_left) / F64.ofNat (q.side - 7)) q.side)
    ((loc.top_right - loc.top_left) / F64.ofNat (q.side - 7))
    ((loc.bottom_left - loc.top_left) / F64.ofNat (q.side - 7))
  rw [hr]
  unfold findAlignment
  rw [align_search H hest ndx ndy scale_one, Run.ret_bind, if_pos rfl]
  simp only [Run.pure_eq]
  rw [center_drawn hv H (hest.mono (by rw [hη]; norm_num))]
  have hsq : mulU32 (q.side - 10) (q.side - 10) = .ret ((q.side - 10) * (q.side - 10)) := by
    unfold mulU32
    rw [if_pos]
    have : (q.side - 10) * (q.side - 10) ≤ 167 * 167 := Nat.mul_le_mul (by omega) (by omega)
    omega
  simp only
  rw [hsq]
  have ham : mag (alignCentre ρ q.side m ox oy) ≤ WQ := by
    have hm : (1 : ℚ) ≤ m := by exact_mod_cast H.module
    have key : ∀ o k n : Nat, o + k * m + m ≤ n → n ≤ 2 ^ 20 →
        |moduleCentre m o k| ≤ 2 ^ 20 := by
      intro o k n h1 h2
      have h1' : (o : ℚ) + (k : ℚ) * m + m ≤ n := by exact_mod_cast h1
      have h2' : (n : ℚ) ≤ 2 ^ 20 := by exact_mod_cast h2
      have h3 : (0 : ℚ) ≤ (o : ℚ) + (k : ℚ) * m := by positivity
      unfold moduleCentre
      rw [abs_le]; constructor <;> linarith
    unfold WQ
    exact mag_le (key ox _ _ (drawn_fit H.drawn (column_lt (by omega) (by omega))).1 H.width)
      (key oy _ _ (drawn_fit H.drawn (row_lt (by omega) (by omega))).2 H.height)
  exact ⟨_, rfl, rfl, rfl, rfl, bend_near hlo hhi hle hest ham rfl⟩

/-- Sampling a drawn symbol, given the perspective. -/
theorem sample_drawn {img : GrayImage} {q : QRData} {ρ : Orientation} {m ox oy : Nat} {tl tr bl shift : Pt} {ε : ℚ}
    (hd : DrawnAs img q ρ m ox oy) (hw : img.width ≤ 2 ^ 20) (hh : img.height ≤ 2 ^ 20) (hm : 1 ≤ m)
    (hlo : 21 ≤ q.side) (hhi : q.side ≤ 177) (hlen : q.data.length = q.side * q.side)
    (hc : CentredAs tl tr bl ρ q.side m ox oy shift ε)
    (t1 : 13 / 10 * |shift.1| + 5 * ε + 1 / 20 ≤ m / 2) (t2 : 13 / 10 * |shift.2| + 5 * ε + 1 / 20 ≤ m / 2)
    {loc : QRLocation} (hle : LocExact loc tl tr bl) {p : Perspective} {al : Option Pt}
    (hal : al = none ∨ (25 ≤ q.side ∧ al = some (alignCentre ρ q.side m ox oy)))
    (hdx : p.dx = (loc.top_right - loc.top_left) / F64.ofNat (q.side - 7))
    (hdy : p.dy = (loc.bottom_left - loc.top_left) / F64.ofNat (q.side - 7))
    (hddy : p.ddy = Delta.zero) (hddx : DNear p.ddx (bendQ q.side tl tr bl al) (3 * ηQ))
    (hb : q.side * mag (bendQ q.side tl tr bl al) ≤ 2 / 3 * WQ) :
    sampleRows img p q.side q.side (loc.top_left - F64.lit 3 * p.dy - F64.lit 3 * p.ddy)
      (p.dx - F64.lit 3 * p.ddx) (p.dy - F64.lit 3 * p.ddy) = .ret q.data := by
  refine (sampleRows_iff img p _ _ (_, _, _) q.data).mpr ⟨hlen, ?_⟩
  intro i hi j hj
  have hlt : i * q.side + j < q.data.length := by
    rw [hlen]
    have : (i + 1) * q.side ≤ q.side * q.side := Nat.mul_le_mul_right _ hi
    rw [Nat.succ_mul] at this
    omega
  have hcm := List.getElem?_eq_getElem hlt
  refine ⟨_, hcm, ?_⟩
  obtain ⟨b1, b2⟩ := bilinear_close hlo hc hal hi hj
  exact pixel_in_module hd hw hh hm hi hj (grid_near hlo hhi hle hdx hdy hddy hddx hb hi hj) (by norm_num)
    (by linarith) (by linarith) hcm

/-- **C54, C69.** A picture of a grid in one of the eight axis-parallel positions, with modules of `m` by `m` pixels
anywhere in an image, is extracted exactly, if the location gives the finder centres up to a common displacement and an
individual error with `1.3 * displacement + 5 * error + 0.05` at most half a module. From version 2 on the grid must
have the alignment pattern in the lower right corner. Everything else, inside and outside of the symbol, is arbitrary. -/
theorem positioned_grid_is_extracted (img : GrayImage) (hv : img.Valid) (hw : img.width ≤ 2 ^ 20)
    (hh : img.height ≤ 2 ^ 20) (q : QRData) (v : Nat) (h1 : 1 ≤ v) (h40 : v ≤ 40) (hq : WellFormed q v)
    (hal : 2 ≤ v → HasAlignment q) (ρ : Orientation) (m ox oy : Nat) (hm : 1 ≤ m) (hd : DrawnAs img q ρ m ox oy)
    (loc : QRLocation) (hlv : loc.version = v) (tl tr bl : Pt) (hl : LocatedAtPoints loc tl tr bl)
    (shift : Pt) (ε : ℚ) (hε : 0 ≤ ε) (hc : CentredAs tl tr bl ρ q.side m ox oy shift ε)
    (t1 : 13 / 10 * |shift.1| + 5 * ε + 1 / 20 ≤ m / 2) (t2 : 13 / 10 * |shift.2| + 5 * ε + 1 / 20 ≤ m / 2) :
    extract img loc = .ok q := by
  obtain ⟨w1, w2, w3⟩ := hq
  rw [← w2] at w3
  unfold sideOf at w2
  have hlo : 21 ≤ q.side := by omega
  have hhi : q.side ≤ 177 := by omega
  have hle := hl.exact
  have key : ∃ p, determinePerspective img loc.version q.side loc = .ok p ∧
      sampleRows img p q.side q.side (loc.top_left - F64.lit 3 * p.dy - F64.lit 3 * p.ddy)
      (p.dx - F64.lit 3 * p.ddx) (p.dy - F64.lit 3 * p.ddy) = .ret q.data := by
    by_cases hv1 : loc.version = 1
    · refine ⟨⟨(loc.top_right - loc.top_left) / F64.ofNat (q.side - 7), Delta.zero,
        (loc.bottom_left - loc.top_left) / F64.ofNat (q.side - 7), Delta.zero⟩, ?_, ?_⟩
      · unfold determinePerspective
        simp only
        rw [if_pos hv1]
      · refine sample_drawn hd hw hh hm hlo hhi ?_ hc t1 t2 hle (Or.inl rfl) rfl rfl rfl ?_ ?_
        · exact w3
        · have hη := ηQ_pos
          have z : DNear Delta.zero (0, 0) 0 := by
            unfold Delta.zero DNear
            simp only [lit0]
            exact ⟨near_fin 0, near_fin 0⟩
          exact z.mono (by linarith)
        · have hz : mag (bendQ q.side tl tr bl none) = 0 := by simp [mag, bendQ]
          rw [hz, WQ_val]; norm_num
    · have H : AlignSetup img q ρ m ox oy tl tr bl shift ε :=
        ⟨hd, hw, hh, hm, by omega, hhi, hal (by omega), hc, hε, t1, t2, hle.tl_small, hle.tr_small, hle.bl_small⟩
      obtain ⟨p, hp, p1, p2, p3, p4⟩ := perspective_drawn hv H hle hv1
      refine ⟨p, hp, ?_⟩
      have hm' : (1 : ℚ) ≤ m := by exact_mod_cast hm
      have ham : mag (alignCentre ρ q.side m ox oy) ≤ WQ := by
        have key : ∀ o k n : Nat, o + k * m + m ≤ n → n ≤ 2 ^ 20 →
            |moduleCentre m o k| ≤ 2 ^ 20 := by
          intro o k n h1 h2
          have h1' : (o : ℚ) + (k : ℚ) * m + m ≤ n := by exact_mod_cast h1
          have h2' : (n : ℚ) ≤ 2 ^ 20 := by exact_mod_cast h2
          have h3 : (0 : ℚ) ≤ (o : ℚ) + (k : ℚ) * m := by positivity
          unfold moduleCentre
          rw [abs_le]; constructor <;> linarith
        unfold WQ
        exact mag_le (key ox _ _ (drawn_fit hd (column_lt (by omega) (by omega))).1 hw)
          (key oy _ _ (drawn_fit hd (row_lt (by omega) (by omega))).2 hh)
      exact sample_drawn hd hw hh hm hlo hhi w3 hc t1 t2 hle (Or.inr ⟨by omega, rfl⟩) p1 p2 p3 p4
        (bendQ_small (by omega) hle.tl_small hle.tr_small hle.bl_small ham)
  obtain ⟨p, hp, hs⟩ := key
  unfold extract
  have e1 : mulU32 loc.version 4 = .ret (loc.version * 4) := by
    unfold mulU32; rw [if_pos (by omega)]
  have e2 : addU32 17 (loc.version * 4) = .ret q.side := by
    unfold addU32; rw [if_pos (by omega)]; congr 1; omega
  rw [e1]
  simp only
  rw [e2]
  simp only
  rw [hp]
  simp only
  rw [hs]
  simp only
  unfold QRData.new
  rw [if_pos (by omega)]
  simp only
  congr 1
  cases q
  simp only [QRData.mk.injEq, true_and] at *
  omega

/-- **C54.** An upright picture of a grid, with modules of `m` by `m` pixels anywhere in an image, is extracted
exactly, if the location gives the finder centres up to a common displacement and an individual error with
`1.3 * displacement + 5 * error + 0.05` at most half a module. From version 2 on the grid must have the
alignment pattern in the lower right corner. Everything else, inside and outside of the symbol, is arbitrary. -/
theorem drawn_grid_is_extracted (img : GrayImage) (hv : img.Valid) (hw : img.width ≤ 2 ^ 20)
    (hh : img.height ≤ 2 ^ 20) (q : QRData) (v : Nat) (h1 : 1 ≤ v) (h40 : v ≤ 40) (hq : WellFormed q v)
    (hal : 2 ≤ v → HasAlignment q) (m ox oy : Nat) (hm : 1 ≤ m) (hd : Drawn img q m ox oy)
    (loc : QRLocation) (hlv : loc.version = v) (tl tr bl : Pt) (hl : LocatedAtPoints loc tl tr bl)
    (shift : Pt) (ε : ℚ) (hε : 0 ≤ ε) (hc : Centred tl tr bl q.side m ox oy shift ε)
    (t1 : 13 / 10 * |shift.1| + 5 * ε + 1 / 20 ≤ m / 2) (t2 : 13 / 10 * |shift.2| + 5 * ε + 1 / 20 ≤ m / 2) :
    extract img loc = .ok q :=
  positioned_grid_is_extracted img hv hw hh q v h1 h40 hq hal .upright m ox oy hm hd loc hlv tl tr bl hl shift ε hε hc t1 t2

/-- **C60.** An upright picture of a symbol with segments is extracted and decoded to its text. -/
theorem drawn_symbol_decodes (img : GrayImage) (hv : img.Valid) (hw : img.width ≤ 2 ^ 20)
    (hh : img.height ≤ 2 ^ 20) (q : QRData) (v : Nat) (h1 : 1 ≤ v) (h40 : v ≤ 40) (l : ECLevel) (k : Nat)
    (hk : k < 8) (segments : List Segment) (hfit : ∀ s ∈ segments, s.fits v) (text : List Char)
    (htext : SegmentsText segments text) (hq : IsSymbol q v l k segments)
    (hal : 2 ≤ v → HasAlignment q) (m ox oy : Nat) (hm : 1 ≤ m) (hd : Drawn img q m ox oy)
    (loc : QRLocation) (hlv : loc.version = v) (tl tr bl : Pt) (hl : LocatedAtPoints loc tl tr bl)
    (shift : Pt) (ε : ℚ) (hε : 0 ≤ ε) (hc : Centred tl tr bl q.side m ox oy shift ε)
    (t1 : 13 / 10 * |shift.1| + 5 * ε + 1 / 20 ≤ m / 2) (t2 : 13 / 10 * |shift.2| + 5 * ε + 1 / 20 ≤ m / 2) :
    ∃ grid, extract img loc = .ok grid ∧ qrDecode (.ok grid) = .ok text := by
  refine ⟨q, drawn_grid_is_extracted img hv hw hh q v h1 h40 hq.1 hal m ox oy hm hd loc hlv tl tr bl hl shift ε hε hc t1 t2, ?_⟩
  exact (symbol_decodes q v h1 h40 l k hk segments hfit text htext hq).1

/-- The location of a grid in its picture. -/
def exactLocation (q : QRData) (m b : Nat) : QRLocation :=
  let c := exactCentres q.side m b
  ⟨⟨.fin c.1.1, .fin c.1.2⟩, ⟨.fin c.2.1.1, .fin c.2.1.2⟩, ⟨.fin c.2.2.1, .fin c.2.2.2⟩, .fin m, q.version⟩

theorem exactLocation_located {q : QRData} (hs : 21 ≤ q.side) {m b : Nat} (hm : 1 ≤ m) (hb : q.side * m + 2 * b ≤ 2 ^ 20) :
    LocatedAtPoints (exactLocation q m b) (exactCentres q.side m b).1 (exactCentres q.side m b).2.1
      (exactCentres q.side m b).2.2 := by
  refine ⟨rfl, rfl, rfl, ?_⟩
  have hm' : (1 : ℚ) ≤ m := by exact_mod_cast hm
  have key : ∀ k, k < q.side → |moduleCentre m b k| ≤ 2 ^ 20 := by
    intro k hk
    have h1 : (k + 1) * m ≤ q.side * m := Nat.mul_le_mul_right _ hk
    rw [Nat.succ_mul] at h1
    have h2 : b + k * m + m ≤ 2 ^ 20 := by omega
    have h2' : (b : ℚ) + k * m + m ≤ 2 ^ 20 := by exact_mod_cast h2
    have h3 : (0 : ℚ) ≤ (b : ℚ) + k * m := by positivity
    unfold moduleCentre
    rw [abs_le]; constructor <;> linarith
  intro p hp
  simp only [List.mem_cons, List.not_mem_nil, or_false] at hp
  rcases hp with rfl | rfl | rfl
  · exact ⟨key 3 (by omega), key 3 (by omega)⟩
  · exact ⟨key _ (by omega), key 3 (by omega)⟩
  · exact ⟨key 3 (by omega), key _ (by omega)⟩

/-- C54 for the picture of a grid and its exact location: the hypotheses of `drawn_grid_is_extracted` hold. -/
theorem picture_is_extracted (q : QRData) (v : Nat) (h1 : 1 ≤ v) (h40 : v ≤ 40) (hq : WellFormed q v)
    (hal : 2 ≤ v → HasAlignment q) (m b : Nat) (hm : 1 ≤ m) (hb : q.side * m + 2 * b ≤ 2 ^ 20) :
    extract (picture q m b) (exactLocation q m b) = .ok q := by
  have hm' : (1 : ℚ) ≤ m := by exact_mod_cast hm
  have hs : 21 ≤ q.side := by rw [hq.2.1]; unfold sideOf; omega
  refine drawn_grid_is_extracted _ (picture_valid (by omega)) hb hb q v h1 h40 hq hal m b b hm
    (picture_drawn (by rw [hq.2.2, hq.2.1]) hm) _ hq.1 _ _ _ (exactLocation_located hs hm hb) (0, 0) 0 (le_refl 0)
    ⟨⟨?_, ?_⟩, ⟨?_, ?_⟩, ⟨?_, ?_⟩⟩ ?_ ?_
  all_goals simp only [exactCentres, add_zero, sub_self, abs_zero, le_refl, mul_zero]
  all_goals linarith

/-- C60 for the picture of an encoded symbol with its function patterns: every text that fits the symbol, in
every version, level and mask, drawn at any size, is extracted and decoded. -/
theorem picture_of_text_decodes (v : Nat) (h1 : 1 ≤ v) (h40 : v ≤ 40) (l : ECLevel) (k : Nat) (hk : k < 8)
    (segments : List Segment) (hfit : ∀ s ∈ segments, s.fits v) (text : List Char)
    (htext : SegmentsText segments text) (hcap : (segments.flatMap (·.bits v)).length ≤ 8 * dataCapacity v l)
    (m b : Nat) (hm : 1 ≤ m) (hb : sideOf v * m + 2 * b ≤ 2 ^ 20) :
    ∃ grid, extract (picture (encode v l k segments (functionPatterns v)) m b)
        (exactLocation (encode v l k segments (functionPatterns v)) m b) = .ok grid ∧
      qrDecode (.ok grid) = .ok text := by
  refine ⟨_, picture_is_extracted _ v h1 h40 ?_ ?_ m b hm hb, ?_⟩
  · exact (encode_isSymbol v h1 h40 l k segments hcap (functionPatterns v)).1
  · intro h2
    exact encode_alignment h2 h40 l k segments (functionPatterns_alignment v h2 h40)
  · exact encode_decode v h1 h40 l k hk segments hfit text htext hcap _

end Verif.Props
