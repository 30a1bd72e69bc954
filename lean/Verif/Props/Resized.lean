import Verif.Lemmas.ResizeQr
import Verif.Lemmas.Crisp
import Verif.Props.Tilted

/-!
# C83: symbols resized by any factor are located and read
-/
namespace Verif.Props
open Verif Verif.Spec F64 LineScan

/-- The coordinate of the centre of a finder pattern whose first module is the `f`th of `n`, in an image of `w` pixels.
Pixel centres have integer coordinates. -/
def resizedCentre (n w f : Nat) : ℚ := ((f : ℚ) + 7 / 2) * ((w : ℚ) / n) - 1 / 2

/-- The point is up to 1.01 pixels to the right or to the left and up to two and a half pixels above or below the centre of
a finder pattern whose first module is `f`. -/
def NearFinder (n w : Nat) (f : Nat × Nat) (p : Pt) : Prop :=
  |p.1 - resizedCentre n w f.1| ≤ 101 / 100 ∧ |p.2 - resizedCentre n w f.2| ≤ 5 / 2

theorem nearFinder_of {n w fx fy : Nat} {p : Pt} (h : NearMiddle ((w : ℚ) / n) fx fy p) : NearFinder n w (fx, fy) p := by
  obtain ⟨h1, h2, h3, h4⟩ := h
  unfold NearFinder resizedCentre
  rw [abs_le, abs_le]
  constructor <;> constructor <;> simp only <;> linarith

/-- **C83.** A symbol in a square image, one pixel per module, with nothing else that looks like a finder pattern, is
located when the image is resized by nearest neighbour to any number of pixels, from eight and half the version pixels
per module: there is one location, of the right version, with the centres of its finder patterns. -/
theorem resized_symbol_is_located (img g : GrayImage) (hv : img.Valid) (n w : Nat) (hgw : g.width = n) (hgh : g.height = n)
    (hiw : img.width = w) (hih : img.height = w) (hr : Resized img g) (hb : w < 2 ^ 26) (q : QRData) (v : Nat) (h1 : 1 ≤ v)
    (hq : WellFormed q v) (hf : HasFinders q) (hs : (v + 16) * n ≤ 2 * w) (ox oy : Nat) (hx : 1 ≤ ox) (hy : 1 ≤ oy)
    (hd : Drawn g q 1 ox oy) (hz : QuietZone g q.side 1 ox oy) (hc : CalmRows g)
    (ha : NothingAlike g (symbolFinders v 1 ox oy)) :
    ∃ (loc : QRLocation) (tl tr bl : Pt), detect img = .ret [loc] ∧ loc.version = v ∧
      loc.top_left = ⟨.fin tl.1, .fin tl.2⟩ ∧ loc.top_right = ⟨.fin tr.1, .fin tr.2⟩ ∧
      loc.bottom_left = ⟨.fin bl.1, .fin bl.2⟩ ∧
      NearFinder n w (ox, oy) tl ∧ NearFinder n w (ox + (4 * v + 10), oy) tr ∧ NearFinder n w (ox, oy + (4 * v + 10)) bl := by
  have hside : q.side = 4 * v + 17 := hq.2.1
  have z1 := hz.1
  have z2 := hz.2.1
  have hn : 0 < n := by omega
  have h17 : 17 * n ≤ (v + 16) * n := Nat.mul_le_mul_right _ (by omega)
  have sq : Square img g n w := ⟨hn, by omega, hgw, hgh, hiw, hih, hr⟩
  obtain ⟨tl, tr, bl, μ, e, n1, n2, n3, -, -⟩ := sq.located hv hb h1 hs hx hy (by omega) (by omega)
    (drawn_clean (by omega) hq.2.1 hd hf hz) hc ha
  exact ⟨_, tl, tr, bl, e, rfl, rfl, rfl, rfl, nearFinder_of n1, nearFinder_of n2, nearFinder_of n3⟩

/-! ### Reading -/

section
variable {img g : GrayImage} {n w : Nat}

/-- A pixel in the symbol along one axis. -/
theorem axis_shown (hn : 0 < n) (hw : 0 < w) {z o s : Nat} {c : ℝ}
    (hc : (z : ℝ) = ((o : ℝ) + 1 / 2) * ((w : ℝ) / n) - 1 / 2 - 1 / (4 * n) + (w : ℝ) / n * c) (c1 : -(1 / 2) ≤ c)
    (c2 : c ≤ s - 1 / 2) :
    o ≤ moduleOf n w z ∧ moduleOf n w z < o + s ∧ |c - ((moduleOf n w z - o : Nat) : ℝ)| ≤ 1 / 2 := by
  have n0 : (0 : ℝ) < n := by exact_mod_cast hn
  have w0 : (0 : ℝ) < w := by exact_mod_cast hw
  have l : 2 * w * moduleOf n w z ≤ (2 * z + 1) * n := Nat.mul_div_le _ _
  have r : (2 * z + 1) * n + 1 ≤ 2 * w * moduleOf n w z + 2 * w := Nat.lt_mul_div_succ _ (by omega)
  have l' : (2 : ℝ) * w * moduleOf n w z ≤ (2 * z + 1) * n := by exact_mod_cast l
  have r' : ((2 : ℝ) * z + 1) * n + 1 ≤ 2 * w * moduleOf n w z + 2 * w := by exact_mod_cast r
  have key : ((2 : ℝ) * z + 1) * n = 2 * w * (o + 1 / 2 + c) - 1 / 2 := by
    rw [hc]; field_simp; ring
  rw [key] at l' r'
  obtain ⟨u, hu⟩ : ∃ u, u = moduleOf n w z := ⟨_, rfl⟩
  rw [← hu] at l' r' ⊢
  have k1 : (u : ℝ) < o + 1 / 2 + c := by
    by_contra hcon
    have : (2 : ℝ) * w * (o + 1 / 2 + c) ≤ 2 * w * u := mul_le_mul_of_nonneg_left (not_lt.mp hcon) (by positivity)
    linarith
  have k2 : (o : ℝ) + 1 / 2 + c < u + 1 := by
    by_contra hcon
    have : (2 : ℝ) * w * (u + 1) ≤ 2 * w * (o + 1 / 2 + c) := mul_le_mul_of_nonneg_left (not_lt.mp hcon) (by positivity)
    linarith
  have k3 : o ≤ u := by
    have : (o : ℝ) < u + 1 := by linarith
    have : o < u + 1 := by exact_mod_cast this
    omega
  have k4 : u < o + s := by
    have : (u : ℝ) < o + s := by linarith
    exact_mod_cast this
  refine ⟨k3, k4, ?_⟩
  rw [Nat.cast_sub k3, abs_le]
  constructor <;> linarith

/-- The centre of the first module, a little to the upper left. -/
noncomputable def resizedPlace (n w ox oy : Nat) : ℝ × ℝ :=
  (((ox : ℝ) + 1 / 2) * ((w : ℝ) / n) - 1 / 2 - 1 / (4 * n), ((oy : ℝ) + 1 / 2) * ((w : ℝ) / n) - 1 / 2 - 1 / (4 * n))

theorem resized_shown (h : Square img g n w) (hv : img.Valid) {q : QRData} {v ox oy : Nat} (hq : WellFormed q v)
    (hd : Drawn g q 1 ox oy) : ShownTilted img q (resizedPlace n w ox oy) ((w : ℝ) / n) 0 := by
  intro x hx y hy a b hp a1 a2 b1 b2
  unfold tiltedPlace resizedPlace at hp
  simp only [Real.cos_zero, Real.sin_zero, mul_one, mul_zero, sub_zero, zero_add, Prod.mk.injEq] at hp
  obtain ⟨p1, p2⟩ := hp
  obtain ⟨c1, c2, c3⟩ := axis_shown h.pos h.w0 p1 b1 b2
  obtain ⟨r1, r2, r3⟩ := axis_shown h.pos h.w0 p2 a1 a2
  refine ⟨moduleOf n w y - oy, by omega, moduleOf n w x - ox, by omega, r3, c3, ?_⟩
  have e := h.grey (x := x) (y := y) (by rw [← h.iw]; exact hx) (by rw [← h.ih]; exact hy)
  have d := hd.2.2 (moduleOf n w y - oy) (by omega) (moduleOf n w x - ox) (by omega) 0 (by omega) 0 (by omega)
  rw [show oy + (moduleOf n w y - oy) * 1 + 0 = moduleOf n w y by omega,
    show ox + (moduleOf n w x - ox) * 1 + 0 = moduleOf n w x by omega] at d
  rw [← d]
  have hi : y * img.width + x < img.pixels.length := by
    rw [hv.1]
    calc y * img.width + x < y * img.width + img.width := by omega
      _ = (y + 1) * img.width := by ring
      _ ≤ img.height * img.width := Nat.mul_le_mul_right _ hy
      _ = img.width * img.height := Nat.mul_comm _ _
  have hj : (moduleOf n w y - oy) * q.side + (moduleOf n w x - ox) < q.data.length := by
    have h' : q.data.length = q.side * q.side := by rw [hq.2.2, hq.2.1]
    rw [h']
    have : (moduleOf n w y - oy + 1) * q.side ≤ q.side * q.side := Nat.mul_le_mul_right _ (by omega)
    rw [Nat.add_mul, Nat.one_mul] at this
    omega
  rw [List.getElem?_eq_getElem hj] at d
  rw [List.getElem?_eq_getElem hi, d]
  unfold Spec.grey at e
  rw [List.getD_eq_getElem?_getD, List.getD_eq_getElem?_getD, d, List.getElem?_eq_getElem hi, Option.getD_some,
    Option.getD_some, BitVec.toNat_inj] at e
  rw [e]

theorem resized_inside (h : Square img g n w) {side ox oy : Nat} (hx : 1 ≤ ox) (hy : 1 ≤ oy) (hx' : ox + side + 1 ≤ n)
    (hy' : oy + side + 1 ≤ n) : TiltedInside img side (resizedPlace n w ox oy) ((w : ℝ) / n) 0 := by
  have n0 : (0 : ℝ) < n := by exact_mod_cast h.pos
  have n1 : (1 : ℝ) ≤ n := by exact_mod_cast h.pos
  have big : (8 : ℝ) ≤ (w : ℝ) / n := by
    rw [le_div_iff₀ n0]; exact_mod_cast h.size
  have hw : (w : ℝ) = (w : ℝ) / n * n := by field_simp
  have t0 : (0 : ℝ) < 1 / (4 * n) := by positivity
  have t1 : (1 : ℝ) / (4 * n) ≤ 1 / 4 := by
    rw [div_le_div_iff₀ (by positivity) (by norm_num)]; linarith
  have axis : ∀ o : Nat, 1 ≤ o → o + side + 1 ≤ n → ∀ c : ℝ, -(1 / 2) ≤ c → c ≤ side - 1 / 2 →
      1 / 50 ≤ ((o : ℝ) + 1 / 2) * ((w : ℝ) / n) - 1 / 2 - 1 / (4 * n) + (w : ℝ) / n * c ∧
      ((o : ℝ) + 1 / 2) * ((w : ℝ) / n) - 1 / 2 - 1 / (4 * n) + (w : ℝ) / n * c ≤ w - 1 / 2 - 1 / 50 := by
    intro o o1 o2 c c1 c2
    have o1' : (1 : ℝ) ≤ o := by exact_mod_cast o1
    have o2' : (o : ℝ) + side + 1 ≤ n := by exact_mod_cast o2
    have e : ((o : ℝ) + 1 / 2) * ((w : ℝ) / n) - 1 / 2 - 1 / (4 * n) + (w : ℝ) / n * c =
        (w : ℝ) / n * (o + 1 / 2 + c) - 1 / 2 - 1 / (4 * n) := by ring
    rw [e]
    have k1 : (w : ℝ) / n * 1 ≤ (w : ℝ) / n * (o + 1 / 2 + c) := mul_le_mul_of_nonneg_left (by linarith) (by linarith)
    have k2 : (w : ℝ) / n * (o + 1 / 2 + c) ≤ (w : ℝ) / n * (n - 1) := mul_le_mul_of_nonneg_left (by linarith) (by linarith)
    have k3 : (w : ℝ) / n * (n - 1) = w - (w : ℝ) / n := by rw [mul_sub, ← hw, mul_one]
    constructor <;> linarith
  intro a b a1 a2 b1 b2
  unfold tiltedPlace resizedPlace
  simp only [Real.cos_zero, Real.sin_zero, mul_one, mul_zero, sub_zero, zero_add]
  rw [h.iw, h.ih]
  exact ⟨axis ox hx hx' b b1 b2, axis oy hy hy' a a1 a2⟩

theorem resized_centres (hn : 0 < n) {v ox oy : Nat} {tl tr bl : Pt} (n1 : NearMiddle ((w : ℚ) / n) ox oy tl)
    (n2 : NearMiddle ((w : ℚ) / n) (ox + (4 * v + 10)) oy tr) (n3 : NearMiddle ((w : ℚ) / n) ox (oy + (4 * v + 10)) bl) :
    TiltedCentres (sideOf v) tl tr bl (resizedPlace n w ox oy) ((w : ℝ) / n) 0 (1 / 2) 2 := by
  have n0 : (0 : ℝ) < n := by exact_mod_cast hn
  have n1' : (1 : ℝ) ≤ n := by exact_mod_cast hn
  have t0 : (0 : ℝ) < 1 / (4 * n) := by positivity
  have t1 : (1 : ℝ) / (4 * n) ≤ 1 / 4 := by
    rw [div_le_div_iff₀ (by positivity) (by norm_num)]; linarith
  have real : ∀ {fx fy : Nat} {p : Pt}, NearMiddle ((w : ℚ) / n) fx fy p →
      ((fx : ℝ) + 7 / 2) * ((w : ℝ) / n) - 51 / 100 ≤ (p.1 : ℝ) ∧ (p.1 : ℝ) ≤ ((fx : ℝ) + 7 / 2) * ((w : ℝ) / n) + 51 / 100 ∧
      ((fy : ℝ) + 7 / 2) * ((w : ℝ) / n) - 3 ≤ (p.2 : ℝ) ∧ (p.2 : ℝ) ≤ ((fy : ℝ) + 7 / 2) * ((w : ℝ) / n) + 1 := by
    intro fx fy p hp
    obtain ⟨h1, h2, h3, h4⟩ := hp
    have h1 := (Rat.cast_le (K := ℝ)).mpr h1
    have h2 := (Rat.cast_le (K := ℝ)).mpr h2
    have h3 := (Rat.cast_le (K := ℝ)).mpr h3
    have h4 := (Rat.cast_le (K := ℝ)).mpr h4
    push_cast at h1 h2 h3 h4
    exact ⟨h1, h2, h3, h4⟩
  have m1 := real n1
  have m2 := real n2
  have m3 := real n3
  have hside : ((sideOf v : Nat) : ℝ) = 4 * v + 17 := by unfold sideOf; push_cast; ring
  push_cast at m2 m3
  refine ⟨(1 / 2, -(1 / 2) + 1 / (4 * n)), ?_, ?_, ?_, ?_, ?_⟩
  · rw [abs_le]; constructor <;> norm_num
  · rw [abs_le]; constructor <;> simp only <;> linarith
  all_goals
    unfold CloseTo tiltedPlace resizedPlace
    simp only [Real.cos_zero, Real.sin_zero, mul_one, mul_zero, sub_zero, zero_add, Prod.fst_add, Prod.snd_add, hside]
    generalize (1 : ℝ) / (4 * n) = t at *
    generalize (w : ℝ) / n = m at *
    rw [abs_le, abs_le]
    refine ⟨⟨?_, ?_⟩, ?_, ?_⟩ <;> linarith

/-- Five columns of the module of column `x`, in the window that decides about `x`. -/
theorem five_columns (h : Square img g n w) (h17 : 17 * n ≤ w) {x : Nat} (hx : x < w) :
    ∃ s, ∀ i < 5, s + i < w ∧ moduleOf n w (s + i) = moduleOf n w x ∧ nearBlock (w / 5) 3 (x / 5) ((s + i) / 5) = true := by
  have b17 : 17 ≤ w / n := (Nat.le_div_iff_mul_le h.pos).mpr h17
  obtain ⟨u, hu⟩ : ∃ u, u = moduleOf n w x := ⟨_, rfl⟩
  have e1 := (h.from x u).mp (le_of_eq hu)
  have e2 := (h.below x (u + 1)).mp (by omega)
  have e3 := h.next u
  have e4 : edge n w (u + 1) ≤ w := by
    have := h.inside hx
    have k := edge_mono (w := w) h.pos (show u + 1 ≤ n by omega)
    rwa [edge_full h.pos] at k
  have same : ∀ i, edge n w u ≤ i → i < edge n w (u + 1) → moduleOf n w i = moduleOf n w x := by
    intro i i1 i2
    have k1 := (h.from i u).mpr i1
    have k2 := (h.below i (u + 1)).mpr i2
    omega
  unfold nearBlock
  simp only [Bool.and_eq_true, decide_eq_true_eq]
  generalize edge n w u = A at *
  generalize edge n w (u + 1) = B at *
  generalize w / n = c at *
  by_cases hfar : A + 8 ≤ x
  · refine ⟨x - 8, ?_⟩
    intro i hi
    refine ⟨by omega, same _ (by omega) (by omega), ?_⟩
    omega
  · refine ⟨x, ?_⟩
    intro i hi
    refine ⟨by omega, same _ (by omega) (by omega), ?_⟩
    omega

/-- A crisp resized image is thresholded to itself. -/
theorem resized_threshold (h : Square img g n w) (h17 : 17 * n ≤ w) {src : GrayImage} (hc : Crisp src img) (hv : img.Valid) :
    thresholded 5 7 src = img := by
  refine crisp_threshold_of hc hv ?_
  intro x hx y hy
  rw [h.iw] at hx
  rw [h.ih] at hy
  obtain ⟨s, hs⟩ := five_columns h h17 hx
  obtain ⟨t, ht⟩ := five_columns h h17 hy
  refine ⟨(positions 5 5).map fun p => (s + p.1, t + p.2), by rw [List.length_map]; decide, ?_, ?_, ?_⟩
  · refine (positions_nodup 5 5).map ?_
    rintro ⟨a, b⟩ ⟨c, d⟩ e
    simp only [Prod.mk.injEq] at e
    rw [Prod.mk.injEq]; omega
  · intro p hp
    obtain ⟨⟨a, b⟩, hab, rfl⟩ := List.mem_map.mp hp
    rw [BlockedMean.mem_positions] at hab
    obtain ⟨s1, s2, s3⟩ := hs a hab.1
    obtain ⟨t1, t2, t3⟩ := ht b hab.2
    unfold window
    rw [List.mem_filter, BlockedMean.mem_positions, hc.1, hc.2.1, h.iw, h.ih]
    refine ⟨⟨s1, t1⟩, ?_⟩
    rw [Bool.and_eq_true]
    exact ⟨s3, t3⟩
  · intro p hp
    obtain ⟨⟨a, b⟩, hab, rfl⟩ := List.mem_map.mp hp
    rw [BlockedMean.mem_positions] at hab
    obtain ⟨s1, s2, -⟩ := hs a hab.1
    obtain ⟨t1, t2, -⟩ := ht b hab.2
    simp only
    rw [h.iw, h.ih]
    refine ⟨s1, t1, ?_⟩
    rw [h.grey s1 t1, h.grey hx hy, s2, t2]

end

/-- **C83.** An image of a symbol that was resized by nearest neighbour to any number of pixels, 27 per module for version
1 and 66 for the others or more, not only whole ones, is read by the default decoders: the text is the only result. -/
theorem resized_symbol_is_read (grayscale : IMG → GrayImage) (source : IMG) (hg : (grayscale source).Valid)
    (img g : GrayImage) (hv : img.Valid) (hcr : Crisp (grayscale source) img) (n w : Nat) (hgw : g.width = n) (hgh : g.height = n)
    (hiw : img.width = w) (hih : img.height = w) (hr : Resized img g) (hb : w ≤ 2 ^ 18) (q : QRData) (v : Nat) (h1 : 1 ≤ v)
    (h40 : v ≤ 40) (l : ECLevel) (k : Nat) (hk : k < 8) (segments : List Segment) (hfit : ∀ s ∈ segments, s.fits v)
    (text : List Char) (htext : SegmentsText segments text) (hq : IsSymbol q v l k segments) (hf : HasFinders q)
    (hal : 2 ≤ v → HasAlignment q) (hs1 : 27 * n ≤ w) (hs2 : 2 ≤ v → 66 * n ≤ w) (ox oy : Nat) (hx : 1 ≤ ox) (hy : 1 ≤ oy)
    (hd : Drawn g q 1 ox oy) (hz : QuietZone g q.side 1 ox oy) (hc : CalmRows g)
    (ha : NothingAlike g (symbolFinders v 1 ox oy)) :
    (∃ d : Decoder σ IMG GrayImage QRLocation QRData (List Char), defaultDecoder grayscale = .ret d ∧
      ∀ s, d.decode source s = .ret ([.ok text], s)) ∧
    ∃ info, info.version = v ∧ info.ecLevel = l ∧ info.errors = 0 ∧
      ∃ d : Decoder σ IMG GrayImage QRLocation QRData (List Char × QRInfo), defaultDecoderWithInfo grayscale = .ret d ∧
        ∀ s, d.decode source s = .ret ([.ok (text, info)], s) := by
  have hside : q.side = 4 * v + 17 := hq.1.2.1
  have z1 := hz.1
  have z2 := hz.2.1
  have hn : 0 < n := by omega
  have sq : Square img g n w := ⟨hn, by omega, hgw, hgh, hiw, hih, hr⟩
  have hs : (v + 16) * n ≤ 2 * w := by
    by_cases h2 : 2 ≤ v
    · have := hs2 h2
      have : (v + 16) * n ≤ 56 * n := Nat.mul_le_mul_right _ (by omega)
      omega
    · have : v = 1 := by omega
      subst this
      omega
  obtain ⟨tl, tr, bl, μ, e, n1, n2, n3, -, -⟩ := sq.located hv (by omega) h1 hs hx hy (by omega) (by omega)
    (drawn_clean (by omega) hq.1.2.1 hd hf hz) hc ha
  have n0 : (0 : ℝ) < n := by exact_mod_cast hn
  have hm1 : 3 / 2 + 3 * (1 / 2) + 12 * 2 ≤ (w : ℝ) / n := by
    rw [le_div_iff₀ n0]
    have : (27 : ℝ) * n ≤ w := by exact_mod_cast hs1
    linarith
  have hm2 : 2 ≤ v → 11 + 14 * (1 / 2) + 24 * 2 ≤ (w : ℝ) / n := by
    intro h2
    rw [le_div_iff₀ n0]
    have : (66 : ℝ) * n ≤ w := by exact_mod_cast hs2 h2
    linarith
  have hcen := resized_centres (v := v) hn n1 n2 n3
  rw [← show q.side = sideOf v from hq.1.2.1] at hcen
  have hpx : img.width * img.height ≤ 2 ^ 36 := by
    rw [hiw, hih]; exact le_trans (Nat.mul_le_mul hb hb) (by norm_num)
  have hloc : LocatedAtPoints ⟨⟨.fin tl.1, .fin tl.2⟩, ⟨.fin tr.1, .fin tr.2⟩, ⟨.fin bl.1, .fin bl.2⟩, .fin μ, v⟩ tl tr bl := by
    refine ⟨rfl, rfl, rfl, ?_⟩
    have nq : (0 : ℚ) < n := by exact_mod_cast hn
    have hw : (w : ℚ) ≤ 262144 := by exact_mod_cast hb
    have wm : (w : ℚ) = (w : ℚ) / n * n := by field_simp
    have big : (8 : ℚ) ≤ (w : ℚ) / n := by
      rw [le_div_iff₀ nq]; exact_mod_cast sq.size
    have reach : ∀ {fx fy : Nat} {p : Pt}, fx + 8 ≤ n → fy + 8 ≤ n → NearMiddle ((w : ℚ) / n) fx fy p →
        |p.1| ≤ 2 ^ 20 ∧ |p.2| ≤ 2 ^ 20 := by
      intro fx fy p f1 f2 hp
      obtain ⟨x1, x2, y1, y2⟩ := hp
      have low : ∀ f : Nat, f + 8 ≤ n → 7 / 2 * 8 ≤ ((f : ℚ) + 7 / 2) * ((w : ℚ) / n) ∧ ((f : ℚ) + 7 / 2) * ((w : ℚ) / n) ≤ w := by
        intro f hf'
        have f' : (f : ℚ) + 8 ≤ n := by exact_mod_cast hf'
        have f0 : (0 : ℚ) ≤ f := Nat.cast_nonneg _
        constructor
        · exact mul_le_mul (by linarith) big (by norm_num) (by linarith)
        · conv_rhs => rw [wm, mul_comm]
          exact mul_le_mul_of_nonneg_right (by linarith) (by linarith)
      have a1 := low fx f1
      have a2 := low fy f2
      rw [abs_le, abs_le]
      norm_num
      refine ⟨⟨?_, ?_⟩, ?_, ?_⟩ <;> linarith
    intro p hp
    simp only [List.mem_cons, List.not_mem_nil, or_false] at hp
    rcases hp with rfl | rfl | rfl
    · exact reach (by omega) (by omega) n1
    · exact reach (by omega) (by omega) n2
    · exact reach (by omega) (by omega) n3
  obtain ⟨⟨d, hd1, -, hd2⟩, info, i1, i2, i3, d', hd3, -, hd4⟩ := located_tilted_symbol_is_read_partial (σ := σ) grayscale source hg img
    (resized_threshold sq (by omega) hcr hv).symm hpx (by rw [hiw]; omega) (by rw [hih]; omega) q v h1 h40 l k hk segments hfit text htext
    hq hal (resizedPlace n w ox oy) ((w : ℝ) / n) 0 (1 / 2) 2 hm1 hm2 (resized_shown sq hv hq.1 hd)
    (resized_inside sq hx hy (by omega) (by omega)) _ e _ (by simp) rfl tl tr bl hloc hcen
  exact ⟨⟨d, hd1, hd2 rfl⟩, info, i1, i2, i3, d', hd3, hd4 rfl⟩

end Verif.Props
