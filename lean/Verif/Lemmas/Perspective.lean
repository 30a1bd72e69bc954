import Verif.Lemmas.Sample
import Mathlib.Tactic.FieldSimp

/-!
# The perspective: steps between modules and the correction by the alignment pattern
-/
namespace Verif
namespace Extractor
open F64 Spec

/-- The three finder centres as rational points with coordinates up to `2^20`. -/
structure LocExact (loc : QRLocation) (tl tr bl : Pt) : Prop where
  top_left : loc.top_left = ⟨.fin tl.1, .fin tl.2⟩
  top_right : loc.top_right = ⟨.fin tr.1, .fin tr.2⟩
  bottom_left : loc.bottom_left = ⟨.fin bl.1, .fin bl.2⟩
  tl_small : mag tl ≤ WQ
  tr_small : mag tr ≤ WQ
  bl_small : mag bl ≤ WQ

theorem pnear_exact (q : Pt) : PNear ⟨.fin q.1, .fin q.2⟩ q 0 := ⟨near_fin _, near_fin _⟩

theorem LocExact.near_tl {loc : QRLocation} {tl tr bl : Pt} (h : LocExact loc tl tr bl) : PNear loc.top_left tl 0 := by
  rw [h.top_left]; exact pnear_exact tl
theorem LocExact.near_tr {loc : QRLocation} {tl tr bl : Pt} (h : LocExact loc tl tr bl) : PNear loc.top_right tr 0 := by
  rw [h.top_right]; exact pnear_exact tr
theorem LocExact.near_bl {loc : QRLocation} {tl tr bl : Pt} (h : LocExact loc tl tr bl) :
    PNear loc.bottom_left bl 0 := by
  rw [h.bottom_left]; exact pnear_exact bl

/-- Exact step from one module to the next. -/
def stepQ (size : Nat) (a b : Pt) : Pt := (1 / ((size : ℚ) - 7)) • (b - a)

theorem cast_sub7 {size : Nat} (h : 21 ≤ size) : ((size - 7 : Nat) : ℚ) = (size : ℚ) - 7 := by
  rw [Nat.cast_sub (by omega)]; norm_num
theorem cast_sub10 {size : Nat} (h : 21 ≤ size) : ((size - 10 : Nat) : ℚ) = (size : ℚ) - 10 := by
  rw [Nat.cast_sub (by omega)]; norm_num

theorem stepQ_small {size : Nat} (h : 21 ≤ size) {a b : Pt} (ha : mag a ≤ WQ) (hb : mag b ≤ WQ) :
    ((size : ℚ) - 7) * mag (stepQ size a b) ≤ 2 * WQ := by
  have hn : (0 : ℚ) < (size : ℚ) - 7 := by
    have : (21 : ℚ) ≤ size := by exact_mod_cast h
    linarith
  unfold stepQ
  have h1 := mag_smul (1 / ((size : ℚ) - 7)) (b - a)
  rw [abs_of_pos (by positivity)] at h1
  have h2 := mag_sub b a
  calc ((size : ℚ) - 7) * mag ((1 / ((size : ℚ) - 7)) • (b - a))
      ≤ ((size : ℚ) - 7) * (1 / ((size : ℚ) - 7) * mag (b - a)) := mul_le_mul_of_nonneg_left h1 (le_of_lt hn)
    _ = mag (b - a) := by field_simp
    _ ≤ 2 * WQ := by linarith

theorem stepQ_small' {size : Nat} (h : 21 ≤ size) {a b : Pt} (ha : mag a ≤ WQ) (hb : mag b ≤ WQ) :
    mag (stepQ size a b) ≤ WQ / 7 := by
  have h1 := stepQ_small h ha hb
  have h2 : (21 : ℚ) ≤ size := by exact_mod_cast h
  have h3 := mag_nonneg (stepQ size a b)
  have h4 : 14 * mag (stepQ size a b) ≤ ((size : ℚ) - 7) * mag (stepQ size a b) :=
    mul_le_mul_of_nonneg_right (by linarith) h3
  linarith

theorem step_near {size : Nat} (h : 21 ≤ size) (h' : size ≤ 177) {p q : Point} {a b : Pt} (hp : PNear p a 0)
    (hq : PNear q b 0) (ha : mag a ≤ WQ) (hb : mag b ≤ WQ) :
    DNear ((q - p) / F64.ofNat (size - 7)) (stepQ size a b) (2 * ηQ) := by
  have h2 : (21 : ℚ) ≤ size := by exact_mod_cast h
  have hn : (0 : ℚ) < (size : ℚ) - 7 := by linarith
  have hm := mag_sub b a
  have hη := ηQ_val
  have d := (dnear_psub hq hp (by rw [WQ_val] at *; linarith)).mono (ε' := ηQ) (by linarith)
  have hc : F64.ofNat (size - 7) = .fin ((size : ℚ) - 7) := by
    rw [ofNat_fin (by omega), cast_sub7 h]
  have hdiv : ∀ z : ℚ, 0 ≤ z → z / ((size : ℚ) - 7) ≤ z / 14 := fun z hz =>
    div_le_div_of_nonneg_left hz (by norm_num) (by linarith)
  refine (dnear_div d hc hn ?_).mono ?_
  · have g1 := hdiv _ (mag_nonneg (b - a))
    have g2 := hdiv ηQ (by rw [hη]; norm_num)
    rw [WQ_val] at *
    rw [hη] at *
    linarith
  · have g2 := hdiv ηQ (by rw [hη]; norm_num)
    rw [hη] at *
    linarith

/-- Exact estimate of the alignment centre. -/
def estQ (size : Nat) (tl tr bl : Pt) : Pt :=
  tl + ((size : ℚ) - 10) • stepQ size tl tr + ((size : ℚ) - 10) • stepQ size tl bl

theorem step_full {size : Nat} (h : 21 ≤ size) (a b : Pt) : ((size : ℚ) - 7) • stepQ size a b = b - a := by
  have h2 : (21 : ℚ) ≤ size := by exact_mod_cast h
  have hn : (size : ℚ) - 7 ≠ 0 := by linarith
  unfold stepQ
  apply Prod.ext <;> simp only [Prod.smul_fst, Prod.smul_snd, smul_eq_mul] <;> field_simp

theorem est_from_tr {size : Nat} (h : 21 ≤ size) (tl tr bl : Pt) :
    tr - (3 : ℚ) • stepQ size tl tr + ((size : ℚ) - 10) • stepQ size tl bl = estQ size tl tr bl := by
  have e := step_full h tl tr
  have e' : tr = tl + ((size : ℚ) - 7) • stepQ size tl tr := by rw [e]; ptring
  unfold estQ
  generalize stepQ size tl tr = d at *
  rw [e']
  ptring

theorem est_from_bl {size : Nat} (h : 21 ≤ size) (tl tr bl : Pt) :
    bl + ((size : ℚ) - 10) • stepQ size tl tr - (3 : ℚ) • stepQ size tl bl = estQ size tl tr bl := by
  have e := step_full h tl bl
  have e' : bl = tl + ((size : ℚ) - 7) • stepQ size tl bl := by rw [e]; ptring
  unfold estQ
  generalize stepQ size tl bl = d at *
  rw [e']
  ptring

theorem estQ_small {size : Nat} (h : 21 ≤ size) {tl tr bl : Pt} (h1 : mag tl ≤ WQ) (h2 : mag tr ≤ WQ)
    (h3 : mag bl ≤ WQ) : mag (estQ size tl tr bl) ≤ 5 * WQ := by
  have hs : (21 : ℚ) ≤ size := by exact_mod_cast h
  have key : ∀ b : Pt, mag b ≤ WQ → mag (((size : ℚ) - 10) • stepQ size tl b) ≤ 2 * WQ := by
    intro b hb
    have g := mag_smul ((size : ℚ) - 10) (stepQ size tl b)
    rw [abs_of_pos (by linarith)] at g
    have g2 := stepQ_small h h1 hb
    have g3 := mag_nonneg (stepQ size tl b)
    linarith
  unfold estQ
  have a1 := mag_add (tl + ((size : ℚ) - 10) • stepQ size tl tr) (((size : ℚ) - 10) • stepQ size tl bl)
  have a2 := mag_add tl (((size : ℚ) - 10) • stepQ size tl tr)
  have a3 := key tr h2
  have a4 := key bl h3
  linarith

theorem estimate_near {size : Nat} (h : 21 ≤ size) (h' : size ≤ 177) {loc : QRLocation} {tl tr bl : Pt}
    (hl : LocExact loc tl tr bl) {dx dy : Delta} (hdx : DNear dx (stepQ size tl tr) (2 * ηQ))
    (hdy : DNear dy (stepQ size tl bl) (2 * ηQ)) :
    PNear (estimate loc dx dy size) (estQ size tl tr bl) (350 * ηQ) := by
  have hs : (21 : ℚ) ≤ size := by exact_mod_cast h
  have hs' : (size : ℚ) ≤ 177 := by exact_mod_cast h'
  have hη := ηQ_val
  have hc : F64.ofNat (size - 10) = .fin ((size : ℚ) - 10) := by
    rw [ofNat_fin (by omega), cast_sub10 h]
  have hpos : (0 : ℚ) < (size : ℚ) - 10 := by linarith
  have sdx := stepQ_small h hl.tl_small hl.tr_small
  have sdy := stepQ_small h hl.tl_small hl.bl_small
  have sdx' := stepQ_small' h hl.tl_small hl.tr_small
  have sdy' := stepQ_small' h hl.tl_small hl.bl_small
  have gx := mag_nonneg (stepQ size tl tr)
  have gy := mag_nonneg (stepQ size tl bl)
  have hest := estQ_small h hl.tl_small hl.tr_small hl.bl_small
  have m3 : ∀ {d : Delta} {q : Pt}, DNear d q (2 * ηQ) → mag q ≤ WQ / 7 →
      DNear (F64.lit 3 * d) ((3 : ℚ) • q) (7 * ηQ) := by
    intro d q hd hq
    refine (dnear_mul hd lit3 ?_).mono ?_
    · rw [abs_of_pos (by norm_num), hη]; rw [WQ_val] at hq; linarith
    · rw [abs_of_pos (by norm_num), hη]; linarith
  have mK : ∀ {d : Delta} {q : Pt}, DNear d q (2 * ηQ) → ((size : ℚ) - 7) * mag q ≤ 2 * WQ →
      DNear (F64.ofNat (size - 10) * d) (((size : ℚ) - 10) • q) (335 * ηQ) := by
    intro d q hd hq
    have gq := mag_nonneg q
    refine (dnear_mul hd hc ?_).mono ?_
    · rw [abs_of_pos hpos, hη]; rw [WQ_val] at hq; linarith
    · rw [abs_of_pos hpos, hη]; linarith
  have s3 : ∀ q : Pt, mag q ≤ WQ / 7 → mag ((3 : ℚ) • q) ≤ WQ := by
    intro q hq
    have := mag_smul 3 q
    rw [abs_of_pos (by norm_num)] at this
    have := mag_nonneg q
    linarith
  have sK : ∀ q : Pt, ((size : ℚ) - 7) * mag q ≤ 2 * WQ → mag (((size : ℚ) - 10) • q) ≤ 2 * WQ := by
    intro q hq
    have := mag_smul ((size : ℚ) - 10) q
    rw [abs_of_pos hpos] at this
    have := mag_nonneg q
    linarith
  have px : PNear (loc.top_right - F64.lit 3 * dx + F64.ofNat (size - 10) * dy) (estQ size tl tr bl) (350 * ηQ) := by
    have a := (pnear_sub hl.near_tr (m3 hdx sdx') (by
      have b1 := mag_sub tr ((3 : ℚ) • stepQ size tl tr)
      have b2 := s3 _ sdx'
      have b3 := hl.tr_small
      rw [WQ_val] at b2 b3; rw [hη]; linarith)).mono (ε' := 8 * ηQ) (by linarith)
    have b := pnear_add a (mK hdy sdy) (by
      rw [est_from_tr h]; rw [WQ_val] at hest; rw [hη]; linarith)
    rw [est_from_tr h] at b
    exact b.mono (by rw [hη]; linarith)
  have py : PNear (loc.bottom_left + F64.ofNat (size - 10) * dx - F64.lit 3 * dy) (estQ size tl tr bl) (350 * ηQ) := by
    have a := (pnear_add hl.near_bl (mK hdx sdx) (by
      have b1 := mag_add bl (((size : ℚ) - 10) • stepQ size tl tr)
      have b2 := sK _ sdx
      have b3 := hl.bl_small
      rw [WQ_val] at b2 b3; rw [hη]; linarith)).mono (ε' := 336 * ηQ) (by linarith)
    have b := pnear_sub a (m3 hdy sdy') (by
      rw [est_from_bl h]; rw [WQ_val] at hest; rw [hη]; linarith)
    rw [est_from_bl h] at b
    exact b.mono (by rw [hη]; linarith)
  exact ⟨px.1, py.2⟩

/-- The exact second order step for an alignment centre `al`. -/
def bendQ (size : Nat) (tl tr bl : Pt) (al : Option Pt) : Pt :=
  match al with
  | none => (0, 0)
  | some a => (1 / ((size : ℚ) - 10) ^ 2) • (a - estQ size tl tr bl)

theorem bend_near {size : Nat} (h : 25 ≤ size) (h' : size ≤ 177) {loc : QRLocation} {tl tr bl a : Pt}
    (hl : LocExact loc tl tr bl) {e : Point} (he : PNear e (estQ size tl tr bl) (350 * ηQ)) (ha : mag a ≤ WQ)
    {sq : Nat} (hsq : sq = (size - 10) * (size - 10)) :
    DNear (((⟨.fin a.1, .fin a.2⟩ : Point) - e) / F64.ofNat sq) (bendQ size tl tr bl (some a)) (3 * ηQ) := by
  have hs : (25 : ℚ) ≤ size := by exact_mod_cast h
  have hη := ηQ_val
  have hest := estQ_small (show 21 ≤ size by omega) hl.tl_small hl.tr_small hl.bl_small
  have hm := mag_sub a (estQ size tl tr bl)
  have d := (dnear_psub (pnear_exact a) he (by rw [WQ_val] at *; rw [hη]; linarith)).mono (ε' := 351 * ηQ)
    (by linarith)
  have hc : F64.ofNat sq = .fin (((size : ℚ) - 10) ^ 2) := by
    rw [ofNat_fin (by
      rw [hsq]
      have : (size - 10) * (size - 10) ≤ 167 * 167 := Nat.mul_le_mul (by omega) (by omega)
      omega), hsq, Nat.cast_mul, cast_sub10 (by omega), pow_two]
  have hk : (225 : ℚ) ≤ ((size : ℚ) - 10) ^ 2 := by
    have : (15 : ℚ) ≤ (size : ℚ) - 10 := by linarith
    nlinarith
  have hdiv : ∀ z : ℚ, 0 ≤ z → z / ((size : ℚ) - 10) ^ 2 ≤ z / 225 := fun z hz =>
    div_le_div_of_nonneg_left hz (by norm_num) hk
  have g1 := hdiv _ (mag_nonneg (a - estQ size tl tr bl))
  have g2 := hdiv (351 * ηQ) (by rw [hη]; norm_num)
  refine (dnear_div d hc (by linarith) ?_).mono ?_
  · rw [WQ_val] at *; rw [hη] at *; linarith
  · rw [hη] at *; linarith

theorem bendQ_small {size : Nat} (h : 25 ≤ size) {tl tr bl a : Pt} (h1 : mag tl ≤ WQ) (h2 : mag tr ≤ WQ)
    (h3 : mag bl ≤ WQ) (ha : mag a ≤ WQ) : size * mag (bendQ size tl tr bl (some a)) ≤ 2 / 3 * WQ := by
  have hs : (25 : ℚ) ≤ size := by exact_mod_cast h
  have hest := estQ_small (show 21 ≤ size by omega) h1 h2 h3
  have hm := mag_sub a (estQ size tl tr bl)
  unfold bendQ
  simp only
  have g := mag_smul (1 / ((size : ℚ) - 10) ^ 2) (a - estQ size tl tr bl)
  have hk : (0 : ℚ) < ((size : ℚ) - 10) ^ 2 := by
    have : (15 : ℚ) ≤ (size : ℚ) - 10 := by linarith
    positivity
  rw [abs_of_pos (by positivity)] at g
  have hw : 0 < WQ := by rw [WQ_val]; norm_num
  have hfrac : (size : ℚ) * (1 / ((size : ℚ) - 10) ^ 2) ≤ 1 / 9 := by
    rw [mul_one_div, div_le_iff₀ hk]
    nlinarith
  have hm0 := mag_nonneg (a - estQ size tl tr bl)
  calc (size : ℚ) * mag ((1 / ((size : ℚ) - 10) ^ 2) • (a - estQ size tl tr bl))
      ≤ size * (1 / ((size : ℚ) - 10) ^ 2 * mag (a - estQ size tl tr bl)) :=
        mul_le_mul_of_nonneg_left g (by linarith)
    _ = (size : ℚ) * (1 / ((size : ℚ) - 10) ^ 2) * mag (a - estQ size tl tr bl) := by ring
    _ ≤ 1 / 9 * mag (a - estQ size tl tr bl) := mul_le_mul_of_nonneg_right hfrac hm0
    _ ≤ 2 / 3 * WQ := by linarith

theorem smallGrid_of {size : Nat} (h : 21 ≤ size) (h' : size ≤ 177) {tl tr bl DD : Pt} (h1 : mag tl ≤ WQ)
    (h2 : mag tr ≤ WQ) (h3 : mag bl ≤ WQ) (hd : size * mag DD ≤ 2 / 3 * WQ) :
    SmallGrid size (tl - (3 : ℚ) • stepQ size tl bl) (stepQ size tl tr - (3 : ℚ) • DD) (stepQ size tl bl) DD := by
  have hs : (21 : ℚ) ≤ size := by exact_mod_cast h
  have hs' : (size : ℚ) ≤ 177 := by exact_mod_cast h'
  have hw : 0 < WQ := by rw [WQ_val]; norm_num
  have sdx' := stepQ_small' h h1 h2
  have sdy' := stepQ_small' h h1 h3
  have sdy := stepQ_small h h1 h3
  have gd := mag_nonneg DD
  have gy := mag_nonneg (stepQ size tl bl)
  have habs : ∀ i : Nat, i ≤ size → |(i : ℚ) - 3| ≤ size := by
    intro i hi
    have a : (i : ℚ) ≤ size := by exact_mod_cast hi
    have b : (0 : ℚ) ≤ i := Nat.cast_nonneg i
    rw [abs_le]; constructor <;> linarith
  have hstart : ∀ i : Nat, i ≤ size → mag (tl - (3 : ℚ) • stepQ size tl bl + (i : ℚ) • stepQ size tl bl) ≤ 4 * WQ := by
    intro i hi
    have e : tl - (3 : ℚ) • stepQ size tl bl + (i : ℚ) • stepQ size tl bl = tl + ((i : ℚ) - 3) • stepQ size tl bl := by
      ptring
    rw [e]
    have a1 := mag_add tl (((i : ℚ) - 3) • stepQ size tl bl)
    have a2 := mag_smul ((i : ℚ) - 3) (stepQ size tl bl)
    have a3 := mul_le_mul_of_nonneg_right (habs i hi) gy
    linarith
  have hcol : ∀ i : Nat, i ≤ size → mag (stepQ size tl tr - (3 : ℚ) • DD + (i : ℚ) • DD) ≤ WQ := by
    intro i hi
    have e : stepQ size tl tr - (3 : ℚ) • DD + (i : ℚ) • DD = stepQ size tl tr + ((i : ℚ) - 3) • DD := by ptring
    rw [e]
    have a1 := mag_add (stepQ size tl tr) (((i : ℚ) - 3) • DD)
    have a2 := mag_smul ((i : ℚ) - 3) DD
    have a3 := mul_le_mul_of_nonneg_right (habs i hi) gd
    linarith
  refine ⟨h', fun i hi => le_trans (hstart i hi) (by linarith), hcol, by linarith, ?_⟩
  intro i j hi hj
  have b1 := hstart i hi
  have b2 := hcol i hi
  generalize tl - (3 : ℚ) • stepQ size tl bl + (i : ℚ) • stepQ size tl bl = P at *
  generalize stepQ size tl tr - (3 : ℚ) • DD + (i : ℚ) • DD = C at *
  have e : P - (3 : ℚ) • C + (j : ℚ) • C = P + ((j : ℚ) - 3) • C := by ptring
  rw [e]
  have a1 := mag_add P (((j : ℚ) - 3) • C)
  have a2 := mag_smul ((j : ℚ) - 3) C
  have a3 := mul_le_mul (habs j hj) b2 (mag_nonneg C) (by linarith)
  have a4 : (size : ℚ) * WQ ≤ 177 * WQ := mul_le_mul_of_nonneg_right hs' (le_of_lt hw)
  linarith

theorem bilinear_eq {size : Nat} (h : 21 ≤ size) (tl tr bl : Pt) (al : Option Pt) (i j : Nat) :
    tl - (3 : ℚ) • stepQ size tl bl + (i : ℚ) • stepQ size tl bl -
      (3 : ℚ) • (stepQ size tl tr - (3 : ℚ) • bendQ size tl tr bl al + (i : ℚ) • bendQ size tl tr bl al) +
      (j : ℚ) • (stepQ size tl tr - (3 : ℚ) • bendQ size tl tr bl al + (i : ℚ) • bendQ size tl tr bl al) =
    bilinear size tl tr bl al i j := by
  have hs : (21 : ℚ) ≤ size := by exact_mod_cast h
  have hn : (size : ℚ) - 7 ≠ 0 := by linarith
  have hk : (size : ℚ) - 10 ≠ 0 := by linarith
  cases al with
  | none =>
    unfold bilinear bilinear1 bendQ stepQ
    apply Prod.ext <;> simp only [Prod.fst_add, Prod.snd_add, Prod.fst_sub, Prod.snd_sub, Prod.smul_fst,
      Prod.smul_snd, smul_eq_mul, Option.map_none] <;> field_simp <;> ring
  | some a =>
    unfold bilinear bilinear1 bendQ estQ stepQ
    apply Prod.ext <;> simp only [Prod.fst_add, Prod.snd_add, Prod.fst_sub, Prod.snd_sub, Prod.smul_fst,
      Prod.smul_snd, smul_eq_mul, Option.map_some] <;> field_simp <;> ring

/-- The sampled points, from the perspective that `extract` computes. -/
theorem grid_near {size : Nat} (h : 21 ≤ size) (h' : size ≤ 177) {loc : QRLocation} {tl tr bl : Pt}
    (hl : LocExact loc tl tr bl) {p : Perspective} {al : Option Pt}
    (hdx : p.dx = (loc.top_right - loc.top_left) / F64.ofNat (size - 7))
    (hdy : p.dy = (loc.bottom_left - loc.top_left) / F64.ofNat (size - 7))
    (hddy : p.ddy = Delta.zero) (hddx : DNear p.ddx (bendQ size tl tr bl al) (3 * ηQ))
    (hb : size * mag (bendQ size tl tr bl al) ≤ 2 / 3 * WQ) {i j : Nat} (hi : i < size) (hj : j < size) :
    PNear (gridPt p (loc.top_left - F64.lit 3 * p.dy - F64.lit 3 * p.ddy, p.dx - F64.lit 3 * p.ddx,
      p.dy - F64.lit 3 * p.ddy) i j) (bilinear size tl tr bl al i j) (1 / 100) := by
  have hs : (21 : ℚ) ≤ size := by exact_mod_cast h
  have hη := ηQ_val
  have hg := smallGrid_of h h' hl.tl_small hl.tr_small hl.bl_small hb
  rw [← bilinear_eq h]
  have ndx : DNear p.dx (stepQ size tl tr) (2 * ηQ) := by
    rw [hdx]; exact step_near h h' hl.near_tl hl.near_tr hl.tl_small hl.tr_small
  have ndy : DNear p.dy (stepQ size tl bl) (2 * ηQ) := by
    rw [hdy]; exact step_near h h' hl.near_tl hl.near_bl hl.tl_small hl.bl_small
  have sdx' := stepQ_small' h hl.tl_small hl.tr_small
  have sdy' := stepQ_small' h hl.tl_small hl.bl_small
  have gb := mag_nonneg (bendQ size tl tr bl al)
  have hbs : 21 * mag (bendQ size tl tr bl al) ≤ 2 / 3 * WQ :=
    le_trans (mul_le_mul_of_nonneg_right hs gb) hb
  have z3 : DNear (F64.lit 3 * p.ddy) (0, 0) ηQ := by
    have hz : DNear p.ddy (0, 0) 0 := by
      rw [hddy]
      unfold Delta.zero DNear
      simp only [lit0]
      exact ⟨near_fin 0, near_fin 0⟩
    have hm : mag (0, 0) = 0 := by simp [mag]
    have := dnear_mul hz lit3 (by rw [hm]; norm_num)
    have e : (3 : ℚ) • ((0, 0) : Pt) = (0, 0) := by ptring
    rw [e] at this
    exact this.mono (by linarith)
  have y3 : DNear (F64.lit 3 * p.dy) ((3 : ℚ) • stepQ size tl bl) (7 * ηQ) := by
    refine (dnear_mul ndy lit3 ?_).mono ?_
    · rw [abs_of_pos (by norm_num), hη]; rw [WQ_val] at sdy'; linarith
    · rw [abs_of_pos (by norm_num), hη]; linarith
  have b3 : DNear (F64.lit 3 * p.ddx) ((3 : ℚ) • bendQ size tl tr bl al) (10 * ηQ) := by
    refine (dnear_mul hddx lit3 ?_).mono ?_
    · rw [abs_of_pos (by norm_num), hη]; rw [WQ_val] at hbs; linarith
    · rw [abs_of_pos (by norm_num), hη]; linarith
  have hstart := hg.start 0 (by omega)
  have e0 : tl - (3 : ℚ) • stepQ size tl bl + ((0 : Nat) : ℚ) • stepQ size tl bl = tl - (3 : ℚ) • stepQ size tl bl := by
    ptring
  rw [e0] at hstart
  have hcol := hg.col 0 (by omega)
  have e1 : stepQ size tl tr - (3 : ℚ) • bendQ size tl tr bl al + ((0 : Nat) : ℚ) • bendQ size tl tr bl al =
      stepQ size tl tr - (3 : ℚ) • bendQ size tl tr bl al := by ptring
  rw [e1] at hcol
  refine gridPt_near hg hddx hddy ?_ ?_ ?_ hi hj
  · have a := pnear_sub hl.near_tl y3 (by rw [WQ_val] at hstart; rw [hη]; linarith)
    have e : tl - (3 : ℚ) • stepQ size tl bl - (0, 0) = tl - (3 : ℚ) • stepQ size tl bl := by ptring
    have b := pnear_sub a z3 (by rw [e]; rw [WQ_val] at hstart; rw [hη]; linarith)
    rw [e] at b
    exact b.mono (by rw [hη]; linarith)
  · have a := dnear_sub ndx b3 (by rw [WQ_val] at hcol; rw [hη]; linarith)
    exact a.mono (by rw [hη]; linarith)
  · have e : stepQ size tl bl - (0, 0) = stepQ size tl bl := by ptring
    have a := dnear_sub ndy z3 (by rw [e]; rw [WQ_val] at sdy'; rw [hη]; linarith)
    rw [e] at a
    exact a.mono (by rw [hη]; linarith)

end Extractor
end Verif
