import Verif.Lemmas.Reach
import Verif.Lemmas.Halves

/-!
# What the alignment search finds
-/
namespace Verif
namespace Extractor
open F64 Spec

/-! ### Pixels near points -/

theorem near_index {a : F64} {q : ℚ} (h : Near a q (1 / 100)) {n : Nat} (hn : a.round.toU32 < n)
    (hn' : n ≤ 2 ^ 20) (hq : |q| ≤ 2 ^ 28) :
    |((a.round.toU32 : Nat) : ℚ) - max 0 q| ≤ 1 / 2 + 1 / 100 := by
  obtain ⟨r, rfl, hr⟩ := h
  have hb : |r| ≤ 2 ^ 52 := by
    have e : r = q + (r - q) := by ring
    rw [e]; refine le_trans (abs_add_le _ _) ?_; linarith
  rw [round_toU32 hb] at hn ⊢
  have hlt : (roundAway r).toNat < 2 ^ 32 - 1 := by omega
  rw [Nat.min_eq_left (by omega)]
  have hra := roundAway_near r
  rw [abs_le] at hr hra ⊢
  by_cases hneg : 0 ≤ roundAway r
  · have e : ((roundAway r).toNat : ℚ) = (roundAway r : ℚ) := by
      have := Int.toNat_of_nonneg hneg
      exact_mod_cast congrArg (Int.cast (R := ℚ)) this
    have h0 : (0 : ℚ) ≤ (roundAway r : ℚ) := by exact_mod_cast hneg
    rw [e]
    rcases le_total 0 q with hq0 | hq0
    · rw [max_eq_right hq0]
      constructor <;> linarith [hr.1, hr.2, hra.1, hra.2]
    · rw [max_eq_left hq0]
      constructor <;> linarith [hr.1, hr.2, hra.1, hra.2]
  · have e : (roundAway r).toNat = 0 := by omega
    have h1 : (roundAway r : ℚ) ≤ -1 := by
      have : roundAway r ≤ -1 := by omega
      exact_mod_cast this
    rw [e, max_eq_left (by linarith [hr.1, hr.2, hra.1, hra.2])]
    norm_num

theorem index_inside {a : F64} {q : ℚ} (h : Near a q (1 / 100)) {n : Nat} (hn : 1 ≤ n) (hq : q ≤ n - 1 / 2 - 2 / 100)
    (hq' : |q| ≤ 2 ^ 28) (hn' : n ≤ 2 ^ 20) : a.round.toU32 < n := by
  obtain ⟨r, rfl, hr⟩ := h
  have hb : |r| ≤ 2 ^ 52 := by
    have e : r = q + (r - q) := by ring
    rw [e]; refine le_trans (abs_add_le _ _) ?_; linarith
  rw [round_toU32 hb]
  have hra := roundAway_near r
  rw [abs_le] at hr hra
  have h1 : (roundAway r : ℚ) < n := by linarith [hr.1, hr.2, hra.1, hra.2]
  have h2 : roundAway r < (n : Int) := by exact_mod_cast h1
  omega

theorem getPixel_of_inside {img : GrayImage} (hv : img.Valid) {x y : Nat} (hx : x < img.width) (hy : y < img.height) :
    ∃ c, img.getPixel x y = .ret c := by
  have hlt : y * img.width + x < img.pixels.length := by
    rw [hv.1, Nat.mul_comm img.width]
    have : (y + 1) * img.width ≤ img.height * img.width := Nat.mul_le_mul_right _ hy
    rw [Nat.succ_mul] at this
    omega
  unfold GrayImage.getPixel
  rw [if_pos ⟨hx, hy⟩, List.getElem?_eq_getElem hlt]
  exact ⟨_, rfl⟩

theorem pixelAt_panic {img : GrayImage} (hv : img.Valid) (hw0 : 1 ≤ img.width) (hh0 : 1 ≤ img.height)
    (hw : img.width ≤ 2 ^ 20) (hh : img.height ≤ 2 ^ 20) {p : Point} {pt : Pt} (hn : PNear p pt (1 / 100))
    (hs : mag pt ≤ 2 ^ 28) (h : pixelAt img p = .panic) : Beyond img pt := by
  unfold Beyond
  by_contra hc
  rw [not_or, not_lt, not_lt] at hc
  obtain ⟨c, hc'⟩ := getPixel_of_inside hv (index_inside hn.1 hw0 (by linarith [hc.1]) (le_trans (le_mag1 _) hs) hw)
    (index_inside hn.2 hh0 (by linarith [hc.2]) (le_trans (le_mag2 _) hs) hh)
  unfold pixelAt at h
  rw [hc'] at h
  cases h

theorem beside_eq {side : Nat} (h : 21 ≤ side) (tl tr bl : Pt) (u v : ℚ) :
    besideAlignment side tl tr bl u v = estQ side tl tr bl + u • stepQ side tl tr + v • stepQ side tl bl := by
  have hs : (21 : ℚ) ≤ side := by exact_mod_cast h
  have hn : (side : ℚ) - 7 ≠ 0 := by linarith
  unfold besideAlignment estQ stepQ
  apply Prod.ext <;> simp only [Prod.fst_add, Prod.snd_add, Prod.fst_sub, Prod.snd_sub, Prod.smul_fst, Prod.smul_snd,
    smul_eq_mul] <;> field_simp <;> ring


theorem pixelAt_near {img : GrayImage} (hw : img.width ≤ 2 ^ 20) (hh : img.height ≤ 2 ^ 20) {p : Point} {pt : Pt}
    (hn : PNear p pt (1 / 100)) (hs : mag pt ≤ 2 ^ 28) {c : U8} (h : pixelAt img p = .ret c) :
    PixelNear img pt (1 / 100) c := by
  unfold pixelAt at h
  obtain ⟨g1, g2, g3⟩ := getPixel_ret h
  exact ⟨_, _, g1, g2, g3, near_index hn.1 g1 hw (le_trans (le_mag1 _) hs), near_index hn.2 g2 hh (le_trans (le_mag2 _) hs)⟩

/-! ### Displacements and sizes -/

theorem half_exact {z : Int} (hz : |z| ≤ 3) : F64.ofInt z / F64.lit 2 = .fin ((z : ℚ) / 2) := by
  have hz' : |(z : ℚ)| ≤ 3 := by exact_mod_cast hz
  rw [ofInt_fin (le_trans hz (by norm_num)), lit2, div_fin (by norm_num), roundQ_half (le_trans hz (by norm_num))]
  rw [abs_div, abs_of_pos (show (0 : ℚ) < 2 by norm_num)]
  linarith

theorem scale_exact {z : Int} (hz : -2 ≤ z ∧ z ≤ 3) :
    ∃ c : ℚ, (F64.lit 1 + F64.ofInt z / F64.lit 10 : F64) = .fin c ∧ |c - (1 + z / 10)| ≤ 1 / 2 ^ 50 := by
  have hq1 : (-2 : ℚ) ≤ z := by exact_mod_cast hz.1
  have hq2 : (z : ℚ) ≤ 3 := by exact_mod_cast hz.2
  have l1 : (F64.lit 1 : F64) = .fin 1 := by
    have := lit_nat (n := 1) (by norm_num); simpa using this
  have l10 : (F64.lit 10 : F64) = .fin 10 := by
    have := lit_nat (n := 10) (by norm_num); simpa using this
  have hpow : pow2 (-53) = 1 / 2 ^ 53 := by rw [pow2_eq]; norm_num
  have hlow : pow2 (-1022) ≤ 1 := by
    have h1 : pow2 (-1022) ≤ pow2 0 := pow2_le (by norm_num)
    rwa [pow2_zero] at h1
  have hb : |(z : ℚ) / 10| ≤ 1 := by rw [abs_le]; constructor <;> linarith
  have e1 := roundQ_err (B := 1) hlow hb
  rw [ofInt_fin (by rw [abs_le]; omega), l1, l10, div_fin (by norm_num) (by linarith)]
  have e1' : |roundQ ((z : ℚ) / 10)| ≤ 2 := by
    rw [hpow, abs_le] at e1
    rw [abs_le] at hb ⊢
    norm_num at e1
    constructor <;> linarith [e1.1, e1.2, hb.1, hb.2]
  have hb2 : |1 + roundQ ((z : ℚ) / 10)| ≤ 3 := by
    rw [abs_le] at e1' ⊢; constructor <;> linarith [e1'.1, e1'.2]
  rw [add_fin (by linarith)]
  refine ⟨_, rfl, ?_⟩
  have e2 := roundQ_err (B := 3) (by linarith) hb2
  rw [hpow, abs_le] at e1 e2
  rw [abs_le]
  norm_num at e1 e2 ⊢
  constructor <;> linarith [e1.1, e1.2, e2.1, e2.2]

section
variable {size : Nat} {tl tr bl : Pt} (h : 21 ≤ size) (h1 : mag tl ≤ WQ) (h2 : mag tr ≤ WQ) (h3 : mag bl ≤ WQ)
include h h1 h2 h3

theorem scaled_step {d : Delta} {D : Pt} (hd : DNear d D (2 * ηQ)) (hD : mag D ≤ WQ / 7) {z : Int}
    (hz : -2 ≤ z ∧ z ≤ 3) :
    DNear ((F64.lit 1 + F64.ofInt z / F64.lit 10 : F64) * d) ((1 + (z : ℚ) / 10) • D) (12 * ηQ) := by
  obtain ⟨c, hc, hc'⟩ := scale_exact hz
  have one : (1 : ℚ) • D = D := by ptring
  have hq1 : (-2 : ℚ) ≤ z := by exact_mod_cast hz.1
  have hq2 : (z : ℚ) ≤ 3 := by exact_mod_cast hz.2
  have hcabs : |c| ≤ 5 := by
    rw [abs_le] at hc' ⊢
    norm_num at hc'
    constructor <;> linarith [hc'.1, hc'.2]
  have hd' : DNear d ((1 : ℚ) • D) (2 * ηQ) := by rwa [one]
  have := dmul hd' hD hc (by norm_num) hcabs (by norm_num) (by norm_num)
  rw [mul_one] at this
  have hη := ηQ_val
  have hW := WQ_val
  have near : ∀ {a : F64} {x : ℚ}, |x| ≤ WQ / 7 → Near a (c * x) ((5 * 2 + 1) * ηQ) → Near a ((1 + (z : ℚ) / 10) * x) (12 * ηQ) := by
    rintro a x hx ⟨r, hr, hr'⟩
    refine ⟨r, hr, ?_⟩
    have hm : |(c - (1 + (z : ℚ) / 10)) * x| ≤ 1 / 2 ^ 50 * (WQ / 7) := by
      rw [abs_mul]
      exact mul_le_mul hc' hx (abs_nonneg _) (by norm_num)
    have e : r - (1 + (z : ℚ) / 10) * x = (r - c * x) + (c - (1 + (z : ℚ) / 10)) * x := by ring
    rw [e]
    refine le_trans (abs_add_le _ _) ?_
    rw [hW] at hm
    rw [hη] at hr' ⊢
    norm_num at hm hr' ⊢
    linarith
  exact ⟨near (le_trans (le_mag1 _) hD) this.1, near (le_trans (le_mag2 _) hD) this.2⟩

/-- The points that are tested around a point. -/
theorem tests_exact {p : Point} {dx dy : Delta} {u v c : ℚ} (hu : |u| ≤ 3 / 2) (hv : |v| ≤ 3 / 2)
    (hp : At size tl tr bl p u v 400) (hc0 : 0 ≤ c) (hc : c ≤ 13 / 10)
    (hx : DNear dx (c • stepQ size tl tr) (12 * ηQ)) (hy : DNear dy (c • stepQ size tl bl) (12 * ηQ)) :
    List.Forall₂ (fun (t : Point × U8) (o : (Int × Int) × U8) =>
      t.2 = o.2 ∧ At size tl tr bl t.1 (u + o.1.1 * c) (v + o.1.2 * c) 1000) (alignmentTests p dx dy) alignmentLooks ∧
    At size tl tr bl (p - F64.lit 2 * dx - F64.lit 2 * dy) (u + (-2 : Int) * c) (v + (-2 : Int) * c) 1000 ∧
    At size tl tr bl (p + F64.lit 2 * dx + F64.lit 2 * dy) (u + (2 : Int) * c) (v + (2 : Int) * c) 1000 := by
  have mono : ∀ {p : Point} {u v u' v' k : ℚ}, At size tl tr bl p u v k → u = u' → v = v' → k ≤ 1000 →
      At size tl tr bl p u' v' 1000 := by
    rintro p u v u' v' k hp rfl rfl hk
    exact hp.mono (mul_le_mul_of_nonneg_right hk ηQ_pos.le)
  have sx := stepQ_small' h h1 h2
  have sy := stepQ_small' h h1 h3
  have hcabs : |c| ≤ 5 := by rw [abs_of_nonneg hc0]; linarith
  have two : F64.lit 2 = F64.ofInt 2 := by
    rw [lit2, ofInt_fin (by norm_num)]; norm_num
  have int : ∀ z : Int, |z| ≤ 2 → |(z : ℚ) * c| ≤ 26 / 10 ∧
      DNear (F64.ofInt z * dx) (((z : ℚ) * c) • stepQ size tl tr) (61 * ηQ) ∧
      DNear (F64.ofInt z * dy) (((z : ℚ) * c) • stepQ size tl bl) (61 * ηQ) := by
    intro z hz
    have hzq : |(z : ℚ)| ≤ 2 := by exact_mod_cast hz
    have e : F64.ofInt z = .fin z := ofInt_fin (le_trans hz (by norm_num))
    refine ⟨?_, ?_, ?_⟩
    · rw [abs_mul, abs_of_nonneg hc0]
      have : |(z : ℚ)| * c ≤ 2 * c := mul_le_mul_of_nonneg_right hzq hc0
      linarith
    · exact (dmul hx sx e hcabs (by linarith) (by norm_num) (by norm_num)).mono (by linarith)
    · exact (dmul hy sy e hcabs (by linarith) (by norm_num) (by norm_num)).mono (by linarith)
  have dx61 : DNear dx (((1 : Int) * c) • stepQ size tl tr) (61 * ηQ) := by
    have e : ((1 : Int) : ℚ) * c = c := by norm_num
    rw [e]; exact hx.mono (by linarith [ηQ_pos])
  have dy61 : DNear dy (((1 : Int) * c) • stepQ size tl bl) (61 * ηQ) := by
    have e : ((1 : Int) : ℚ) * c = c := by norm_num
    rw [e]; exact hy.mono (by linarith [ηQ_pos])
  have near : ∀ {a : ℚ} {k : Int}, |a| ≤ 3 / 2 → |k| ≤ 2 → |a + k * c| ≤ 5 ∧ |a - k * c| ≤ 5 := by
    intro a k ha hk
    have hb := (int k hk).1
    exact ⟨le_trans (abs_add_le _ _) (by linarith), le_trans (abs_sub a _) (by linarith)⟩
  have u5 : |u| ≤ 5 := by linarith
  have v5 : |v| ≤ 5 := by linarith
  have ss : ∀ {k l : Int} {d e : Delta}, |k| ≤ 2 → |l| ≤ 2 → DNear d (((k : ℚ) * c) • stepQ size tl tr) (61 * ηQ) →
      DNear e (((l : ℚ) * c) • stepQ size tl bl) (61 * ηQ) → ∀ {k' l' : Int}, k' = -k → l' = -l →
      At size tl tr bl (p - d - e) (u + k' * c) (v + l' * c) 1000 := by
    intro k l d e hk hl hd he k' l' ek el
    subst ek; subst el
    exact mono (At.suby h h1 h2 h3 (At.subx h h1 h2 h3 hp hd (near hu hk).2 v5 (by norm_num)) he (near hu hk).2
      (near hv hl).2 (by norm_num)) (by push_cast; ring) (by push_cast; ring) (by norm_num)
  have sa : ∀ {k l : Int} {d e : Delta}, |k| ≤ 2 → |l| ≤ 2 → DNear d (((k : ℚ) * c) • stepQ size tl tr) (61 * ηQ) →
      DNear e (((l : ℚ) * c) • stepQ size tl bl) (61 * ηQ) → ∀ {k' : Int}, k' = -k →
      At size tl tr bl (p - d + e) (u + k' * c) (v + l * c) 1000 := by
    intro k l d e hk hl hd he k' ek
    subst ek
    exact mono (At.addy h h1 h2 h3 (At.subx h h1 h2 h3 hp hd (near hu hk).2 v5 (by norm_num)) he (near hu hk).2
      (near hv hl).1 (by norm_num)) (by push_cast; ring) rfl (by norm_num)
  have as' : ∀ {k l : Int} {d e : Delta}, |k| ≤ 2 → |l| ≤ 2 → DNear d (((k : ℚ) * c) • stepQ size tl tr) (61 * ηQ) →
      DNear e (((l : ℚ) * c) • stepQ size tl bl) (61 * ηQ) → ∀ {l' : Int}, l' = -l →
      At size tl tr bl (p + d - e) (u + k * c) (v + l' * c) 1000 := by
    intro k l d e hk hl hd he l' el
    subst el
    exact mono (At.suby h h1 h2 h3 (At.addx h h1 h2 h3 hp hd (near hu hk).1 v5 (by norm_num)) he (near hu hk).1
      (near hv hl).2 (by norm_num)) rfl (by push_cast; ring) (by norm_num)
  have aa : ∀ {k l : Int} {d e : Delta}, |k| ≤ 2 → |l| ≤ 2 → DNear d (((k : ℚ) * c) • stepQ size tl tr) (61 * ηQ) →
      DNear e (((l : ℚ) * c) • stepQ size tl bl) (61 * ηQ) →
      At size tl tr bl (p + d + e) (u + k * c) (v + l * c) 1000 := by
    intro k l d e hk hl hd he
    exact mono (At.addy h h1 h2 h3 (At.addx h h1 h2 h3 hp hd (near hu hk).1 v5 (by norm_num)) he (near hu hk).1
      (near hv hl).1 (by norm_num)) rfl rfl (by norm_num)
  have ix : ∀ z : Int, |z| ≤ 2 → DNear (F64.ofInt z * dx) (((z : ℚ) * c) • stepQ size tl tr) (61 * ηQ) :=
    fun z hz => (int z hz).2.1
  have iy : ∀ z : Int, |z| ≤ 2 → DNear (F64.ofInt z * dy) (((z : ℚ) * c) • stepQ size tl bl) (61 * ηQ) :=
    fun z hz => (int z hz).2.2
  have i2 : |(2 : Int)| ≤ 2 := by decide
  have i1 : |(1 : Int)| ≤ 2 := by decide
  have i0 : |(0 : Int)| ≤ 2 := by decide
  have j1 : |(-1 : Int)| ≤ 2 := by decide
  have j2 : |(-2 : Int)| ≤ 2 := by decide
  have ys : At size tl tr bl (p - dy) (u + (0 : Int) * c) (v + (-1 : Int) * c) 1000 :=
    mono (At.suby h h1 h2 h3 hp dy61 u5 (near hv i1).2 (by norm_num)) (by push_cast; ring) (by push_cast; ring) (by norm_num)
  have ya : At size tl tr bl (p + dy) (u + (0 : Int) * c) (v + (1 : Int) * c) 1000 :=
    mono (At.addy h h1 h2 h3 hp dy61 u5 (near hv i1).1 (by norm_num)) (by push_cast; ring) (by push_cast; ring) (by norm_num)
  rw [two]
  refine ⟨?_, ss i2 i2 (ix 2 i2) (iy 2 i2) rfl rfl, aa i2 i2 (ix 2 i2) (iy 2 i2)⟩
  unfold alignmentTests alignmentLooks
  rw [two]
  simp only [List.flatMap_cons, List.flatMap_nil, List.cons_append, List.nil_append]
  refine .cons ⟨rfl, ss j2 i2 (ix _ j2) (iy _ i2) rfl rfl⟩ <| .cons ⟨rfl, sa j2 i2 (ix _ j2) (iy _ i2) rfl⟩ <|
    .cons ⟨rfl, ss j1 i2 (ix _ j1) (iy _ i2) rfl rfl⟩ <| .cons ⟨rfl, sa j1 i2 (ix _ j1) (iy _ i2) rfl⟩ <|
    .cons ⟨rfl, ss i0 i2 (ix _ i0) (iy _ i2) rfl rfl⟩ <| .cons ⟨rfl, sa i0 i2 (ix _ i0) (iy _ i2) rfl⟩ <|
    .cons ⟨rfl, ss i1 i2 (ix _ i1) (iy _ i2) rfl rfl⟩ <| .cons ⟨rfl, sa i1 i2 (ix _ i1) (iy _ i2) rfl⟩ <|
    .cons ⟨rfl, ss i2 j1 (ix _ i2) (iy _ j1) rfl rfl⟩ <| .cons ⟨rfl, as' i2 j1 (ix _ i2) (iy _ j1) rfl⟩ <|
    .cons ⟨rfl, ss i1 j1 dx61 (iy _ j1) rfl rfl⟩ <| .cons ⟨rfl, sa i1 j1 dx61 (iy _ j1) rfl⟩ <|
    .cons ⟨rfl, ss i2 i0 (ix _ i2) (iy _ i0) rfl rfl⟩ <| .cons ⟨rfl, as' i2 i0 (ix _ i2) (iy _ i0) rfl⟩ <|
    .cons ⟨rfl, ss i1 i0 dx61 (iy _ i0) rfl rfl⟩ <| .cons ⟨rfl, sa i1 i0 dx61 (iy _ i0) rfl⟩ <|
    .cons ⟨rfl, ys⟩ <| .cons ⟨rfl, ya⟩ .nil

theorem ring_points {est : Point} {dx dy : Delta} (he : At size tl tr bl est 0 0 350)
    (hx : DNear dx (stepQ size tl tr) (2 * ηQ)) (hy : DNear dy (stepQ size tl bl) (2 * ηQ)) {a b : Int}
    (ha : |a| ≤ 3) (hb : |b| ≤ 3) :
    At size tl tr bl (est + F64.ofInt a / F64.lit 2 * dx - F64.ofInt b / F64.lit 2 * dy) ((a : ℚ) / 2) (((-b : Int) : ℚ) / 2) 400 ∧
    At size tl tr bl (est + F64.ofInt a / F64.lit 2 * dx + F64.ofInt b / F64.lit 2 * dy) ((a : ℚ) / 2) ((b : ℚ) / 2) 400 ∧
    At size tl tr bl (est - F64.ofInt a / F64.lit 2 * dx + F64.ofInt b / F64.lit 2 * dy) (((-a : Int) : ℚ) / 2) ((b : ℚ) / 2)
      400 := by
  have mono : ∀ {p : Point} {u v u' v' k : ℚ}, At size tl tr bl p u v k → u = u' → v = v' → k ≤ 400 →
      At size tl tr bl p u' v' 400 := by
    rintro p u v u' v' k hp rfl rfl hk
    exact hp.mono (mul_le_mul_of_nonneg_right hk ηQ_pos.le)
  have one : ∀ D : Pt, (1 : ℚ) • D = D := fun D => by ptring
  have hx' : DNear dx ((1 : ℚ) • stepQ size tl tr) (2 * ηQ) := by rwa [one]
  have hy' : DNear dy ((1 : ℚ) • stepQ size tl bl) (2 * ηQ) := by rwa [one]
  have half : ∀ {z : Int}, |z| ≤ 3 → |(z : ℚ) / 2| ≤ 3 / 2 := by
    intro z hz
    have : |(z : ℚ)| ≤ 3 := by exact_mod_cast hz
    rw [abs_div, abs_of_pos (show (0 : ℚ) < 2 by norm_num)]
    linarith
  have cx := dmul hx' (stepQ_small' h h1 h2) (half_exact ha) (by norm_num) (by have := half ha; linarith) (by norm_num)
    (by norm_num)
  have ey := dmul hy' (stepQ_small' h h1 h3) (half_exact hb) (by norm_num) (by have := half hb; linarith) (by norm_num)
    (by norm_num)
  rw [mul_one] at cx ey
  have ha5 : |(a : ℚ) / 2| ≤ 5 := by have := half ha; linarith
  have hb5 : |(b : ℚ) / 2| ≤ 5 := by have := half hb; linarith
  have z5 : |(0 : ℚ)| ≤ 5 := by norm_num
  have p1 : At size tl tr bl (est + F64.ofInt a / F64.lit 2 * dx) ((a : ℚ) / 2) 0 362 := by
    have := At.addx h h1 h2 h3 he cx (by rw [zero_add]; exact ha5) z5 (by norm_num)
    rw [zero_add] at this
    exact this.mono (by rw [ηQ_val]; norm_num)
  have p2 : At size tl tr bl (est - F64.ofInt a / F64.lit 2 * dx) (-((a : ℚ) / 2)) 0 362 := by
    have := At.subx h h1 h2 h3 he cx (by rw [zero_sub, abs_neg]; exact ha5) z5 (by norm_num)
    rw [zero_sub] at this
    exact this.mono (by rw [ηQ_val]; norm_num)
  refine ⟨?_, ?_, ?_⟩
  · exact mono (At.suby h h1 h2 h3 p1 ey ha5 (by rw [zero_sub, abs_neg]; exact hb5) (by norm_num)) rfl (by push_cast; ring)
      (by norm_num)
  · exact mono (At.addy h h1 h2 h3 p1 ey ha5 (by rw [zero_add]; exact hb5) (by norm_num)) rfl (by ring) (by norm_num)
  · exact mono (At.addy h h1 h2 h3 p2 ey (by rw [abs_neg]; exact ha5) (by rw [zero_add]; exact hb5) (by norm_num))
      (by push_cast; ring) (by ring) (by norm_num)

/-- The points that are tried at a distance. -/
theorem ring_exact {est p : Point} {dx dy : Delta} (he : At size tl tr bl est 0 0 350)
    (hx : DNear dx (stepQ size tl tr) (2 * ηQ)) (hy : DNear dy (stepQ size tl bl) (2 * ηQ)) {i : Nat}
    (hi : i ≤ 3) (hp : p ∈ ring est dx dy i) :
    ∃ x y : Int, max |x| |y| = i ∧ At size tl tr bl p ((x : ℚ) / 2) ((y : ℚ) / 2) 400 := by
  unfold ring at hp
  split at hp
  · rename_i h0
    rw [List.mem_singleton] at hp
    subst hp
    refine ⟨0, 0, by rw [h0]; rfl, ?_⟩
    have : At size tl tr bl p 0 0 400 := he.mono (by rw [ηQ_val]; norm_num)
    simpa using this
  · rename_i h0
    have key := @ring_points size tl tr bl h h1 h2 h3 est dx dy he hx hy
    rw [List.mem_append, List.mem_flatMap, List.mem_flatMap] at hp
    rcases hp with ⟨k, hk, hp⟩ | ⟨k, hk, hp⟩
    · rw [List.mem_range] at hk
      obtain ⟨k1, k2, -⟩ := @key ((k : Int) - i) i (by rw [abs_le]; omega) (by rw [abs_le]; omega)
      simp only [List.mem_cons, List.not_mem_nil, or_false] at hp
      rcases hp with rfl | rfl
      · refine ⟨_, _, ?_, k1⟩
        rw [abs_neg, abs_of_nonneg (by omega : (0 : Int) ≤ i)]
        exact max_eq_right (by rw [abs_le]; omega)
      · refine ⟨_, _, ?_, k2⟩
        rw [abs_of_nonneg (by omega : (0 : Int) ≤ i)]
        exact max_eq_right (by rw [abs_le]; omega)
    · rw [List.mem_range] at hk
      obtain ⟨-, k2, k3⟩ := @key i ((k : Int) - i + 1) (by rw [abs_le]; omega) (by rw [abs_le]; omega)
      simp only [List.mem_cons, List.not_mem_nil, or_false] at hp
      rcases hp with rfl | rfl
      · refine ⟨_, _, ?_, k3⟩
        rw [abs_neg, abs_of_nonneg (by omega : (0 : Int) ≤ i)]
        exact max_eq_left (by rw [abs_le]; omega)
      · refine ⟨_, _, ?_, k2⟩
        rw [abs_of_nonneg (by omega : (0 : Int) ≤ i)]
        exact max_eq_left (by rw [abs_le]; omega)

/-- All points at that distance are tried. -/
theorem ring_complete {est : Point} {dx dy : Delta} (he : At size tl tr bl est 0 0 350)
    (hx : DNear dx (stepQ size tl tr) (2 * ηQ)) (hy : DNear dy (stepQ size tl bl) (2 * ηQ)) {i : Nat}
    (hi : i ≤ 3) {x y : Int} (hxy : max |x| |y| = i) :
    ∃ p ∈ ring est dx dy i, At size tl tr bl p ((x : ℚ) / 2) ((y : ℚ) / 2) 400 := by
  have bx : |x| ≤ i := by rw [← hxy]; exact le_max_left _ _
  have b_y : |y| ≤ i := by rw [← hxy]; exact le_max_right _ _
  have bx' := abs_le.mp bx
  have by' := abs_le.mp b_y
  unfold ring
  split
  · rename_i h0
    have ex : x = 0 := by omega
    have ey : y = 0 := by omega
    subst ex; subst ey
    refine ⟨est, by simp, ?_⟩
    have : At size tl tr bl est 0 0 400 := he.mono (by rw [ηQ_val]; norm_num)
    simpa using this
  · rename_i h0
    have key := @ring_points size tl tr bl h h1 h2 h3 est dx dy he hx hy
    simp only [List.mem_append, List.mem_flatMap, List.mem_range]
    by_cases hy' : |y| = i
    · -- above or below
      obtain ⟨k1, k2, -⟩ := @key x i (by omega) (by rw [abs_le]; omega)
      have ek : ((x + i).toNat : Int) - i = x := by omega
      rcases abs_eq (by omega : (0 : Int) ≤ i) |>.mp hy' with e | e
      · rw [← e] at k2
        refine ⟨_, Or.inl ⟨(x + i).toNat, by omega, ?_⟩, k2⟩
        rw [ek, e]
        simp
      · rw [← e] at k1
        refine ⟨_, Or.inl ⟨(x + i).toNat, by omega, ?_⟩, k1⟩
        rw [ek]
        simp
    · have hx' : |x| = i := by
        rcases max_choice |x| |y| with e | e
        · rw [← e]; exact hxy
        · rw [e] at hxy; exact absurd hxy hy'
      have hlt : |y| < i := lt_of_le_of_ne b_y hy'
      rw [abs_lt] at hlt
      obtain ⟨-, k2, k3⟩ := @key i y (by rw [abs_le]; omega) (by omega)
      have ek : ((y + i - 1).toNat : Int) - i + 1 = y := by omega
      rcases abs_eq (by omega : (0 : Int) ≤ i) |>.mp hx' with e | e
      · rw [← e] at k2
        refine ⟨_, Or.inr ⟨(y + i - 1).toNat, by omega, ?_⟩, k2⟩
        rw [ek, e]
        simp
      · rw [← e] at k3
        refine ⟨_, Or.inr ⟨(y + i - 1).toNat, by omega, ?_⟩, k3⟩
        rw [ek]
        simp

end

/-! ### What the tests mean -/

theorem noneOf_iff {img : GrayImage} : ∀ {l : List (Point × U8)}, noneOf img l = .ret true ↔
    ∀ t ∈ l, ∃ c, pixelAt img t.1 = .ret c ∧ c ≠ t.2 := by
  intro l
  induction l with
  | nil => simp [noneOf]
  | cons t l ih =>
    unfold noneOf
    cases hp : pixelAt img t.1 with
    | panic =>
      constructor
      · intro h; cases h
      · intro h
        obtain ⟨c, hc, -⟩ := h t (by simp)
        rw [hp] at hc
        cases hc
    | ret c =>
      rw [Run.ret_bind]
      split
      · rename_i e
        constructor
        · intro h; cases h
        · intro h
          obtain ⟨c', hc, hne⟩ := h t (by simp)
          rw [hp] at hc
          injection hc with hc
          rw [hc] at e
          exact absurd e hne
      · rename_i e
        rw [ih]
        constructor
        · intro h t' ht'
          rcases List.mem_cons.mp ht' with rfl | ht'
          · exact ⟨c, hp, e⟩
          · exact h t' ht'
        · intro h t' ht'
          exact h t' (List.mem_cons_of_mem _ ht')

theorem isAlignment_tests {img : GrayImage} {p : Point} {dx dy : Delta} {scale : F64}
    (h : isAlignment img p dx dy scale = .ret true) :
    ∀ t ∈ alignmentTests p (scale * dx) (scale * dy), ∃ c, pixelAt img t.1 = .ret c ∧ c ≠ t.2 := by
  unfold isAlignment at h
  split at h
  · cases h
  · simp only at h
    split at h
    · cases h
    · split at h
      · cases h
      · cases hn : noneOf img (alignmentTests p (scale * dx) (scale * dy)) with
        | panic => rw [hn] at h; cases h
        | ret b =>
          rw [hn, Run.ret_bind] at h
          split at h
          · rename_i hb
            rw [hb] at hn
            exact noneOf_iff.mp hn
          · cases h

theorem isAlignment_of {img : GrayImage} {p : Point} {dx dy : Delta} {scale : F64}
    (h1 : F64.lt p.x (F64.lit 0) = false) (h2 : F64.lt p.y (F64.lit 0) = false)
    (h3 : F64.lt (p - F64.lit 2 * (scale * dx) - F64.lit 2 * (scale * dy)).x (F64.lit 0) = false)
    (h4 : F64.lt (p - F64.lit 2 * (scale * dx) - F64.lit 2 * (scale * dy)).y (F64.lit 0) = false)
    (h5 : F64.ge (p + F64.lit 2 * (scale * dx) + F64.lit 2 * (scale * dy)).x.round (F64.ofNat img.width) = false)
    (h6 : F64.ge (p + F64.lit 2 * (scale * dx) + F64.lit 2 * (scale * dy)).y.round (F64.ofNat img.height) = false)
    (h7 : ∀ t ∈ alignmentTests p (scale * dx) (scale * dy), ∃ c, pixelAt img t.1 = .ret c ∧ c ≠ t.2)
    (h8 : pixelAt img p = .ret 0#8) : isAlignment img p dx dy scale = .ret true := by
  unfold isAlignment
  simp only [h1, h2, h3, h4, h5, h6, Bool.or_self, Bool.false_eq_true, if_false]
  rw [noneOf_iff.mpr h7, Run.ret_bind, if_pos rfl, h8, Run.ret_bind]
  rfl

theorem forall₂_left {α β : Type} {R : α → β → Prop} {l : List α} {l' : List β} (h : List.Forall₂ R l l') :
    ∀ a ∈ l, ∃ b ∈ l', R a b := by
  induction h with
  | nil => simp
  | cons hr _ ih =>
    intro a ha
    rcases List.mem_cons.mp ha with rfl | ha
    · exact ⟨_, by simp, hr⟩
    · obtain ⟨b, hb, hr⟩ := ih a ha
      exact ⟨b, List.mem_cons_of_mem _ hb, hr⟩

theorem forall₂_right {α β : Type} {R : α → β → Prop} {l : List α} {l' : List β} (h : List.Forall₂ R l l') :
    ∀ b ∈ l', ∃ a ∈ l, R a b := by
  induction h with
  | nil => simp
  | cons hr _ ih =>
    intro b hb
    rcases List.mem_cons.mp hb with rfl | hb
    · exact ⟨_, by simp, hr⟩
    · obtain ⟨a, ha, hr⟩ := ih b hb
      exact ⟨a, List.mem_cons_of_mem _ ha, hr⟩

theorem not_left_of {a : F64} {q : ℚ} (h : Near a q (1 / 100)) (hq : 1 / 50 ≤ q) : F64.lt a (F64.lit 0) = false := by
  obtain ⟨r, rfl, hr⟩ := h
  rw [lit0, lt_fin, decide_eq_false_iff_not, not_lt]
  rw [abs_le] at hr
  linarith [hr.1]

theorem not_right_of {a : F64} {q : ℚ} {n : Nat} (h : Near a q (1 / 100)) (hq : q ≤ n - 1 / 2 - 1 / 50) (hq' : |q| ≤ 2 ^ 28)
    (hn : n ≤ 2 ^ 20) : F64.ge a.round (F64.ofNat n) = false := by
  obtain ⟨r, rfl, hr⟩ := h
  have hrb : |r| ≤ 2 ^ 52 := by
    have e : r = q + (r - q) := by ring
    rw [e]; refine le_trans (abs_add_le _ _) ?_; linarith
  rw [round_fin hrb, ofNat_fin (by omega), ge_fin, decide_eq_false_iff_not, not_le]
  have hra := roundAway_near r
  rw [abs_le] at hr hra
  linarith [hra.2, hr.2]

section
variable {size : Nat} {tl tr bl : Pt} (h : 21 ≤ size) (h1 : mag tl ≤ WQ) (h2 : mag tr ≤ WQ) (h3 : mag bl ≤ WQ)
  {img : GrayImage} (hv : img.Valid) (hw : img.width ≤ 2 ^ 20) (hh : img.height ≤ 2 ^ 20)
  {dx dy : Delta} (hx : DNear dx (stepQ size tl tr) (2 * ηQ)) (hy : DNear dy (stepQ size tl bl) (2 * ηQ))
  {p : Point} {x y z : Int} (ht : Tried x y z) (hp : At size tl tr bl p ((x : ℚ) / 2) ((y : ℚ) / 2) 400)
include h h1 h2 h3 hx hy ht hp

omit hv hw hh in
theorem tried_points :
    (PNear p (triedModule size tl tr bl x y z (0, 0)) (1 / 100) ∧ mag (triedModule size tl tr bl x y z (0, 0)) ≤ 2 ^ 28) ∧
    List.Forall₂ (fun (t : Point × U8) (o : (Int × Int) × U8) => t.2 = o.2 ∧
      PNear t.1 (triedModule size tl tr bl x y z o.1) (1 / 100) ∧ mag (triedModule size tl tr bl x y z o.1) ≤ 2 ^ 28)
      (alignmentTests p ((F64.lit 1 + F64.ofInt z / F64.lit 10 : F64) * dx) ((F64.lit 1 + F64.ofInt z / F64.lit 10 : F64) * dy))
      alignmentLooks ∧
    (PNear (p - F64.lit 2 * ((F64.lit 1 + F64.ofInt z / F64.lit 10 : F64) * dx) -
        F64.lit 2 * ((F64.lit 1 + F64.ofInt z / F64.lit 10 : F64) * dy)) (triedModule size tl tr bl x y z (-2, -2)) (1 / 100) ∧
      mag (triedModule size tl tr bl x y z (-2, -2)) ≤ 2 ^ 28) ∧
    PNear (p + F64.lit 2 * ((F64.lit 1 + F64.ofInt z / F64.lit 10 : F64) * dx) +
        F64.lit 2 * ((F64.lit 1 + F64.ofInt z / F64.lit 10 : F64) * dy)) (triedModule size tl tr bl x y z (2, 2)) (1 / 100) ∧
      mag (triedModule size tl tr bl x y z (2, 2)) ≤ 2 ^ 28 := by
  obtain ⟨tx, ty, tz, tz'⟩ := ht
  have hq1 : (-2 : ℚ) ≤ z := by exact_mod_cast tz
  have hq2 : (z : ℚ) ≤ 3 := by exact_mod_cast tz'
  have half : ∀ {a : Int}, |a| ≤ 3 → |(a : ℚ) / 2| ≤ 3 / 2 := by
    intro z hz
    have : |(z : ℚ)| ≤ 3 := by exact_mod_cast hz
    rw [abs_div, abs_of_pos (show (0 : ℚ) < 2 by norm_num)]
    linarith
  have sx := scaled_step h h1 h2 h3 hx (stepQ_small' h h1 h2) ⟨tz, tz'⟩
  have sy := scaled_step h h1 h2 h3 hy (stepQ_small' h h1 h3) ⟨tz, tz'⟩
  obtain ⟨e1, e2, e3⟩ := tests_exact h h1 h2 h3 (half tx) (half ty) hp (c := 1 + (z : ℚ) / 10) (by linarith) (by linarith) sx sy
  have conv : ∀ {q : Point} {k l : Int} , |k| ≤ 2 → |l| ≤ 2 →
      At size tl tr bl q ((x : ℚ) / 2 + k * (1 + (z : ℚ) / 10)) ((y : ℚ) / 2 + l * (1 + (z : ℚ) / 10)) 1000 →
      PNear q (triedModule size tl tr bl x y z (k, l)) (1 / 100) ∧ mag (triedModule size tl tr bl x y z (k, l)) ≤ 2 ^ 28 := by
    intro q k l hk hl hq
    have five : ∀ {a : ℚ} {k : Int}, |a| ≤ 3 / 2 → |k| ≤ 2 → |a + k * (1 + (z : ℚ) / 10)| ≤ 5 := by
      intro a k ha hk
      have hk' : |(k : ℚ)| ≤ 2 := by exact_mod_cast hk
      have hs : |1 + (z : ℚ) / 10| ≤ 13 / 10 := by rw [abs_le]; constructor <;> linarith
      have hm : |(k : ℚ) * (1 + (z : ℚ) / 10)| ≤ 2 * (13 / 10) := by
        rw [abs_mul]; exact mul_le_mul hk' hs (abs_nonneg _) (by norm_num)
      refine le_trans (abs_add_le _ _) ?_
      linarith
    have hsm := at_small h h1 h2 h3 (five (half tx) hk) (five (half ty) hl)
    unfold At at hq
    unfold triedModule
    rw [beside_eq h]
    refine ⟨hq.mono (by rw [ηQ_val]; norm_num), ?_⟩
    rw [WQ_val] at hsm
    simp only
    linarith
  refine ⟨?_, ?_, conv (by decide) (by decide) e2, conv (by decide) (by decide) e3⟩
  · refine conv (k := 0) (l := 0) (by decide) (by decide) ?_
    have e : ∀ a : ℚ, a + ((0 : Int) : ℚ) * (1 + (z : ℚ) / 10) = a := fun a => by push_cast; ring
    rw [e, e]
    exact hp.mono (by rw [ηQ_val]; norm_num)
  · have hlooks : ∀ o ∈ alignmentLooks, |o.1.1| ≤ 2 ∧ |o.1.2| ≤ 2 := by decide
    have gen : ∀ {l : List (Point × U8)} {l' : List ((Int × Int) × U8)}, (∀ o ∈ l', |o.1.1| ≤ 2 ∧ |o.1.2| ≤ 2) →
        List.Forall₂ (fun (t : Point × U8) (o : (Int × Int) × U8) => t.2 = o.2 ∧
          At size tl tr bl t.1 ((x : ℚ) / 2 + o.1.1 * (1 + (z : ℚ) / 10)) ((y : ℚ) / 2 + o.1.2 * (1 + (z : ℚ) / 10)) 1000) l l' →
        List.Forall₂ (fun (t : Point × U8) (o : (Int × Int) × U8) => t.2 = o.2 ∧
          PNear t.1 (triedModule size tl tr bl x y z o.1) (1 / 100) ∧ mag (triedModule size tl tr bl x y z o.1) ≤ 2 ^ 28) l l' := by
      intro l l' hl hf
      induction hf with
      | nil => exact .nil
      | @cons a b l l' hr _ ih =>
        have hb := hl b (by simp)
        exact .cons ⟨hr.1, conv hb.1 hb.2 hr.2⟩ (ih fun o ho => hl o (by simp [ho]))
    exact gen hlooks e1

omit hv in
include hw hh in
theorem canBe_of (hal : isAlignment img p dx dy (F64.lit 1 + F64.ofInt z / F64.lit 10) = .ret true) :
    CanBeAlignment img size tl tr bl x y z := by
  obtain ⟨⟨c1, c2⟩, c3, -, -⟩ := tried_points h h1 h2 h3 hx hy ht hp
  refine ⟨pixelAt_near hw hh c1 c2 (isAlignment_true hal), ?_⟩
  intro o ho
  obtain ⟨t, hm, e, n1, n2⟩ := forall₂_right c3 o ho
  obtain ⟨c, hc, hne⟩ := isAlignment_tests hal t hm
  exact ⟨c, by rw [← e]; exact hne, pixelAt_near hw hh n1 n2 hc⟩

include hv hw hh in
theorem isAlignment_of_mustBe (hm : MustBeAlignment img size tl tr bl x y z) :
    isAlignment img p dx dy (F64.lit 1 + F64.ofInt z / F64.lit 10) = .ret true := by
  obtain ⟨⟨c1, c2⟩, c3, ⟨c4, c5⟩, c6, c7⟩ := tried_points h h1 h2 h3 hx hy ht hp
  obtain ⟨m1, m2, m3⟩ := hm
  have hin0 := m1 0 0 (by decide) (by decide)
  have hinm := m1 (-2) (-2) (by decide) (by decide)
  have hinp := m1 2 2 (by decide) (by decide)
  have hb := hinp.2.2
  unfold Beyond at hb
  rw [not_or, not_lt, not_lt] at hb
  have hw0 : 1 ≤ img.width := by
    have hb0 := hin0.2.2
    unfold Beyond at hb0
    rw [not_or, not_lt, not_lt] at hb0
    have : (0 : ℚ) < img.width := by linarith [hin0.1, hb0.1]
    exact_mod_cast this
  have hh0 : 1 ≤ img.height := by
    have hb0 := hin0.2.2
    unfold Beyond at hb0
    rw [not_or, not_lt, not_lt] at hb0
    have : (0 : ℚ) < img.height := by linarith [hin0.2.1, hb0.2]
    exact_mod_cast this
  have total : ∀ {q : Point} {pt : Pt}, PNear q pt (1 / 100) → mag pt ≤ 2 ^ 28 → Inside img pt →
      ∃ c, pixelAt img q = .ret c ∧ PixelNear img pt (1 / 100) c := by
    intro q pt hn hs hi
    cases hq : pixelAt img q with
    | panic => exact absurd (pixelAt_panic hv hw0 hh0 hw hh hn hs hq) hi.2.2
    | ret c => exact ⟨c, rfl, pixelAt_near hw hh hn hs hq⟩
  refine isAlignment_of (not_left_of c1.1 hin0.1) (not_left_of c1.2 hin0.2.1) (not_left_of c4.1 hinm.1)
    (not_left_of c4.2 hinm.2.1) (not_right_of c6.1 hb.1 (le_trans (le_mag1 _) c7) hw)
    (not_right_of c6.2 hb.2 (le_trans (le_mag2 _) c7) hh) ?_ ?_
  · intro t htm
    obtain ⟨o, ho, e, n1, n2⟩ := forall₂_left c3 t htm
    have hlooks : ∀ o ∈ alignmentLooks, |o.1.1| ≤ 2 ∧ |o.1.2| ≤ 2 := by decide
    obtain ⟨c, hc, hc'⟩ := total n1 n2 (m1 o.1.1 o.1.2 (hlooks o ho).1 (hlooks o ho).2)
    exact ⟨c, hc, by rw [e]; exact m3 o ho c hc'⟩
  · obtain ⟨c, hc, hc'⟩ := total c1 c2 hin0
    rw [hc, m2 c hc']

end

/-! ### The search -/

theorem findAlignment_none {img : GrayImage} {dx dy : Delta} : ∀ {l : List (Point × F64)},
    findAlignment img dx dy l = .ret none ↔ ∀ t ∈ l, isAlignment img t.1 dx dy t.2 = .ret false := by
  intro l
  induction l with
  | nil => simp [findAlignment]
  | cons t l ih =>
    unfold findAlignment
    cases hp : isAlignment img t.1 dx dy t.2 with
    | panic =>
      constructor
      · intro h; cases h
      · intro h
        have := h t (by simp)
        rw [hp] at this
        cases this
    | ret c =>
      rw [Run.ret_bind]
      cases c with
      | true =>
        rw [if_pos rfl]
        constructor
        · intro h; cases h
        · intro h
          have := h t (by simp)
          rw [hp] at this
          cases this
      | false =>
        rw [if_neg (by simp), ih]
        constructor
        · intro h t' ht'
          rcases List.mem_cons.mp ht' with rfl | ht'
          · exact hp
          · exact h t' ht'
        · intro h t' ht'
          exact h t' (List.mem_cons_of_mem _ ht')

theorem findAlignment_append {img : GrayImage} {dx dy : Delta} {p : Point} : ∀ {l l' : List (Point × F64)},
    findAlignment img dx dy (l ++ l') = .ret (some p) →
    findAlignment img dx dy l = .ret (some p) ∨
    findAlignment img dx dy l = .ret none ∧ findAlignment img dx dy l' = .ret (some p) := by
  intro l
  induction l with
  | nil => intro l' h; exact Or.inr ⟨rfl, h⟩
  | cons t l ih =>
    intro l' h
    rw [List.cons_append] at h
    unfold findAlignment at h
    cases hp : isAlignment img t.1 dx dy t.2 with
    | panic => rw [hp] at h; cases h
    | ret c =>
      rw [hp, Run.ret_bind] at h
      have e : findAlignment img dx dy (t :: l) = if c = true then pure (some t.1) else findAlignment img dx dy l := by
        rw [findAlignment.eq_def]
        simp only
        rw [hp, Run.ret_bind]
      rw [e]
      cases c with
      | true => exact Or.inl h
      | false => exact ih h

theorem findAlignment_flatMap {img : GrayImage} {dx dy : Delta} {p : Point} {α : Type} {f : α → List (Point × F64)} :
    ∀ {l : List α}, findAlignment img dx dy (l.flatMap f) = .ret (some p) →
    ∃ pre a post, l = pre ++ a :: post ∧ (∀ b ∈ pre, findAlignment img dx dy (f b) = .ret none) ∧
      findAlignment img dx dy (f a) = .ret (some p) := by
  intro l
  induction l with
  | nil => intro h; cases h
  | cons a l ih =>
    intro h
    rw [List.flatMap_cons] at h
    rcases findAlignment_append h with h | ⟨h0, h⟩
    · exact ⟨[], a, l, rfl, by simp, h⟩
    · obtain ⟨pre, a', post, e, h1, h2⟩ := ih h
      refine ⟨a :: pre, a', post, by rw [e]; rfl, ?_, h2⟩
      intro b hb
      rcases List.mem_cons.mp hb with rfl | hb
      · exact h0
      · exact h1 b hb

theorem prefix_of_split {α : Type} {l pre post : List α} {a : α} (h : l = pre ++ a :: post) :
    ∃ k, l[k]? = some a ∧ pre = l.take k := by
  refine ⟨pre.length, ?_, ?_⟩
  · rw [h, List.getElem?_append_right (le_refl _)]; simp
  · rw [h]; simp

theorem sizes_before {pre post : List Int} {z : Int} (h : ([0, 1, -1, 2, -2, 3] : List Int) = pre ++ z :: post) :
    (-2 ≤ z ∧ z ≤ 3) ∧ ∀ z' : Int, -2 ≤ z' → z' ≤ 3 → sizeRank z' < sizeRank z → z' ∈ pre := by
  obtain ⟨k, hk, rfl⟩ := prefix_of_split h
  have hk6 : k < 6 := by
    by_contra hge
    rw [List.getElem?_eq_none (by simp only [List.length_cons, List.length_nil]; omega)] at hk
    cases hk
  have key : ∀ z' : Int, -2 ≤ z' → z' ≤ 3 → z' = -2 ∨ z' = -1 ∨ z' = 0 ∨ z' = 1 ∨ z' = 2 ∨ z' = 3 := by
    intro z' a b; omega
  interval_cases k <;> simp at hk <;> subst hk <;> refine ⟨by decide, ?_⟩ <;> intro z' a b <;>
    rcases key z' a b with rfl | rfl | rfl | rfl | rfl | rfl <;> decide

section
variable {size : Nat} (h : 21 ≤ size) (h' : size ≤ 177) {loc : QRLocation} {tl tr bl : Pt} (hl : LocExact loc tl tr bl)
  {img : GrayImage} (hv : img.Valid) (hw : img.width ≤ 2 ^ 20) (hh : img.height ≤ 2 ^ 20)
  {dx dy : Delta} (hx : DNear dx (stepQ size tl tr) (2 * ηQ)) (hy : DNear dy (stepQ size tl bl) (2 * ηQ))
include h h' hl hv hw hh hx hy

/-- Where nothing is found, there was nothing that had to be found. -/
theorem search_missed {i : Nat} (hi : i ≤ 3) {z : Int} (hz : -2 ≤ z ∧ z ≤ 3)
    (hn : findAlignment img dx dy ((ring (estimate loc dx dy size) dx dy i).map fun p =>
      (p, F64.lit 1 + F64.ofInt z / F64.lit 10)) = .ret none) {x y : Int} (hxy : max |x| |y| = i) :
    ¬ MustBeAlignment img size tl tr bl x y z := by
  intro hm
  have hest : At size tl tr bl (estimate loc dx dy size) 0 0 350 := by
    have := estimate_near h h' hl hx hy
    have e : estQ size tl tr bl + (0 : ℚ) • stepQ size tl tr + (0 : ℚ) • stepQ size tl bl = estQ size tl tr bl := by ptring
    unfold At
    rwa [e]
  obtain ⟨p, hp, hat⟩ := ring_complete h hl.tl_small hl.tr_small hl.bl_small hest hx hy hi hxy
  have ht : Tried x y z := by
    have a := le_max_left |x| |y|
    have b := le_max_right |x| |y|
    exact ⟨by omega, by omega, hz.1, hz.2⟩
  have h1 := isAlignment_of_mustBe h hl.tl_small hl.tr_small hl.bl_small hv hw hh hx hy ht hat hm
  have h2 := findAlignment_none.mp hn _ (List.mem_map.mpr ⟨p, hp, rfl⟩)
  simp only at h2
  rw [h1] at h2
  cases h2

/-- The search ends without a result only if there is nothing that must be an alignment pattern. -/
theorem search_none (hn : findAlignment img dx dy (attempts (estimate loc dx dy size) dx dy) = .ret none) {x y z : Int}
    (ht : Tried x y z) : ¬ MustBeAlignment img size tl tr bl x y z := by
  obtain ⟨t1, t2, t3, t4⟩ := ht
  obtain ⟨i, hi⟩ : ∃ i : Nat, max |x| |y| = i := ⟨(max |x| |y|).toNat, by
    rw [Int.toNat_of_nonneg (le_trans (abs_nonneg x) (le_max_left _ _))]⟩
  have hi3 : i ≤ 3 := by
    have : max |x| |y| ≤ 3 := max_le t1 t2
    omega
  refine search_missed h h' hl hv hw hh hx hy hi3 ⟨t3, t4⟩ ?_ hi
  rw [findAlignment_none] at hn ⊢
  intro t htm
  apply hn
  unfold attempts
  simp only [List.mem_flatMap]
  refine ⟨i, List.mem_range.mpr (by omega), z, ?_, htm⟩
  have : z = -2 ∨ z = -1 ∨ z = 0 ∨ z = 1 ∨ z = 2 ∨ z = 3 := by omega
  simp only [List.mem_cons, List.not_mem_nil, or_false]
  omega

/-- What the search finds. -/
theorem search_some {p : Point}
    (hp : findAlignment img dx dy (attempts (estimate loc dx dy size) dx dy) = .ret (some p)) :
    ∃ x y z : Int, Tried x y z ∧ CanBeAlignment img size tl tr bl x y z ∧
      (∀ x' y' z', Tried x' y' z' → TriedBefore x' y' z' x y z → ¬ MustBeAlignment img size tl tr bl x' y' z') ∧
      PNear p (triedModule size tl tr bl x y z (0, 0)) (1 / 100) ∧
      mag (triedModule size tl tr bl x y z (0, 0)) ≤ 2 ^ 28 ∧ pixelAt img p = .ret 0#8 := by
  have hest : At size tl tr bl (estimate loc dx dy size) 0 0 350 := by
    have := estimate_near h h' hl hx hy
    have e : estQ size tl tr bl + (0 : ℚ) • stepQ size tl tr + (0 : ℚ) • stepQ size tl bl = estQ size tl tr bl := by ptring
    unfold At
    rwa [e]
  unfold attempts at hp
  obtain ⟨pre, i, post, e1, n1, hp⟩ := findAlignment_flatMap hp
  obtain ⟨pre', z, post', e2, n2, hp⟩ := findAlignment_flatMap hp
  obtain ⟨hz, hbefore⟩ := sizes_before e2
  have hi : i ≤ 3 ∧ ∀ i' < i, i' ∈ pre := by
    obtain ⟨k, hk, rfl⟩ := prefix_of_split e1
    have hk4 : k < 4 := by
      by_contra hge
      rw [List.getElem?_eq_none (by rw [List.length_range]; omega)] at hk
      cases hk
    rw [List.getElem?_range hk4] at hk
    simp only [Option.some.injEq] at hk
    subst hk
    refine ⟨by omega, fun i' hi' => ?_⟩
    rw [List.take_range, List.mem_range]
    omega
  obtain ⟨⟨q, s⟩, hq, e3, hal⟩ := findAlignment_some hp
  rw [List.mem_map] at hq
  obtain ⟨q', hq, e4⟩ := hq
  injection e4 with e4 e5
  simp only at e3
  subst e3
  subst e4
  subst e5
  obtain ⟨x, y, hxy, hat⟩ := ring_exact h hl.tl_small hl.tr_small hl.bl_small hest hx hy hi.1 hq
  have ht : Tried x y z := by
    have a := le_max_left |x| |y|
    have b := le_max_right |x| |y|
    exact ⟨by omega, by omega, hz.1, hz.2⟩
  refine ⟨x, y, z, ht, canBe_of h hl.tl_small hl.tr_small hl.bl_small hw hh hx hy ht hat hal, ?_,
    (tried_points h hl.tl_small hl.tr_small hl.bl_small hx hy ht hat).1.1,
    (tried_points h hl.tl_small hl.tr_small hl.bl_small hx hy ht hat).1.2, isAlignment_true hal⟩
  intro x' y' z' ht' hb
  obtain ⟨i', hi'⟩ : ∃ i : Nat, max |x'| |y'| = i := ⟨(max |x'| |y'|).toNat, by
    rw [Int.toNat_of_nonneg (le_trans (abs_nonneg x') (le_max_left _ _))]⟩
  have hi3 : i' ≤ 3 := by
    have : max |x'| |y'| ≤ 3 := max_le ht'.1 ht'.2.1
    omega
  refine search_missed h h' hl hv hw hh hx hy hi3 ht'.2.2 ?_ hi'
  rcases hb with hb | ⟨hb, hr⟩
  · have hn := n1 i' (hi.2 i' (by omega))
    rw [findAlignment_none] at hn ⊢
    intro t htm
    apply hn
    rw [List.mem_flatMap]
    refine ⟨z', ?_, htm⟩
    obtain ⟨-, -, t3, t4⟩ := ht'
    simp only [List.mem_cons, List.not_mem_nil, or_false]
    omega
  · have ei : i' = i := by omega
    subst ei
    exact n2 z' (hbefore z' ht'.2.2.1 ht'.2.2.2 hr)

end

end Extractor
end Verif
