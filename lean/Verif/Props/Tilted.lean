import Verif.Lemmas.Tilted
import Verif.Props.Placed

/-!
# C74, C75: tilted symbols
-/
namespace Verif.Props
open Verif Verif.Spec F64 Extractor Real Tilted

variable {σ IMG : Type}

theorem pixelNear_close {img : GrayImage} {pt : Pt} {c : U8} (h : PixelNear img pt (1 / 100) c) {X Y η₁ η₂ : ℝ}
    (h1 : |(pt.1 : ℝ) - X| ≤ η₁) (h2 : |(pt.2 : ℝ) - Y| ≤ η₂) (p1 : (0 : ℝ) ≤ pt.1) (p2 : (0 : ℝ) ≤ pt.2) :
    ∃ x y : Nat, x < img.width ∧ y < img.height ∧ img.pixels[y * img.width + x]? = some c ∧
      |(x : ℝ) - X| ≤ 51 / 100 + η₁ ∧ |(y : ℝ) - Y| ≤ 51 / 100 + η₂ := by
  obtain ⟨x, y, hx, hy, hc, e1, e2⟩ := h
  have p1' : 0 ≤ pt.1 := by exact_mod_cast p1
  have p2' : 0 ≤ pt.2 := by exact_mod_cast p2
  rw [max_eq_right p1'] at e1
  rw [max_eq_right p2'] at e2
  have key : ∀ (n : Nat) (z : ℚ) (Z η : ℝ), |(n : ℚ) - z| ≤ 1 / 2 + 1 / 100 → |(z : ℝ) - Z| ≤ η →
      |(n : ℝ) - Z| ≤ 51 / 100 + η := by
    intro n z Z η h h'
    have : ((|(n : ℚ) - z| : ℚ) : ℝ) ≤ ((1 / 2 + 1 / 100 : ℚ) : ℝ) := by exact_mod_cast h
    push_cast at this
    rw [abs_le] at *
    constructor <;> linarith
  exact ⟨x, y, hx, hy, hc, key _ _ _ _ e1 h1, key _ _ _ _ e2 h2⟩

theorem not_beyond {img : GrayImage} {pt : Pt} (h1 : (pt.1 : ℝ) ≤ img.width - 1 / 2 - 1 / 50)
    (h2 : (pt.2 : ℝ) ≤ img.height - 1 / 2 - 1 / 50) : ¬ Beyond img pt := by
  have h1' : pt.1 ≤ img.width - 1 / 2 - 1 / 50 := by
    have : (pt.1 : ℝ) ≤ ((img.width - 1 / 2 - 1 / 50 : ℚ) : ℝ) := by push_cast; linarith
    exact_mod_cast this
  have h2' : pt.2 ≤ img.height - 1 / 2 - 1 / 50 := by
    have : (pt.2 : ℝ) ≤ ((img.height - 1 / 2 - 1 / 50 : ℚ) : ℝ) := by push_cast; linarith
    exact_mod_cast this
  rintro (h | h) <;> linarith

/-- Sampling near the centre of a module gives its colour. -/
theorem sampled_module {img : GrayImage} {q : QRData} {p : ℝ × ℝ} {m θ : ℝ} (hsh : ShownTilted img q p m θ)
    (hin : TiltedInside img q.side p m θ) (hm : 0 < m) {i j : Nat} (hi : i < q.side) (hj : j < q.side) {pt : Pt} {η₁ η₂ : ℝ}
    (h1 : |(pt.1 : ℝ) - (tiltedPlace p m θ i j).1| ≤ η₁) (h2 : |(pt.2 : ℝ) - (tiltedPlace p m θ i j).2| ≤ η₂)
    (hη : ∀ dx dy : ℝ, |dx| ≤ 51 / 100 + η₁ → |dy| ≤ 51 / 100 + η₂ → dist (cos θ) (sin θ) dx dy < m / 2) :
    ((1 / 50 ≤ (pt.1 : ℝ) ∧ (pt.1 : ℝ) ≤ img.width - 1 / 2 - 1 / 50) ∧
      (1 / 50 ≤ (pt.2 : ℝ) ∧ (pt.2 : ℝ) ≤ img.height - 1 / 2 - 1 / 50)) ∧
    ∀ c, PixelNear img pt (1 / 100) c → q.data[i * q.side + j]? = some c := by
  have hi' : (i : ℝ) + 1 ≤ q.side := by exact_mod_cast hi
  have hj' : (j : ℝ) + 1 ≤ q.side := by exact_mod_cast hj
  have i0 : (0 : ℝ) ≤ i := Nat.cast_nonneg i
  have j0 : (0 : ℝ) ≤ j := Nat.cast_nonneg j
  have hins := inside_at hin hm (i := i) (j := j) (r := 1 / 2) (X := pt.1) (Y := pt.2) (by linarith) (by linarith) (by linarith)
    (by linarith) ((hη _ _ (h1.trans (by linarith)) (h2.trans (by linarith))).le.trans_eq (by ring))
  refine ⟨hins, ?_⟩
  intro c hc
  obtain ⟨x, y, hx, hy, hpx, e1, e2⟩ := pixelNear_close hc h1 h2 (by linarith [hins.1.1]) (by linarith [hins.2.1])
  rw [← colour_at hsh hm hi hj hx hy (hη _ _ e1 e2), hpx]

theorem centres_nonneg {side : Nat} {tl tr bl : Pt} {p : ℝ × ℝ} {m θ δ ε : ℝ} (h : TiltedCentres side tl tr bl p m θ δ ε) :
    0 ≤ δ ∧ 0 ≤ ε := by
  obtain ⟨shift, h1, -, ⟨h2, -⟩, -⟩ := h
  exact ⟨(abs_nonneg _).trans h1, (abs_nonneg _).trans h2⟩

/-- A tilted grid is shown, in the sense of C72, at its finder centres. -/
theorem tilted_shows {img : GrayImage} {q : QRData} {v : Nat} (hv : 1 ≤ v) (hq : WellFormed q v)
    (hal : 2 ≤ v → HasAlignment q) {p : ℝ × ℝ} {m θ δ ε : ℝ} (hm1 : 3 / 2 + 3 * δ + 12 * ε ≤ m)
    (hm2 : 2 ≤ v → 11 + 14 * δ + 24 * ε ≤ m) (hsh : ShownTilted img q p m θ) (hin : TiltedInside img q.side p m θ) {tl tr bl : Pt}
    (hc : TiltedCentres q.side tl tr bl p m θ δ ε) : ShowsGrid img q v tl tr bl := by
  obtain ⟨hδ, hε⟩ := centres_nonneg hc
  have hside : sideOf v = q.side := by rw [hq.2.1]
  have hs : q.side = 4 * v + 17 := hq.2.1
  have hm0 : 0 < m := by linarith
  have s21 : (21 : ℝ) ≤ q.side := by exact_mod_cast (by omega : 21 ≤ q.side)
  have n7 : (0 : ℝ) < q.side - 7 := by linarith
  obtain ⟨shift, hδ1, hδ2, hc⟩ := hc
  unfold ShowsGrid
  rw [hside]
  -- places around the alignment pattern
  have beside : 2 ≤ v → ∀ (u w : ℚ) (κ : ℝ), |u| ≤ 21 / 5 → |w| ≤ 21 / 5 →
      18 / 5 ≤ κ ∨ ((u : ℝ) ≤ 2 ∧ (w : ℝ) ≤ 2 ∧ κ = 3) →
      |((besideAlignment q.side tl tr bl u w).1 : ℝ) - (tiltedPlace p m θ (q.side - 7 + w) (q.side - 7 + u)).1| ≤ κ * ε + δ ∧
      |((besideAlignment q.side tl tr bl u w).2 : ℝ) - (tiltedPlace p m θ (q.side - 7 + w) (q.side - 7 + u)).2| ≤ κ * ε + δ := by
    intro h2 u w κ hu hw hκ
    have s25 : (25 : ℝ) ≤ q.side := by exact_mod_cast (by omega : 25 ≤ q.side)
    have hu' : |(u : ℝ)| ≤ 21 / 5 := by
      have : ((|u| : ℚ) : ℝ) ≤ ((21 / 5 : ℚ) : ℝ) := by exact_mod_cast hu
      push_cast at this; exact this
    have hw' : |(w : ℝ)| ≤ 21 / 5 := by
      have : ((|w| : ℚ) : ℝ) ≤ ((21 / 5 : ℚ) : ℝ) := by exact_mod_cast hw
      push_cast at this; exact this
    rw [abs_le] at hu' hw'
    obtain ⟨α, hα⟩ : ∃ α : ℝ, α = (q.side - 7 + u - 3) / (q.side - 7) := ⟨_, rfl⟩
    obtain ⟨β, hβ⟩ : ∃ β : ℝ, β = (q.side - 7 + w - 3) / (q.side - 7) := ⟨_, rfl⟩
    have α0 : 1 / 2 ≤ α := by rw [hα, le_div_iff₀ n7]; linarith
    have β0 : 1 / 2 ≤ β := by rw [hβ, le_div_iff₀ n7]; linarith
    have sum : α + β ≤ (κ + 1) / 2 := by
      rcases hκ with h | ⟨h1, h3, h⟩
      · have : α ≤ 23 / 20 := by rw [hα, div_le_iff₀ n7]; linarith
        have : β ≤ 23 / 20 := by rw [hβ, div_le_iff₀ n7]; linarith
        linarith
      · have : α ≤ 1 := by rw [hα, div_le_iff₀ n7]; linarith
        have : β ≤ 1 := by rw [hβ, div_le_iff₀ n7]; linarith
        linarith
    have := between_close hc n7.ne' (κ := κ) (q.side - 7 + w) (q.side - 7 + u) (by
      rw [← hα, ← hβ, abs_of_nonpos (by linarith), abs_of_nonneg (by linarith), abs_of_nonneg (by linarith)]
      linarith)
    rw [shifted_place] at this
    unfold besideAlignment
    simp only
    push_cast
    rw [show (q.side : ℝ) - 10 + u = q.side - 7 + u - 3 by ring, show (q.side : ℝ) - 10 + w = q.side - 7 + w - 3 by ring]
    exact ⟨unshift hδ1 this.1, unshift hδ2 this.2⟩
  -- modules of the alignment pattern where it is expected
  have expected : 2 ≤ v → ∀ a b : Int, |a| ≤ 2 → |b| ≤ 2 →
      Spec.Inside img (triedModule q.side tl tr bl 0 0 0 (a, b)) ∧
      ∀ c, PixelNear img (triedModule q.side tl tr bl 0 0 0 (a, b)) (1 / 100) c → c = alignColour a b := by
    intro h2 a b ha hb
    have hm2 := hm2 h2
    have h25 : 25 ≤ q.side := by omega
    rw [abs_le] at ha hb
    have e : triedModule q.side tl tr bl 0 0 0 (a, b) = besideAlignment q.side tl tr bl a b := by
      unfold triedModule; simp
    rw [e]
    have ha' : (a : ℝ) ≤ 2 := by exact_mod_cast ha.2
    have hb' : (b : ℝ) ≤ 2 := by exact_mod_cast hb.2
    have hq1 : |(a : ℚ)| ≤ 21 / 5 := by
      have h1 : (a : ℚ) ≤ 2 := by exact_mod_cast ha.2
      have h3 : (-2 : ℚ) ≤ a := by exact_mod_cast ha.1
      rw [abs_le]; constructor <;> linarith
    have hq2 : |(b : ℚ)| ≤ 21 / 5 := by
      have h1 : (b : ℚ) ≤ 2 := by exact_mod_cast hb.2
      have h3 : (-2 : ℚ) ≤ b := by exact_mod_cast hb.1
      rw [abs_le]; constructor <;> linarith
    obtain ⟨c1, c2⟩ := beside h2 a b 3 hq1 hq2 (Or.inr ⟨by push_cast; exact ha', by push_cast; exact hb', rfl⟩)
    obtain ⟨i, hi⟩ : ∃ i : Nat, (i : Int) = q.side - 7 + b := ⟨(q.side - 7 + b).toNat, by omega⟩
    obtain ⟨j, hj⟩ : ∃ j : Nat, (j : Int) = q.side - 7 + a := ⟨(q.side - 7 + a).toNat, by omega⟩
    have ei : (i : ℝ) = q.side - 7 + ((b : ℚ) : ℝ) := by
      have : ((i : Int) : ℝ) = ((q.side - 7 + b : Int) : ℝ) := by rw [hi]
      push_cast at this ⊢
      exact this
    have ej : (j : ℝ) = q.side - 7 + ((a : ℚ) : ℝ) := by
      have : ((j : Int) : ℝ) = ((q.side - 7 + a : Int) : ℝ) := by rw [hj]
      push_cast at this ⊢
      exact this
    rw [← ei, ← ej] at c1 c2
    obtain ⟨hins, hcol⟩ := sampled_module hsh hin hm0 (i := i) (j := j) (by omega) (by omega) c1 c2 (fun dx dy g1 g2 =>
      (dist_small g1 g2).trans_lt (by linarith))
    refine ⟨⟨?_, ?_, not_beyond hins.1.2 hins.2.2⟩, ?_⟩
    · have : ((1 / 50 : ℚ) : ℝ) ≤ ((besideAlignment q.side tl tr bl a b).1 : ℝ) := by push_cast; linarith [hins.1.1]
      exact_mod_cast this
    · have : ((1 / 50 : ℚ) : ℝ) ≤ ((besideAlignment q.side tl tr bl a b).2 : ℝ) := by push_cast; linarith [hins.2.1]
      exact_mod_cast this
    · intro c hpn
      have := hcol c hpn
      rw [align_at (hal h2) h25 (a := a) (b := b) ha hb hi hj] at this
      exact (Option.some.inj this).symm
  have must : 2 ≤ v → MustBeAlignment img q.side tl tr bl 0 0 0 := by
    intro h2
    refine ⟨fun a b ha hb => (expected h2 a b ha hb).1, ?_, ?_⟩
    · intro c hc
      rw [(expected h2 0 0 (by norm_num) (by norm_num)).2 c hc]
      decide
    · have small : ∀ o ∈ alignmentLooks, |o.1.1| ≤ 2 ∧ |o.1.2| ≤ 2 ∧ alignColour o.1.1 o.1.2 ≠ o.2 := by decide
      intro o ho c hc
      obtain ⟨h1, h3, h4⟩ := small o ho
      have := (expected h2 o.1.1 o.1.2 h1 h3).2 c hc
      rw [this]
      exact h4
  refine ⟨?_, fun h2 => ⟨0, 0, 0, ⟨by norm_num, by norm_num, by norm_num, by norm_num⟩, must h2⟩, ?_⟩
  · intro h2 a b ha hb
    have hm2 := hm2 h2
    have s25 : (25 : ℝ) ≤ q.side := by exact_mod_cast (by omega : 25 ≤ q.side)
    obtain ⟨c1, c2⟩ := beside h2 a b (18 / 5) ha hb (Or.inl le_rfl)
    have ha' : |(a : ℝ)| ≤ 21 / 5 := by
      have : ((|a| : ℚ) : ℝ) ≤ ((21 / 5 : ℚ) : ℝ) := by exact_mod_cast ha
      push_cast at this; exact this
    have hb' : |(b : ℝ)| ≤ 21 / 5 := by
      have : ((|b| : ℚ) : ℝ) ≤ ((21 / 5 : ℚ) : ℝ) := by exact_mod_cast hb
      push_cast at this; exact this
    rw [abs_le] at ha' hb'
    have hins := inside_at hin hm0 (i := q.side - 7 + b) (j := q.side - 7 + a) (r := 1) (by linarith) (by linarith)
      (by linarith) (by linarith) ((dist_small c1 c2).trans (by linarith))
    exact not_beyond hins.1.2 hins.2.2
  · intro al hnone hsome i hi j hj
    have hi' : (i : ℝ) + 1 ≤ q.side := by exact_mod_cast hi
    have hj' : (j : ℝ) + 1 ≤ q.side := by exact_mod_cast hj
    have i0 : (0 : ℝ) ≤ i := Nat.cast_nonneg i
    have j0 : (0 : ℝ) ≤ j := Nat.cast_nonneg j
    cases al with
    | none =>
      have := between_close hc n7.ne' (κ := 4) i j (by
        obtain ⟨α, hα⟩ : ∃ α : ℝ, α = (j - 3) / (q.side - 7) := ⟨_, rfl⟩
        obtain ⟨β, hβ⟩ : ∃ β : ℝ, β = (i - 3) / (q.side - 7) := ⟨_, rfl⟩
        have a1 : -(3 / 14) ≤ α := by rw [hα, le_div_iff₀ n7]; linarith
        have a2 : α ≤ 17 / 14 := by rw [hα, div_le_iff₀ n7]; linarith
        have b1 : -(3 / 14) ≤ β := by rw [hβ, le_div_iff₀ n7]; linarith
        have b2 : β ≤ 17 / 14 := by rw [hβ, div_le_iff₀ n7]; linarith
        rw [← hα, ← hβ]
        rcases abs_cases (1 - α - β) with ⟨e1, -⟩ | ⟨e1, -⟩ <;> rcases abs_cases α with ⟨e2, -⟩ | ⟨e2, -⟩ <;>
        rcases abs_cases β with ⟨e3, -⟩ | ⟨e3, -⟩ <;> rw [e1, e2, e3] <;> linarith)
      have e1 : ((bilinear q.side tl tr bl none i j).1 : ℝ) =
          (tl.1 : ℝ) + (j - 3) / (q.side - 7) * (tr.1 - tl.1) + (i - 3) / (q.side - 7) * (bl.1 - tl.1) := by
        unfold bilinear bilinear1; simp only [Option.map_none]; push_cast; ring
      have e2 : ((bilinear q.side tl tr bl none i j).2 : ℝ) =
          (tl.2 : ℝ) + (j - 3) / (q.side - 7) * (tr.2 - tl.2) + (i - 3) / (q.side - 7) * (bl.2 - tl.2) := by
        unfold bilinear bilinear1; simp only [Option.map_none]; push_cast; ring
      rw [← e1, ← e2, shifted_place] at this
      obtain ⟨hins, hcol⟩ := sampled_module hsh hin hm0 hi hj (unshift hδ1 this.1) (unshift hδ2 this.2) (fun dx dy g1 g2 =>
        (dist_small g1 g2).trans_lt (by linarith))
      exact ⟨not_beyond hins.1.2 hins.2.2, hcol⟩
    | some a =>
      have h2 : 2 ≤ v := by
        have : ¬ v = 1 := fun h => by have := hnone.mpr h; cases this
        omega
      have hm2 := hm2 h2
      have h25 : 25 ≤ q.side := by omega
      obtain ⟨x, y, z, ht, -, hfirst, cx, cy, hcx, hcy, d1, d2, -, hmid⟩ := hsome a rfl
      have hzero : x = 0 ∧ y = 0 ∧ z = 0 := by
        by_contra hne
        refine hfirst 0 0 0 ⟨by norm_num, by norm_num, by norm_num, by norm_num⟩ ?_ (must h2)
        unfold TriedBefore
        simp only [abs_zero, max_self]
        by_cases hxy : x = 0 ∧ y = 0
        · right
          obtain ⟨rfl, rfl⟩ := hxy
          refine ⟨by simp, ?_⟩
          have hz : z ≠ 0 := fun hz => hne ⟨rfl, rfl, hz⟩
          unfold sizeRank
          simp only [lt_self_iff_false, if_false, mul_zero]
          split <;> omega
        · left
          rcases not_and_or.mp hxy with h | h
          · exact lt_max_of_lt_left (abs_pos.mpr h)
          · exact lt_max_of_lt_right (abs_pos.mpr h)
      obtain ⟨rfl, rfl, rfl⟩ := hzero
      have e : triedModule q.side tl tr bl 0 0 0 (0, 0) = besideAlignment q.side tl tr bl 0 0 := by
        unfold triedModule; simp
      obtain ⟨⟨i1, i2, -⟩, -⟩ := expected h2 0 0 (by norm_num) (by norm_num)
      rw [max_eq_right (by linarith)] at d1 d2
      rw [e] at d1 d2
      obtain ⟨c1, c2⟩ := beside h2 0 0 3 (by norm_num) (by norm_num)
        (Or.inr ⟨by norm_num, by norm_num, rfl⟩)
      rw [Rat.cast_zero, add_zero] at c1 c2
      have key : ∀ (n : Nat) (z : ℚ) (Z : ℝ), |(n : ℚ) - z| ≤ 1 / 2 + 1 / 100 → |(z : ℝ) - Z| ≤ 3 * ε + δ →
          |(n : ℝ) - Z| ≤ 51 / 100 + 3 * ε + δ := by
        intro n z Z h h'
        have : ((|(n : ℚ) - z| : ℚ) : ℝ) ≤ ((1 / 2 + 1 / 100 : ℚ) : ℝ) := by exact_mod_cast h
        push_cast at this
        rw [abs_le] at *
        constructor <;> linarith
      obtain ⟨f1, f2⟩ := spot_close hsh hin h25 (hal h2) (by linarith) (by linarith) hcx hcy (key _ _ _ d1 c1)
        (key _ _ _ d2 c2) hmid
      have reshift : ∀ {X P s e : ℝ}, |s| ≤ δ → |X - P| ≤ e → |X - (P + s)| ≤ e + δ := by
        intro X P s e hs h
        rw [abs_le] at *
        constructor <;> linarith
      obtain ⟨g1, g2⟩ := corrected_close hc h25 (a := a) (d1 := 51 / 100 + 3 * ε + δ + 1 / 2 + δ)
        (d2 := 51 / 100 + 3 * ε + δ + 3 / 2 + δ) (by rw [shifted_place]; exact reshift hδ1 f1)
        (by rw [shifted_place]; exact reshift hδ2 f2) hi hj
      rw [shifted_place] at g1 g2
      obtain ⟨hins, hcol⟩ := sampled_module hsh hin hm0 hi hj (unshift hδ1 g1) (unshift hδ2 g2) (fun dx dy k1 k2 => by
        refine lt_of_le_of_lt (dist_euclid (d := 51 / 10 + 23 / 2 * ε + 7 * δ)
          (a := 249 / 100 + 8131 / 1000 * ε + 123 / 25 * δ) (b := 445 / 100 + 8131 / 1000 * ε + 123 / 25 * δ)
          (k1.trans (by linarith)) (k2.trans (by linarith))
          (by linarith) ?_) (by linarith)
        nlinarith [mul_nonneg hε hδ])
      exact ⟨not_beyond hins.1.2 hins.2.2, hcol⟩

/-- The image is more than ten pixels wide and high. -/
theorem tilted_size {img : GrayImage} {side : Nat} (hs : 21 ≤ side) {p : ℝ × ℝ} {m θ : ℝ} (hm : 3 / 2 ≤ m)
    (hin : TiltedInside img side p m θ) : 10 < img.width ∧ 10 < img.height := by
  have hs' : (21 : ℝ) ≤ side := by exact_mod_cast hs
  obtain ⟨⟨a1, a2⟩, a3, a4⟩ := hin 0 0 (by norm_num) (by linarith) (by norm_num) (by linarith)
  obtain ⟨⟨b1, b2⟩, b3, b4⟩ := hin 0 20 (by norm_num) (by linarith) (by norm_num) (by linarith)
  obtain ⟨⟨c1, c2⟩, c3, c4⟩ := hin 20 0 (by norm_num) (by linarith) (by norm_num) (by linarith)
  unfold tiltedPlace at *
  simp only at *
  have hcs := cos_sq_sin_sq θ
  have big : 1 / 2 ≤ |cos θ| ∨ 1 / 2 ≤ |sin θ| := by
    by_contra h
    push Not at h
    rw [← sq_abs (cos θ), ← sq_abs (sin θ)] at hcs
    nlinarith [abs_nonneg (cos θ), abs_nonneg (sin θ)]
  have far : ∀ z : ℝ, 1 / 2 ≤ |z| → 15 ≤ m * (20 * z) ∨ m * (20 * z) ≤ -15 := by
    intro z hz
    rcases le_abs.mp hz with h | h
    · left; nlinarith
    · right; nlinarith
  constructor
  · have : (10 : ℝ) < img.width := by
      rcases big with h | h <;> rcases far _ h with h | h <;> linarith
    exact_mod_cast this
  · have : (10 : ℝ) < img.height := by
      rcases big with h | h <;> rcases far _ h with h | h <;> linarith
    exact_mod_cast this

/-- **C74.** A grid tilted by any angle is extracted exactly from a location that gives the centres of its finder patterns,
displaced by at most `δ` together and by at most `ε` each: for version 1, if the modules are `3 / 2 + 3 δ + 12 ε` pixels or
more wide, and for the others, where the middle of the alignment pattern must be found, if they are `11 + 14 δ + 24 ε`
pixels or more wide. -/
theorem tilted_grid_is_extracted (img : GrayImage) (hv : img.Valid) (hw : img.width ≤ 2 ^ 20) (hh : img.height ≤ 2 ^ 20)
    (q : QRData) (v : Nat) (h1 : 1 ≤ v) (h40 : v ≤ 40) (hq : WellFormed q v) (hal : 2 ≤ v → HasAlignment q)
    (p : ℝ × ℝ) (m θ δ ε : ℝ) (hm1 : 3 / 2 + 3 * δ + 12 * ε ≤ m)
    (hm2 : 2 ≤ v → 11 + 14 * δ + 24 * ε ≤ m)
    (hsh : ShownTilted img q p m θ) (hin : TiltedInside img q.side p m θ) (loc : QRLocation) (hlv : loc.version = v)
    (tl tr bl : Pt) (hl : LocatedAtPoints loc tl tr bl) (hc : TiltedCentres q.side tl tr bl p m θ δ ε) :
    extract img loc = .ok q := by
  obtain ⟨hδ, hε⟩ := centres_nonneg hc
  obtain ⟨s1, s2⟩ := tilted_size (by rw [hq.2.1]; unfold sideOf; omega) (by linarith) hin
  subst hlv
  exact shown_grid_extracts img hv (by omega) (by omega) hw hh loc tl tr bl hl h1 h40 q hq
    (tilted_shows h1 hq hal hm1 hm2 hsh hin hc)

/-- **C74.** A symbol tilted by any angle is decoded to its text, from such a location. -/
theorem tilted_symbol_decodes (img : GrayImage) (hv : img.Valid) (hw : img.width ≤ 2 ^ 20) (hh : img.height ≤ 2 ^ 20)
    (q : QRData) (v : Nat) (h1 : 1 ≤ v) (h40 : v ≤ 40) (l : ECLevel) (k : Nat) (hk : k < 8) (segments : List Segment)
    (hfit : ∀ s ∈ segments, s.fits v) (text : List Char) (htext : SegmentsText segments text)
    (hq : IsSymbol q v l k segments) (hal : 2 ≤ v → HasAlignment q)
    (p : ℝ × ℝ) (m θ δ ε : ℝ) (hm1 : 3 / 2 + 3 * δ + 12 * ε ≤ m)
    (hm2 : 2 ≤ v → 11 + 14 * δ + 24 * ε ≤ m)
    (hsh : ShownTilted img q p m θ) (hin : TiltedInside img q.side p m θ) (loc : QRLocation) (hlv : loc.version = v)
    (tl tr bl : Pt) (hl : LocatedAtPoints loc tl tr bl) (hc : TiltedCentres q.side tl tr bl p m θ δ ε) :
    ∃ grid, extract img loc = .ok grid ∧ qrDecode (.ok grid) = .ok text :=
  ⟨q, tilted_grid_is_extracted img hv hw hh q v h1 h40 hq.1 hal p m θ δ ε hm1 hm2 hsh hin loc hlv tl tr bl hl hc,
    (symbol_decodes q v h1 h40 l k hk segments hfit text htext hq).1⟩

/-- The default decoders read a symbol that is shown, in the sense of C72, at the points that the detector reports. -/
theorem shown_location_is_read (grayscale : IMG → GrayImage) (source : IMG) (hg : (grayscale source).Valid)
    (img : GrayImage) (himg : img = thresholded 5 7 (grayscale source)) (hpx : img.width * img.height ≤ 2 ^ 36)
    (hw5 : 5 ≤ img.width) (hh5 : 5 ≤ img.height)
    (hw : img.width ≤ 2 ^ 20) (hh : img.height ≤ 2 ^ 20) (q : QRData) (v : Nat) (h1 : 1 ≤ v) (h40 : v ≤ 40)
    (l : ECLevel) (k : Nat) (hk : k < 8) (segments : List Segment) (hfit : ∀ s ∈ segments, s.fits v)
    (text : List Char) (htext : SegmentsText segments text) (hq : IsSymbol q v l k segments) (locs : List QRLocation)
    (hdet : LineScan.detect img = .ret locs) (loc : QRLocation) (hloc : loc ∈ locs) (hlv : loc.version = v)
    (tl tr bl : Pt) (hl : LocatedAtPoints loc tl tr bl) (hsh : ShowsGrid img q v tl tr bl) :
    (∃ d : Decoder σ IMG GrayImage QRLocation QRData (List Char), defaultDecoder grayscale = .ret d ∧
      (∀ s rs s', d.decode source s = .ret (rs, s') → .ok text ∈ rs) ∧
      (locs = [loc] → ∀ s, d.decode source s = .ret ([.ok text], s))) ∧
    ∃ info, info.version = v ∧ info.ecLevel = l ∧ info.errors = 0 ∧
      ∃ d : Decoder σ IMG GrayImage QRLocation QRData (List Char × QRInfo), defaultDecoderWithInfo grayscale = .ret d ∧
        (∀ s rs s', d.decode source s = .ret (rs, s') → .ok (text, info) ∈ rs) ∧
        (locs = [loc] → ∀ s, d.decode source s = .ret ([.ok (text, info)], s)) := by
  obtain ⟨t1, info, t2, i1, i2, i3⟩ := symbol_decodes q v h1 h40 l k hk segments hfit text htext hq
  obtain ⟨hprep, hv⟩ := prepares (grayscale source) hg img himg hpx hw hh hw5 hh5
  subst hlv
  have hext := shown_grid_extracts img hv (by omega) (by omega) hw hh loc tl tr bl hl h1 h40 q hq.1 hsh
  constructor
  · obtain ⟨d, hd, hiff⟩ := default_decoder_results (σ := σ) grayscale
    refine ⟨d, hd, ?_, ?_⟩
    · intro s rs s' hrun
      obtain ⟨-, img', locs', hp', hd', hall⟩ := (hiff _ _ _ _).mp hrun
      rw [hprep] at hp'
      have := Run.ret.inj hp'
      subst this
      rw [hdet] at hd'
      have := Run.ret.inj hd'
      subst this
      exact result_among hall hloc hext (Or.inl ⟨text, t1, rfl⟩)
    · rintro rfl s
      exact (hiff _ _ _ _).mpr ⟨rfl, img, _, hprep, hdet, .cons (Or.inl ⟨q, hext, Or.inl ⟨text, t1, rfl⟩⟩) .nil⟩
  · refine ⟨info, i1, i2, i3, ?_⟩
    obtain ⟨d, hd, hiff⟩ := default_decoder_with_info_results (σ := σ) grayscale
    refine ⟨d, hd, ?_, ?_⟩
    · intro s rs s' hrun
      obtain ⟨-, img', locs', hp', hd', hall⟩ := (hiff _ _ _ _).mp hrun
      rw [hprep] at hp'
      have := Run.ret.inj hp'
      subst this
      rw [hdet] at hd'
      have := Run.ret.inj hd'
      subst this
      exact result_among hall hloc hext (Or.inl ⟨(text, info), t2, rfl⟩)
    · rintro rfl s
      exact (hiff _ _ _ _).mpr ⟨rfl, img, _, hprep, hdet, .cons (Or.inl ⟨q, hext, Or.inl ⟨(text, info), t2, rfl⟩⟩) .nil⟩

/-- **C75 (partial).** The default decoders read a symbol tilted by any angle *if the detector reports its version and the
centres of its finder patterns closely enough*: whenever decoding returns, the text is among the results, and it is the only
result if there is no other location. What is missing is that the detector reports this, which is not so for every
angle, see `tilted_symbol_is_overlooked`. -/
theorem located_tilted_symbol_is_read_partial (grayscale : IMG → GrayImage) (source : IMG) (hg : (grayscale source).Valid)
    (img : GrayImage) (himg : img = thresholded 5 7 (grayscale source)) (hpx : img.width * img.height ≤ 2 ^ 36)
    (hw : img.width ≤ 2 ^ 20) (hh : img.height ≤ 2 ^ 20) (q : QRData) (v : Nat) (h1 : 1 ≤ v) (h40 : v ≤ 40)
    (l : ECLevel) (k : Nat) (hk : k < 8) (segments : List Segment) (hfit : ∀ s ∈ segments, s.fits v)
    (text : List Char) (htext : SegmentsText segments text) (hq : IsSymbol q v l k segments) (hal : 2 ≤ v → HasAlignment q)
    (p : ℝ × ℝ) (m θ δ ε : ℝ) (hm1 : 3 / 2 + 3 * δ + 12 * ε ≤ m)
    (hm2 : 2 ≤ v → 11 + 14 * δ + 24 * ε ≤ m)
    (hsh : ShownTilted img q p m θ) (hin : TiltedInside img q.side p m θ) (locs : List QRLocation)
    (hdet : LineScan.detect img = .ret locs) (loc : QRLocation) (hloc : loc ∈ locs) (hlv : loc.version = v)
    (tl tr bl : Pt) (hl : LocatedAtPoints loc tl tr bl) (hc : TiltedCentres q.side tl tr bl p m θ δ ε) :
    (∃ d : Decoder σ IMG GrayImage QRLocation QRData (List Char), defaultDecoder grayscale = .ret d ∧
      (∀ s rs s', d.decode source s = .ret (rs, s') → .ok text ∈ rs) ∧
      (locs = [loc] → ∀ s, d.decode source s = .ret ([.ok text], s))) ∧
    ∃ info, info.version = v ∧ info.ecLevel = l ∧ info.errors = 0 ∧
      ∃ d : Decoder σ IMG GrayImage QRLocation QRData (List Char × QRInfo), defaultDecoderWithInfo grayscale = .ret d ∧
        (∀ s rs s', d.decode source s = .ret (rs, s') → .ok (text, info) ∈ rs) ∧
        (locs = [loc] → ∀ s, d.decode source s = .ret ([.ok (text, info)], s)) := by
  obtain ⟨hδ, hε⟩ := centres_nonneg hc
  obtain ⟨s1, s2⟩ := tilted_size (by rw [hq.1.2.1]; unfold sideOf; omega) (by linarith) hin
  exact shown_location_is_read grayscale source hg img himg hpx (by omega) (by omega) hw hh q v h1 h40 l k hk segments hfit text
    htext hq locs hdet loc hloc hlv tl tr bl hl (tilted_shows h1 hq.1 hal hm1 hm2 hsh hin hc)

theorem off_of_place {p : ℝ × ℝ} {m θ a b : ℝ} (hm : 0 < m) {X Y : ℝ} (h : (X, Y) = tiltedPlace p m θ a b) :
    rowsOff m θ (X - p.1) (Y - p.2) = a ∧ colsOff m θ (X - p.1) (Y - p.2) = b := by
  have hcs := cos_sq_sin_sq θ
  have hX : X = p.1 + m * (b * cos θ - a * sin θ) := congrArg Prod.fst h
  have hY : Y = p.2 + m * (b * sin θ + a * cos θ) := congrArg Prod.snd h
  unfold rowsOff colsOff
  rw [hX, hY, div_eq_iff hm.ne', div_eq_iff hm.ne']
  constructor
  · calc _ = m * a * (cos θ ^ 2 + sin θ ^ 2) := by ring
      _ = a * m := by rw [hcs]; ring
  · calc _ = m * b * (cos θ ^ 2 + sin θ ^ 2) := by ring
      _ = b * m := by rw [hcs]; ring

theorem nearest_module {side : Nat} {a : ℝ} (h0 : 0 < side) (h1 : -(1 / 2) ≤ a) (h2 : a ≤ side - 1 / 2) :
    ∃ i < side, |a - i| ≤ 1 / 2 := by
  have hf := Nat.floor_le (by linarith : 0 ≤ a + 1 / 2)
  have hf' := Nat.lt_floor_add_one (a + 1 / 2)
  by_cases h : ⌊a + 1 / 2⌋₊ < side
  · exact ⟨_, h, abs_le.mpr ⟨by linarith, by linarith⟩⟩
  · have hge : (side : ℝ) ≤ ⌊a + 1 / 2⌋₊ := by exact_mod_cast Nat.le_of_not_lt h
    refine ⟨side - 1, by omega, ?_⟩
    rw [Nat.cast_sub (by omega), Nat.cast_one, abs_le]
    constructor <;> linarith

/-- Every grid has a picture tilted by any angle. -/
theorem tilted_picture_exists (q : QRData) (v : Nat) (hq : WellFormed q v) (m θ : ℝ) (hm : 0 < m)
    (hsize : m * q.side ≤ 2 ^ 18) :
    ∃ (img : GrayImage) (p : ℝ × ℝ), img.Valid ∧ img.width ≤ 2 ^ 20 ∧ img.height ≤ 2 ^ 20 ∧ ShownTilted img q p m θ ∧
      TiltedInside img q.side p m θ := by
  have hs21 : 21 ≤ q.side ∨ q.side = 17 := by rw [hq.2.1]; unfold sideOf; omega
  have hpos : 0 < q.side := by omega
  have hpos' : (0 : ℝ) < q.side := by exact_mod_cast hpos
  obtain ⟨W, hW⟩ : ∃ W, W = ⌈2 * (m * q.side)⌉₊ + 2 := ⟨_, rfl⟩
  have hms : 0 < m * q.side := by positivity
  have W1 : 2 * (m * q.side) + 2 ≤ W := by
    rw [hW]; push_cast; linarith [Nat.le_ceil (2 * (m * q.side))]
  have W2 : (W : ℝ) < 2 * (m * q.side) + 3 := by
    rw [hW]; push_cast; linarith [Nat.ceil_lt_add_one (by positivity : 0 ≤ 2 * (m * q.side))]
  have W3 : W ≤ 2 ^ 20 := by
    have : (W : ℝ) ≤ (2 : ℝ) ^ 20 := by linarith
    exact_mod_cast this
  -- the middle of the symbol is in the middle of the image
  obtain ⟨e, he⟩ : ∃ e : ℝ, e = (q.side - 1) / 2 := ⟨_, rfl⟩
  obtain ⟨p, hp⟩ : ∃ p : ℝ × ℝ, p = (m * q.side + 1 - m * (e * cos θ - e * sin θ), m * q.side + 1 - m * (e * sin θ + e * cos θ)) :=
    ⟨_, rfl⟩
  have colour : ∀ x y : Nat, ∃ c : U8, ∀ a b : ℝ, ((x : ℝ), (y : ℝ)) = tiltedPlace p m θ a b →
      -(1 / 2) ≤ a → a ≤ q.side - 1 / 2 → -(1 / 2) ≤ b → b ≤ q.side - 1 / 2 →
      ∃ i < q.side, ∃ j < q.side, |a - i| ≤ 1 / 2 ∧ |b - j| ≤ 1 / 2 ∧ some c = q.data[i * q.side + j]? := by
    intro x y
    by_cases h : ∃ a b : ℝ, ((x : ℝ), (y : ℝ)) = tiltedPlace p m θ a b ∧
      -(1 / 2) ≤ a ∧ a ≤ q.side - 1 / 2 ∧ -(1 / 2) ≤ b ∧ b ≤ q.side - 1 / 2
    · obtain ⟨a, b, h, a1, a2, b1, b2⟩ := h
      obtain ⟨i, hi, ha⟩ := nearest_module hpos a1 a2
      obtain ⟨j, hj, hb⟩ := nearest_module hpos b1 b2
      have hlt : i * q.side + j < q.data.length := by
        rw [hq.2.2, ← hq.2.1]
        have : i * q.side ≤ (q.side - 1) * q.side := Nat.mul_le_mul_right _ (by omega)
        have e : (q.side - 1) * q.side + q.side = q.side * q.side := by
          rw [Nat.sub_mul, Nat.one_mul]; exact Nat.sub_add_cancel (Nat.le_mul_self _)
        omega
      refine ⟨q.data[i * q.side + j], ?_⟩
      intro a' b' h' _ _ _ _
      have o := off_of_place hm h
      have o' := off_of_place hm h'
      refine ⟨i, hi, j, hj, ?_, ?_, (List.getElem?_eq_getElem hlt).symm⟩
      · rw [← o'.1, o.1]; exact ha
      · rw [← o'.2, o.2]; exact hb
    · exact ⟨255#8, fun a b h1 h2 h3 h4 h5 => absurd ⟨a, b, h1, h2, h3, h4, h5⟩ h⟩
  choose f hf using colour
  refine ⟨⟨W, W, (List.range (W * W)).map fun n => f (n % W) (n / W)⟩, p, ⟨by simp, by simp only; omega, by simp only; omega⟩, W3, W3, ?_, ?_⟩
  · intro x hx y hy a b h a1 a2 b1 b2
    simp only at hx hy ⊢
    obtain ⟨i, hi, j, hj, ha, hb, hc⟩ := hf x y a b h a1 a2 b1 b2
    refine ⟨i, hi, j, hj, ha, hb, ?_⟩
    have hlt : y * W + x < W * W := by
      have : y * W ≤ (W - 1) * W := Nat.mul_le_mul_right _ (by omega)
      have e : (W - 1) * W + W = W * W := by
        rw [Nat.sub_mul, Nat.one_mul]; exact Nat.sub_add_cancel (Nat.le_mul_self _)
      omega
    rw [← hc, List.getElem?_map, List.getElem?_range hlt, Option.map_some]
    have e1 : (y * W + x) % W = x := by rw [Nat.add_comm, Nat.add_mul_mod_self_right, Nat.mod_eq_of_lt hx]
    have e2 : (y * W + x) / W = y := by
      rw [Nat.add_comm, Nat.add_mul_div_right _ _ (by omega), Nat.div_eq_of_lt hx, Nat.zero_add]
    rw [e1, e2]
  · intro a b a1 a2 b1 b2
    have hab : |a - e| ≤ q.side / 2 := abs_le.mpr ⟨by rw [he]; linarith, by rw [he]; linarith⟩
    have hbb : |b - e| ≤ q.side / 2 := abs_le.mpr ⟨by rw [he]; linarith, by rw [he]; linarith⟩
    obtain ⟨hc, hs⟩ := abs_le_one (cos_sq_sin_sq θ)
    have prod : ∀ x y : ℝ, |x| ≤ q.side / 2 → |y| ≤ 1 → |m * (x * y)| ≤ m * (q.side / 2) := by
      intro x y hx hy
      rw [abs_mul, abs_of_pos hm, abs_mul]
      refine mul_le_mul_of_nonneg_left ?_ hm.le
      calc _ ≤ (q.side : ℝ) / 2 * 1 := mul_le_mul hx hy (abs_nonneg _) (by positivity)
        _ = _ := mul_one _
    have k1 := abs_le.mp (prod _ _ hbb hc)
    have k2 := abs_le.mp (prod _ _ hab hs)
    have k3 := abs_le.mp (prod _ _ hbb hs)
    have k4 := abs_le.mp (prod _ _ hab hc)
    have hx : (tiltedPlace p m θ a b).1 = m * q.side + 1 + m * ((b - e) * cos θ) - m * ((a - e) * sin θ) := by
      rw [hp]; unfold tiltedPlace; simp only; ring
    have hy : (tiltedPlace p m θ a b).2 = m * q.side + 1 + m * ((b - e) * sin θ) + m * ((a - e) * cos θ) := by
      rw [hp]; unfold tiltedPlace; simp only; ring
    rw [hx, hy]
    simp only
    refine ⟨⟨?_, ?_⟩, ?_, ?_⟩ <;> linarith [k1.1, k1.2, k2.1, k2.2, k3.1, k3.2, k4.1, k4.2]

/-- Every point can be given in rational coordinates, as exactly as desired. -/
theorem rational_point (P : ℝ × ℝ) {ε : ℝ} (hε : 0 < ε) : ∃ a : Pt, CloseTo a P ε := by
  have key : ∀ z : ℝ, ∃ r : ℚ, |(r : ℝ) - z| ≤ ε := by
    intro z
    obtain ⟨r, h1, h2⟩ := exists_rat_btwn (show z - ε < z + ε by linarith)
    exact ⟨r, abs_le.mpr ⟨by linarith, by linarith⟩⟩
  obtain ⟨r1, h1⟩ := key P.1
  obtain ⟨r2, h2⟩ := key P.2
  exact ⟨(r1, r2), h1, h2⟩

/-- **C74.** Every grid has, for every angle and large enough modules, a tilted picture from which it is extracted; so the
conditions above can be met. -/
theorem every_tilted_picture_is_extracted (q : QRData) (v : Nat) (h1 : 1 ≤ v) (h40 : v ≤ 40) (hq : WellFormed q v)
    (hal : 2 ≤ v → HasAlignment q) (m θ : ℝ) (hm : 12 ≤ m) (hsize : m * q.side ≤ 2 ^ 18) :
    ∃ (img : GrayImage) (p : ℝ × ℝ) (loc : QRLocation) (tl tr bl : Pt), img.Valid ∧ ShownTilted img q p m θ ∧
      TiltedInside img q.side p m θ ∧ LocatedAtPoints loc tl tr bl ∧ TiltedCentres q.side tl tr bl p m θ 0 (1 / 100) ∧
      extract img loc = .ok q := by
  obtain ⟨img, p, hv, hw, hh, hsh, hin⟩ := tilted_picture_exists q v hq m θ (by linarith) hsize
  obtain ⟨tl, htl⟩ := rational_point (tiltedPlace p m θ 3 3) (ε := 1 / 100) (by norm_num)
  obtain ⟨tr, htr⟩ := rational_point (tiltedPlace p m θ 3 (q.side - 4)) (ε := 1 / 100) (by norm_num)
  obtain ⟨bl, hbl⟩ := rational_point (tiltedPlace p m θ (q.side - 4) 3) (ε := 1 / 100) (by norm_num)
  have hside : q.side = 4 * v + 17 := hq.2.1
  have s21 : (21 : ℝ) ≤ q.side := by exact_mod_cast (by omega : 21 ≤ q.side)
  have small : ∀ (z : Pt) (a b : ℝ), CloseTo z (tiltedPlace p m θ a b) (1 / 100) → -(1 / 2) ≤ a → a ≤ q.side - 1 / 2 →
      -(1 / 2) ≤ b → b ≤ q.side - 1 / 2 → |z.1| ≤ 2 ^ 20 ∧ |z.2| ≤ 2 ^ 20 := by
    intro z a b hz a1 a2 b1 b2
    obtain ⟨⟨k1, k2⟩, k3, k4⟩ := hin a b a1 a2 b1 b2
    have w' : (img.width : ℝ) ≤ 2 ^ 20 := by exact_mod_cast hw
    have h' : (img.height : ℝ) ≤ 2 ^ 20 := by exact_mod_cast hh
    obtain ⟨z1, z2⟩ := hz
    rw [abs_le] at z1 z2
    have g1 : |(z.1 : ℝ)| ≤ 2 ^ 20 := abs_le.mpr ⟨by linarith, by linarith⟩
    have g2 : |(z.2 : ℝ)| ≤ 2 ^ 20 := abs_le.mpr ⟨by linarith, by linarith⟩
    exact ⟨by exact_mod_cast g1, by exact_mod_cast g2⟩
  have hl : LocatedAtPoints ⟨⟨.fin tl.1, .fin tl.2⟩, ⟨.fin tr.1, .fin tr.2⟩, ⟨.fin bl.1, .fin bl.2⟩, .fin 1, v⟩ tl tr bl := by
    refine ⟨rfl, rfl, rfl, ?_⟩
    intro z hz
    simp only [List.mem_cons, List.not_mem_nil, or_false] at hz
    rcases hz with rfl | rfl | rfl
    · exact small _ _ _ htl (by linarith) (by linarith) (by linarith) (by linarith)
    · exact small _ _ _ htr (by linarith) (by linarith) (by linarith) (by linarith)
    · exact small _ _ _ hbl (by linarith) (by linarith) (by linarith) (by linarith)
  have hc : TiltedCentres q.side tl tr bl p m θ 0 (1 / 100) := ⟨0, by simp, by simp, by rwa [add_zero], by rwa [add_zero], by rwa [add_zero]⟩
  exact ⟨img, p, _, tl, tr, bl, hv, hsh, hin, hl, hc,
    tilted_grid_is_extracted img hv hw hh q v h1 h40 hq hal p m θ 0 (1 / 100) (by linarith) (fun _ => by linarith)
      hsh hin _ rfl tl tr bl hl hc⟩

end Verif.Props
