import Verif.Lemmas.Geometry
import Verif.Model.Extract
import Verif.Spec.Sampling

/-!
# Floating point numbers that are close to a rational

All magnitudes are at most `2^28`, so that one operation adds at most `η = 2^-25`.
-/
namespace Verif
open F64

/-- Error of one operation on magnitudes up to `2^28`. -/
def ηQ : ℚ := 1 / 2 ^ 25

theorem ηQ_pos : 0 < ηQ := by unfold ηQ; norm_num
theorem ηQ_val : ηQ = 1 / 33554432 := by unfold ηQ; norm_num

/-- A finite float within `ε` of `q`. -/
def Near (a : F64) (q ε : ℚ) : Prop := ∃ r : ℚ, a = .fin r ∧ |r - q| ≤ ε

theorem near_fin (q : ℚ) : Near (.fin q) q 0 := ⟨q, rfl, by simp⟩

theorem Near.mono {a : F64} {q ε ε' : ℚ} (h : Near a q ε) (hε : ε ≤ ε') : Near a q ε' := by
  obtain ⟨r, h1, h2⟩ := h; exact ⟨r, h1, le_trans h2 hε⟩

theorem Near.congr {a : F64} {q q' ε : ℚ} (h : Near a q ε) (e : q = q') : Near a q' ε := e ▸ h

theorem round_η {q : ℚ} (h : |q| ≤ 2 ^ 28) : |roundQ q - q| ≤ ηQ := by
  have := round_near (B := 2 ^ 28) (by norm_num) h
  refine le_trans this (le_of_eq ?_)
  unfold ηQ; norm_num

theorem Near.add {a b : F64} {p q ε δ : ℚ} (ha : Near a p ε) (hb : Near b q δ) (h : |p + q| + (ε + δ) ≤ 2 ^ 28) :
    Near (a + b) (p + q) (ε + δ + ηQ) := by
  obtain ⟨r, rfl, hr⟩ := ha
  obtain ⟨s, rfl, hs⟩ := hb
  have h1 : |r + s - (p + q)| ≤ ε + δ := by
    rw [abs_le] at *; constructor <;> linarith [hr.1, hr.2, hs.1, hs.2]
  have h2 : |r + s| ≤ 2 ^ 28 := by
    have e : r + s = (p + q) + (r + s - (p + q)) := by ring
    rw [e]; exact le_trans (abs_add_le _ _) (by linarith)
  refine ⟨_, add_fin (by linarith), ?_⟩
  have h3 := round_η h2
  rw [abs_le] at *; constructor <;> linarith [h1.1, h1.2, h3.1, h3.2]

theorem Near.sub {a b : F64} {p q ε δ : ℚ} (ha : Near a p ε) (hb : Near b q δ) (h : |p - q| + (ε + δ) ≤ 2 ^ 28) :
    Near (a - b) (p - q) (ε + δ + ηQ) := by
  obtain ⟨r, rfl, hr⟩ := ha
  obtain ⟨s, rfl, hs⟩ := hb
  have h1 : |r - s - (p - q)| ≤ ε + δ := by
    rw [abs_le] at *; constructor <;> linarith [hr.1, hr.2, hs.1, hs.2]
  have h2 : |r - s| ≤ 2 ^ 28 := by
    have e : r - s = (p - q) + (r - s - (p - q)) := by ring
    rw [e]; exact le_trans (abs_add_le _ _) (by linarith)
  refine ⟨_, sub_fin (by linarith), ?_⟩
  have h3 := round_η h2
  rw [abs_le] at *; constructor <;> linarith [h1.1, h1.2, h3.1, h3.2]

/-- Multiplication by a number that is given exactly. -/
theorem Near.mul {a : F64} {q ε : ℚ} (ha : Near a q ε) (c : ℚ) (h : |q * c| + ε * |c| ≤ 2 ^ 28) :
    Near (a * .fin c) (q * c) (ε * |c| + ηQ) := by
  obtain ⟨r, rfl, hr⟩ := ha
  have h1 : |r * c - q * c| ≤ ε * |c| := by
    rw [← sub_mul, abs_mul]; exact mul_le_mul_of_nonneg_right hr (abs_nonneg c)
  have h2 : |r * c| ≤ 2 ^ 28 := by
    have e : r * c = q * c + (r * c - q * c) := by ring
    rw [e]; exact le_trans (abs_add_le _ _) (by linarith)
  refine ⟨_, mul_fin (by linarith), ?_⟩
  have h3 := round_η h2
  rw [abs_le] at *; constructor <;> linarith [h1.1, h1.2, h3.1, h3.2]

/-- Division by a positive number that is given exactly. -/
theorem Near.div {a : F64} {q ε : ℚ} (ha : Near a q ε) (c : ℚ) (hc : 0 < c) (h : |q / c| + ε / c ≤ 2 ^ 28) :
    Near (a / .fin c) (q / c) (ε / c + ηQ) := by
  obtain ⟨r, rfl, hr⟩ := ha
  have h1 : |r / c - q / c| ≤ ε / c := by
    rw [← sub_div, abs_div, abs_of_pos hc]; exact div_le_div_of_nonneg_right hr (le_of_lt hc)
  have h2 : |r / c| ≤ 2 ^ 28 := by
    have e : r / c = q / c + (r / c - q / c) := by ring
    rw [e]; exact le_trans (abs_add_le _ _) (by linarith)
  refine ⟨_, div_fin (ne_of_gt hc) (by linarith), ?_⟩
  have h3 := round_η h2
  rw [abs_le] at *; constructor <;> linarith [h1.1, h1.2, h3.1, h3.2]

/-! ### Points and deltas, one coordinate at a time -/

/-- Both coordinates of a point. -/
def PNear (p : Point) (q : Spec.Pt) (ε : ℚ) : Prop := Near p.x q.1 ε ∧ Near p.y q.2 ε
/-- Both components of a delta. -/
def DNear (d : Delta) (q : Spec.Pt) (ε : ℚ) : Prop := Near d.dx q.1 ε ∧ Near d.dy q.2 ε

/-- Size of a pair: the larger absolute value. -/
def mag (q : Spec.Pt) : ℚ := max |q.1| |q.2|

theorem le_mag1 (q : Spec.Pt) : |q.1| ≤ mag q := le_max_left _ _
theorem le_mag2 (q : Spec.Pt) : |q.2| ≤ mag q := le_max_right _ _
theorem mag_le {q : Spec.Pt} {B : ℚ} (h1 : |q.1| ≤ B) (h2 : |q.2| ≤ B) : mag q ≤ B := max_le h1 h2
theorem mag_nonneg (q : Spec.Pt) : 0 ≤ mag q := le_trans (abs_nonneg _) (le_mag1 q)

theorem mag_add (p q : Spec.Pt) : mag (p + q) ≤ mag p + mag q :=
  mag_le (le_trans (abs_add_le _ _) (add_le_add (le_mag1 p) (le_mag1 q)))
    (le_trans (abs_add_le _ _) (add_le_add (le_mag2 p) (le_mag2 q)))

theorem mag_sub (p q : Spec.Pt) : mag (p - q) ≤ mag p + mag q := by
  refine mag_le ?_ ?_
  · have h := abs_sub p.1 q.1; exact le_trans h (add_le_add (le_mag1 p) (le_mag1 q))
  · have h := abs_sub p.2 q.2; exact le_trans h (add_le_add (le_mag2 p) (le_mag2 q))

theorem mag_smul (c : ℚ) (q : Spec.Pt) : mag (c • q) ≤ |c| * mag q := by
  refine mag_le ?_ ?_
  · change |c * q.1| ≤ _; rw [abs_mul]; exact mul_le_mul_of_nonneg_left (le_mag1 q) (abs_nonneg c)
  · change |c * q.2| ≤ _; rw [abs_mul]; exact mul_le_mul_of_nonneg_left (le_mag2 q) (abs_nonneg c)

theorem PNear.mono {p : Point} {q : Spec.Pt} {ε ε' : ℚ} (h : PNear p q ε) (hε : ε ≤ ε') : PNear p q ε' :=
  ⟨h.1.mono hε, h.2.mono hε⟩
theorem DNear.mono {p : Delta} {q : Spec.Pt} {ε ε' : ℚ} (h : DNear p q ε) (hε : ε ≤ ε') : DNear p q ε' :=
  ⟨h.1.mono hε, h.2.mono hε⟩
theorem PNear.congr {p : Point} {q q' : Spec.Pt} {ε : ℚ} (h : PNear p q ε) (e : q = q') : PNear p q' ε := e ▸ h
theorem DNear.congr {p : Delta} {q q' : Spec.Pt} {ε : ℚ} (h : DNear p q ε) (e : q = q') : DNear p q' ε := e ▸ h

theorem pnear_add {p : Point} {d : Delta} {q e : Spec.Pt} {ε δ : ℚ} (hp : PNear p q ε) (hd : DNear d e δ)
    (h : mag (q + e) + (ε + δ) ≤ 2 ^ 28) : PNear (p + d) (q + e) (ε + δ + ηQ) :=
  ⟨hp.1.add hd.1 (le_trans (add_le_add_left (le_mag1 (q + e)) _) h),
   hp.2.add hd.2 (le_trans (add_le_add_left (le_mag2 (q + e)) _) h)⟩

theorem pnear_sub {p : Point} {d : Delta} {q e : Spec.Pt} {ε δ : ℚ} (hp : PNear p q ε) (hd : DNear d e δ)
    (h : mag (q - e) + (ε + δ) ≤ 2 ^ 28) : PNear (p - d) (q - e) (ε + δ + ηQ) :=
  ⟨hp.1.sub hd.1 (le_trans (add_le_add_left (le_mag1 (q - e)) _) h),
   hp.2.sub hd.2 (le_trans (add_le_add_left (le_mag2 (q - e)) _) h)⟩

theorem dnear_psub {p p' : Point} {q e : Spec.Pt} {ε δ : ℚ} (hp : PNear p q ε) (hd : PNear p' e δ)
    (h : mag (q - e) + (ε + δ) ≤ 2 ^ 28) : DNear (p - p') (q - e) (ε + δ + ηQ) :=
  ⟨hp.1.sub hd.1 (le_trans (add_le_add_left (le_mag1 (q - e)) _) h),
   hp.2.sub hd.2 (le_trans (add_le_add_left (le_mag2 (q - e)) _) h)⟩

theorem dnear_add {p : Delta} {d : Delta} {q e : Spec.Pt} {ε δ : ℚ} (hp : DNear p q ε) (hd : DNear d e δ)
    (h : mag (q + e) + (ε + δ) ≤ 2 ^ 28) : DNear (p + d) (q + e) (ε + δ + ηQ) :=
  ⟨hp.1.add hd.1 (le_trans (add_le_add_left (le_mag1 (q + e)) _) h),
   hp.2.add hd.2 (le_trans (add_le_add_left (le_mag2 (q + e)) _) h)⟩

theorem dnear_sub {p : Delta} {d : Delta} {q e : Spec.Pt} {ε δ : ℚ} (hp : DNear p q ε) (hd : DNear d e δ)
    (h : mag (q - e) + (ε + δ) ≤ 2 ^ 28) : DNear (p - d) (q - e) (ε + δ + ηQ) :=
  ⟨hp.1.sub hd.1 (le_trans (add_le_add_left (le_mag1 (q - e)) _) h),
   hp.2.sub hd.2 (le_trans (add_le_add_left (le_mag2 (q - e)) _) h)⟩

theorem smul_comm1 (c : ℚ) (q : Spec.Pt) : (c • q).1 = q.1 * c := by change c * q.1 = _; ring
theorem smul_comm2 (c : ℚ) (q : Spec.Pt) : (c • q).2 = q.2 * c := by change c * q.2 = _; ring

theorem dnear_mul {d : Delta} {q : Spec.Pt} {ε : ℚ} (hd : DNear d q ε) {s : F64} {c : ℚ} (hs : s = .fin c)
    (h : |c| * mag q + ε * |c| ≤ 2 ^ 28) : DNear (s * d) (c • q) (ε * |c| + ηQ) := by
  subst hs
  have hm := mag_smul c q
  constructor
  · have := hd.1.mul c (by
      rw [← smul_comm1]; exact le_trans (add_le_add_left (le_trans (le_mag1 _) hm) _) h)
    exact this.congr (smul_comm1 c q).symm
  · have := hd.2.mul c (by
      rw [← smul_comm2]; exact le_trans (add_le_add_left (le_trans (le_mag2 _) hm) _) h)
    exact this.congr (smul_comm2 c q).symm

theorem dnear_div {d : Delta} {q : Spec.Pt} {ε : ℚ} (hd : DNear d q ε) {s : F64} {c : ℚ} (hs : s = .fin c)
    (hc : 0 < c) (h : mag q / c + ε / c ≤ 2 ^ 28) : DNear (d / s) ((1 / c) • q) (ε / c + ηQ) := by
  subst hs
  have e : ∀ z : ℚ, |z / c| = |z| / c := fun z => by rw [abs_div, abs_of_pos hc]
  constructor
  · have := hd.1.div c hc (by
      rw [e]; exact le_trans (add_le_add_left (div_le_div_of_nonneg_right (le_mag1 q) (le_of_lt hc)) _) h)
    exact this.congr (by change _ = 1 / c * q.1; ring)
  · have := hd.2.div c hc (by
      rw [e]; exact le_trans (add_le_add_left (div_le_div_of_nonneg_right (le_mag2 q) (le_of_lt hc)) _) h)
    exact this.congr (by change _ = 1 / c * q.2; ring)

/-! ### From a point to a pixel -/

theorem index_near {a : F64} {q ε : ℚ} (h : Near a q ε) (hb : |q| + ε ≤ 2 ^ 28) {lo hi : Nat}
    (h1 : (lo : ℚ) - 1 / 2 + ε < q) (h2 : q < hi + 1 / 2 - ε) (hhi : hi < 2 ^ 32) :
    lo ≤ a.round.toU32 ∧ a.round.toU32 ≤ hi := by
  obtain ⟨r, rfl, hr⟩ := h
  rw [abs_le] at hr
  have hr1 : (lo : ℚ) - 1 / 2 < r := by linarith [hr.1]
  have hr2 : r < hi + 1 / 2 := by linarith [hr.2]
  have hrb : |r| ≤ 2 ^ 52 := by
    have := le_abs_self q
    have := neg_abs_le q
    rw [abs_le]; constructor <;> linarith [hr.1, hr.2]
  rw [round_toU32 hrb]
  have hn := roundAway_near r
  rw [abs_le] at hn
  have i1 : (lo : Int) ≤ roundAway r := by
    have : ((lo : Int) : ℚ) - 1 < (roundAway r : ℚ) := by push_cast; linarith [hn.1]
    have : (lo : Int) - 1 < roundAway r := by exact_mod_cast this
    omega
  have i2 : roundAway r ≤ (hi : Int) := by
    have : (roundAway r : ℚ) < ((hi : Int) : ℚ) + 1 := by push_cast; linarith [hn.2]
    have : roundAway r < (hi : Int) + 1 := by exact_mod_cast this
    omega
  omega

end Verif
