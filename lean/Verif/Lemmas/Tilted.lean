import Verif.Spec.Tilted
import Verif.Spec.Placed
import Verif.Lemmas.Chord
import Verif.Lemmas.Alignment

/-!
# Where the modules of a tilted symbol are
-/
namespace Verif.Tilted
open Verif.Spec Real

theorem cos_sq_sin_sq (θ : ℝ) : cos θ ^ 2 + sin θ ^ 2 = 1 := by rw [add_comm]; exact sin_sq_add_cos_sq θ

/-- Rows from a place to a point that is `dx`, `dy` pixels from it. -/
noncomputable def rowsOff (m θ dx dy : ℝ) : ℝ := (cos θ * dy - sin θ * dx) / m

/-- Columns from a place to a point that is `dx`, `dy` pixels from it. -/
noncomputable def colsOff (m θ dx dy : ℝ) : ℝ := (cos θ * dx + sin θ * dy) / m

theorem place_off {p : ℝ × ℝ} {m θ i j dx dy : ℝ} (hm : 0 < m) :
    tiltedPlace p m θ (i + rowsOff m θ dx dy) (j + colsOff m θ dx dy) =
      ((tiltedPlace p m θ i j).1 + dx, (tiltedPlace p m θ i j).2 + dy) := by
  have h := cos_sq_sin_sq θ
  unfold tiltedPlace rowsOff colsOff
  ext
  · simp only
    have : m * ((j + (cos θ * dx + sin θ * dy) / m) * cos θ - (i + (cos θ * dy - sin θ * dx) / m) * sin θ)
        = m * (j * cos θ - i * sin θ) + (cos θ ^ 2 + sin θ ^ 2) * dx := by field_simp; ring
    rw [this, h]; ring
  · simp only
    have : m * ((j + (cos θ * dx + sin θ * dy) / m) * sin θ + (i + (cos θ * dy - sin θ * dx) / m) * cos θ)
        = m * (j * sin θ + i * cos θ) + (cos θ ^ 2 + sin θ ^ 2) * dy := by field_simp; ring
    rw [this, h]; ring

theorem off_abs {m θ dx dy : ℝ} (hm : 0 < m) :
    |rowsOff m θ dx dy| * m ≤ dist (cos θ) (sin θ) dx dy ∧ |colsOff m θ dx dy| * m ≤ dist (cos θ) (sin θ) dx dy := by
  unfold rowsOff colsOff dist
  rw [abs_div, abs_div, abs_of_pos hm, div_mul_cancel₀ _ hm.ne', div_mul_cancel₀ _ hm.ne']
  exact ⟨le_max_right _ _, le_max_left _ _⟩

theorem dist_off {m θ dx dy r : ℝ} (hm : 0 < m) (h1 : |rowsOff m θ dx dy| ≤ r) (h2 : |colsOff m θ dx dy| ≤ r) :
    dist (cos θ) (sin θ) dx dy ≤ r * m := by
  unfold rowsOff at h1
  unfold colsOff at h2
  rw [abs_div, abs_of_pos hm, div_le_iff₀ hm] at h1 h2
  exact max_le h2 h1

theorem off_le {m θ dx dy r : ℝ} (hm : 0 < m) (h : dist (cos θ) (sin θ) dx dy ≤ r * m) :
    |rowsOff m θ dx dy| ≤ r ∧ |colsOff m θ dx dy| ≤ r := by
  obtain ⟨h1, h2⟩ := off_abs (θ := θ) (dx := dx) (dy := dy) hm
  exact ⟨le_of_mul_le_mul_right (h1.trans h) hm, le_of_mul_le_mul_right (h2.trans h) hm⟩

theorem off_lt {m θ dx dy r : ℝ} (hm : 0 < m) (h : dist (cos θ) (sin θ) dx dy < r * m) :
    |rowsOff m θ dx dy| < r ∧ |colsOff m θ dx dy| < r := by
  obtain ⟨h1, h2⟩ := off_abs (θ := θ) (dx := dx) (dy := dy) hm
  exact ⟨lt_of_mul_lt_mul_right (h1.trans_lt h) hm.le, lt_of_mul_lt_mul_right (h2.trans_lt h) hm.le⟩

theorem cos_add_sin (θ : ℝ) : |cos θ| + |sin θ| ≤ 17 / 12 := by
  have h := cos_sq_sin_sq θ
  rw [← sq_abs (cos θ), ← sq_abs (sin θ)] at h
  nlinarith [sq_nonneg (|cos θ| - |sin θ|), abs_nonneg (cos θ), abs_nonneg (sin θ)]

theorem dist_small {θ dx dy η : ℝ} (h1 : |dx| ≤ η) (h2 : |dy| ≤ η) : dist (cos θ) (sin θ) dx dy ≤ 17 / 12 * η := by
  have h := cos_add_sin θ
  have hη : 0 ≤ η := (abs_nonneg dx).trans h1
  have c0 := abs_nonneg (cos θ)
  have s0 := abs_nonneg (sin θ)
  have key : (|cos θ| + |sin θ|) * η ≤ 17 / 12 * η := mul_le_mul_of_nonneg_right h hη
  unfold dist
  apply max_le
  · calc _ ≤ |cos θ * dx| + |sin θ * dy| := abs_add_le _ _
      _ = |cos θ| * |dx| + |sin θ| * |dy| := by rw [abs_mul, abs_mul]
      _ ≤ |cos θ| * η + |sin θ| * η := add_le_add (mul_le_mul_of_nonneg_left h1 c0) (mul_le_mul_of_nonneg_left h2 s0)
      _ ≤ _ := by linarith
  · calc _ ≤ |cos θ * dy| + |sin θ * dx| := abs_sub _ _
      _ = |cos θ| * |dy| + |sin θ| * |dx| := by rw [abs_mul, abs_mul]
      _ ≤ |cos θ| * η + |sin θ| * η := add_le_add (mul_le_mul_of_nonneg_left h2 c0) (mul_le_mul_of_nonneg_left h1 s0)
      _ ≤ _ := by linarith

theorem dist_add (c s x y x' y' : ℝ) : dist c s (x + x') (y + y') ≤ dist c s x y + dist c s x' y' := by
  unfold dist
  apply max_le
  · rw [show c * (x + x') + s * (y + y') = (c * x + s * y) + (c * x' + s * y') by ring]
    exact (abs_add_le _ _).trans (add_le_add (le_max_left _ _) (le_max_left _ _))
  · rw [show c * (y + y') - s * (x + x') = (c * y - s * x) + (c * y' - s * x') by ring]
    exact (abs_add_le _ _).trans (add_le_add (le_max_right _ _) (le_max_right _ _))

/-- The distance of a point is at most its Euclidean distance. -/
theorem dist_euclid {θ dx dy d a b : ℝ} (h1 : |dx| ≤ a) (h2 : |dy| ≤ b) (hd : 0 ≤ d) (h : a ^ 2 + b ^ 2 ≤ d ^ 2) :
    dist (cos θ) (sin θ) dx dy ≤ d := by
  have e := cos_sq_sin_sq θ
  have a2 : dx ^ 2 ≤ a ^ 2 := by rw [← sq_abs dx]; exact pow_le_pow_left₀ (abs_nonneg _) h1 2
  have b2 : dy ^ 2 ≤ b ^ 2 := by rw [← sq_abs dy]; exact pow_le_pow_left₀ (abs_nonneg _) h2 2
  have sum : (cos θ * dx + sin θ * dy) ^ 2 + (cos θ * dy - sin θ * dx) ^ 2 = dx ^ 2 + dy ^ 2 := by
    have : (cos θ * dx + sin θ * dy) ^ 2 + (cos θ * dy - sin θ * dx) ^ 2 = (cos θ ^ 2 + sin θ ^ 2) * (dx ^ 2 + dy ^ 2) := by ring
    rw [this, e, one_mul]
  unfold dist
  apply max_le <;> apply abs_le_of_sq_le_sq _ hd
  · nlinarith [sq_nonneg (cos θ * dy - sin θ * dx)]
  · nlinarith [sq_nonneg (cos θ * dx + sin θ * dy)]

/-- Points in the symbol are in the image. -/
theorem inside_at {img : GrayImage} {side : Nat} {p : ℝ × ℝ} {m θ : ℝ} (hin : TiltedInside img side p m θ) (hm : 0 < m)
    {i j r X Y : ℝ} (i1 : r - 1 / 2 ≤ i) (i2 : i ≤ side - 1 / 2 - r) (j1 : r - 1 / 2 ≤ j) (j2 : j ≤ side - 1 / 2 - r)
    (hd : dist (cos θ) (sin θ) (X - (tiltedPlace p m θ i j).1) (Y - (tiltedPlace p m θ i j).2) ≤ r * m) :
    (1 / 50 ≤ X ∧ X ≤ img.width - 1 / 2 - 1 / 50) ∧ (1 / 50 ≤ Y ∧ Y ≤ img.height - 1 / 2 - 1 / 50) := by
  obtain ⟨h1, h2⟩ := off_le hm hd
  rw [abs_le] at h1 h2
  have := hin (i + rowsOff m θ (X - (tiltedPlace p m θ i j).1) (Y - (tiltedPlace p m θ i j).2))
    (j + colsOff m θ (X - (tiltedPlace p m θ i j).1) (Y - (tiltedPlace p m θ i j).2)) (by linarith) (by linarith)
    (by linarith) (by linarith)
  rw [place_off hm] at this
  simpa using this

/-- A pixel in a module has its colour. -/
theorem colour_at {img : GrayImage} {q : QRData} {p : ℝ × ℝ} {m θ : ℝ} (hsh : ShownTilted img q p m θ) (hm : 0 < m)
    {i j x y : Nat} (hi : i < q.side) (hj : j < q.side) (hx : x < img.width) (hy : y < img.height)
    (hd : dist (cos θ) (sin θ) (x - (tiltedPlace p m θ i j).1) (y - (tiltedPlace p m θ i j).2) < m / 2) :
    img.pixels[y * img.width + x]? = q.data[i * q.side + j]? := by
  obtain ⟨h1, h2⟩ := off_lt (r := 1 / 2) hm (hd.trans_eq (by ring))
  have hi' : (i : ℝ) + 1 ≤ q.side := by exact_mod_cast hi
  have hj' : (j : ℝ) + 1 ≤ q.side := by exact_mod_cast hj
  have i0 : (0 : ℝ) ≤ i := Nat.cast_nonneg i
  have j0 : (0 : ℝ) ≤ j := Nat.cast_nonneg j
  rw [abs_lt] at h1 h2
  obtain ⟨i', -, j', -, k1, k2, e⟩ := hsh x hx y hy
    (i + rowsOff m θ (x - (tiltedPlace p m θ i j).1) (y - (tiltedPlace p m θ i j).2))
    (j + colsOff m θ (x - (tiltedPlace p m θ i j).1) (y - (tiltedPlace p m θ i j).2))
    (by rw [place_off hm]; ext <;> simp) (by linarith) (by linarith) (by linarith) (by linarith)
  rw [abs_le] at k1 k2
  have same : ∀ a b : Nat, (a : ℝ) < b + 1 → (b : ℝ) < a + 1 → a = b := by
    intro a b h1 h2
    have h1' : a < b + 1 := by exact_mod_cast h1
    have h2' : b < a + 1 := by exact_mod_cast h2
    omega
  rw [e, same i i' (by linarith) (by linarith), same j j' (by linarith) (by linarith)]

/-- A pixel in the light frame around the centre of an alignment pattern is white. -/
theorem frame_white {img : GrayImage} {q : QRData} {p : ℝ × ℝ} {m θ : ℝ} (hsh : ShownTilted img q p m θ) (hm : 0 < m)
    (h25 : 25 ≤ q.side) (hal : HasAlignment q) {x y : Nat} (hx : x < img.width) (hy : y < img.height)
    (h1 : m / 2 < dist (cos θ) (sin θ) (x - (tiltedPlace p m θ (q.side - 7) (q.side - 7)).1)
      (y - (tiltedPlace p m θ (q.side - 7) (q.side - 7)).2))
    (h2 : dist (cos θ) (sin θ) (x - (tiltedPlace p m θ (q.side - 7) (q.side - 7)).1)
      (y - (tiltedPlace p m θ (q.side - 7) (q.side - 7)).2) < 3 * m / 2) : White img x y := by
  have h25' : (25 : ℝ) ≤ q.side := by exact_mod_cast h25
  obtain ⟨dx, hdx⟩ : ∃ dx, dx = (x : ℝ) - (tiltedPlace p m θ (q.side - 7) (q.side - 7)).1 := ⟨_, rfl⟩
  obtain ⟨dy, hdy⟩ : ∃ dy, dy = (y : ℝ) - (tiltedPlace p m θ (q.side - 7) (q.side - 7)).2 := ⟨_, rfl⟩
  rw [← hdx, ← hdy] at h1 h2
  obtain ⟨r1, r2⟩ := off_lt (r := 3 / 2) hm (h2.trans_eq (by ring))
  rw [abs_lt] at r1 r2
  obtain ⟨i, hi, j, hj, k1, k2, e⟩ := hsh x hx y hy (((q.side : ℝ) - 7) + rowsOff m θ dx dy)
    (((q.side : ℝ) - 7) + colsOff m θ dx dy)
    (by rw [place_off hm, hdx, hdy]; ext <;> simp) (by linarith) (by linarith) (by linarith) (by linarith)
  have k1' := k1
  have k2' := k2
  rw [abs_le] at k1 k2
  obtain ⟨b, hb⟩ : ∃ b : Int, b = (i : Int) - (q.side - 7) := ⟨_, rfl⟩
  obtain ⟨a, ha⟩ : ∃ a : Int, a = (j : Int) - (q.side - 7) := ⟨_, rfl⟩
  have hb' : (b : ℝ) = i - (q.side - 7) := by rw [hb]; push_cast; ring
  have ha' : (a : ℝ) = j - (q.side - 7) := by rw [ha]; push_cast; ring
  have bnd : ∀ z : Int, (-2 : ℝ) < z → (z : ℝ) < 2 → -1 ≤ z ∧ z ≤ 1 := by
    intro z h1 h2
    have h1' : (-2 : Int) < z := by exact_mod_cast h1
    have h2' : z < (2 : Int) := by exact_mod_cast h2
    omega
  have hb1 := bnd b (by linarith) (by linarith)
  have ha1 := bnd a (by linarith) (by linarith)
  have hne : ¬ (b = 0 ∧ a = 0) := by
    rintro ⟨rfl, rfl⟩
    have e1 : (i : ℝ) = q.side - 7 := by rw [Int.cast_zero] at hb'; linarith
    have e2 : (j : ℝ) = q.side - 7 := by rw [Int.cast_zero] at ha'; linarith
    rw [e1, add_sub_cancel_left] at k1'
    rw [e2, add_sub_cancel_left] at k2'
    have := dist_off hm k1' k2'
    linarith
  unfold White
  rw [e, Extractor.align_at hal h25 (a := a) (b := b) (by omega) (by omega) (by omega) (by omega)]
  unfold Extractor.alignColour
  rw [if_pos ⟨hb1, ha1, hne⟩]

/-- The three points are the centres of the finder patterns, up to `ε`. -/
def Around (side : Nat) (tl tr bl : Pt) (p : ℝ × ℝ) (m θ ε : ℝ) : Prop :=
  CloseTo tl (tiltedPlace p m θ 3 3) ε ∧ CloseTo tr (tiltedPlace p m θ 3 (side - 4)) ε ∧
  CloseTo bl (tiltedPlace p m θ (side - 4) 3) ε

theorem shifted_place (p shift : ℝ × ℝ) (m θ i j : ℝ) :
    tiltedPlace (p + shift) m θ i j = ((tiltedPlace p m θ i j).1 + shift.1, (tiltedPlace p m θ i j).2 + shift.2) := by
  unfold tiltedPlace
  ext <;> simp only [Prod.fst_add, Prod.snd_add] <;> ring

/-- A point near the shifted place is near the place. -/
theorem unshift {X P s η δ : ℝ} (hs : |s| ≤ δ) (h : |X - (P + s)| ≤ η) : |X - P| ≤ η + δ := by
  rw [abs_le] at *
  constructor <;> linarith

/-- A point between those that the finder centres give. -/
theorem between_close {side : Nat} {tl tr bl : Pt} {p : ℝ × ℝ} {m θ ε : ℝ} (h : Around side tl tr bl p m θ ε)
    (h7 : (side : ℝ) - 7 ≠ 0) {κ : ℝ} (i j : ℝ)
    (hκ : |1 - (j - 3) / (side - 7) - (i - 3) / (side - 7)| + |(j - 3) / (side - 7)| + |(i - 3) / (side - 7)| ≤ κ) :
    |(tl.1 : ℝ) + (j - 3) / (side - 7) * (tr.1 - tl.1) + (i - 3) / (side - 7) * (bl.1 - tl.1) - (tiltedPlace p m θ i j).1| ≤ κ * ε ∧
    |(tl.2 : ℝ) + (j - 3) / (side - 7) * (tr.2 - tl.2) + (i - 3) / (side - 7) * (bl.2 - tl.2) - (tiltedPlace p m θ i j).2| ≤ κ * ε := by
  obtain ⟨⟨a1, a2⟩, ⟨b1, b2⟩, ⟨c1, c2⟩⟩ := h
  have key : ∀ {t r b T R B α β X : ℝ}, |t - T| ≤ ε → |r - R| ≤ ε → |b - B| ≤ ε → |1 - α - β| + |α| + |β| ≤ κ →
      X = T + α * (R - T) + β * (B - T) → |t + α * (r - t) + β * (b - t) - X| ≤ κ * ε := by
    intro t r b T R B α β X h1 h2 h3 hκ hX
    have hε := (abs_nonneg _).trans h1
    rw [hX, show t + α * (r - t) + β * (b - t) - (T + α * (R - T) + β * (B - T)) =
      (1 - α - β) * (t - T) + α * (r - R) + β * (b - B) by ring]
    calc _ ≤ |1 - α - β| * |t - T| + |α| * |r - R| + |β| * |b - B| := by
          rw [← abs_mul, ← abs_mul, ← abs_mul]
          exact (abs_add_le _ _).trans (add_le_add_left (abs_add_le _ _) _)
      _ ≤ |1 - α - β| * ε + |α| * ε + |β| * ε :=
          add_le_add (add_le_add (mul_le_mul_of_nonneg_left h1 (abs_nonneg _)) (mul_le_mul_of_nonneg_left h2 (abs_nonneg _)))
            (mul_le_mul_of_nonneg_left h3 (abs_nonneg _))
      _ = (|1 - α - β| + |α| + |β|) * ε := by ring
      _ ≤ _ := mul_le_mul_of_nonneg_right hκ hε
  constructor
  · refine key a1 b1 c1 hκ ?_
    unfold tiltedPlace
    simp only
    field_simp
    ring
  · refine key a2 b2 c2 hκ ?_
    unfold tiltedPlace
    simp only
    field_simp
    ring

/-- How much errors in the finder centres count at a module, if the alignment pattern corrects it. -/
theorem coefficients {x y κ : ℝ} (x1 : -(1 / 5) ≤ x) (x2 : x ≤ 7 / 5) (y1 : -(1 / 5) ≤ y) (y2 : y ≤ 7 / 5)
    (k1 : 5 / 6 ≤ κ) (k2 : κ ≤ 1) :
    |1 - κ * x - κ * y - x * y * (1 - 2 * κ)| + |κ * x - x * y * κ| + |κ * y - x * y * κ| ≤ 9 / 4 := by
  have a1 : 0 ≤ (x + 1 / 5) * (y + 1 / 5) := mul_nonneg (by linarith) (by linarith)
  have a2 : 0 ≤ (x + 1 / 5) * (7 / 5 - y) := mul_nonneg (by linarith) (by linarith)
  have a3 : 0 ≤ (7 / 5 - x) * (y + 1 / 5) := mul_nonneg (by linarith) (by linarith)
  have a4 : 0 ≤ (7 / 5 - x) * (7 / 5 - y) := mul_nonneg (by linarith) (by linarith)
  have b1 := mul_nonneg a1 (by linarith : 0 ≤ κ - 5 / 6)
  have b2 := mul_nonneg a2 (by linarith : 0 ≤ κ - 5 / 6)
  have b3 := mul_nonneg a3 (by linarith : 0 ≤ κ - 5 / 6)
  have b4 := mul_nonneg a4 (by linarith : 0 ≤ κ - 5 / 6)
  have c1 := mul_nonneg a1 (by linarith : 0 ≤ 1 - κ)
  have c2 := mul_nonneg a2 (by linarith : 0 ≤ 1 - κ)
  have c3 := mul_nonneg a3 (by linarith : 0 ≤ 1 - κ)
  have c4 := mul_nonneg a4 (by linarith : 0 ≤ 1 - κ)
  rcases abs_cases (1 - κ * x - κ * y - x * y * (1 - 2 * κ)) with ⟨e1, -⟩ | ⟨e1, -⟩ <;>
  rcases abs_cases (κ * x - x * y * κ) with ⟨e2, -⟩ | ⟨e2, -⟩ <;>
  rcases abs_cases (κ * y - x * y * κ) with ⟨e3, -⟩ | ⟨e3, -⟩ <;>
  rw [e1, e2, e3] <;> linarith

/-- The position of a module, if the alignment centre is known up to `d`. -/
theorem corrected_close {side : Nat} {tl tr bl : Pt} {p : ℝ × ℝ} {m θ ε : ℝ} (h : Around side tl tr bl p m θ ε)
    (h25 : 25 ≤ side) {a : Pt} {d1 d2 : ℝ} (ha1 : |(a.1 : ℝ) - (tiltedPlace p m θ (side - 7) (side - 7)).1| ≤ d1)
    (ha2 : |(a.2 : ℝ) - (tiltedPlace p m θ (side - 7) (side - 7)).2| ≤ d2) {i j : Nat} (hi : i < side) (hj : j < side) :
    |((bilinear side tl tr bl (some a) i j).1 : ℝ) - (tiltedPlace p m θ i j).1| ≤ 9 / 4 * ε + 49 / 25 * d1 ∧
    |((bilinear side tl tr bl (some a) i j).2 : ℝ) - (tiltedPlace p m θ i j).2| ≤ 9 / 4 * ε + 49 / 25 * d2 := by
  obtain ⟨⟨p1, p2⟩, ⟨q1, q2⟩, ⟨r1, r2⟩⟩ := h
  have h25' : (25 : ℝ) ≤ side := by exact_mod_cast h25
  have hi' : (i : ℝ) + 1 ≤ side := by exact_mod_cast hi
  have hj' : (j : ℝ) + 1 ≤ side := by exact_mod_cast hj
  have i0 : (0 : ℝ) ≤ i := Nat.cast_nonneg i
  have j0 : (0 : ℝ) ≤ j := Nat.cast_nonneg j
  obtain ⟨x, hx⟩ : ∃ x : ℝ, x = (j - 3) / (side - 10) := ⟨_, rfl⟩
  obtain ⟨y, hy⟩ : ∃ y : ℝ, y = (i - 3) / (side - 10) := ⟨_, rfl⟩
  obtain ⟨κ, hκ⟩ : ∃ κ : ℝ, κ = (side - 10) / (side - 7) := ⟨_, rfl⟩
  have n10 : (0 : ℝ) < side - 10 := by linarith
  have n7 : (0 : ℝ) < side - 7 := by linarith
  have x1 : -(1 / 5) ≤ x := by rw [hx, le_div_iff₀ n10]; linarith
  have x2 : x ≤ 7 / 5 := by rw [hx, div_le_iff₀ n10]; linarith
  have y1 : -(1 / 5) ≤ y := by rw [hy, le_div_iff₀ n10]; linarith
  have y2 : y ≤ 7 / 5 := by rw [hy, div_le_iff₀ n10]; linarith
  have k1 : 5 / 6 ≤ κ := by rw [hκ, le_div_iff₀ n7]; linarith
  have k2 : κ ≤ 1 := by rw [hκ, div_le_one₀ n7]; linarith
  have hco := coefficients x1 x2 y1 y2 k1 k2
  have hxy : |x * y| ≤ 49 / 25 := by
    rw [abs_mul]
    have h1 : |x| ≤ 7 / 5 := abs_le.mpr ⟨by linarith, x2⟩
    have h2 : |y| ≤ 7 / 5 := abs_le.mpr ⟨by linarith, y2⟩
    calc _ ≤ (7 / 5 : ℝ) * (7 / 5) := mul_le_mul h1 h2 (abs_nonneg _) (by norm_num)
      _ = 49 / 25 := by norm_num
  have key : ∀ {t r b A T R B C X P d : ℝ}, |t - T| ≤ ε → |r - R| ≤ ε → |b - B| ≤ ε → |A - C| ≤ d →
      C = T + κ * (R - T) + κ * (B - T) → X = T + κ * x * (R - T) + κ * y * (B - T) →
      P = t + κ * x * (r - t) + κ * y * (b - t) + x * y * (A - (t + κ * (r - t) + κ * (b - t))) →
      |P - X| ≤ 9 / 4 * ε + 49 / 25 * d := by
    intro t r b A T R B C X P d h1 h2 h3 h4 hC hX hP
    have hε := (abs_nonneg _).trans h1
    have hd := (abs_nonneg _).trans h4
    have e : P - X = (1 - κ * x - κ * y - x * y * (1 - 2 * κ)) * (t - T) + (κ * x - x * y * κ) * (r - R) +
        (κ * y - x * y * κ) * (b - B) + x * y * (A - C) := by
      rw [hP, hX, hC]; ring
    rw [e]
    calc _ ≤ |(1 - κ * x - κ * y - x * y * (1 - 2 * κ)) * (t - T) + (κ * x - x * y * κ) * (r - R) +
          (κ * y - x * y * κ) * (b - B)| + |x * y * (A - C)| := abs_add_le _ _
      _ ≤ |(1 - κ * x - κ * y - x * y * (1 - 2 * κ)) * (t - T)| + |(κ * x - x * y * κ) * (r - R)| +
          |(κ * y - x * y * κ) * (b - B)| + |x * y * (A - C)| :=
          add_le_add_left ((abs_add_le _ _).trans (add_le_add_left (abs_add_le _ _) _)) _
      _ = |1 - κ * x - κ * y - x * y * (1 - 2 * κ)| * |t - T| + |κ * x - x * y * κ| * |r - R| +
          |κ * y - x * y * κ| * |b - B| + |x * y| * |A - C| := by
          rw [abs_mul (1 - κ * x - κ * y - x * y * (1 - 2 * κ)), abs_mul (κ * x - x * y * κ), abs_mul (κ * y - x * y * κ),
            abs_mul (x * y)]
      _ ≤ |1 - κ * x - κ * y - x * y * (1 - 2 * κ)| * ε + |κ * x - x * y * κ| * ε +
          |κ * y - x * y * κ| * ε + 49 / 25 * d :=
          add_le_add (add_le_add (add_le_add (mul_le_mul_of_nonneg_left h1 (abs_nonneg _))
            (mul_le_mul_of_nonneg_left h2 (abs_nonneg _))) (mul_le_mul_of_nonneg_left h3 (abs_nonneg _)))
            (mul_le_mul hxy h4 (abs_nonneg _) (by norm_num))
      _ = (|1 - κ * x - κ * y - x * y * (1 - 2 * κ)| + |κ * x - x * y * κ| + |κ * y - x * y * κ|) * ε + 49 / 25 * d := by ring
      _ ≤ _ := add_le_add_left (mul_le_mul_of_nonneg_right hco hε) _
  have ex : κ * x = (j - 3) / (side - 7) := by rw [hκ, hx]; field_simp
  have ey : κ * y = (i - 3) / (side - 7) := by rw [hκ, hy]; field_simp
  have exy : x * y = (j - 3) * (i - 3) / (side - 10) ^ 2 := by rw [hx, hy]; field_simp
  constructor
  · refine key p1 q1 r1 ha1 ?_ ?_ ?_
    · rw [hκ]; unfold tiltedPlace; simp only; field_simp; ring
    · rw [ex, ey]; unfold tiltedPlace; simp only; field_simp; ring
    · rw [ex, ey, exy, hκ]; unfold bilinear bilinear1; simp only [Option.map_some]; push_cast; ring
  · refine key p2 q2 r2 ha2 ?_ ?_ ?_
    · rw [hκ]; unfold tiltedPlace; simp only; field_simp; ring
    · rw [ex, ey]; unfold tiltedPlace; simp only; field_simp; ring
    · rw [ex, ey, exy, hκ]; unfold bilinear bilinear1; simp only [Option.map_some]; push_cast; ring

/-- The middle of the dark spot is near the alignment centre. -/
theorem spot_close {img : GrayImage} {q : QRData} {p : ℝ × ℝ} {m θ d : ℝ} (hsh : ShownTilted img q p m θ)
    (hin : TiltedInside img q.side p m θ) (h25 : 25 ≤ q.side) (hal : HasAlignment q) (hm : 2 < m)
    (hd : (d + 1) * (17 / 12) < m / 2) {cx cy : Nat} (hcx : cx < img.width) (hcy : cy < img.height)
    (h1 : |(cx : ℝ) - (tiltedPlace p m θ (q.side - 7) (q.side - 7)).1| ≤ d)
    (h2 : |(cy : ℝ) - (tiltedPlace p m θ (q.side - 7) (q.side - 7)).2| ≤ d) {a : Pt} (ha : MiddleOfSpot img cx cy a) :
    |(a.1 : ℝ) - (tiltedPlace p m θ (q.side - 7) (q.side - 7)).1| ≤ d + 1 / 2 ∧
    |(a.2 : ℝ) - (tiltedPlace p m θ (q.side - 7) (q.side - 7)).2| ≤ d + 3 / 2 := by
  obtain ⟨cx', l, r, t, b, hl, hr, ea1, hcx', ht, hb, ea2⟩ := ha
  have hm0 : 0 < m := by linarith
  have h25' : (25 : ℝ) ≤ q.side := by exact_mod_cast h25
  have hcs := cos_sq_sin_sq θ
  have hsum := cos_add_sin θ
  have c7 : ((q.side - 7 : Nat) : ℝ) = q.side - 7 := by rw [Nat.cast_sub (by omega)]; norm_num
  have hd0 := (abs_nonneg _).trans h1
  obtain ⟨C, hC⟩ : ∃ C, C = tiltedPlace p m θ (q.side - 7) (q.side - 7) := ⟨_, rfl⟩
  have dark : ∀ x < img.width, ∀ y < img.height, dist (cos θ) (sin θ) (x - C.1) (y - C.2) < m / 2 → ¬ White img x y := by
    intro x hx y hy h hw
    have := colour_at hsh hm0 (i := q.side - 7) (j := q.side - 7) (by omega) (by omega) hx hy (by rw [c7, ← hC]; exact h)
    rw [Extractor.align_at hal h25 (a := 0) (b := 0) (by omega) (by omega) (by omega) (by omega)] at this
    unfold White at hw
    rw [hw] at this
    revert this
    decide
  have light : ∀ x < img.width, ∀ y < img.height, m / 2 < dist (cos θ) (sin θ) (x - C.1) (y - C.2) →
      dist (cos θ) (sin θ) (x - C.1) (y - C.2) < 3 * m / 2 → White img x y := by
    intro x hx y hy g1 g2
    rw [hC] at g1 g2
    exact frame_white hsh hm0 h25 hal hx hy g1 g2
  have ins : ∀ X Y : ℝ, dist (cos θ) (sin θ) (X - C.1) (Y - C.2) < 3 * m / 2 →
      (1 / 50 ≤ X ∧ X ≤ img.width - 1 / 2 - 1 / 50) ∧ (1 / 50 ≤ Y ∧ Y ≤ img.height - 1 / 2 - 1 / 50) := by
    intro X Y h
    rw [hC] at h
    exact inside_at hin hm0 (i := q.side - 7) (j := q.side - 7) (r := 3 / 2) (by linarith) (by linarith) (by linarith) (by linarith) (by linarith)
  rw [← hC] at h1 h2 ⊢
  have bound : ∀ z e : ℝ, |z| ≤ e → e ≤ d + 1 → |z| * (|cos θ| + |sin θ|) ≤ m / 2 := by
    intro z e hz he
    calc _ ≤ (d + 1) * (17 / 12) := mul_le_mul (hz.trans he) hsum (by positivity) (by linarith)
      _ ≤ _ := hd.le
  -- along the row
  have row : |(a.1 : ℝ) - C.1| ≤ d + 1 / 2 := by
    have := middle_of_line (c := cos θ) (s := sin θ) (m := m) (y := cy - C.2) (C := C.1) hcs (by linarith)
      (bound _ d h2 (by linarith)) (white := fun x => White img x cy) (k := cx) (n := img.width) (l := l) (r := r)
      ((dist_small h1 h2).trans_lt (by linarith)) (fun x hx h => dark x hx cy hcy h)
      (fun x hx g1 g2 => light x hx cy hcy g1 g2)
      (by
        by_contra h
        push Not at h
        have := (ins 0 cy h).1.1
        norm_num at this)
      (by
        by_contra h
        push Not at h
        have := (ins img.width cy h).1.2
        linarith) hcx hl hr
    rw [ea1]
    push_cast
    linarith
  refine ⟨row, ?_⟩
  have hcx2 : |(cx' : ℝ) - a.1| ≤ 1 / 2 := by
    have : ((|(cx' : ℚ) - a.1| : ℚ) : ℝ) ≤ ((1 / 2 : ℚ) : ℝ) := by exact_mod_cast hcx'
    push_cast at this
    exact this
  have hx' : |(cx' : ℝ) - C.1| ≤ d + 1 := by
    rw [abs_le] at *
    constructor <;> linarith
  have start : dist (cos θ) (sin θ) (cx' - C.1) (cy - C.2) < m / 2 :=
    (dist_small hx' (h2.trans (by linarith))).trans_lt (by linarith)
  have hlt : cx' < img.width := by
    have := (ins cx' cy (by linarith)).1.2
    have : (cx' : ℝ) < img.width := by linarith
    exact_mod_cast this
  have := middle_of_line (c := cos θ) (s := -sin θ) (m := m) (y := cx' - C.1) (C := C.2) (by rw [neg_sq]; exact hcs)
    (by linarith) (by rw [abs_neg]; exact bound _ (d + 1) hx' le_rfl) (white := fun y => White img cx' y) (k := cy)
    (n := img.height) (l := t) (r := b)
    (by rw [dist_swap]; exact start) (fun y hy h => dark cx' hlt y hy (by rw [dist_swap] at h; exact h))
    (fun y hy g1 g2 => light cx' hlt y hy (by rw [dist_swap] at g1; exact g1) (by rw [dist_swap] at g2; exact g2))
    (by
      rw [dist_swap]
      by_contra h
      push Not at h
      have := (ins cx' 0 h).2.1
      norm_num at this)
    (by
      rw [dist_swap]
      by_contra h
      push Not at h
      have := (ins cx' img.height h).2.2
      linarith) hcy ht hb
  rw [ea2]
  push_cast
  linarith

end Verif.Tilted
