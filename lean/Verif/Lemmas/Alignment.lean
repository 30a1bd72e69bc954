import Verif.Lemmas.Render

/-!
# Finding the alignment pattern of a picture
-/
namespace Verif
namespace Extractor
open F64 Spec

theorem noneOf_true {img : GrayImage} : ∀ {l : List (Point × U8)},
    (∀ t ∈ l, ∃ c, pixelAt img t.1 = .ret c ∧ c ≠ t.2) → noneOf img l = .ret true := by
  intro l
  induction l with
  | nil => intro _; rfl
  | cons t l ih =>
    intro h
    obtain ⟨c, h1, h2⟩ := h t (by simp)
    obtain ⟨p, bad⟩ := t
    unfold noneOf
    rw [h1, Run.ret_bind, if_neg h2]
    exact ih fun t ht => h t (List.mem_cons_of_mem _ ht)

theorem scale_one : (F64.lit 1 + F64.ofInt 0 / F64.lit 10 : F64) = .fin 1 := by
  have h1 : (F64.lit 1 : F64) = .fin 1 := by
    have := lit_nat (n := 1) (by norm_num); simpa using this
  have h10 : (F64.lit 10 : F64) = .fin 10 := by
    have := lit_nat (n := 10) (by norm_num); simpa using this
  rw [ofInt_fin (by norm_num), h1, h10, div_fin (by norm_num) (by norm_num)]
  have e : ((0 : Int) : ℚ) / 10 = 0 := by norm_num
  rw [e, roundQ_zero, add_fin (by norm_num)]
  have := roundQ_nat (n := 1) (by norm_num)
  rw [add_zero]
  simpa using this

theorem attempts_head (est : Point) (dx dy : Delta) :
    ∃ rest, attempts est dx dy = (est, F64.lit 1 + F64.ofInt 0 / F64.lit 10) :: rest := by
  unfold attempts
  rw [List.range_succ_eq_map, List.flatMap_cons]
  rw [List.flatMap_cons]
  unfold ring
  rw [if_pos rfl]
  simp only [List.map_cons, List.map_nil, List.cons_append]
  exact ⟨_, rfl⟩

/-- Everything that the search relies on. -/
structure AlignSetup (img : GrayImage) (q : QRData) (ρ : Orientation) (m ox oy : Nat) (tl tr bl shift : Pt) (ε : ℚ) : Prop where
  drawn : DrawnAs img q ρ m ox oy
  width : img.width ≤ 2 ^ 20
  height : img.height ≤ 2 ^ 20
  module : 1 ≤ m
  lo : 25 ≤ q.side
  hi : q.side ≤ 177
  align : HasAlignment q
  centred : CentredAs tl tr bl ρ q.side m ox oy shift ε
  eps : 0 ≤ ε
  tol1 : 13 / 10 * |shift.1| + 5 * ε + 1 / 20 ≤ m / 2
  tol2 : 13 / 10 * |shift.2| + 5 * ε + 1 / 20 ≤ m / 2
  tl_small : mag tl ≤ WQ
  tr_small : mag tr ≤ WQ
  bl_small : mag bl ≤ WQ

/-- Colour of the alignment pattern at an offset from its centre. -/
def alignColour (a b : Int) : U8 :=
  if (-1 ≤ b ∧ b ≤ 1) ∧ (-1 ≤ a ∧ a ≤ 1) ∧ ¬ (b = 0 ∧ a = 0) then 255#8 else 0#8

theorem align_at {q : QRData} (h : HasAlignment q) (h25 : 25 ≤ q.side) {a b : Int} (ha : -2 ≤ a ∧ a ≤ 2)
    (hb : -2 ≤ b ∧ b ≤ 2) {i j : Nat} (hi : (i : Int) = q.side - 7 + b) (hj : (j : Int) = q.side - 7 + a) :
    q.data[i * q.side + j]? = some (alignColour a b) := by
  have := h (b + 2).toNat (by omega) (a + 2).toNat (by omega)
  have e1 : q.side - 9 + (b + 2).toNat = i := by omega
  have e2 : q.side - 9 + (a + 2).toNat = j := by omega
  rw [e1, e2] at this
  rw [this]
  congr 1
  unfold alignColour
  apply if_congr _ rfl rfl
  omega

/-- A point at a module offset from the estimate has the colour of the alignment pattern there. -/
theorem probe {img : GrayImage} {q : QRData} {ρ : Orientation} {m ox oy : Nat} {tl tr bl shift : Pt} {ε : ℚ}
    (H : AlignSetup img q ρ m ox oy tl tr bl shift ε) {a b : Int} (ha : -2 ≤ a ∧ a ≤ 2) (hb : -2 ≤ b ∧ b ≤ 2)
    {p : Point}
    (hp : PNear p (estQ q.side tl tr bl + (a : ℚ) • stepQ q.side tl tr + (b : ℚ) • stepQ q.side tl bl) (1 / 100)) :
    pixelAt img p = .ret (alignColour a b) := by
  have hlo := H.lo
  obtain ⟨j, hj⟩ : ∃ j : Nat, (j : Int) = q.side - 7 + a := ⟨(q.side - 7 + a : Int).toNat, by omega⟩
  obtain ⟨i, hi⟩ : ∃ i : Nat, (i : Int) = q.side - 7 + b := ⟨(q.side - 7 + b : Int).toNat, by omega⟩
  obtain ⟨c1, c2⟩ := est_close H.lo H.centred ha hb hi hj
  have t1 := H.tol1
  have t2 := H.tol2
  have s1 := abs_nonneg shift.1
  have s2 := abs_nonneg shift.2
  refine pixel_in_module H.drawn H.width H.height H.module (i := i) (j := j) (by omega) (by omega) hp (by norm_num)
    ?_ ?_ (align_at H.align hlo ha hb hi hj)
  · linarith
  · linarith

/-- The modules around the alignment pattern are in the picture, and not at its edge. -/
theorem flipIndex_align {f : Bool} {side k : Nat} (h : 25 ≤ side) (h1 : side - 9 ≤ k) (h2 : k ≤ side - 5) :
    4 ≤ flipIndex f side k ∧ flipIndex f side k < side := by
  unfold flipIndex; split <;> omega

/-- The surroundings of the alignment centre in the picture. -/
theorem around {ρ : Orientation} {side : Nat} (h : 25 ≤ side) {x y : Int} (hx : -2 ≤ x ∧ x ≤ 2) (hy : -2 ≤ y ∧ y ≤ 2)
    {c r : Nat} (hc : (c : Int) = (ρ.column side (side - 7) (side - 7) : Nat) + x)
    (hr : (r : Int) = (ρ.row side (side - 7) (side - 7) : Nat) + y) :
    ∃ (i j : Nat) (a b : Int), (i : Int) = side - 7 + b ∧ (j : Int) = side - 7 + a ∧ (-2 ≤ a ∧ a ≤ 2) ∧ (-2 ≤ b ∧ b ≤ 2) ∧
      ρ.column side i j = c ∧ ρ.row side i j = r ∧ alignColour a b = alignColour x y := by
  have colour : ∀ {a b : Int}, ((a = x ∨ a = -x) ∧ (b = y ∨ b = -y)) ∨ ((a = y ∨ a = -y) ∧ (b = x ∨ b = -x)) →
      alignColour a b = alignColour x y := by
    intro a b h
    unfold alignColour
    apply if_congr _ rfl rfl
    omega
  have go : ∀ a b : Int, ((a = x ∨ a = -x) ∧ (b = y ∨ b = -y)) ∨ ((a = y ∨ a = -y) ∧ (b = x ∨ b = -x)) →
      ρ.column side ((side : Int) - 7 + b).toNat ((side : Int) - 7 + a).toNat = c →
      ρ.row side ((side : Int) - 7 + b).toNat ((side : Int) - 7 + a).toNat = r →
      ∃ (i j : Nat) (a b : Int), (i : Int) = side - 7 + b ∧ (j : Int) = side - 7 + a ∧ (-2 ≤ a ∧ a ≤ 2) ∧ (-2 ≤ b ∧ b ≤ 2) ∧
      ρ.column side i j = c ∧ ρ.row side i j = r ∧ alignColour a b = alignColour x y := by
    intro a b hab h1 h2
    exact ⟨_, _, a, b, by omega, by omega, by omega, by omega, h1, h2, colour hab⟩
  obtain ⟨fx, fy, sw⟩ := ρ
  unfold Orientation.column Orientation.row flipIndex at *
  simp only at *
  cases sw
  · refine go (if fx then -x else x) (if fy then -y else y) ?_ ?_ ?_ <;> cases fx <;> cases fy <;>
      simp only [Bool.false_eq_true, if_false, if_true] at * <;> first | omega | exact Or.inl ⟨by tauto, by tauto⟩
  · refine go (if fy then -y else y) (if fx then -x else x) ?_ ?_ ?_ <;> cases fx <;> cases fy <;>
      simp only [Bool.false_eq_true, if_false, if_true] at * <;> first | omega | exact Or.inr ⟨by tauto, by tauto⟩

theorem not_negative {a : F64} {q ε : ℚ} (h : Near a q ε) (h0 : ε ≤ q) : F64.lt a (F64.lit 0) = false := by
  obtain ⟨r, rfl, hr⟩ := h
  rw [lit0, lt_fin, decide_eq_false_iff_not, not_lt]
  rw [abs_le] at hr
  linarith [hr.1]

theorem not_beyond {a : F64} {q ε : ℚ} (h : Near a q ε) {m o k n : Nat} (hm : 1 ≤ m) (hε : 0 ≤ ε)
    (hq : |q - moduleCentre m o k| + ε < m / 2) (hk : o + k * m + m ≤ n) (hn : n ≤ 2 ^ 20) :
    F64.ge a.round (F64.ofNat n) = false := by
  have hb := centre_abs hk hn
  obtain ⟨r, rfl, hr⟩ := h
  have h1 : (o : ℚ) + k * m + m ≤ n := by exact_mod_cast hk
  have h2 : (n : ℚ) ≤ 2 ^ 20 := by exact_mod_cast hn
  have h4 : (m : ℚ) ≤ n := by
    have : (0 : ℚ) ≤ (o : ℚ) + k * m := by positivity
    linarith
  have hlt : |q - moduleCentre m o k| < m / 2 - ε := by linarith
  rw [abs_lt] at hlt
  rw [abs_le] at hr hb
  have hrb : |r| ≤ 2 ^ 52 := by
    rw [abs_le]; constructor <;> linarith [hr.1, hr.2, hlt.1, hlt.2, hb.1, hb.2]
  rw [round_fin hrb, ofNat_fin (by omega), ge_fin, decide_eq_false_iff_not, not_le]
  have hra := roundAway_near r
  rw [abs_le] at hra
  unfold moduleCentre at hlt
  linarith [hra.2, hr.2, hlt.2]

theorem align_search {img : GrayImage} {q : QRData} {ρ : Orientation} {m ox oy : Nat} {tl tr bl shift : Pt} {ε : ℚ}
    (H : AlignSetup img q ρ m ox oy tl tr bl shift ε) {p : Point} {dx dy : Delta} {scale : F64}
    (hp : PNear p (estQ q.side tl tr bl) (350 * ηQ)) (hdx : DNear dx (stepQ q.side tl tr) (2 * ηQ))
    (hdy : DNear dy (stepQ q.side tl bl) (2 * ηQ)) (hs : scale = .fin 1) :
    isAlignment img p dx dy scale = .ret true := by
  have hlo := H.lo
  have hη := ηQ_val
  have sdx := stepQ_small' (show 21 ≤ q.side by omega) H.tl_small H.tr_small
  have sdy := stepQ_small' (show 21 ≤ q.side by omega) H.tl_small H.bl_small
  have sest := estQ_small (show 21 ≤ q.side by omega) H.tl_small H.tr_small H.bl_small
  have unit : ∀ {d : Delta} {D : Pt}, DNear d D (2 * ηQ) → mag D ≤ WQ / 7 → DNear (scale * d) D (3 * ηQ) := by
    intro d D hd hD
    have := dnear_mul hd hs (by rw [abs_one, hη]; rw [WQ_val] at hD; linarith)
    have e : (1 : ℚ) • D = D := by ptring
    rw [e] at this
    exact this.mono (by rw [abs_one, hη]; norm_num)
  have ndx := unit hdx sdx
  have ndy := unit hdy sdy
  unfold isAlignment
  generalize hX : scale * dx = X at *
  generalize hY : scale * dy = Y at *
  -- multiples of the steps
  have mul : ∀ {d : Delta} {D : Pt} {s : F64} {c : ℚ}, DNear d D (3 * ηQ) → mag D ≤ WQ / 7 → s = .fin c →
      |c| ≤ 2 → DNear (s * d) (c • D) (7 * ηQ) ∧ mag (c • D) ≤ WQ / 3 := by
    intro d D s c hd hD hsc hc
    have h0 := mag_nonneg D
    have h1 : |c| * mag D ≤ 2 * mag D := mul_le_mul_of_nonneg_right hc h0
    have h2 : 3 * ηQ * |c| ≤ 3 * ηQ * 2 := mul_le_mul_of_nonneg_left hc (by rw [hη]; norm_num)
    have h3 := mag_smul c D
    have hW := WQ_val
    constructor
    · refine (dnear_mul hd hsc ?_).mono ?_
      · rw [hη] at *; linarith
      · linarith
    · linarith
  have one : ∀ {d : Delta} {D : Pt}, DNear d D (3 * ηQ) → mag D ≤ WQ / 7 →
      DNear d ((1 : ℚ) • D) (7 * ηQ) ∧ mag ((1 : ℚ) • D) ≤ WQ / 3 := by
    intro d D hd hD
    have e : (1 : ℚ) • D = D := by ptring
    have h0 := mag_nonneg D
    rw [e]
    exact ⟨hd.mono (by rw [hη]; norm_num), by linarith⟩
  -- sums
  have hW : 0 < WQ := by rw [WQ_val]; norm_num
  have sub1 : ∀ {p : Point} {P : Pt} {ε : ℚ} {d : Delta} {D : Pt}, PNear p P ε → mag P ≤ 10 * WQ → ε ≤ 1 →
      DNear d D (7 * ηQ) ∧ mag D ≤ WQ / 3 → PNear (p - d) (P - D) (ε + 8 * ηQ) := by
    intro p P ε d D hp hP hε hd
    have := mag_sub P D
    exact (pnear_sub hp hd.1 (by rw [hη]; rw [WQ_val] at hP hd; linarith [hd.2])).mono (by linarith)
  have add1 : ∀ {p : Point} {P : Pt} {ε : ℚ} {d : Delta} {D : Pt}, PNear p P ε → mag P ≤ 10 * WQ → ε ≤ 1 →
      DNear d D (7 * ηQ) ∧ mag D ≤ WQ / 3 → PNear (p + d) (P + D) (ε + 8 * ηQ) := by
    intro p P ε d D hp hP hε hd
    have := mag_add P D
    exact (pnear_add hp hd.1 (by rw [hη]; rw [WQ_val] at hP hd; linarith [hd.2])).mono (by linarith)
  have e350 : 350 * ηQ ≤ 1 := by rw [hη]; norm_num
  have e358 : 350 * ηQ + 8 * ηQ ≤ 1 := by rw [hη]; norm_num
  have eend : 350 * ηQ + 8 * ηQ + 8 * ηQ ≤ 1 / 100 := by rw [hη]; norm_num
  have sest' : mag (estQ q.side tl tr bl) ≤ 10 * WQ := by linarith
  have bsub : ∀ {D : Pt}, mag D ≤ WQ / 3 → mag (estQ q.side tl tr bl - D) ≤ 10 * WQ := by
    intro D hD
    have := mag_sub (estQ q.side tl tr bl) D
    linarith
  have badd : ∀ {D : Pt}, mag D ≤ WQ / 3 → mag (estQ q.side tl tr bl + D) ≤ 10 * WQ := by
    intro D hD
    have := mag_add (estQ q.side tl tr bl) D
    linarith
  have x2 := mul ndx sdx lit2 (by norm_num)
  have y2 := mul ndy sdy lit2 (by norm_num)
  have x1 := one ndx sdx
  have y1 := one ndy sdy
  have ox' : ∀ z : Int, -2 ≤ z ∧ z ≤ 2 → DNear (F64.ofInt z * X) ((z : ℚ) • stepQ q.side tl tr) (7 * ηQ) ∧
      mag ((z : ℚ) • stepQ q.side tl tr) ≤ WQ / 3 := by
    intro z hz
    have hz' : |(z : ℚ)| ≤ 2 := by
      rw [abs_le]; exact ⟨by exact_mod_cast hz.1, by exact_mod_cast hz.2⟩
    exact mul ndx sdx (ofInt_fin (by rw [abs_le]; omega)) hz'
  have oy' : ∀ z : Int, -2 ≤ z ∧ z ≤ 2 → DNear (F64.ofInt z * Y) ((z : ℚ) • stepQ q.side tl bl) (7 * ηQ) ∧
      mag ((z : ℚ) • stepQ q.side tl bl) ≤ WQ / 3 := by
    intro z hz
    have hz' : |(z : ℚ)| ≤ 2 := by
      rw [abs_le]; exact ⟨by exact_mod_cast hz.1, by exact_mod_cast hz.2⟩
    exact mul ndy sdy (ofInt_fin (by rw [abs_le]; omega)) hz'
  have ss : ∀ {d d' : Delta} {D D' : Pt}, (DNear d D (7 * ηQ) ∧ mag D ≤ WQ / 3) →
      (DNear d' D' (7 * ηQ) ∧ mag D' ≤ WQ / 3) → PNear (p - d - d') (estQ q.side tl tr bl - D - D') (1 / 100) :=
    fun h h' => (sub1 (sub1 hp sest' e350 h) (bsub h.2) e358 h').mono eend
  have sa : ∀ {d d' : Delta} {D D' : Pt}, (DNear d D (7 * ηQ) ∧ mag D ≤ WQ / 3) →
      (DNear d' D' (7 * ηQ) ∧ mag D' ≤ WQ / 3) → PNear (p - d + d') (estQ q.side tl tr bl - D + D') (1 / 100) :=
    fun h h' => (add1 (sub1 hp sest' e350 h) (bsub h.2) e358 h').mono eend
  have as : ∀ {d d' : Delta} {D D' : Pt}, (DNear d D (7 * ηQ) ∧ mag D ≤ WQ / 3) →
      (DNear d' D' (7 * ηQ) ∧ mag D' ≤ WQ / 3) → PNear (p + d - d') (estQ q.side tl tr bl + D - D') (1 / 100) :=
    fun h h' => (sub1 (add1 hp sest' e350 h) (badd h.2) e358 h').mono eend
  have aa : ∀ {d d' : Delta} {D D' : Pt}, (DNear d D (7 * ηQ) ∧ mag D ≤ WQ / 3) →
      (DNear d' D' (7 * ηQ) ∧ mag D' ≤ WQ / 3) → PNear (p + d + d') (estQ q.side tl tr bl + D + D') (1 / 100) :=
    fun h h' => (add1 (add1 hp sest' e350 h) (badd h.2) e358 h').mono eend
  have hp0 : PNear p (estQ q.side tl tr bl) (1 / 100) := hp.mono (by rw [hη]; norm_num)
  have pos : ∀ {p : Point} {a b : Int}, -2 ≤ a ∧ a ≤ 2 → -2 ≤ b ∧ b ≤ 2 →
      PNear p (estQ q.side tl tr bl + (a : ℚ) • stepQ q.side tl tr + (b : ℚ) • stepQ q.side tl bl) (1 / 100) →
      F64.lt p.x (F64.lit 0) = false ∧ F64.lt p.y (F64.lit 0) = false := by
    intro p a b ha hb hp
    obtain ⟨j, hj⟩ : ∃ j : Nat, (j : Int) = q.side - 7 + a := ⟨(q.side - 7 + a : Int).toNat, by omega⟩
    obtain ⟨i, hi⟩ : ∃ i : Nat, (i : Int) = q.side - 7 + b := ⟨(q.side - 7 + b : Int).toNat, by omega⟩
    obtain ⟨c1, c2⟩ := est_close H.lo H.centred ha hb hi hj
    have t1 := H.tol1
    have t2 := H.tol2
    have s1 := abs_nonneg shift.1
    have s2 := abs_nonneg shift.2
    have hm : (1 : ℚ) ≤ m := by exact_mod_cast H.module
    have big : ∀ {o k : Nat}, 4 ≤ k → (m : ℚ) * 2 ≤ moduleCentre m o k := by
      intro o k hk
      unfold moduleCentre
      have h1 : (4 : ℚ) ≤ k := by exact_mod_cast hk
      have h3 : (0 : ℚ) ≤ o := Nat.cast_nonneg o
      have h4 : (4 : ℚ) * m ≤ (k : ℚ) * m := mul_le_mul_of_nonneg_right h1 (by linarith)
      linarith
    have b1 := big (o := ox) (k := ρ.column q.side i j) (by
      unfold Orientation.column
      exact (flipIndex_align hlo (by split <;> omega) (by split <;> omega)).1)
    have b2 := big (o := oy) (k := ρ.row q.side i j) (by
      unfold Orientation.row
      exact (flipIndex_align hlo (by split <;> omega) (by split <;> omega)).1)
    rw [abs_le] at c1 c2
    exact ⟨not_negative hp.1 (by linarith [c1.1]), not_negative hp.2 (by linarith [c2.1])⟩
  have z0 : ∀ P D E : Pt, P = P + ((0 : Int) : ℚ) • D + ((0 : Int) : ℚ) • E := by
    intro P D E; simp only [Int.cast_zero]; ptring
  obtain ⟨n1, n2⟩ := pos (a := 0) (b := 0) (by omega) (by omega) (hp0.congr (z0 _ _ _))
  rw [n1, n2]
  simp only [Bool.or_self, Bool.false_eq_true, if_false]
  have htl : PNear (p - F64.lit 2 * X - F64.lit 2 * Y) (estQ q.side tl tr bl +
      ((-2 : Int) : ℚ) • stepQ q.side tl tr + ((-2 : Int) : ℚ) • stepQ q.side tl bl) (1 / 100) :=
    (ss x2 y2).congr (by push_cast; ptring)
  obtain ⟨n3, n4⟩ := pos (by omega) (by omega) htl
  rw [n3, n4]
  simp only [Bool.or_self, Bool.false_eq_true, if_false]
  have hbr : PNear (p + F64.lit 2 * X + F64.lit 2 * Y) (estQ q.side tl tr bl +
      ((2 : Int) : ℚ) • stepQ q.side tl tr + ((2 : Int) : ℚ) • stepQ q.side tl bl) (1 / 100) :=
    (aa x2 y2).congr (by push_cast; ptring)
  obtain ⟨c1, c2⟩ := est_close H.lo H.centred (a := 2) (b := 2) (i := q.side - 5) (j := q.side - 5) (by omega) (by omega)
    (by omega) (by omega)
  have t1 := H.tol1
  have t2 := H.tol2
  have s1 := abs_nonneg shift.1
  have s2 := abs_nonneg shift.2
  have n5 := not_beyond (m := m) (k := ρ.column q.side (q.side - 5) (q.side - 5)) (o := ox) hbr.1 H.module (by norm_num)
    (lt_of_le_of_lt (add_le_add_left c1 _) (by linarith)) (drawn_fit H.drawn (column_lt (by omega) (by omega))).1 H.width
  have n6 := not_beyond (m := m) (k := ρ.row q.side (q.side - 5) (q.side - 5)) (o := oy) hbr.2 H.module (by norm_num)
    (lt_of_le_of_lt (add_le_add_left c2 _) (by linarith)) (drawn_fit H.drawn (row_lt (by omega) (by omega))).2 H.height
  rw [n5, n6]
  simp only [Bool.or_self, Bool.false_eq_true, if_false]
  have pr : ∀ (a b : Int) {p : Point} {Q : Pt} {bad : U8}, PNear p Q (1 / 100) → -2 ≤ a ∧ a ≤ 2 → -2 ≤ b ∧ b ≤ 2 →
      Q = estQ q.side tl tr bl + (a : ℚ) • stepQ q.side tl tr + (b : ℚ) • stepQ q.side tl bl →
      alignColour a b ≠ bad → ∃ c, pixelAt img p = .ret c ∧ c ≠ bad := by
    intro a b p Q bad hp ha hb hQ hc
    exact ⟨_, probe H ha hb (hQ ▸ hp), hc⟩
  have hnone : noneOf img (alignmentTests p X Y) = .ret true := by
    apply noneOf_true
    intro t ht
    unfold alignmentTests at ht
    simp only [List.mem_append, List.mem_flatMap, List.mem_cons, List.not_mem_nil, or_false] at ht
    rcases ht with (⟨x, hx, ht⟩ | ⟨y, hy, ht⟩) | ht
    · have hx' : -2 ≤ x ∧ x ≤ 1 := by omega
      rcases ht with rfl | rfl
      · refine pr (-x) (-2) (ss (ox' x (by omega)) y2) (by omega) (by omega) (by push_cast; ptring) ?_
        rcases hx with rfl | rfl | rfl | rfl <;> simp only <;> decide
      · refine pr (-x) 2 (sa (ox' x (by omega)) y2) (by omega) (by omega) (by push_cast; ptring) ?_
        rcases hx with rfl | rfl | rfl | rfl <;> simp only <;> decide
    · have hy' : -1 ≤ y ∧ y ≤ 0 := by omega
      rcases ht with rfl | rfl | rfl | rfl
      · refine pr (-2) (-y) (ss x2 (oy' y (by omega))) (by omega) (by omega) (by push_cast; ptring) ?_
        rcases hy with rfl | rfl <;> simp only <;> decide
      · refine pr 2 (-y) (as x2 (oy' y (by omega))) (by omega) (by omega) (by push_cast; ptring) ?_
        rcases hy with rfl | rfl <;> simp only <;> decide
      · refine pr (-1) (-y) (ss x1 (oy' y (by omega))) (by omega) (by omega) (by push_cast; ptring) ?_
        rcases hy with rfl | rfl <;> simp only <;> decide
      · refine pr (-1) y (sa x1 (oy' y (by omega))) (by omega) (by omega) (by push_cast; ptring) ?_
        rcases hy with rfl | rfl <;> simp only <;> decide
    · rcases ht with rfl | rfl
      · exact pr 0 (-1) ((sub1 hp sest' e350 y1).mono (by rw [hη]; norm_num)) (by omega) (by omega)
          (by push_cast; ptring) (show alignColour 0 (-1) ≠ 0#8 by decide)
      · exact pr 0 1 ((add1 hp sest' e350 y1).mono (by rw [hη]; norm_num)) (by omega) (by omega)
          (by push_cast; ptring) (show alignColour 0 1 ≠ 0#8 by decide)
  rw [hnone, Run.ret_bind]
  have hc := probe H (a := 0) (b := 0) (by omega) (by omega) (hp0.congr (z0 _ _ _))
  simp only [if_true]
  rw [hc, Run.ret_bind, Run.pure_eq]
  rfl

/-! ### Centring -/

theorem firstWhite_down {img : GrayImage} {pos : Nat → Nat × Nat} {d l : Nat}
    (hl : img.getPixel (pos l).1 (pos l).2 = .ret 255#8) : ∀ n, l < n →
    (∀ k, l < k → k < n → img.getPixel (pos k).1 (pos k).2 = .ret 0#8) →
    firstWhite img pos d (List.range n).reverse = .ret l := by
  intro n
  induction n with
  | zero => intro h; omega
  | succ n ih =>
    intro h hk
    rw [List.range_succ, List.reverse_append, List.reverse_singleton, List.singleton_append]
    unfold firstWhite
    by_cases hn : n = l
    · subst hn
      rw [hl, Run.ret_bind, if_pos rfl]
      rfl
    · rw [hk n (by omega) (by omega), Run.ret_bind, if_neg (by decide)]
      exact ih (by omega) fun k h1 h2 => hk k h1 (by omega)

theorem firstWhite_up {img : GrayImage} {pos : Nat → Nat × Nat} {d r : Nat}
    (hr : img.getPixel (pos r).1 (pos r).2 = .ret 255#8) : ∀ n s, s ≤ r → r < s + n →
    (∀ k, s ≤ k → k < r → img.getPixel (pos k).1 (pos k).2 = .ret 0#8) →
    firstWhite img pos d (List.range' s n) = .ret r := by
  intro n
  induction n with
  | zero => intro s h1 h2; omega
  | succ n ih =>
    intro s h1 h2 hk
    rw [List.range'_succ]
    unfold firstWhite
    by_cases hn : s = r
    · subst hn
      rw [hr, Run.ret_bind, if_pos rfl]
      rfl
    · rw [hk s (by omega) (by omega), Run.ret_bind, if_neg (by decide)]
      exact ih (s + 1) (by omega) (by omega) fun k h1 h2 => hk k (by omega) h2

theorem mid_eq {m o c l r : Nat} (hc : 1 ≤ c) (hm : 1 ≤ m) (hl : l = o + (c - 1) * m + (m - 1))
    (hr : r = o + (c + 1) * m + 0) : ((l : ℚ) + r) / 2 = moduleCentre m o c := by
  subst hl hr
  unfold moduleCentre
  push_cast [Nat.cast_sub hc, Nat.cast_sub hm]
  ring

theorem center_drawn {img : GrayImage} (hv : img.Valid) {q : QRData} {ρ : Orientation} {m ox oy : Nat} {tl tr bl shift : Pt} {ε : ℚ}
    (H : AlignSetup img q ρ m ox oy tl tr bl shift ε) {p : Point} (hp : PNear p (estQ q.side tl tr bl) (1 / 100)) :
    center img p = .ret ⟨.fin (alignCentre ρ q.side m ox oy).1, .fin (alignCentre ρ q.side m ox oy).2⟩ := by
  have hlo := H.lo
  have hm := H.module
  have hd := H.drawn
  obtain ⟨c1, c2⟩ := est_close H.lo H.centred (a := 0) (b := 0) (i := q.side - 7) (j := q.side - 7) (by omega) (by omega)
    (by omega) (by omega)
  have z0 : ∀ P D E : Pt, P + ((0 : Int) : ℚ) • D + ((0 : Int) : ℚ) • E = P := by
    intro P D E; simp only [Int.cast_zero]; ptring
  rw [z0] at c1 c2
  have t1 := H.tol1
  have t2 := H.tol2
  have s1 := abs_nonneg shift.1
  have s2 := abs_nonneg shift.2
  have hcl : ρ.column q.side (q.side - 7) (q.side - 7) < q.side := column_lt (by omega) (by omega)
  have hrl : ρ.row q.side (q.side - 7) (q.side - 7) < q.side := row_lt (by omega) (by omega)
  have hcl4 : 4 ≤ ρ.column q.side (q.side - 7) (q.side - 7) ∧ ρ.column q.side (q.side - 7) (q.side - 7) + 1 < q.side := by
    unfold Orientation.column flipIndex; split <;> split <;> omega
  have hrl4 : 4 ≤ ρ.row q.side (q.side - 7) (q.side - 7) ∧ ρ.row q.side (q.side - 7) (q.side - 7) + 1 < q.side := by
    unfold Orientation.row flipIndex; split <;> split <;> omega
  obtain ⟨a, ha, ea⟩ := index_in_module hp.1 hm (by norm_num)
    (lt_of_le_of_lt (add_le_add_left c1 _) (by linarith)) (drawn_fit hd hcl).1 H.width
  obtain ⟨b, hb, eb⟩ := index_in_module hp.2 hm (by norm_num)
    (lt_of_le_of_lt (add_le_add_left c2 _) (by linarith)) (drawn_fit hd hrl).2 H.height
  have col : ∀ {x y : Int} {r c a b : Nat}, -1 ≤ x ∧ x ≤ 1 → -1 ≤ y ∧ y ≤ 1 →
      (r : Int) = (ρ.row q.side (q.side - 7) (q.side - 7) : Nat) + y →
      (c : Int) = (ρ.column q.side (q.side - 7) (q.side - 7) : Nat) + x → a < m → b < m →
      img.getPixel (ox + c * m + a) (oy + r * m + b) = .ret (alignColour x y) := by
    intro x y r c a b hx hy hr hc ha hb
    obtain ⟨i, j, a', b', hi, hj, ha', hb', rfl, rfl, hcol⟩ := around hlo (by omega) (by omega) hc hr
    rw [← hcol]
    exact drawn_pixel hd (by omega) (by omega) ha hb (align_at H.align hlo ha' hb' hi hj)
  have fitc := drawn_fit hd hcl4.2
  have fitr := drawn_fit hd hrl4.2
  have mulc : (ρ.column q.side (q.side - 7) (q.side - 7) - 1) * m + m = ρ.column q.side (q.side - 7) (q.side - 7) * m ∧
      (ρ.column q.side (q.side - 7) (q.side - 7) + 1) * m = ρ.column q.side (q.side - 7) (q.side - 7) * m + m := by
    refine ⟨?_, Nat.succ_mul _ _⟩
    rw [← Nat.succ_mul]; congr 1; omega
  have mulr : (ρ.row q.side (q.side - 7) (q.side - 7) - 1) * m + m = ρ.row q.side (q.side - 7) (q.side - 7) * m ∧
      (ρ.row q.side (q.side - 7) (q.side - 7) + 1) * m = ρ.row q.side (q.side - 7) (q.side - 7) * m + m := by
    refine ⟨?_, Nat.succ_mul _ _⟩
    rw [← Nat.succ_mul]; congr 1; omega
  have hw := hv.2.1
  have hh := hv.2.2
  unfold alignCentre
  generalize ρ.column q.side (q.side - 7) (q.side - 7) = cc at *
  generalize ρ.row q.side (q.side - 7) (q.side - 7) = rr at *
  unfold center
  simp only
  rw [ea, eb]
  rw [firstWhite_down (l := ox + (cc - 1) * m + (m - 1))
    (col (x := -1) (y := 0) (by omega) (by omega) (by omega) (by omega) (by omega) hb) _ (by omega) (by
      intro k h1 h2
      have e : k = ox + cc * m + (k - (ox + cc * m)) := by omega
      simp only
      rw [e]
      exact col (x := 0) (y := 0) (by omega) (by omega) (by omega) (by omega) (by omega) hb), Run.ret_bind,
    firstWhite_up (r := ox + (cc + 1) * m + 0)
    (col (x := 1) (y := 0) (by omega) (by omega) (by omega) (by omega) (by omega) hb) _ _ (by omega) (by omega) (by
      intro k h1 h2
      have e : k = ox + cc * m + (k - (ox + cc * m)) := by omega
      simp only
      rw [e]
      exact col (x := 0) (y := 0) (by omega) (by omega) (by omega) (by omega) (by omega) hb), Run.ret_bind,
    half_sum (by omega) (by omega), mid_eq (by omega) hm rfl rfl]
  obtain ⟨a', ha', ea'⟩ := index_in_module (near_fin (moduleCentre m ox cc)) hm (le_refl 0)
    (by rw [sub_self, abs_zero, add_zero]; have : (1 : ℚ) ≤ m := by exact_mod_cast hm
        linarith) (drawn_fit hd hcl).1 H.width
  rw [ea']
  rw [firstWhite_down (l := oy + (rr - 1) * m + (m - 1))
    (col (x := 0) (y := -1) (by omega) (by omega) (by omega) (by omega) ha' (by omega)) _ (by omega) (by
      intro k h1 h2
      have e : k = oy + rr * m + (k - (oy + rr * m)) := by omega
      simp only
      rw [e]
      exact col (x := 0) (y := 0) (by omega) (by omega) (by omega) (by omega) ha' (by omega)), Run.ret_bind,
    firstWhite_up (r := oy + (rr + 1) * m + 0)
    (col (x := 0) (y := 1) (by omega) (by omega) (by omega) (by omega) ha' (by omega)) _ _ (by omega) (by omega) (by
      intro k h1 h2
      have e : k = oy + rr * m + (k - (oy + rr * m)) := by omega
      simp only
      rw [e]
      exact col (x := 0) (y := 0) (by omega) (by omega) (by omega) (by omega) ha' (by omega)), Run.ret_bind,
    half_sum (by omega) (by omega), mid_eq (by omega) hm rfl rfl]
  rfl

end Extractor
end Verif
