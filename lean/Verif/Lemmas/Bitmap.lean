import Verif.Lemmas.MixedCheck
import Verif.Lemmas.EncodeUnique
import Verif.Lemmas.Reading
import Verif.Lemmas.Picture
import Verif.Spec.Turned

/-!
# Small symbols and images as numbers

The kernel looks up a binary digit of a number faster than an element of a list.
-/
namespace Verif
open Spec

theorem grayImage_ext {a b : GrayImage} (h1 : a.width = b.width) (h2 : a.height = b.height) (h3 : a.pixels = b.pixels) :
    a = b := by
  cases a; cases b; simp only at h1 h2 h3; rw [h1, h2, h3]

theorem qrData_ext {a b : QRData} (h1 : a.data = b.data) (h2 : a.version = b.version) (h3 : a.side = b.side) :
    a = b := by
  cases a; cases b; simp only at h1 h2 h3; rw [h1, h2, h3]

/-- Binary digit `i` of `n`. -/
def bit (n i : Nat) : Bool := Nat.beq (Nat.land (Nat.shiftRight n i) 1) 1

/-- Dark or light. -/
def tone (b : Bool) : U8 := bif b then 0#8 else 255#8

/-- The dark modules of the grid are the digits 1 of `n`. -/
def Bitmap (q : QRData) (n : Nat) : Prop := q.data = (List.range (q.side * q.side)).map fun i => tone (bit n i)

theorem Bitmap.get {q : QRData} {n : Nat} (h : Bitmap q n) {i : Nat} (hi : i < q.side * q.side) :
    q.data[i]? = some (tone (bit n i)) := by
  rw [h, List.getElem?_map, List.getElem?_range hi, Option.map_some]

/-- The digits of `n` at the given places are the bits, masked. -/
def showsMasked (n s k : Nat) : List (Nat × Nat) → List Bool → Bool
  | [], _ => true
  | p :: ps, bs => (bit n (p.2 * s + p.1) == xor (bs.headD false) (isoMask k p.2 p.1)) && showsMasked n s k ps bs.tail

theorem showsMasked_of {n s k : Nat} : ∀ {ps : List (Nat × Nat)} {bs : List Bool}, showsMasked n s k ps bs = true →
    ∀ p ∈ ps, bit n (p.2 * s + p.1) = xor (bs.getD (ps.idxOf p) false) (isoMask k p.2 p.1) := by
  intro ps
  induction ps with
  | nil => intro _ _ p hp; cases hp
  | cons p0 ps ih =>
    intro bs h p hp
    unfold showsMasked at h
    rw [Bool.and_eq_true, beq_iff_eq] at h
    rw [List.idxOf_cons]
    by_cases he : p0 = p
    · subst he
      rw [beq_self_eq_true, cond_true, h.1]
      cases bs <;> rfl
    · have hp' : p ∈ ps := by
        rcases List.mem_cons.mp hp with e | e
        · exact absurd e.symm he
        · exact e
      rw [beq_false_of_ne he, cond_false, ih h.2 p hp']
      cases bs <;> simp

/-- The digits of `n` at the given places are the bits. -/
def showsBits (n s : Nat) : List (Nat × Nat) → List Bool → Bool
  | [], _ => true
  | p :: ps, bs => (bit n (p.2 * s + p.1) == bs.headD false) && showsBits n s ps bs.tail

theorem showsBits_of {n s : Nat} : ∀ {ps : List (Nat × Nat)} {bs : List Bool}, showsBits n s ps bs = true →
    ∀ p ∈ ps, bit n (p.2 * s + p.1) = bs.getD (ps.idxOf p) false := by
  intro ps
  induction ps with
  | nil => intro _ _ p hp; cases hp
  | cons p0 ps ih =>
    intro bs h p hp
    unfold showsBits at h
    rw [Bool.and_eq_true, beq_iff_eq] at h
    rw [List.idxOf_cons]
    by_cases he : p0 = p
    · subst he
      rw [beq_self_eq_true, cond_true, h.1]
      cases bs <;> rfl
    · have hp' : p ∈ ps := by
        rcases List.mem_cons.mp hp with e | e
        · exact absurd e.symm he
        · exact e
      rw [beq_false_of_ne he, cond_false, ih h.2 p hp']
      cases bs <;> simp

/-- A test for encoded symbols. -/
def placed (v : Nat) (l : ECLevel) (k : Nat) (bits : List Bool) (other : Nat → Nat → Bool) (n : Nat) : Bool :=
  let s := sideOf v
  showsMasked n s k (dataModules v) bits && showsBits n s formatCopy1 (formatWord l k) &&
  showsBits n s (formatCopy2 s) (formatWord l k) &&
  (List.range s).all fun y => (List.range s).all fun x =>
    decide (isDataModule v x y) || (formatCopy1.contains (x, y) || (formatCopy2 s).contains (x, y)) ||
      bit n (y * s + x) == other x y

theorem placeModule_eq_bit {v : Nat} {l : ECLevel} {k : Nat} {bits : List Bool} {other : Nat → Nat → Bool} {n : Nat}
    (h : placed v l k bits other n = true) {x y : Nat} (hx : x < sideOf v) (hy : y < sideOf v) :
    placeModule v l k bits other x y = bit n (y * sideOf v + x) := by
  unfold placed at h
  simp only [Bool.and_eq_true] at h
  obtain ⟨⟨⟨h1, h2⟩, h3⟩, h4⟩ := h
  unfold placeModule
  by_cases hd : (x, y) ∈ dataModules v
  · rw [if_pos hd]
    exact (showsMasked_of h1 _ hd).symm
  · rw [if_neg hd]
    by_cases hf : (x, y) ∈ formatCopy1
    · rw [if_pos hf]
      exact (showsBits_of h2 _ hf).symm
    · rw [if_neg hf]
      by_cases hf' : (x, y) ∈ formatCopy2 (sideOf v)
      · rw [if_pos hf']
        exact (showsBits_of h3 _ hf').symm
      · rw [if_neg hf']
        have h5 := (List.all_eq_true.mp ((List.all_eq_true.mp h4) y (List.mem_range.mpr hy))) x (List.mem_range.mpr hx)
        have hn : ¬ isDataModule v x y := by
          intro hdm
          refine hd (List.mem_filter.mpr ⟨mem_zigzag.mpr ⟨hdm.1, hdm.2.1, fun h6 => hdm.2.2 (Or.inr (Or.inl (Or.inl h6)))⟩, ?_⟩)
          exact decide_eq_true hdm
        simp only [Bool.or_eq_true, decide_eq_true_eq, List.contains_iff_mem, beq_iff_eq] at h5
        rcases h5 with (h5 | h5 | h5) | h5
        · exact absurd h5 hn
        · exact absurd h5 hf
        · exact absurd h5 hf'
        · exact h5.symm

/-- How to show which symbol is encoded. -/
theorem encode_bitmap {v : Nat} {l : ECLevel} {k : Nat} {segments : List Segment} {other : Nat → Nat → Bool}
    {fam : List (List U8 × List U8)} (hf : symbolFamily v l segments = fam) {n : Nat}
    (h : placed v l k (streamOf (finalSequence fam)) other n = true) : Bitmap (encode v l k segments other) n := by
  unfold Bitmap encode
  simp only
  rw [hf]
  apply List.map_congr_left
  intro i hi
  have hi := List.mem_range.mp hi
  have hs : 0 < sideOf v := by
    rcases Nat.eq_zero_or_pos (sideOf v) with e | e
    · rw [e] at hi; omega
    · exact e
  rw [placeModule_eq_bit h (Nat.mod_lt _ hs) ((Nat.div_lt_iff_lt_mul hs).mpr hi), Nat.mul_comm, Nat.div_add_mod]
  cases bit n i <;> rfl

theorem encode_eq_of {v : Nat} {l : ECLevel} {k : Nat} {segments : List Segment} {other : Nat → Nat → Bool}
    {fam : List (List U8 × List U8)} (hf : symbolFamily v l segments = fam) {n : Nat}
    (h : placed v l k (streamOf (finalSequence fam)) other n = true) {q : QRData} (hv : q.version = v)
    (hs : q.side = sideOf v) (hq : Bitmap q n) : encode v l k segments other = q := by
  refine qrData_ext ?_ hv.symm hs.symm
  rw [encode_bitmap hf h, hq, hs]
  rfl

theorem moduleAt_bit {q : QRData} {n : Nat} (h : Bitmap q n) {x y : Nat} (hx : x < q.side) (hy : y < q.side) :
    moduleAt q x y = some (bit n (y * q.side + x)) := by
  have hlt : y * q.side + x < q.side * q.side := by
    have : (y + 1) * q.side ≤ q.side * q.side := Nat.mul_le_mul_right _ hy
    rw [Nat.succ_mul] at this
    omega
  unfold moduleAt
  rw [h.get hlt, Option.map_some]
  cases bit n (y * q.side + x) <;> rfl

theorem bitmap_wellFormed {q : QRData} {n v : Nat} (h : Bitmap q n) (hv : q.version = v) (hs : q.side = sideOf v) :
    WellFormed q v := by
  refine ⟨hv, hs, ?_⟩
  rw [h, List.length_map, List.length_range, hs]

/-- The bits of a symbol. -/
theorem symbolBits_bit {q : QRData} {n v k : Nat} (h : Bitmap q n) (hs : q.side = sideOf v) :
    symbolBits q v k = (dataModules v).map fun p => xor (bit n (p.2 * sideOf v + p.1)) (isoMask k p.2 p.1) := by
  unfold symbolBits unmasked
  apply List.map_congr_left
  intro p hp
  have := mem_zigzag.mp (show (p.1, p.2) ∈ zigzag v from (List.mem_filter.mp hp).1)
  rw [moduleAt_bit h (by rw [hs]; exact this.1) (by rw [hs]; exact this.2.1), Option.getD_some, hs]

/-- How to show what a grid shows. -/
theorem shows_bit {q : QRData} {n : Nat} (h : Bitmap q n) {ps : List (Nat × Nat)} {w : List Bool}
    (hps : ps.all (fun p => decide (p.1 < q.side ∧ p.2 < q.side)) = true)
    (hw : (ps.map fun p => bit n (p.2 * q.side + p.1)) = w) : Shows q ps w := by
  unfold Shows
  rw [← hw, List.map_map]
  apply List.map_congr_left
  intro p hp
  have := of_decide_eq_true ((List.all_eq_true.mp hps) p hp)
  exact moduleAt_bit h this.1 this.2

/-- How to show what a turned symbol is. -/
theorem bitmap_turned {q : QRData} {n n' : Nat} (h : Bitmap q n) {ρ : Orientation}
    (hc : ((List.range q.side).all fun y => (List.range q.side).all fun x =>
      let x' := flipIndex ρ.flipX q.side x
      let y' := flipIndex ρ.flipY q.side y
      bit n' (y * q.side + x) == bit n (if ρ.swap then x' * q.side + y' else y' * q.side + x')) = true) :
    Bitmap (turned ρ q) n' := by
  unfold Bitmap turned
  simp only
  apply List.map_congr_left
  intro i hi
  have hi := List.mem_range.mp hi
  have hs : 0 < q.side := by
    rcases Nat.eq_zero_or_pos q.side with e | e
    · rw [e] at hi; omega
    · exact e
  have hx := Nat.mod_lt i hs
  have hy := (Nat.div_lt_iff_lt_mul hs).mpr hi
  have hc := (List.all_eq_true.mp ((List.all_eq_true.mp hc) _ (List.mem_range.mpr hy))) _ (List.mem_range.mpr hx)
  simp only [beq_iff_eq] at hc
  rw [show i / q.side * q.side + i % q.side = i by rw [Nat.mul_comm, Nat.div_add_mod]] at hc
  have hflip : ∀ f z, z < q.side → flipIndex f q.side z < q.side := by
    intro f z hz
    unfold flipIndex
    split <;> omega
  have a1 := hflip ρ.flipX _ hx
  have a2 := hflip ρ.flipY _ hy
  have hlt : ∀ a b, a < q.side → b < q.side → a * q.side + b < q.side * q.side := by
    intro a b ha hb
    have : (a + 1) * q.side ≤ q.side * q.side := Nat.mul_le_mul_right _ ha
    rw [Nat.succ_mul] at this
    omega
  rw [hc, List.getD_eq_getElem?_getD, h.get, Option.getD_some]
  split
  · exact hlt _ _ a1 a2
  · exact hlt _ _ a2 a1

/-- The value of a pixel of the picture of a symbol with one pixel per module. -/
def pictureTone (n s b x y : Nat) : Nat :=
  bif (Nat.ble b x && Nat.ble (x + 1) (b + s)) && (Nat.ble b y && Nat.ble (y + 1) (b + s)) then
    bif bit n ((y - b) * s + (x - b)) then 0 else 255
  else 255

theorem picture_tone {q : QRData} {n b : Nat} (h : Bitmap q n) {x y : Nat} (hx : x < q.side + 2 * b)
    (hy : y < q.side + 2 * b) : ((picture q 1 b).pixels[y * (picture q 1 b).width + x]?).map (·.toNat) =
      some (pictureTone n q.side b x y) := by
  rw [picture_pixel (by omega) (by omega), Option.map_some, Nat.mul_one, Nat.div_one, Nat.div_one]
  congr 1
  unfold pictureTone
  by_cases hin : b ≤ x ∧ x < b + q.side ∧ b ≤ y ∧ y < b + q.side
  · have e : ((Nat.ble b x && Nat.ble (x + 1) (b + q.side)) && (Nat.ble b y && Nat.ble (y + 1) (b + q.side))) = true := by
      simp only [Bool.and_eq_true, Nat.ble_eq]
      omega
    have hlt : (y - b) * q.side + (x - b) < q.side * q.side := by
      have : (y - b + 1) * q.side ≤ q.side * q.side := Nat.mul_le_mul_right _ (by omega)
      rw [Nat.succ_mul] at this
      omega
    rw [if_pos hin, e, cond_true, List.getD_eq_getElem?_getD, h.get hlt, Option.getD_some]
    cases bit n ((y - b) * q.side + (x - b)) <;> rfl
  · have e : ((Nat.ble b x && Nat.ble (x + 1) (b + q.side)) && (Nat.ble b y && Nat.ble (y + 1) (b + q.side))) = false := by
      rw [← Bool.not_eq_true]
      simp only [Bool.and_eq_true, Nat.ble_eq]
      omega
    rw [if_neg hin, e, cond_false]
    rfl

/-- How to show that lists are the rows and columns of the picture of a symbol. -/
theorem rowsOf_picture {q : QRData} {n b : Nat} (h : Bitmap q n) {rows cols : List (List Nat)}
    (hr : rows = (List.range (q.side + 2 * b)).map fun y => (List.range (q.side + 2 * b)).map fun x => pictureTone n q.side b x y)
    (hc : cols = (List.range (q.side + 2 * b)).map fun x => (List.range (q.side + 2 * b)).map fun y => pictureTone n q.side b x y) :
    RowsOf (picture q 1 b) rows cols := by
  have ew : (picture q 1 b).width = q.side + 2 * b := by simp only [picture, Nat.mul_one]
  have eh : (picture q 1 b).height = q.side + 2 * b := by simp only [picture, Nat.mul_one]
  have key : ∀ x < q.side + 2 * b, ∀ y < q.side + 2 * b, grey (picture q 1 b) x y = pictureTone n q.side b x y := by
    intro x hx y hy
    have := picture_tone h hx hy
    unfold grey
    rw [List.getD_eq_getElem?_getD]
    cases hp : (picture q 1 b).pixels[y * (picture q 1 b).width + x]? with
    | none => rw [hp] at this; cases this
    | some p =>
      rw [hp] at this
      exact Option.some.inj this
  unfold RowsOf
  rw [ew, eh, hr, hc]
  refine ⟨by simp, by simp, ?_, ?_, ?_, ?_⟩
  · intro r hr
    obtain ⟨y, -, rfl⟩ := List.mem_map.mp hr
    simp
  · intro r hr
    obtain ⟨y, -, rfl⟩ := List.mem_map.mp hr
    simp
  · intro x hx y hy
    rw [key x hx y hy, List.getD_eq_getElem?_getD, List.getD_eq_getElem?_getD, List.getElem?_map, List.getElem?_range hy,
      Option.map_some, Option.getD_some, List.getElem?_map, List.getElem?_range hx, Option.map_some, Option.getD_some]
  · intro x hx y hy
    rw [key x hx y hy, List.getD_eq_getElem?_getD, List.getD_eq_getElem?_getD, List.getElem?_map, List.getElem?_range hx,
      Option.map_some, Option.getD_some, List.getElem?_map, List.getElem?_range hy, Option.map_some, Option.getD_some]

/-! ### Images -/

/-- The white pixels of the rows are the digits 1 of `n`, the others are black. -/
def rowsBits (n w : Nat) : List (List Nat) → Nat → Bool
  | [], _ => true
  | r :: rows, y => (go r (y * w)) && rowsBits n w rows (y + 1)
where
  go : List Nat → Nat → Bool
  | [], _ => true
  | v :: r, i => (bif bit n i then Nat.beq v 255 else Nat.beq v 0) && go r (i + 1)

theorem rowsBits_go {n : Nat} : ∀ {r : List Nat} {i : Nat}, rowsBits.go n r i = true → ∀ x < r.length,
    r.getD x 0 = bif bit n (i + x) then 255 else 0 := by
  intro r
  induction r with
  | nil => intro i _ x hx; simp at hx
  | cons v r ih =>
    intro i h x hx
    unfold rowsBits.go at h
    rw [Bool.and_eq_true] at h
    cases x with
    | zero =>
      rw [List.getD_cons_zero, Nat.add_zero]
      cases hb : bit n i with
      | true => rw [hb, cond_true] at h; exact Nat.eq_of_beq_eq_true h.1
      | false => rw [hb, cond_false] at h; exact Nat.eq_of_beq_eq_true h.1
    | succ x =>
      rw [List.getD_cons_succ, ih h.2 x (by simpa using hx), show i + 1 + x = i + (x + 1) by omega]

theorem rowsBits_of {n w : Nat} : ∀ {rows : List (List Nat)} {y0 : Nat}, rowsBits n w rows y0 = true → ∀ y < rows.length,
    ∀ x < (rows.getD y []).length, (rows.getD y []).getD x 0 = bif bit n ((y0 + y) * w + x) then 255 else 0 := by
  intro rows
  induction rows with
  | nil => intro _ _ y hy; simp at hy
  | cons r rows ih =>
    intro y0 h y hy x hx
    unfold rowsBits at h
    rw [Bool.and_eq_true] at h
    cases y with
    | zero => exact rowsBits_go h.1 x hx
    | succ y =>
      rw [List.getD_cons_succ] at hx ⊢
      rw [ih h.2 y (by simpa using hy) x hx, show y0 + 1 + y = y0 + (y + 1) by omega]

/-- Every digit of `n`, seen as an image, is found at least `need` times around it. -/
def enoughBits (n w h lo hi need : Nat) : Bool :=
  (List.range h).all fun y => let js := nearby h lo hi y; (List.range w).all fun x =>
    let value := bit n (y * w + x)
    atLeast (fun p : Nat => bit n p == value) need
      (js.flatMap fun j => (nearby w lo hi x).map fun i => j * w + i)

theorem enough_of_bits {g : GrayImage} {rows cols : List (List Nat)} (h : RowsOf g rows cols) {n lo hi need : Nat}
    (hb : rowsBits n g.width rows 0 = true) (t : enoughBits n g.width g.height lo hi need = true) :
    enough rows g.width lo hi need = true := by
  have key : ∀ y < g.height, ∀ x < g.width, (rows.getD y []).getD x 0 = bif bit n (y * g.width + x) then 255 else 0 := by
    intro y hy x hx
    have := rowsBits_of hb y (by rw [h.1]; exact hy) x (by rw [rowsOf_row_length h hy]; exact hx)
    rwa [Nat.zero_add] at this
  have bt : ∀ a b : Bool, ((bif a then 255 else 0 : Nat) == bif b then 255 else 0) = (a == b) := by decide
  have hmono : ∀ {α : Type} {p q : α → Bool} {k : Nat} {l : List α}, (∀ a ∈ l, p a = q a) → atLeast p k l = true →
      atLeast q k l = true := by
    intro α p q k l
    induction l generalizing k with
    | nil => intro _ h; cases k with
      | zero => rfl
      | succ k => cases h
    | cons a l ih =>
      intro he h
      cases k with
      | zero => rfl
      | succ k =>
        unfold atLeast at h ⊢
        rw [← he a (by simp)]
        cases hp : p a with
        | true => rw [hp, cond_true] at h; rw [cond_true]; exact ih (fun b hb => he b (by simp [hb])) h
        | false => rw [hp, cond_false] at h; rw [cond_false]; exact ih (fun b hb => he b (by simp [hb])) h
  have hmap : ∀ {α β : Type} {f : α → β} {p : β → Bool} {k : Nat} {l : List α}, atLeast p k (l.map f) = true →
      atLeast (fun a => p (f a)) k l = true := by
    intro α β f p k l
    induction l generalizing k with
    | nil => intro h; cases k with
      | zero => rfl
      | succ k => cases h
    | cons a l ih =>
      intro h
      cases k with
      | zero => rfl
      | succ k =>
        rw [List.map_cons] at h
        unfold atLeast at h ⊢
        cases hp : p (f a) with
        | true => rw [hp, cond_true] at h; rw [cond_true]; exact ih h
        | false => rw [hp, cond_false] at h; rw [cond_false]; exact ih h
  unfold enoughBits at t
  unfold enough
  rw [h.1, List.all_eq_true]
  intro y hy
  rw [List.all_eq_true]
  intro x hx
  have t := (List.all_eq_true.mp ((List.all_eq_true.mp t) y hy)) x hx
  have hy := List.mem_range.mp hy
  have hx := List.mem_range.mp hx
  simp only at t ⊢
  have e : ((nearby g.height lo hi y).flatMap fun j => (nearby g.width lo hi x).map fun i => j * g.width + i) =
      ((nearby g.height lo hi y).flatMap fun j => (nearby g.width lo hi x).map fun i => (i, j)).map
        fun p => p.2 * g.width + p.1 := by
    rw [List.map_flatMap]
    congr 1
    funext j
    rw [List.map_map]
    rfl
  rw [e] at t
  refine hmono ?_ (hmap t)
  intro p hp
  obtain ⟨j, hj, hp⟩ := List.mem_flatMap.mp hp
  obtain ⟨i, hi', rfl⟩ := List.mem_map.mp hp
  have hj' : j < g.height := by
    have := (List.mem_filter.mp ((nearby_sublist _ _ _ _).subset hj)).1
    rwa [List.mem_range] at this
  have hi'' : i < g.width := by
    have := (List.mem_filter.mp ((nearby_sublist _ _ _ _).subset hi')).1
    rwa [List.mem_range] at this
  simp only
  rw [key j hj' i hi'', key y hy x hx, bt]

/-- How to show that an image can be enlarged to any size. -/
theorem legible_of_bits {g : GrayImage} {rows cols : List (List Nat)} (h : RowsOf g rows cols) (hend : WhiteEnd g) {n : Nat}
    (hb : rowsBits n g.width rows 0 = true) (t2 : enoughBits n g.width g.height 7 4 5 = true)
    (t4 : enoughBits n g.width g.height 3 2 2 = true) : ∀ m, 2 ≤ m → Legible g m :=
  legible_of h hend (enough_of_bits h hb t2) (enough_of_bits h hb t4)

/-- How to show that a symbol is drawn in an image. -/
theorem drawn_of_bits {g : GrayImage} (hv : g.Valid) {rows cols : List (List Nat)} (h : RowsOf g rows cols) {w : Nat}
    (hb : rowsBits w g.width rows 0 = true) {q : QRData} {n : Nat} (hq : Bitmap q n) {ox oy : Nat}
    (hx : ox + q.side ≤ g.width) (hy : oy + q.side ≤ g.height)
    (t : ((List.range q.side).all fun i => (List.range q.side).all fun j =>
      bit w ((oy + i) * g.width + (ox + j)) != bit n (i * q.side + j)) = true) : Drawn g q 1 ox oy := by
  refine ⟨by omega, by omega, ?_⟩
  intro i hi j hj a ha b hb'
  have ha : a = 0 := by omega
  have hb' : b = 0 := by omega
  subst ha; subst hb'
  rw [Nat.mul_one, Nat.mul_one, Nat.add_zero, Nat.add_zero]
  have t := (List.all_eq_true.mp ((List.all_eq_true.mp t) i (List.mem_range.mpr hi))) j (List.mem_range.mpr hj)
  rw [bne_iff_ne] at t
  have hlt : i * q.side + j < q.side * q.side := by
    have : (i + 1) * q.side ≤ q.side * q.side := Nat.mul_le_mul_right _ hi
    rw [Nat.succ_mul] at this
    omega
  have hp : (oy + i) * g.width + (ox + j) < g.pixels.length := by
    rw [hv.1]
    have : (oy + i + 1) * g.width ≤ g.height * g.width := Nat.mul_le_mul_right _ (by omega)
    rw [Nat.succ_mul, Nat.mul_comm g.height] at this
    omega
  rw [hq.get hlt, List.getElem?_eq_getElem hp]
  congr 1
  have key := rowsBits_of hb (oy + i) (by rw [h.1]; omega) (ox + j) (by rw [rowsOf_row_length h (by omega)]; omega)
  rw [Nat.zero_add, ← h.2.2.2.2.1 _ (by omega) _ (by omega)] at key
  unfold grey at key
  rw [List.getD_eq_getElem?_getD, List.getElem?_eq_getElem hp, Option.getD_some] at key
  apply BitVec.eq_of_toNat_eq
  rw [key]
  cases h1 : bit w ((oy + i) * g.width + (ox + j)) <;> cases h2 : bit n (i * q.side + j) <;> rw [h1, h2] at t
  · exact absurd rfl t
  · rfl
  · rfl
  · exact absurd rfl t

end Verif
