import Verif.Lemmas.BitImage
import Verif.Lemmas.Finder
import Verif.Lemmas.Runs

/-!
# The detector with fewer float operations

For evaluation in proofs: the same as `LineScan.detect`, but most patterns are rejected by comparing whole numbers, and pixels
are looked up in a number.
-/
namespace Verif.Quick
open Verif LineScan

/-- `slide`. -/
def slide (s : FinderPattern) : Run FinderPattern :=
  bif Nat.blt (s.p0 + s.p1 + s.p2 + s.p3 + s.p4 + s.p5 + s.p6) 4294967296 && (Nat.ble s.p5 (10 * s.p6) || Nat.beq s.p4 0) then
    .ret ⟨s.p1, s.p2, s.p3, s.p4, s.p5, s.p6, 1⟩
  else s.slide

theorem slide_eq (s : FinderPattern) : slide s = s.slide := by
  unfold slide
  cases h : Nat.blt (s.p0 + s.p1 + s.p2 + s.p3 + s.p4 + s.p5 + s.p6) 4294967296 && (Nat.ble s.p5 (10 * s.p6) || Nat.beq s.p4 0)
  · rfl
  · rw [cond_true]
    rw [Bool.and_eq_true, Bool.or_eq_true] at h
    refine (FinderPattern.slide_regular ?_ ?_).symm
    · have := Nat.blt_eq.mp h.1
      unfold FinderPattern.total
      omega
    · rcases h.2 with h | h
      · exact Or.inl (Nat.ble_eq.mp h)
      · exact Or.inr (Nat.eq_of_beq_eq_true h)

/-- `looks_like_finder`. -/
def looks (s : FinderPattern) : Run Bool :=
  let t := s.p2 + s.p3 + s.p4 + s.p5 + s.p6
  bif Nat.blt t 4294967296 && (Nat.blt t 7 || Nat.blt (21 * s.p6) t || Nat.blt (5 * t) (21 * s.p6) ||
    Nat.blt (21 * s.p5) t || Nat.blt (5 * t) (21 * s.p5) || Nat.blt (21 * s.p3) t || Nat.blt (5 * t) (21 * s.p3) ||
    Nat.blt (21 * s.p2) t || Nat.blt (5 * t) (21 * s.p2)) then .ret false
  else s.looksLikeFinder

theorem looks_eq (s : FinderPattern) : looks s = s.looksLikeFinder := by
  unfold looks
  simp only
  cases h : Nat.blt (s.p2 + s.p3 + s.p4 + s.p5 + s.p6) 4294967296 && _
  · rfl
  · rw [cond_true]
    simp only [Bool.and_eq_true, Bool.or_eq_true, Nat.blt_eq] at h
    obtain ⟨h, hc⟩ := h
    have h : s.p2 + s.p3 + s.p4 + s.p5 + s.p6 < 2 ^ 32 := by omega
    rw [looksLikeFinder_eq h]
    congr 1
    symm
    rw [Bool.and_eq_false_iff, decide_eq_false_iff_not]
    by_cases h7 : s.p2 + s.p3 + s.p4 + s.p5 + s.p6 < 7
    · left; omega
    · right
      rw [← Bool.not_eq_true, ratiosFit_iff h (by omega) (by omega) (by omega) (by omega) (by omega)]
      omega

/-- `accept`. -/
def accept (module_size : F64) (is_diagonal : Bool) (pattern : FinderPattern) (x y : Nat) : Run (Option FinderPosition) :=
  match looks pattern with
  | .ret false => .ret none
  | _ => LineScan.accept module_size is_diagonal pattern x y

theorem accept_eq : accept = LineScan.accept := by
  funext module_size is_diagonal pattern x y
  unfold accept
  split
  · rename_i h
    rw [looks_eq] at h
    unfold LineScan.accept
    rw [h]
    rfl
  · rfl

/-- A pixel. -/
def pixel (w h n x y : Nat) : Run U8 :=
  bif Nat.blt x w && Nat.blt y h then .ret (tone (bit n (y * w + x))) else .panic

theorem pixel_eq (w h n x y : Nat) : pixel w h n x y = (bitImage w h n).getPixel x y := by
  unfold pixel GrayImage.getPixel
  rw [show (bitImage w h n).width = w from rfl, show (bitImage w h n).height = h from rfl]
  by_cases hxy : x < w ∧ y < h
  · rw [if_pos hxy, bitImage_get hxy.1 hxy.2, Nat.blt_eq.mpr hxy.1, Nat.blt_eq.mpr hxy.2]
    rfl
  · rw [if_neg hxy]
    have : (Nat.blt x w && Nat.blt y h) = false := by
      rw [← Bool.not_eq_true, Bool.and_eq_true, Nat.blt_eq, Nat.blt_eq]; exact hxy
    rw [this]
    rfl

/-- `refine`. -/
def refineLoop (w h n : Nat) (module_size : F64) (is_diagonal : Bool) :
    List (Nat × Nat) → U8 → FinderPattern → Nat → Nat → Run (Option FinderPosition)
  | [], _, pattern, last_x, last_y => accept module_size is_diagonal pattern last_x last_y
  | (x, y) :: rest, last_pixel, pattern, _, _ => do
    let p ← pixel w h n x y
    if p = last_pixel then
      let p6 ← addU32 pattern.p6 1
      refineLoop w h n module_size is_diagonal rest last_pixel { pattern with p6 } x y
    else
      match ← accept module_size is_diagonal pattern x y with
      | some pos => return some pos
      | none =>
        let pattern ← slide pattern
        refineLoop w h n module_size is_diagonal rest p pattern x y

theorem refineLoop_eq (w h n : Nat) (module_size : F64) (is_diagonal : Bool) (ps : List (Nat × Nat)) :
    ∀ (last : U8) (pattern : FinderPattern) (x y : Nat), refineLoop w h n module_size is_diagonal ps last pattern x y =
      LineScan.refineLoop (bitImage w h n) module_size is_diagonal ps last pattern x y := by
  induction ps with
  | nil =>
    intro last pattern x y
    unfold refineLoop LineScan.refineLoop
    rw [accept_eq]
  | cons a rest ih =>
    intro last pattern x y
    unfold refineLoop LineScan.refineLoop
    simp only [pixel_eq, accept_eq, slide_eq, ih]
    congr 1

/-- `refine_vertical`, `refine_horizontal` and `refine_diagonal`. -/
def refineAll (w h n : Nat) (finder : Point) (module_size : F64) : Run (Option (Point × F64)) := do
  let start_y := ((finder.y - F64.lit 5 * module_size).max (F64.lit 0)).round.toU32
  let end_y := min (finder.y + F64.lit 5 * module_size).round.toU32 h
  match ← refineLoop w h n module_size false ((rangeList start_y end_y).map fun y => (finder.x.round.toU32, y)) 127#8 {} 0 0 with
  | none => return none
  | some vert =>
    let half_finder := F64.lit 35 10 * vert.last_module_size
    let finder : Point := ⟨vert.location.x - F64.lit 0 * half_finder, vert.location.y - F64.lit 1 * half_finder⟩
    let module_size := vert.module_size
    let start_x := ((finder.x - F64.lit 5 * module_size).max (F64.lit 0)).round.toU32
    let end_x := min (finder.x + F64.lit 5 * module_size).round.toU32 w
    match ← refineLoop w h n module_size false ((rangeList start_x end_x).map fun x => (x, finder.y.round.toU32)) 127#8 {} 0 0 with
    | none => return none
    | some vert =>
      let half_finder := F64.lit 35 10 * vert.last_module_size
      let finder : Point := ⟨vert.location.x - F64.lit 1 * half_finder, vert.location.y - F64.lit 0 * half_finder⟩
      let module_size := vert.module_size
      let side := F64.lit 5 * module_size
      let start := diagonalStart finder side
      let range_x := rangeList start.1.round.toU32 (min (finder.x + F64.lit 5 * module_size).round.toU32 w)
      let range_y := rangeList start.2.round.toU32 (min (finder.y + F64.lit 5 * module_size).round.toU32 h)
      match ← refineLoop w h n module_size true (range_x.zip range_y) 127#8 {} 0 0 with
      | none => return none
      | some _ => return some (finder, module_size)

theorem refineAll_eq (w h n : Nat) (finder : Point) (module_size : F64) :
    refineAll w h n finder module_size = LineScan.refineAll (bitImage w h n) finder module_size := by
  unfold refineAll LineScan.refineAll refineVertical refineHorizontal refineDiagonal refine
  simp only [refineLoop_eq]
  rfl

/-- What happens at a colour change. -/
def atChange (w h n x y : Nat) (p : U8) (st : Scan) : Run Scan := do
  match ← looks st.pattern with
  | true =>
    let module_size ← st.pattern.estModSize
    let finder : Point := ⟨F64.ofNat x - module_size * F64.lit 35 10, F64.ofNat y⟩
    if st.candidates.any fun c => F64.lt (dist finder c.location) (F64.lit 7 * module_size) then
      return { st with last_pixel := p, pattern := ← slide st.pattern }
    else
      match ← refineAll w h n finder module_size with
      | none => return { st with last_pixel := p, pattern := ← slide st.pattern }
      | some (finder, module_size) =>
        return {
          candidates := st.candidates ++ [⟨finder, module_size, F64.lit 0⟩]
          last_pixel := p
          pattern := ← slide st.pattern }
  | false =>
    return { st with last_pixel := p, pattern := ← slide st.pattern }

theorem atChange_eq (w h n x y : Nat) (p : U8) (st : Scan) :
    atChange w h n x y p st = LineScan.atChange (bitImage w h n) x y p st := by
  unfold atChange LineScan.atChange
  simp only [looks_eq, slide_eq, refineAll_eq]
  congr 1
  funext b
  cases b <;> rfl

/-- The body of the loop. -/
def scanPixel (w h n : Nat) (st : Scan) (xyp : Nat × Nat × U8) : Run Scan := do
  let (x, y, p) := xyp
  let st := if x = 0 then { st with last_pixel := 127#8, pattern := {} } else st
  if p = st.last_pixel then
    let p6 ← addU32 st.pattern.p6 1
    let st := { st with pattern := { st.pattern with p6 } }
    let last ← checkedSub w 1
    if x ≠ last then return st
    else atChange w h n x y p st
  else atChange w h n x y p st

theorem scanPixel_eq (w h n : Nat) : scanPixel w h n = LineScan.scanPixel (bitImage w h n) := by
  funext st xyp
  unfold scanPixel LineScan.scanPixel
  simp only [atChange_eq]
  rfl

/-- `detect`. -/
def detect (w h n : Nat) : Run (List QRLocation) := do
  let st ← (bitImage w h n).enumeratePixels.foldlM (scanPixel w h n) ⟨[], 127#8, {}⟩
  locations st.candidates

theorem detect_eq (w h n : Nat) : detect w h n = LineScan.detect (bitImage w h n) := by
  unfold detect LineScan.detect candidates
  rw [scanPixel_eq]
  cases (bitImage w h n).enumeratePixels.foldlM (LineScan.scanPixel (bitImage w h n)) ⟨[], 127#8, {}⟩ <;> rfl

end Verif.Quick
