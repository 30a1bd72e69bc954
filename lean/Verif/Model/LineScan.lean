import Verif.Model.Image
import Verif.Model.Point
import Verif.Model.Format

/-!
# src/detect/linescan.rs

The debug images (feature `debug-images`, lines 121-163) and the log output are not modelled.
-/
namespace Verif

/-- src/detect/linescan.rs:361-367 `QRFinderPattern` and `new`: the lengths of the last seven runs. -/
structure FinderPattern where
  p0 : Nat := 0
  p1 : Nat := 0
  p2 : Nat := 0
  p3 : Nat := 0
  p4 : Nat := 0
  p5 : Nat := 0
  p6 : Nat := 0
deriving DecidableEq, Repr

/-- src/detect/linescan.rs:535-540 `QRFinderPosition`. -/
structure FinderPosition where
  location : Point
  module_size : F64
  last_module_size : F64

namespace FinderPattern

/-- src/detect/linescan.rs:369-395 `slide`. -/
def slide (s : FinderPattern) : Run FinderPattern :=
  if F64.lt (F64.ofNat s.p6) (F64.ofNat s.p5 / F64.lit 10) && s.p4 != 0 then do
    let p6 ← addU32 s.p6 s.p5
    return ⟨0, s.p0, s.p1, s.p2, s.p3, s.p4, p6⟩
  else
    return ⟨s.p1, s.p2, s.p3, s.p4, s.p5, s.p6, 1⟩

/-- src/detect/linescan.rs:398 and 403: the sum of the last five runs. -/
def lastFive (s : FinderPattern) : Run Nat := do
  addU32 (← addU32 (← addU32 (← addU32 s.p2 s.p3) s.p4) s.p5) s.p6

/-- src/detect/linescan.rs:397-399 `est_mod_size`. -/
def estModSize (s : FinderPattern) : Run F64 := do
  return F64.ofNat (← s.lastFive) / F64.lit 7

/-- src/detect/linescan.rs:409-433: the five comparisons. -/
def ratiosFit (s : FinderPattern) (total_size : Nat) : Bool :=
  let module_size := F64.ofNat total_size / F64.lit 7
  let max_variance := module_size / F64.lit 15 10
  if F64.gt (module_size - F64.ofNat s.p2).abs max_variance then false
  else if F64.gt (module_size - F64.ofNat s.p3).abs max_variance then false
  else if F64.gt (module_size * F64.lit 3 - F64.ofNat s.p4).abs max_variance then false
  else if F64.gt (module_size - F64.ofNat s.p5).abs max_variance then false
  else if F64.gt (module_size - F64.ofNat s.p6).abs max_variance then false
  else true

/-- src/detect/linescan.rs:402-433 `looks_like_finder`. -/
def looksLikeFinder (s : FinderPattern) : Run Bool := do
  let total_size ← s.lastFive
  if total_size < 7 then return false
  return s.ratiosFit total_size

end FinderPattern

namespace LineScan

/-- src/detect/linescan.rs:436-443 `diff`. -/
def diff (a b : F64) : F64 := if F64.gt a b then (a - b) / a else (b - a) / b

/-- src/detect/linescan.rs:445-449 `dist`. -/
def dist (one other : Point) : F64 :=
  (((one.x - other.x) * (one.x - other.x)) + ((one.y - other.y) * (one.y - other.y))).sqrt

/-- src/detect/linescan.rs:319-331 and 345-357: the position for an accepted pattern that ended before
`(x, y)`, if it is accepted. -/
def accept (module_size : F64) (is_diagonal : Bool) (pattern : FinderPattern) (x y : Nat) :
    Run (Option FinderPosition) := do
  if ← pattern.looksLikeFinder then
    let est ← pattern.estModSize
    if F64.lt (diff module_size est) (F64.lit 2 10) || is_diagonal then
      return some {
        location := ⟨F64.ofNat x, F64.ofNat y⟩
        module_size := (module_size + est) / F64.lit 2
        last_module_size := est }
    else return none
  else return none

/-- src/detect/linescan.rs:309-360: the loop of `refine` over the remaining positions, and its end. -/
def refineLoop (prepared : GrayImage) (module_size : F64) (is_diagonal : Bool) :
    List (Nat × Nat) → U8 → FinderPattern → Nat → Nat → Run (Option FinderPosition)
  | [], _, pattern, last_x, last_y => accept module_size is_diagonal pattern last_x last_y
  | (x, y) :: rest, last_pixel, pattern, _, _ => do
    let p ← prepared.getPixel x y
    if p = last_pixel then
      let p6 ← addU32 pattern.p6 1
      refineLoop prepared module_size is_diagonal rest last_pixel { pattern with p6 } x y
    else
      match ← accept module_size is_diagonal pattern x y with
      | some pos => return some pos
      | none =>
        let pattern ← pattern.slide
        refineLoop prepared module_size is_diagonal rest p pattern x y

/-- src/detect/linescan.rs:296-360 `refine`; the zipped ranges are the list of positions. -/
def refine (prepared : GrayImage) (module_size : F64) (positions : List (Nat × Nat))
    (is_diagonal : Bool) : Run (Option FinderPosition) :=
  refineLoop prepared module_size is_diagonal positions 127#8 {} 0 0

/-- Rust `start..stop` over `u32`. -/
def rangeList (start stop : Nat) : List Nat := List.range' start (stop - start)

/-- src/detect/linescan.rs:212-230 `refine_horizontal`. -/
def refineHorizontal (prepared : GrayImage) (finder : Point) (module_size : F64) :
    Run (Option FinderPosition) :=
  let start_x := ((finder.x - F64.lit 5 * module_size).max (F64.lit 0)).round.toU32
  let end_x := min (finder.x + F64.lit 5 * module_size).round.toU32 prepared.width
  refine prepared module_size
    ((rangeList start_x end_x).map fun x => (x, finder.y.round.toU32)) false

/-- src/detect/linescan.rs:233-251 `refine_vertical`. -/
def refineVertical (prepared : GrayImage) (finder : Point) (module_size : F64) :
    Run (Option FinderPosition) :=
  let start_y := ((finder.y - F64.lit 5 * module_size).max (F64.lit 0)).round.toU32
  let end_y := min (finder.y + F64.lit 5 * module_size).round.toU32 prepared.height
  refine prepared module_size
    ((rangeList start_y end_y).map fun y => (finder.x.round.toU32, y)) false

/-- src/detect/linescan.rs:260-279: the start of the diagonal. -/
def diagonalStart (finder : Point) (side : F64) : F64 × F64 :=
  if F64.lt finder.x side && F64.lt finder.y side then
    if F64.lt finder.x finder.y then (F64.lit 0, finder.y - finder.x)
    else (finder.x - finder.y, F64.lit 0)
  else if F64.lt finder.x side then (F64.lit 0, finder.y - finder.x)
  else if F64.lt finder.y side then (finder.x - finder.y, F64.lit 0)
  else (finder.x - side, finder.y - side)

/-- src/detect/linescan.rs:254-294 `refine_diagonal`. -/
def refineDiagonal (prepared : GrayImage) (finder : Point) (module_size : F64) :
    Run (Option FinderPosition) :=
  let side := F64.lit 5 * module_size
  let start := diagonalStart finder side
  let range_x := rangeList start.1.round.toU32
    (min (finder.x + F64.lit 5 * module_size).round.toU32 prepared.width)
  let range_y := rangeList start.2.round.toU32
    (min (finder.y + F64.lit 5 * module_size).round.toU32 prepared.height)
  refine prepared module_size (range_x.zip range_y) true

/-- src/detect/linescan.rs:92-113: the three refinements in their order (lines 39-43), adjusting the
position and the module size; `none` when one fails. -/
def refineAll (prepared : GrayImage) (finder : Point) (module_size : F64) :
    Run (Option (Point × F64)) := do
  match ← refineVertical prepared finder module_size with
  | none => return none
  | some vert =>
    let half_finder := F64.lit 35 10 * vert.last_module_size
    let finder : Point := ⟨vert.location.x - F64.lit 0 * half_finder,
      vert.location.y - F64.lit 1 * half_finder⟩
    let module_size := vert.module_size
    match ← refineHorizontal prepared finder module_size with
    | none => return none
    | some vert =>
      let half_finder := F64.lit 35 10 * vert.last_module_size
      let finder : Point := ⟨vert.location.x - F64.lit 1 * half_finder,
        vert.location.y - F64.lit 0 * half_finder⟩
      let module_size := vert.module_size
      match ← refineDiagonal prepared finder module_size with
      | none => return none
      | some _ => return some (finder, module_size)

/-- Loop state of src/detect/linescan.rs:45-49. -/
structure Scan where
  candidates : List FinderPosition
  last_pixel : U8
  pattern : FinderPattern

/-- src/detect/linescan.rs:64-119: what happens at a colour change or at the end of a line. -/
def atChange (prepared : GrayImage) (x y : Nat) (p : U8) (st : Scan) : Run Scan := do
  if ← st.pattern.looksLikeFinder then
    let module_size ← st.pattern.estModSize
    let finder : Point := ⟨F64.ofNat x - module_size * F64.lit 35 10, F64.ofNat y⟩
    if st.candidates.any fun c => F64.lt (dist finder c.location) (F64.lit 7 * module_size) then
      return { st with last_pixel := p, pattern := ← st.pattern.slide }
    else
      match ← refineAll prepared finder module_size with
      | none => return { st with last_pixel := p, pattern := ← st.pattern.slide }
      | some (finder, module_size) =>
        return {
          candidates := st.candidates ++ [⟨finder, module_size, F64.lit 0⟩]
          last_pixel := p
          pattern := ← st.pattern.slide }
  else
    return { st with last_pixel := p, pattern := ← st.pattern.slide }

/-- src/detect/linescan.rs:49-119: the body of the loop over all pixels. -/
def scanPixel (prepared : GrayImage) (st : Scan) (xyp : Nat × Nat × U8) : Run Scan := do
  let (x, y, p) := xyp
  let st := if x = 0 then { st with last_pixel := 127#8, pattern := {} } else st
  if p = st.last_pixel then
    let p6 ← addU32 st.pattern.p6 1
    let st := { st with pattern := { st.pattern with p6 } }
    let last ← checkedSub prepared.width 1
    if x ≠ last then return st
    else atChange prepared x y p st
  else atChange prepared x y p st

/-- src/detect/linescan.rs:45-119: the candidate finder positions of an image. -/
def candidates (prepared : GrayImage) : Run (List FinderPosition) := do
  let st ← prepared.enumeratePixels.foldlM (scanPixel prepared) ⟨[], 127#8, {}⟩
  return st.candidates

/-- src/detect/linescan.rs:464-533 `find_qr_internal`. -/
def findQrInternal (one two three : Point) (module_size : F64) : Run (Option QRLocation) := do
  let ax := two.x - one.x
  let ay := two.y - one.y
  let bx := three.x - one.x
  let by_ := three.y - one.y
  let cross_product := -(ax * by_ - ay * bx)
  let len_a := (ax * ax + ay * ay).sqrt
  let len_b := (bx * bx + by_ * by_).sqrt
  if F64.gt (diff len_a len_b) (F64.lit 15 100) then return none
  else
    let perpendicular := cross_product / len_a / len_b
    if F64.gt (perpendicular.abs - F64.lit 1).abs (F64.lit 5 100) then return none
    else
      let estimated_dist := (dist one three / module_size) + F64.lit 7
      let n := ((estimated_dist - F64.lit 1) / F64.lit 4).round.toU32
      let dist ← addU32 (← mulU32 4 n) 1
      if dist < 20 then return none
      else
        let d ← checkedSub dist 17
        let version := d / 4
        if F64.gt perpendicular (F64.lit 0) then
          return some ⟨one, three, two, module_size, version⟩
        else
          return some ⟨one, two, three, module_size, version⟩

/-- src/detect/linescan.rs:451-462 `find_qr`. -/
def findQr (one two three : Point) (module_size : F64) : Run (Option QRLocation) := do
  match ← findQrInternal one two three module_size with
  | some qr => return some qr
  | none =>
    match ← findQrInternal two one three module_size with
    | some qr => return some qr
    | none => findQrInternal three one two module_size

/-- src/detect/linescan.rs:182-203: the innermost loop, over the candidates behind the second one. -/
def locations3 (c1 c2 : FinderPosition) : List FinderPosition → Run (List QRLocation)
  | [] => return []
  | c3 :: rest => do
    if F64.gt (diff c1.module_size c3.module_size) (F64.lit 1 10) then locations3 c1 c2 rest
    else
      match ← findQr c1.location c2.location c3.location c1.module_size with
      | some qr => return qr :: (← locations3 c1 c2 rest)
      | none => locations3 c1 c2 rest

/-- src/detect/linescan.rs:170-204: the middle loop, over the candidates behind the first one. -/
def locations2 (c1 : FinderPosition) : List FinderPosition → Run (List QRLocation)
  | [] => return []
  | c2 :: rest => do
    if F64.gt (diff c1.module_size c2.module_size) (F64.lit 1 10) then locations2 c1 rest
    else return (← locations3 c1 c2 rest) ++ (← locations2 c1 rest)

/-- src/detect/linescan.rs:165-206: the outer loop. Indices into the vector of candidates are replaced by
the tails of the list; all indices of the code are in range. -/
def locations : List FinderPosition → Run (List QRLocation)
  | [] => return []
  | c1 :: rest => return (← locations2 c1 rest) ++ (← locations rest)

/-- src/detect/linescan.rs:36-207 `detect`. -/
def detect (prepared : GrayImage) : Run (List QRLocation) := do
  locations (← candidates prepared)

end LineScan
end Verif
