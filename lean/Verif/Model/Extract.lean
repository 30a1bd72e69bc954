import Verif.Model.Image
import Verif.Model.Point
import Verif.Model.QRData
import Verif.Model.Format

/-!
# src/extract/qr/mod.rs

The debug images (feature `debug-images`) and the log output are not modelled.
-/
namespace Verif
namespace Extractor

/-- src/extract/qr/mod.rs:380-392 `Perspective`. -/
structure Perspective where
  dx : Delta
  ddx : Delta
  dy : Delta
  ddy : Delta

/-- `prepared.get_pixel(p.x.round() as u32, p.y.round() as u32)[0]`, e.g. lines 58-60. -/
def pixelAt (prepared : GrayImage) (p : Point) : Run U8 :=
  prepared.getPixel p.x.round.toU32 p.y.round.toU32

/-- The tests of src/extract/qr/mod.rs:332-375, each "if the pixel at this point has this value, return
false". -/
def noneOf (prepared : GrayImage) : List (Point × U8) → Run Bool
  | [] => return true
  | (p, bad) :: rest => do
    if (← pixelAt prepared p) = bad then return false
    else noneOf prepared rest

/-- src/extract/qr/mod.rs:332-375: the tested points around `p` in their order, with the value that must
not occur. The point named `right` is `p - dx + …` in the code (line 361), as here. -/
def alignmentTests (p : Point) (dx dy : Delta) : List (Point × U8) :=
  ([-2, -1, 0, 1] : List Int).flatMap (fun x =>
    [(p - F64.ofInt x * dx - F64.lit 2 * dy, 255#8),
     (p - F64.ofInt x * dx + F64.lit 2 * dy, 255#8)]) ++
  ([-1, 0] : List Int).flatMap (fun y =>
    [(p - F64.lit 2 * dx - F64.ofInt y * dy, 255#8),
     (p + F64.lit 2 * dx - F64.ofInt y * dy, 255#8),
     (p - dx - F64.ofInt y * dy, 0#8),
     (p - dx + F64.ofInt y * dy, 0#8)]) ++
  [(p - dy, 0#8), (p + dy, 0#8)]

/-- src/extract/qr/mod.rs:281-378 `is_alignment`. -/
def isAlignment (prepared : GrayImage) (p : Point) (dx dy : Delta) (scale : F64) : Run Bool :=
  if F64.lt p.x (F64.lit 0) || F64.lt p.y (F64.lit 0) then .ret false
  else
    let dx := scale * dx
    let dy := scale * dy
    let top_left := p - F64.lit 2 * dx - F64.lit 2 * dy
    if F64.lt top_left.x (F64.lit 0) || F64.lt top_left.y (F64.lit 0) then .ret false
    else
      let bottom_right := p + F64.lit 2 * dx + F64.lit 2 * dy
      if F64.ge bottom_right.x.round (F64.ofNat prepared.width) ||
          F64.ge bottom_right.y.round (F64.ofNat prepared.height) then .ret false
      else do
        if ← noneOf prepared (alignmentTests p dx dy) then
          return (← pixelAt prepared p) == 0#8
        else return false

/-- src/extract/qr/mod.rs:145-176: the points tried at distance `i`, in order. At distance 0 only the
estimate itself (lines 136-143). -/
def ring (est_alignment : Point) (dx dy : Delta) (i : Nat) : List Point :=
  if i = 0 then [est_alignment]
  else
    (List.range (2 * i + 1)).flatMap (fun (k : Nat) =>
      let x : Int := (k : Int) - i
      [est_alignment + F64.ofInt x / F64.lit 2 * dx - F64.ofInt i / F64.lit 2 * dy,
       est_alignment + F64.ofInt x / F64.lit 2 * dx + F64.ofInt i / F64.lit 2 * dy]) ++
    (List.range (2 * i - 1)).flatMap (fun (k : Nat) =>
      let y : Int := (k : Int) - i + 1
      [est_alignment - F64.ofInt i / F64.lit 2 * dx + F64.ofInt y / F64.lit 2 * dy,
       est_alignment + F64.ofInt i / F64.lit 2 * dx + F64.ofInt y / F64.lit 2 * dy])

/-- src/extract/qr/mod.rs:132-177: every attempt of the search, a point and a scale, in order. -/
def attempts (est_alignment : Point) (dx dy : Delta) : List (Point × F64) :=
  (List.range 4).flatMap fun i =>
    ([0, 1, -1, 2, -2, 3] : List Int).flatMap fun j =>
      (ring est_alignment dx dy i).map fun p => (p, F64.lit 1 + F64.ofInt j / F64.lit 10)

/-- src/extract/qr/mod.rs:132-177: the first attempt that succeeds. The estimate is only overwritten when
the search ends, so the attempts do not depend on one another. -/
def findAlignment (prepared : GrayImage) (dx dy : Delta) : List (Point × F64) → Run (Option Point)
  | [] => return none
  | (p, scale) :: rest => do
    if ← isAlignment prepared p dx dy scale then return some p
    else findAlignment prepared dx dy rest

/-- src/extract/qr/mod.rs:189-194 and 211-216: the last white pixel in a list of positions, by the
coordinate `c`; otherwise `default`. The list is already reversed. -/
def firstWhite (prepared : GrayImage) (pos : Nat → Nat × Nat) (default : Nat) : List Nat → Run Nat
  | [] => return default
  | c :: rest => do
    if (← prepared.getPixel (pos c).1 (pos c).2) = 255#8 then return c
    else firstWhite prepared pos default rest

/-- src/extract/qr/mod.rs:125-128 and 265-268: estimated centre of the alignment pattern. -/
def estimate (loc : QRLocation) (dx dy : Delta) (size : Nat) : Point where
  x := (loc.top_right - F64.lit 3 * dx + F64.ofNat (size - 10) * dy).x
  y := (loc.bottom_left + F64.ofNat (size - 10) * dx - F64.lit 3 * dy).y

/-- src/extract/qr/mod.rs:185-227: the estimate is moved to the middle of the white pixels left and right of
it, then above and below. -/
def center (prepared : GrayImage) (est : Point) : Run Point := do
  let al_x := est.x.round.toU32
  let al_y := est.y.round.toU32
  let left_x ← firstWhite prepared (fun x => (x, al_y)) 0 (List.range al_x).reverse
  let right_x ← firstWhite prepared (fun x => (x, al_y)) prepared.width
    (List.range' al_x (prepared.width - al_x))
  let est : Point := { est with x := (F64.ofNat left_x + F64.ofNat right_x) / F64.lit 2 }
  let al_x := est.x.round.toU32
  let al_y := est.y.round.toU32
  let top_y ← firstWhite prepared (fun y => (al_x, y)) 0 (List.range al_y).reverse
  let bottom_y ← firstWhite prepared (fun y => (al_x, y)) prepared.height
    (List.range' al_y (prepared.height - al_y))
  return { est with y := (F64.ofNat top_y + F64.ofNat bottom_y) / F64.lit 2 }

/-- The zero `Delta`. -/
def Delta.zero : Delta := ⟨F64.lit 0, F64.lit 0⟩

/-- src/extract/qr/mod.rs:104-279 `determine_perspective`. `size` is at least 17, so `size - 7` and
`size - 10` do not wrap; their product is checked. -/
def determinePerspective (prepared : GrayImage) (version size : Nat) (loc : QRLocation) :
    Outcome Perspective :=
  let dx := (loc.top_right - loc.top_left) / F64.ofNat (size - 7)
  let dy := (loc.bottom_left - loc.top_left) / F64.ofNat (size - 7)
  if version = 1 then .ok ⟨dx, Delta.zero, dy, Delta.zero⟩
  else
    let est_alignment := estimate loc dx dy size
    match findAlignment prepared dx dy (attempts est_alignment dx dy) with
    | .panic => .panic
    | .ret none => .err ⟨"Unable to find alignment pattern"⟩
    | .ret (some found) =>
      match center prepared found with
      | .panic => .panic
      | .ret est_alignment =>
        let orig_estimate := estimate loc dx dy size
        let delta := est_alignment - orig_estimate
        match mulU32 (size - 10) (size - 10) with
        | .panic => .panic
        | .ret sq => .ok ⟨dx, delta / F64.ofNat sq, dy, Delta.zero⟩

/-- src/extract/qr/mod.rs:57-77: sampling one row of `n` modules. -/
def sampleRow (prepared : GrayImage) (dx : Delta) : Nat → Point → Run (List U8)
  | 0, _ => return []
  | n + 1, line => do
    let pixel ← pixelAt prepared line
    return pixel :: (← sampleRow prepared dx n (line + dx))

/-- src/extract/qr/mod.rs:54-82: sampling `n` rows of `size` modules. -/
def sampleRows (prepared : GrayImage) (p : Perspective) (size : Nat) :
    Nat → Point → Delta → Delta → Run (List U8)
  | 0, _, _, _ => return []
  | n + 1, start, dx, dy => do
    let row ← sampleRow prepared dx size (start - F64.lit 3 * dx)
    return row ++ (← sampleRows prepared p size n (start + dy) (dx + p.ddx) (dy + p.ddy))

/-- src/extract/qr/mod.rs:35-101 `extract`. -/
def extract (prepared : GrayImage) (loc : QRLocation) : Outcome QRData :=
  match mulU32 loc.version 4 with
  | .panic => .panic
  | .ret v4 =>
    match addU32 17 v4 with
    | .panic => .panic
    | .ret size =>
      match determinePerspective prepared loc.version size loc with
      | .panic => .panic
      | .err e => .err e
      | .ok p =>
        let start := loc.top_left - F64.lit 3 * p.dy - F64.lit 3 * p.ddy
        let dy := p.dy - F64.lit 3 * p.ddy
        let dx := p.dx - F64.lit 3 * p.ddx
        match sampleRows prepared p size size start dx dy with
        | .panic => .panic
        | .ret data =>
          match QRData.new data loc.version with
          | .panic => .panic
          | .ret q => .ok q

end Extractor
end Verif
