import Verif.Model.Image
import Verif.Model.Float
import Verif.Model.Format

/-!
# src/prepare/blockedmean.rs

The newtypes `ImageCoord`, `BlockCoord` and `BlockSize` (lines 185-194) are plain numbers here; they are
`u32`, so sums and products are checked.
-/
namespace Verif

/-- Checked `u64` addition. -/
def addU64 (a b : Nat) : Run Nat := if a + b < 2 ^ 64 then .ret (a + b) else .panic

/-- src/prepare/blockedmean.rs:15-33 `BlockedMean` and its constructor. -/
structure BlockedMean where
  block_size : Nat
  block_mean_size : Nat

/-- src/prepare/blockedmean.rs:159-164 `Stats`. -/
structure Stats where
  total : Nat
  count : Nat
  mean : F64

namespace BlockedMean

/-- src/prepare/blockedmean.rs:166-169 `to_index`. -/
def toIndex (coords : Nat × Nat) (width : Nat) : Run Nat := do
  let w ← addU32 width 1
  let r ← mulU32 coords.2 w
  addU32 r coords.1

/-- src/prepare/blockedmean.rs:171-182 `as_block_coords`, with the division of lines 205-211: a zero block
size panics. -/
def asBlockCoords (x y block_size : Nat) : Run (Nat × Nat) :=
  if block_size = 0 then .panic else .ret (x / block_size, y / block_size)

/-- src/prepare/blockedmean.rs:238-243 `range`: `end.0 - 1` is checked; the iterator of lines 219-236 then
yields `start ..= end - 1`. -/
def range (start stop : Nat) : Run (List Nat) := do
  let last ← checkedSub stop 1
  return List.range' start (last + 1 - start)

/-- src/prepare/blockedmean.rs:245-250 `range_inc`. The increment behind the last element (line 232) would
overflow for `stop = u32::MAX`; the callers have computed `stop + 1` before, so this is not reached. -/
def rangeInc (start stop : Nat) : List Nat := List.range' start (stop + 1 - start)

/-- src/prepare/blockedmean.rs:68-74: one pixel is added to its block. -/
def addPixel (block_size block_width : Nat) (blocks : List Stats) (xyp : Nat × Nat × U8) :
    Run (List Stats) := do
  let coords ← asBlockCoords xyp.1 xyp.2.1 block_size
  let i ← toIndex coords block_width
  match blocks[i]? with
  | none => .panic
  | some s =>
    let total ← addU64 s.total xyp.2.2.toNat
    let count ← addU64 s.count 1
    return blocks.set i { s with total, count }

/-- Length of the block vectors: src/prepare/blockedmean.rs:65 and 98-99. -/
def numBlocks (block_width block_height : Nat) : Run Nat := do
  mulU32 (← addU32 block_width 1) (← addU32 block_height 1)

/-- src/prepare/blockedmean.rs:51-81 `as_block_map`. -/
def asBlockMap (self : BlockedMean) (grayscale : GrayImage) : Run (List Stats) := do
  let (block_width, block_height) ← asBlockCoords grayscale.width grayscale.height self.block_size
  let n ← numBlocks block_width block_height
  let blocks ← grayscale.enumeratePixels.foldlM (addPixel self.block_size block_width)
    (List.replicate n ⟨0, 0, .fin 0⟩)
  return blocks.map fun s => { s with mean := F64.ofNat s.total / F64.ofNat s.count }

/-- src/prepare/blockedmean.rs:113-120: the inner loop over `y`, adding up totals and counts. -/
def sumColumn (blocks : List Stats) (block_width x : Nat) (acc : Nat × Nat) (y : Nat) :
    Run (Nat × Nat) := do
  let i ← toIndex (x, y) block_width
  match blocks[i]? with
  | none => .panic
  | some s => return (← addU64 acc.1 s.total, ← addU64 acc.2 s.count)

/-- src/prepare/blockedmean.rs:104-121: totals and counts of the blocks around `(block_x, block_y)`. -/
def windowSum (blocks : List Stats) (block_width block_height block_stride block_x block_y : Nat) :
    Run (Nat × Nat) := do
  let x_start := max 0 (block_x - block_stride)
  let x_end := min block_width (← addU32 block_x block_stride)
  let y_start := max 0 (block_y - block_stride)
  let y_end := min block_height (← addU32 block_y block_stride)
  let xs ← range x_start x_end
  xs.foldlM (fun acc x => do
    let ys ← range y_start y_end
    ys.foldlM (sumColumn blocks block_width x) acc) (0, 0)

/-- src/prepare/blockedmean.rs:103-125: one iteration of the inner loop. -/
def setMean (blocks : List Stats) (block_width block_height block_stride block_x : Nat)
    (means : List Stats) (block_y : Nat) : Run (List Stats) := do
  let (total, count) ← windowSum blocks block_width block_height block_stride block_x block_y
  let i ← toIndex (block_x, block_y) block_width
  match means[i]? with
  | none => .panic
  | some s => return means.set i { s with mean := F64.ofNat total / F64.ofNat count }

/-- src/prepare/blockedmean.rs:83-129 `to_block_mean_map`. -/
def toBlockMeanMap (self : BlockedMean) (blocks : List Stats) (width height : Nat) :
    Run (List Stats) := do
  let block_stride := (← checkedSub self.block_mean_size 1) / 2
  let (block_width, block_height) ← asBlockCoords width height self.block_size
  let n ← numBlocks block_width block_height
  (rangeInc 0 block_width).foldlM (fun means block_x =>
    (rangeInc 0 block_height).foldlM
      (setMean blocks block_width block_height block_stride block_x) means)
    (List.replicate n ⟨0, 0, .fin 0⟩)

/-- src/prepare/blockedmean.rs:144-152: the new value of a pixel. -/
def thresholdPixel (mean : F64) (p : U8) : U8 :=
  if F64.gt mean (F64.lit 250) then 255#8
  else if F64.lt mean (F64.lit 5) then 0#8
  else if F64.gt (F64.ofNat p.toNat) mean then 255#8
  else 0#8

/-- src/prepare/blockedmean.rs:138-153: one pixel of `to_threshold`. -/
def threshold (self : BlockedMean) (block_means : List Stats) (width height : Nat)
    (xyp : Nat × Nat × U8) : Run U8 := do
  let (block_width, _) ← asBlockCoords width height self.block_size
  let coords ← asBlockCoords xyp.1 xyp.2.1 self.block_size
  let i ← toIndex coords block_width
  match block_means[i]? with
  | none => .panic
  | some s => return thresholdPixel s.mean xyp.2.2

/-- src/prepare/blockedmean.rs:131-156 `to_threshold`. -/
def toThreshold (self : BlockedMean) (grayscale : GrayImage) (block_means : List Stats) :
    Run GrayImage := do
  let pixels ← grayscale.enumeratePixels.mapM
    (self.threshold block_means grayscale.width grayscale.height)
  return { grayscale with pixels }

/-- src/prepare/blockedmean.rs:36-47 `prepare`, from the grey image on. The conversion
`image::imageops::grayscale` (line 37) belongs to the image crate and is not modelled. -/
def prepare (self : BlockedMean) (grayscale : GrayImage) : Run GrayImage := do
  let block_map ← self.asBlockMap grayscale
  let block_mean_map ← self.toBlockMeanMap block_map grayscale.width grayscale.height
  self.toThreshold grayscale block_mean_map

end BlockedMean
end Verif
