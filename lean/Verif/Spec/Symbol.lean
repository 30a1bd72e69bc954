import Verif.Spec.Format
/-!
# Specification: layout of a QR symbol (ISO/IEC 18004:2015, clauses 6.3, 7.5, 7.6, 7.7.3, annexes D, E)

Coordinates are `(x, y)` = (column, row). Only `ECLevel` and `QRData` are taken from the model.
-/
namespace Verif.Spec

/-- Side length in modules. -/
def sideOf (v : Nat) : Nat := 4 * v + 17

/-- Table E.1: row/column coordinates of the centres of the alignment patterns, versions 1 to 40. -/
def alignmentCentres : Nat → List Nat
  | 1 => []
  | 2 => [6, 18]
  | 3 => [6, 22]
  | 4 => [6, 26]
  | 5 => [6, 30]
  | 6 => [6, 34]
  | 7 => [6, 22, 38]
  | 8 => [6, 24, 42]
  | 9 => [6, 26, 46]
  | 10 => [6, 28, 50]
  | 11 => [6, 30, 54]
  | 12 => [6, 32, 58]
  | 13 => [6, 34, 62]
  | 14 => [6, 26, 46, 66]
  | 15 => [6, 26, 48, 70]
  | 16 => [6, 26, 50, 74]
  | 17 => [6, 30, 54, 78]
  | 18 => [6, 30, 56, 82]
  | 19 => [6, 30, 58, 86]
  | 20 => [6, 34, 62, 90]
  | 21 => [6, 28, 50, 72, 94]
  | 22 => [6, 26, 50, 74, 98]
  | 23 => [6, 30, 54, 78, 102]
  | 24 => [6, 28, 54, 80, 106]
  | 25 => [6, 32, 58, 84, 110]
  | 26 => [6, 30, 58, 86, 114]
  | 27 => [6, 34, 62, 90, 118]
  | 28 => [6, 26, 50, 74, 98, 122]
  | 29 => [6, 30, 54, 78, 102, 126]
  | 30 => [6, 26, 52, 78, 104, 130]
  | 31 => [6, 30, 56, 82, 108, 134]
  | 32 => [6, 34, 60, 86, 112, 138]
  | 33 => [6, 30, 58, 86, 114, 142]
  | 34 => [6, 34, 62, 90, 118, 146]
  | 35 => [6, 30, 54, 78, 102, 126, 150]
  | 36 => [6, 24, 50, 76, 102, 128, 154]
  | 37 => [6, 28, 54, 80, 106, 132, 158]
  | 38 => [6, 32, 58, 84, 110, 136, 162]
  | 39 => [6, 26, 54, 82, 110, 138, 166]
  | 40 => [6, 30, 58, 86, 114, 142, 170]
  | _ => []

/-- Finder patterns with their separators. -/
def inFinder (v x y : Nat) : Prop :=
  (x < 8 ∧ y < 8) ∨ (sideOf v - 8 ≤ x ∧ y < 8) ∨ (x < 8 ∧ sideOf v - 8 ≤ y)

/-- Timing patterns: row 6 and column 6. -/
def inTiming (x y : Nat) : Prop := x = 6 ∨ y = 6

/-- The 5x5 alignment patterns around all pairs of centres except the three that would overlap the
finder patterns. -/
def inAlignment (v x y : Nat) : Prop :=
  ∃ cx ∈ alignmentCentres v, ∃ cy ∈ alignmentCentres v,
    ¬ ((cx = 6 ∧ cy = 6) ∨ (cx = 6 ∧ cy = sideOf v - 7) ∨ (cx = sideOf v - 7 ∧ cy = 6)) ∧
    cx - 2 ≤ x ∧ x ≤ cx + 2 ∧ cy - 2 ≤ y ∧ y ≤ cy + 2

/-- Format information (both copies, next to the finder patterns) and the dark module. -/
def inFormat (v x y : Nat) : Prop :=
  (x = 8 ∧ y ≤ 8) ∨ (x ≤ 8 ∧ y = 8) ∨ (sideOf v - 8 ≤ x ∧ y = 8) ∨ (x = 8 ∧ sideOf v - 8 ≤ y)

/-- Version information: two 6x3 areas, from version 7 on. -/
def inVersion (v x y : Nat) : Prop :=
  7 ≤ v ∧ ((sideOf v - 11 ≤ x ∧ x ≤ sideOf v - 9 ∧ y < 6) ∨
    (sideOf v - 11 ≤ y ∧ y ≤ sideOf v - 9 ∧ x < 6))

/-- Function modules. -/
def isFunction (v x y : Nat) : Prop :=
  inFinder v x y ∨ inTiming x y ∨ inAlignment v x y ∨ inFormat v x y ∨ inVersion v x y

/-- The modules of the encoding region. -/
def isDataModule (v x y : Nat) : Prop := x < sideOf v ∧ y < sideOf v ∧ ¬ isFunction v x y

instance (v x y : Nat) : Decidable (isFunction v x y) := by
  unfold isFunction inFinder inTiming inAlignment inFormat inVersion; infer_instance
instance (v x y : Nat) : Decidable (isDataModule v x y) := by
  unfold isDataModule; infer_instance

/-- Right column of the `k`-th two-column strip, counted from the right; the strips left of the vertical
timing pattern are shifted by one. -/
def stripColumn (v k : Nat) : Nat :=
  let x := sideOf v - 1 - 2 * k
  if x ≤ 6 then x - 1 else x

/-- Rows of the `k`-th strip: upwards, then downwards, alternating. -/
def stripRows (v k : Nat) : List Nat :=
  if k % 2 = 0 then (List.range (sideOf v)).reverse else List.range (sideOf v)

/-- All modules of the strips in placement order: in every row the right module first. -/
def zigzag (v : Nat) : List (Nat × Nat) :=
  (List.range ((sideOf v - 1) / 2)).flatMap fun k =>
    (stripRows v k).flatMap fun y => [(stripColumn v k, y), (stripColumn v k - 1, y)]

/-- The data modules in placement order (7.7.3). -/
def dataModules (v : Nat) : List (Nat × Nat) :=
  (zigzag v).filter fun p => decide (isDataModule v p.1 p.2)

/-- Table 9: EC codewords per block, level L, versions 1 to 40. -/
def eccPerBlockL : List Nat :=
  [7, 10, 15, 20, 26, 18, 20, 24, 30, 18, 20, 24, 26, 30, 22, 24, 28, 30, 28, 28, 28, 28, 30,
   30, 26, 28, 30, 30, 30, 30, 30, 30, 30, 30, 30, 30, 30, 30, 30, 30]

/-- Table 9: EC codewords per block, level M, versions 1 to 40. -/
def eccPerBlockM : List Nat :=
  [10, 16, 26, 18, 24, 16, 18, 22, 22, 26, 30, 22, 22, 24, 24, 28, 28, 26, 26, 26, 26, 28,
   28, 28, 28, 28, 28, 28, 28, 28, 28, 28, 28, 28, 28, 28, 28, 28, 28, 28]

/-- Table 9: EC codewords per block, level Q, versions 1 to 40. -/
def eccPerBlockQ : List Nat :=
  [13, 22, 18, 26, 18, 24, 18, 22, 20, 24, 28, 26, 24, 20, 30, 24, 28, 28, 26, 30, 28, 30,
   30, 30, 30, 28, 30, 30, 30, 30, 30, 30, 30, 30, 30, 30, 30, 30, 30, 30]

/-- Table 9: EC codewords per block, level H, versions 1 to 40. -/
def eccPerBlockH : List Nat :=
  [17, 28, 22, 16, 22, 28, 26, 26, 24, 28, 24, 28, 22, 24, 24, 30, 28, 28, 26, 28, 30, 24,
   30, 30, 30, 30, 30, 30, 30, 30, 30, 30, 30, 30, 30, 30, 30, 30, 30, 30]

/-- Table 9: number of blocks, level L, versions 1 to 40. -/
def numBlocksL : List Nat :=
  [1, 1, 1, 1, 1, 2, 2, 2, 2, 4, 4, 4, 4, 4, 6, 6, 6, 6, 7, 8, 8, 9, 9, 10, 12, 12, 12, 13,
   14, 15, 16, 17, 18, 19, 19, 20, 21, 22, 24, 25]

/-- Table 9: number of blocks, level M, versions 1 to 40. -/
def numBlocksM : List Nat :=
  [1, 1, 1, 2, 2, 4, 4, 4, 5, 5, 5, 8, 9, 9, 10, 10, 11, 13, 14, 16, 17, 17, 18, 20, 21, 23,
   25, 26, 28, 29, 31, 33, 35, 37, 38, 40, 43, 45, 47, 49]

/-- Table 9: number of blocks, level Q, versions 1 to 40. -/
def numBlocksQ : List Nat :=
  [1, 1, 2, 2, 4, 4, 6, 6, 8, 8, 8, 10, 12, 16, 12, 17, 16, 18, 21, 20, 23, 23, 25, 27, 29,
   34, 34, 35, 38, 40, 43, 45, 48, 51, 53, 56, 59, 62, 65, 68]

/-- Table 9: number of blocks, level H, versions 1 to 40. -/
def numBlocksH : List Nat :=
  [1, 1, 2, 4, 4, 4, 5, 6, 8, 8, 11, 11, 16, 16, 18, 16, 19, 21, 25, 25, 25, 34, 30, 32, 35,
   37, 40, 42, 45, 48, 51, 54, 57, 60, 63, 66, 70, 74, 77, 81]

/-- EC codewords per block. -/
def eccPerBlock (v : Nat) (l : ECLevel) : Nat :=
  (match l with
    | .low => eccPerBlockL | .medium => eccPerBlockM
    | .quartile => eccPerBlockQ | .high => eccPerBlockH).getD (v - 1) 0

/-- Number of blocks. -/
def numBlocks (v : Nat) (l : ECLevel) : Nat :=
  (match l with
    | .low => numBlocksL | .medium => numBlocksM
    | .quartile => numBlocksQ | .high => numBlocksH).getD (v - 1) 0

/-- Total codewords of a symbol: the data modules, eight per codeword (Table 1). -/
def totalCodewords (v : Nat) : Nat := (dataModules v).length / 8

/-- Codewords of the `i`-th block: the total is split as evenly as possible, short blocks first. -/
def blockTotal (v : Nat) (l : ECLevel) (i : Nat) : Nat :=
  totalCodewords v / numBlocks v l +
    (if numBlocks v l - totalCodewords v % numBlocks v l ≤ i then 1 else 0)

/-- Data codewords of the `i`-th block. -/
def blockData (v : Nat) (l : ECLevel) (i : Nat) : Nat := blockTotal v l i - eccPerBlock v l

/-- Interleaving (7.6): the `r`-th bytes of all blocks that have one. -/
def column {α : Type} (bs : List (List α)) (r : Nat) : List α := bs.filterMap (·[r]?)

/-- Interleaving of a list of byte sequences, column by column. -/
def interleave {α : Type} (bs : List (List α)) : List α :=
  (List.range ((bs.map List.length).foldr max 0)).flatMap (column bs)

/-- The final codeword sequence of a family of blocks: data interleaved, then EC interleaved. -/
def finalSequence {α : Type} (fam : List (List α × List α)) : List α :=
  interleave (fam.map (·.1)) ++ interleave (fam.map (·.2))

/-- A family of blocks (data codewords, EC codewords) as prescribed for version `v`, level `l`. -/
def HasShape (v : Nat) (l : ECLevel) (fam : List (List U8 × List U8)) : Prop :=
  fam.map (·.1.length) = (List.range (numBlocks v l)).map (blockData v l) ∧
  ∀ b ∈ fam, b.2.length = eccPerBlock v l

/-- A complete pixel grid of version `v`. -/
def WellFormed (q : QRData) (v : Nat) : Prop :=
  q.version = v ∧ q.side = sideOf v ∧ q.data.length = sideOf v * sideOf v

/-- The unmasked value of a module: module value xor mask condition. -/
def unmasked (q : QRData) (k : Nat) (p : Nat × Nat) : Bool :=
  xor ((moduleAt q p.1 p.2).getD false) (isoMask k p.2 p.1)

/-- The bits of the encoding region in placement order, unmasked. -/
def symbolBits (q : QRData) (v k : Nat) : List Bool := (dataModules v).map (unmasked q k)

end Verif.Spec
