import Verif.Model.QRData
/-!
# Model of `src/decode/qr/mod.rs`
-/
namespace Verif

/-- src/decode/qr/mod.rs:12-18 `BlockInfo`; the fields are `u8` in the code. -/
structure BlockInfo where
  block_count : Nat
  total_per : Nat
  data_per : Nat
  ec_cap : Nat
deriving DecidableEq, Repr

/-- src/decode/qr/mod.rs:20-29 `BlockInfo::new`. -/
abbrev BI (block_count total_per data_per ec_cap : Nat) : BlockInfo :=
  ⟨block_count, total_per, data_per, ec_cap⟩

/-- src/decode/qr/mod.rs:32-663: the rows of the `match (version, level)`, verbatim; `none` is the
catch-all arm. -/
def blockTable : Nat → ECLevel → Option (List BlockInfo)
  | 1, l => match l with
    | .low => some [BI 1 26 19 2]
    | .medium => some [BI 1 26 16 4]
    | .quartile => some [BI 1 26 13 6]
    | .high => some [BI 1 26 9 8]
  | 2, l => match l with
    | .low => some [BI 1 44 34 4]
    | .medium => some [BI 1 44 28 8]
    | .quartile => some [BI 1 44 22 11]
    | .high => some [BI 1 44 16 14]
  | 3, l => match l with
    | .low => some [BI 1 70 55 7]
    | .medium => some [BI 1 70 44 13]
    | .quartile => some [BI 2 35 17 9]
    | .high => some [BI 2 35 13 11]
  | 4, l => match l with
    | .low => some [BI 1 100 80 10]
    | .medium => some [BI 2 50 32 9]
    | .quartile => some [BI 2 50 24 13]
    | .high => some [BI 4 25 9 8]
  | 5, l => match l with
    | .low => some [BI 1 134 108 13]
    | .medium => some [BI 2 67 43 12]
    | .quartile => some [BI 2 33 15 9, BI 2 34 16 9]
    | .high => some [BI 2 33 11 11, BI 2 34 12 11]
  | 6, l => match l with
    | .low => some [BI 2 86 68 9]
    | .medium => some [BI 4 43 27 8]
    | .quartile => some [BI 4 43 19 12]
    | .high => some [BI 4 43 15 14]
  | 7, l => match l with
    | .low => some [BI 2 98 78 10]
    | .medium => some [BI 4 49 31 9]
    | .quartile => some [BI 2 32 14 9, BI 4 33 15 9]
    | .high => some [BI 4 39 13 13, BI 1 40 14 13]
  | 8, l => match l with
    | .low => some [BI 2 121 97 12]
    | .medium => some [BI 2 60 38 11, BI 2 61 39 11]
    | .quartile => some [BI 4 40 18 11, BI 2 41 19 11]
    | .high => some [BI 4 40 14 13, BI 2 41 15 13]
  | 9, l => match l with
    | .low => some [BI 2 146 116 15]
    | .medium => some [BI 3 58 36 11, BI 2 59 37 11]
    | .quartile => some [BI 4 36 16 10, BI 4 37 17 10]
    | .high => some [BI 4 36 12 12, BI 4 37 13 12]
  | 10, l => match l with
    | .low => some [BI 2 86 68 9, BI 2 87 69 9]
    | .medium => some [BI 4 69 43 13, BI 1 70 44 13]
    | .quartile => some [BI 6 43 19 12, BI 2 44 20 12]
    | .high => some [BI 6 43 15 14, BI 2 44 16 14]
  | 11, l => match l with
    | .low => some [BI 4 101 81 10]
    | .medium => some [BI 1 80 50 15, BI 4 81 51 15]
    | .quartile => some [BI 4 50 22 14, BI 4 51 23 14]
    | .high => some [BI 3 36 12 12, BI 8 37 13 12]
  | 12, l => match l with
    | .low => some [BI 2 116 92 12, BI 2 117 93 12]
    | .medium => some [BI 6 58 36 11, BI 2 59 37 11]
    | .quartile => some [BI 4 46 20 13, BI 6 47 21 13]
    | .high => some [BI 7 42 14 14, BI 4 43 15 14]
  | 13, l => match l with
    | .low => some [BI 4 133 107 13]
    | .medium => some [BI 8 59 37 11, BI 1 60 38 11]
    | .quartile => some [BI 8 44 20 12, BI 4 45 21 12]
    | .high => some [BI 12 33 11 11, BI 4 34 12 11]
  | 14, l => match l with
    | .low => some [BI 3 145 115 15, BI 1 146 116 15]
    | .medium => some [BI 4 64 40 12, BI 5 65 41 12]
    | .quartile => some [BI 11 36 16 10, BI 5 37 17 10]
    | .high => some [BI 11 36 12 12, BI 5 37 13 12]
  | 15, l => match l with
    | .low => some [BI 5 109 87 11, BI 1 110 88 11]
    | .medium => some [BI 5 65 41 12, BI 5 66 42 12]
    | .quartile => some [BI 5 54 24 15, BI 7 55 25 15]
    | .high => some [BI 11 36 12 12, BI 7 37 13 12]
  | 16, l => match l with
    | .low => some [BI 5 122 98 12, BI 1 123 99 12]
    | .medium => some [BI 7 73 45 14, BI 3 74 46 14]
    | .quartile => some [BI 15 43 19 12, BI 2 44 20 12]
    | .high => some [BI 3 45 15 15, BI 13 46 16 15]
  | 17, l => match l with
    | .low => some [BI 1 135 107 14, BI 5 136 108 14]
    | .medium => some [BI 10 74 46 14, BI 1 75 47 14]
    | .quartile => some [BI 1 50 22 14, BI 15 51 23 14]
    | .high => some [BI 2 42 14 14, BI 17 43 15 14]
  | 18, l => match l with
    | .low => some [BI 5 150 120 15, BI 1 151 121 15]
    | .medium => some [BI 9 69 43 13, BI 4 70 44 13]
    | .quartile => some [BI 17 50 22 14, BI 1 51 23 14]
    | .high => some [BI 2 42 14 14, BI 19 43 15 14]
  | 19, l => match l with
    | .low => some [BI 3 141 113 14, BI 4 142 114 14]
    | .medium => some [BI 3 70 44 13, BI 11 71 45 13]
    | .quartile => some [BI 17 47 21 13, BI 4 48 22 13]
    | .high => some [BI 9 39 13 13, BI 16 40 14 13]
  | 20, l => match l with
    | .low => some [BI 3 135 107 14, BI 5 136 108 14]
    | .medium => some [BI 3 67 41 13, BI 13 68 42 13]
    | .quartile => some [BI 15 54 24 15, BI 5 55 25 15]
    | .high => some [BI 15 43 15 14, BI 10 44 16 14]
  | 21, l => match l with
    | .low => some [BI 4 144 116 14, BI 4 145 117 14]
    | .medium => some [BI 17 68 42 13]
    | .quartile => some [BI 17 50 22 14, BI 6 51 23 14]
    | .high => some [BI 19 46 16 15, BI 6 47 17 15]
  | 22, l => match l with
    | .low => some [BI 2 139 111 14, BI 7 140 112 14]
    | .medium => some [BI 17 74 46 14]
    | .quartile => some [BI 7 54 24 15, BI 16 55 25 15]
    | .high => some [BI 34 37 13 12]
  | 23, l => match l with
    | .low => some [BI 4 151 121 15, BI 5 152 122 15]
    | .medium => some [BI 4 75 47 14, BI 14 76 48 14]
    | .quartile => some [BI 11 54 24 15, BI 14 55 25 15]
    | .high => some [BI 16 45 15 15, BI 14 46 16 15]
  | 24, l => match l with
    | .low => some [BI 6 147 117 15, BI 4 148 118 15]
    | .medium => some [BI 6 73 45 14, BI 14 74 46 14]
    | .quartile => some [BI 11 54 24 15, BI 16 55 25 15]
    | .high => some [BI 30 46 16 15, BI 2 47 17 15]
  | 25, l => match l with
    | .low => some [BI 8 132 106 13, BI 4 133 107 13]
    | .medium => some [BI 8 75 47 14, BI 13 76 48 14]
    | .quartile => some [BI 7 54 24 15, BI 22 55 25 15]
    | .high => some [BI 22 45 15 15, BI 13 46 16 15]
  | 26, l => match l with
    | .low => some [BI 10 142 114 14, BI 2 143 115 14]
    | .medium => some [BI 19 74 46 14, BI 4 75 47 14]
    | .quartile => some [BI 28 50 22 14, BI 6 51 23 14]
    | .high => some [BI 33 46 16 15, BI 4 47 17 15]
  | 27, l => match l with
    | .low => some [BI 8 152 122 15, BI 4 153 123 15]
    | .medium => some [BI 22 73 45 14, BI 3 74 46 14]
    | .quartile => some [BI 8 53 23 15, BI 26 54 24 15]
    | .high => some [BI 12 45 15 15, BI 28 46 16 15]
  | 28, l => match l with
    | .low => some [BI 3 147 117 15, BI 10 148 118 15]
    | .medium => some [BI 3 73 45 14, BI 23 74 46 14]
    | .quartile => some [BI 4 54 24 15, BI 31 55 25 15]
    | .high => some [BI 11 45 15 15, BI 31 46 16 15]
  | 29, l => match l with
    | .low => some [BI 7 146 116 15, BI 7 147 117 15]
    | .medium => some [BI 21 73 45 14, BI 7 74 46 14]
    | .quartile => some [BI 1 53 23 15, BI 37 54 24 15]
    | .high => some [BI 19 45 15 15, BI 26 46 16 15]
  | 30, l => match l with
    | .low => some [BI 5 145 115 15, BI 10 146 116 15]
    | .medium => some [BI 19 75 47 14, BI 10 76 48 14]
    | .quartile => some [BI 15 54 24 15, BI 25 55 25 15]
    | .high => some [BI 23 45 15 15, BI 25 46 16 15]
  | 31, l => match l with
    | .low => some [BI 13 145 115 15, BI 3 146 116 15]
    | .medium => some [BI 2 74 46 14, BI 29 75 47 14]
    | .quartile => some [BI 42 54 24 15, BI 1 55 25 15]
    | .high => some [BI 23 45 15 15, BI 28 46 16 15]
  | 32, l => match l with
    | .low => some [BI 17 145 115 15]
    | .medium => some [BI 10 74 46 14, BI 23 75 47 14]
    | .quartile => some [BI 10 54 24 15, BI 35 55 25 15]
    | .high => some [BI 19 45 15 15, BI 35 46 16 15]
  | 33, l => match l with
    | .low => some [BI 17 145 115 15, BI 1 146 116 15]
    | .medium => some [BI 14 74 46 14, BI 21 75 47 14]
    | .quartile => some [BI 29 54 24 15, BI 19 55 25 15]
    | .high => some [BI 11 45 15 15, BI 46 46 16 15]
  | 34, l => match l with
    | .low => some [BI 13 145 115 15, BI 6 146 116 15]
    | .medium => some [BI 14 74 46 14, BI 23 75 47 14]
    | .quartile => some [BI 44 54 24 15, BI 7 55 25 15]
    | .high => some [BI 59 46 16 15, BI 1 47 17 15]
  | 35, l => match l with
    | .low => some [BI 12 151 121 15, BI 7 152 122 15]
    | .medium => some [BI 12 75 47 14, BI 26 76 48 14]
    | .quartile => some [BI 39 54 24 15, BI 14 55 25 15]
    | .high => some [BI 22 45 15 15, BI 41 46 16 15]
  | 36, l => match l with
    | .low => some [BI 6 151 121 15, BI 14 152 122 15]
    | .medium => some [BI 6 75 47 14, BI 34 76 48 14]
    | .quartile => some [BI 46 54 24 15, BI 10 55 25 15]
    | .high => some [BI 2 45 15 15, BI 64 46 16 15]
  | 37, l => match l with
    | .low => some [BI 17 152 122 15, BI 4 153 123 15]
    | .medium => some [BI 29 74 46 14, BI 14 75 47 14]
    | .quartile => some [BI 49 54 24 15, BI 10 55 25 15]
    | .high => some [BI 24 45 15 15, BI 46 46 16 15]
  | 38, l => match l with
    | .low => some [BI 4 152 122 15, BI 18 153 123 15]
    | .medium => some [BI 13 74 46 14, BI 32 75 47 14]
    | .quartile => some [BI 48 54 24 15, BI 14 55 25 15]
    | .high => some [BI 42 45 15 15, BI 32 46 16 15]
  | 39, l => match l with
    | .low => some [BI 20 147 117 15, BI 4 148 118 15]
    | .medium => some [BI 40 75 47 14, BI 7 76 48 14]
    | .quartile => some [BI 43 54 24 15, BI 22 55 25 15]
    | .high => some [BI 10 45 15 15, BI 67 46 16 15]
  | 40, l => match l with
    | .low => some [BI 19 148 118 15, BI 6 149 119 15]
    | .medium => some [BI 18 75 47 14, BI 31 76 48 14]
    | .quartile => some [BI 34 54 24 15, BI 34 55 25 15]
    | .high => some [BI 20 45 15 15, BI 61 46 16 15]
  | _, _ => none

/-- `{:?}` of `ECLevel` (src/util/qr.rs:118 `derive(Debug)`). -/
def ECLevel.debug : ECLevel → String
  | .low => "LOW"
  | .medium => "MEDIUM"
  | .quartile => "QUARTILE"
  | .high => "HIGH"

/-- src/decode/qr/mod.rs:665-673: each row repeated `block_count` times. -/
def unwind : List BlockInfo → List BlockInfo
  | [] => []
  | bi :: rest => List.replicate bi.block_count bi ++ unwind rest

/-- src/decode/qr/mod.rs:31-674 `block_info`. -/
def blockInfo (version : Nat) (level : ECLevel) : Outcome (List BlockInfo) :=
  match blockTable version level with
  | some rows => .ok (unwind rows)
  | none => .err ⟨"Unknown combination of version " ++ toString version ++ " and level " ++ level.debug⟩

end Verif
