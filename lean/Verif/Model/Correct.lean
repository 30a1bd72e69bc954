import Verif.Model.BlockInfo
import Verif.Model.Galois
/-!
# Model of `src/decode/qr/correct.rs`

`solve` is generic in the code; the decoder only uses it with `GF8`, `zero = GF8(0)`, `one = GF8(1)`,
which is what is modelled. `debug!` output is not modelled.
-/
namespace Verif

/-- `v[i]` (as used throughout src/decode/qr/correct.rs:33-174): panics out of range. -/
def vget {α : Type} (v : List α) (i : Nat) : Run α :=
  match v[i]? with
  | some a => .ret a
  | none => .panic

/-- `v[i] = a` (as used throughout src/decode/qr/correct.rs:33-174): panics out of range. -/
def vset {α : Type} (v : List α) (i : Nat) (a : α) : Run (List α) :=
  if i < v.length then .ret (v.set i a) else .panic

/-- src/decode/qr/correct.rs:68-79 `syndrome`: the loop over the reversed block. -/
def syndromeLoop (base : GF8) : List U8 → GF8 → GF8 → GF8
  | [], synd, _ => synd
  | codeword :: rest, synd, alpha =>
    syndromeLoop base rest (synd.add (alpha.mul ⟨codeword⟩)) (alpha.mul base)

/-- src/decode/qr/correct.rs:68-79 `syndrome`. -/
def syndrome (block : List U8) (base : GF8) : GF8 := syndromeLoop base block.reverse ⟨0⟩ ⟨1⟩

/-- src/decode/qr/correct.rs:54-66 `calculate_syndromes`; `ec_cap * 2` is a checked `u8` product. -/
def calculateSyndromes (block : List U8) (bi : BlockInfo) : Run (Bool × List GF8) :=
  if bi.ec_cap * 2 < 256 then
    let syndromes := (List.range (bi.ec_cap * 2)).map fun i => syndrome block (exp8 i)
    .ret (syndromes.all (· = ⟨0⟩), syndromes)
  else .panic

/-- src/decode/qr/correct.rs:145-149: divide the entries `js` of the row by its entry `i`, in order. -/
def normaliseRow (i : Nat) : List Nat → List GF8 → Run (List GF8)
  | [], row => .ret row
  | j :: js, row => do
    let a ← vget row j
    let b ← vget row i
    let row ← vset row j (a.div b)
    normaliseRow i js row

/-- src/decode/qr/correct.rs:154-156: subtract `row[i]` times the pivot row, for the entries `ks` in
order. -/
def reduceRow (i : Nat) (pivot : List GF8) : List Nat → List GF8 → Run (List GF8)
  | [], row => .ret row
  | k :: ks, row => do
    let a ← vget row k
    let b ← vget row i
    let c ← vget pivot k
    let row ← vset row k (a.sub (b.mul c))
    reduceRow i pivot ks row

/-- src/decode/qr/correct.rs:153-157: reduce the rows `js` by row `i`. -/
def reduceRows (i num_coeff : Nat) : List Nat → List (List GF8) → Run (List (List GF8))
  | [], eq => .ret eq
  | j :: js, eq => do
    let pivot ← vget eq i
    let row ← vget eq j
    let row ← reduceRow i pivot (List.range' i (num_coeff - i)).reverse row
    let eq ← vset eq j row
    reduceRows i num_coeff js eq

/-- src/decode/qr/correct.rs:143-163: the elimination loop over the rows `is`; `none` is the early
`return None`. -/
def eliminate (num_eq num_coeff : Nat) (fail_on_rank : Bool) :
    List Nat → List (List GF8) → Run (Option (List (List GF8)))
  | [], eq => .ret (some eq)
  | i :: is, eq => do
    let row ← vget eq i
    let row ← normaliseRow i (List.range' i (num_coeff - i)).reverse row
    let eq ← vset eq i row
    let eq ← reduceRows i num_coeff (List.range' (i + 1) (num_eq - (i + 1))) eq
    if fail_on_rank then do
      let row ← vget eq i
      let a ← vget row (num_coeff - 1)
      if a = ⟨1⟩ then return none else eliminate num_eq num_coeff fail_on_rank is eq
    else eliminate num_eq num_coeff fail_on_rank is eq

/-- src/decode/qr/correct.rs:169-171: `solution[i] -= eq[i][j] * solution[j]` for the columns `js`. -/
def substituteRow (row : List GF8) (i : Nat) : List Nat → List GF8 → Run (List GF8)
  | [], sol => .ret sol
  | j :: js, sol => do
    let s ← vget sol i
    let a ← vget row j
    let b ← vget sol j
    let sol ← vset sol i (s.sub (a.mul b))
    substituteRow row i js sol

/-- src/decode/qr/correct.rs:167-172: back substitution over the rows `is`. -/
def substitute (num_coeff : Nat) (eq : List (List GF8)) : List Nat → List GF8 → Run (List GF8)
  | [], sol => .ret sol
  | i :: is, sol => do
    let row ← vget eq i
    let a ← vget row (num_coeff - 1)
    let sol ← vset sol i a
    let sol ← substituteRow row i (List.range' (i + 1) (num_coeff - 1 - (i + 1))) sol
    substitute num_coeff eq is sol

/-- src/decode/qr/correct.rs:129-175 `solve` for `GF8`. -/
def solve (eq : List (List GF8)) (fail_on_rank : Bool) : Run (Option (List GF8)) :=
  if eq.length = 0 then .ret none
  else do
    let first ← vget eq 0
    if first.length = 0 then return none
    else do
      let r ← eliminate eq.length first.length fail_on_rank (List.range eq.length) eq
      match r with
      | none => return none
      | some m => do
        let sol ← substitute first.length m (List.range eq.length).reverse
          (List.replicate eq.length ⟨0⟩)
        return some sol

/-- src/decode/qr/correct.rs:97-103: the value of `sigma` at `exp`: the inner loop. -/
def checkLoop (exp : GF8) : List GF8 → GF8 → GF8 → GF8
  | [], x, check => check.add x
  | s :: rest, x, check => checkLoop exp rest (x.mul exp) (check.add (x.mul s))

/-- src/decode/qr/correct.rs:96-109: the roots among the first `total_per` powers. `sigma[0]` panics if
`sigma` is empty (and there is a power to check). -/
def findRoots (sigma : List GF8) : List Nat → Run (List Nat)
  | [] => .ret []
  | i :: is =>
    match sigma with
    | [] => .panic
    | s0 :: rest =>
      match findRoots sigma is with
      | .panic => .panic
      | .ret locs =>
        if checkLoop (exp8 i) rest (exp8 i) s0 = ⟨0⟩ then .ret (i :: locs) else .ret locs

/-- src/decode/qr/correct.rs:84-86: the slice `syndromes[i..z + 1 + i]`, which panics out of range. -/
def hankelRows (z : Nat) (syndromes : List GF8) : List Nat → Run (List (List GF8))
  | [] => .ret []
  | i :: is =>
    if z + 1 + i ≤ syndromes.length then
      match hankelRows z syndromes is with
      | .panic => .panic
      | .ret rows => .ret ((syndromes.drop i).take (z + 1) :: rows)
    else .panic

/-- src/decode/qr/correct.rs:81-114 `find_locs`. `EXP8` has 256 entries, so `take` yields
`min(256, total_per)` powers. -/
def findLocs (bi : BlockInfo) (syndromes : List GF8) : Outcome (List Nat) :=
  match hankelRows bi.ec_cap syndromes (List.range bi.ec_cap) with
  | .panic => .panic
  | .ret eq =>
    match solve eq false with
    | .panic => .panic
    | .ret none => .err ⟨"Could not calculate SIGMA"⟩
    | .ret (some sigma) =>
      match findRoots sigma (List.range (min 256 bi.total_per)) with
      | .panic => .panic
      | .ret locs => .ok locs

/-- src/decode/qr/correct.rs:118-124: the rows of the system for the error values. -/
def distanceRows (syndromes : List GF8) (locs : List Nat) : List Nat → Run (List (List GF8))
  | [] => .ret []
  | i :: is => do
    let s ← vget syndromes i
    let rows ← distanceRows syndromes locs is
    return ((locs.map fun l => exp8 ((i * l) % 255)) ++ [s]) :: rows

/-- src/decode/qr/correct.rs:116-127 `calculate_distances`. -/
def calculateDistances (syndromes : List GF8) (locs : List Nat) : Run (Option (List GF8)) := do
  let eq ← distanceRows syndromes locs (List.range locs.length)
  solve eq false

/-- `u8::count_ones` (src/decode/qr/correct.rs:41). -/
def countOnes (b : U8) : Nat := ((List.range 8).filter fun i => b.getLsbD i).length

/-- src/decode/qr/correct.rs:33-43: the repair loop over pairs `(locs[i], distance[i])`; a missing
`distance[i]`, an underflow or an index out of range panics. `error_count` is a `u32`. -/
def repair (total_per : Nat) : List Nat → List GF8 → List U8 → Nat → Run (List U8 × Nat)
  | [], _, block, count => .ret (block, count)
  | _ :: _, [], _, _ => .panic
  | loc :: locs, d :: ds, block, count => do
    let k ← checkedSub total_per 1
    let k ← checkedSub k loc
    let b ← vget block k
    let block ← vset block k (b ^^^ d.val)
    if count + countOnes d.val < 2 ^ 32 then repair total_per locs ds block (count + countOnes d.val)
    else .panic

/-- src/decode/qr/correct.rs:12-52 `correct_with_error_count`. -/
def correctWithErrorCount (block : List U8) (bi : BlockInfo) : Outcome (List U8 × Nat) :=
  match calculateSyndromes block bi with
  | .panic => .panic
  | .ret (all_fine, syndromes) =>
    if all_fine then .ok (block, 0)
    else do
      let locs ← findLocs bi syndromes
      match calculateDistances syndromes locs with
      | .panic => .panic
      | .ret none => .err ⟨"Could not calculate error distances"⟩
      | .ret (some distance) =>
        match repair bi.total_per locs distance block 0 with
        | .panic => .panic
        | .ret (block, error_count) =>
          if syndrome block (exp8 0) ≠ ⟨0⟩ then .err ⟨"Error correcting did not fix corrupted data"⟩
          else .ok (block, error_count)

/-- src/decode/qr/correct.rs:8-10 `correct`. -/
def correct (block : List U8) (bi : BlockInfo) : Outcome (List U8) :=
  (correctWithErrorCount block bi).map (·.1)

end Verif
