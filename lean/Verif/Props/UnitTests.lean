import Verif.Model.Chomp
import Verif.Model.Galois
import Verif.Model.Format
import Verif.Model.Blocks

/-!
# The unit tests of the crate, on the model

Every `#[test]` function of /repo/src, as a check that the model computes what the code computes. These are tests
of the model's fidelity, not property theorems. (The image tests of /repo/tests are run on the compiled model by
`tools/run_model.py`.)
-/
namespace Verif.Props.UnitTests
open Verif

/-- The answers of successive calls of `chomp`. -/
def chomps : List Nat → Chomp → Run (List (Option Nat))
  | [], _ => return []
  | n :: ns, c => do
    let (r, c') ← c.chomp n
    return r.map BitVec.toNat :: (← chomps ns c')

/-- src/util/chomp.rs:140-145 `empty`. -/
example : chomps [4] (.new []) = .ret [none] := by decide +kernel

/-- src/util/chomp.rs:147-156 `nibbles`. -/
example : chomps [2, 4, 1, 2] (.new [0b11000100#8]) =
    .ret [some 0b11, some 0b0001, some 0b0, none] := by decide +kernel

/-- src/util/chomp.rs:158-167 `chomp`. -/
example : chomps [6, 6, 6, 4, 4] (.new [0b11000100#8, 0b10101010#8]) =
    .ret [some 0b110001, some 0b001010, none, some 0b1010, none] := by decide +kernel

/-- src/util/chomp.rs:169-178 `chomp_on_border`. -/
example : chomps [6, 2, 4, 4, 4] (.new [0b11000100#8, 0b10101010#8]) =
    .ret [some 0b110001, some 0b00, some 0b1010, some 0b1010, none] := by decide +kernel

/-- src/util/chomp.rs:180-187 `chomp_u16`. -/
example : ∃ c, (Chomp.new [0b11000100#8, 0b10101010#8]).chompOrU16 12 () = .ret (.ok 0b110001001010#16, c) ∧
    chomps [4, 4] c = .ret [some 0b1010, none] :=
  ⟨⟨[], 8, some 0b10100000#8, 4⟩, rfl, by decide +kernel⟩

/-- src/util/chomp.rs:189-202 `chomp_a_lot`. -/
example : chomps [6, 8, 8, 8, 8, 8, 8]
    (.new [0b11000100#8, 0b10101010#8, 0b11000100#8, 0b10101010#8, 0b11000100#8, 0b10101010#8]) =
    .ret [some 0b110001, some 0b00101010, some 0b10110001, some 0b00101010, some 0b10110001, some 0b00101010,
      none] := by decide +kernel

/-- An element of the field of 256. -/
def g8 (n : Nat) : GF8 := ⟨BitVec.ofNat 8 n⟩

/-- An element of the field of 16. -/
def g4 (n : Nat) : GF4 := ⟨BitVec.ofNat 4 n⟩

/-- src/decode/qr/galois.rs:115-131 `test_gf8_add`. -/
example : GF8.add (g8 0) (g8 123) = g8 123 ∧ GF8.add (g8 40) (g8 193) = g8 233 ∧
    GF8.add (g8 40) (g8 193) = GF8.add (g8 193) (g8 40) ∧
    GF8.add (GF8.add (g8 40) (g8 193)) (g8 78) = GF8.add (g8 40) (GF8.add (g8 193) (g8 78)) := by decide +kernel

/-- src/decode/qr/galois.rs:133-141 `test_gf8_sub`. -/
example : GF8.sub (g8 123) (g8 123) = g8 0 ∧ GF8.sub (g8 233) (g8 193) = g8 40 ∧
    GF8.sub (g8 233) (g8 40) = g8 193 := by decide +kernel

/-- src/decode/qr/galois.rs:143-170 `test_gf8_mul`. -/
example : GF8.mul (g8 40) (g8 0) = g8 0 ∧ GF8.mul (g8 0) (g8 40) = g8 0 ∧ GF8.mul (g8 40) (g8 1) = g8 40 ∧
    GF8.mul (g8 1) (g8 40) = g8 40 ∧ GF8.mul (g8 40) (g8 193) = g8 67 ∧
    GF8.mul (g8 40) (g8 193) = GF8.mul (g8 193) (g8 40) ∧
    GF8.mul (GF8.mul (g8 40) (g8 193)) (g8 78) = GF8.mul (g8 40) (GF8.mul (g8 193) (g8 78)) ∧
    GF8.mul (g8 40) (GF8.add (g8 193) (g8 78)) =
      GF8.add (GF8.mul (g8 40) (g8 193)) (GF8.mul (g8 40) (g8 78)) := by decide +kernel

/-- src/decode/qr/galois.rs:172-181 `test_gf8_div`. -/
example : GF8.div (g8 40) (g8 40) = g8 1 ∧ GF8.div (g8 40) (g8 1) = g8 40 ∧ GF8.div (g8 67) (g8 193) = g8 40 ∧
    GF8.div (g8 67) (g8 40) = g8 193 := by decide +kernel

/-- src/decode/qr/galois.rs:183-196 `test_gf4_add`. -/
example : GF4.add (g4 0) (g4 5) = g4 5 ∧ GF4.add (g4 3) (g4 7) = g4 4 ∧
    GF4.add (g4 5) (g4 9) = GF4.add (g4 9) (g4 5) ∧
    GF4.add (GF4.add (g4 3) (g4 9)) (g4 10) = GF4.add (g4 3) (GF4.add (g4 9) (g4 10)) := by decide +kernel

/-- src/decode/qr/galois.rs:198-206 `test_gf4_sub`. -/
example : GF4.sub (g4 5) (g4 5) = g4 0 ∧ GF4.sub (g4 4) (g4 3) = g4 7 ∧ GF4.sub (g4 4) (g4 7) = g4 3 := by
  decide +kernel

/-- src/decode/qr/galois.rs:208-232 `test_gf4_mul`. -/
example : GF4.mul (g4 4) (g4 0) = g4 0 ∧ GF4.mul (g4 0) (g4 4) = g4 0 ∧ GF4.mul (g4 4) (g4 1) = g4 4 ∧
    GF4.mul (g4 1) (g4 4) = g4 4 ∧ GF4.mul (g4 7) (g4 3) = g4 9 ∧
    GF4.mul (g4 2) (g4 9) = GF4.mul (g4 9) (g4 2) ∧
    GF4.mul (GF4.mul (g4 2) (g4 9)) (g4 13) = GF4.mul (g4 2) (GF4.mul (g4 9) (g4 13)) ∧
    GF4.mul (g4 2) (GF4.add (g4 5) (g4 11)) =
      GF4.add (GF4.mul (g4 2) (g4 5)) (GF4.mul (g4 2) (g4 11)) := by decide +kernel

/-- src/decode/qr/galois.rs:234-243 `test_gf4_div`. -/
example : GF4.div (g4 4) (g4 4) = g4 1 ∧ GF4.div (g4 4) (g4 1) = g4 4 ∧ GF4.div (g4 9) (g4 7) = g4 3 ∧
    GF4.div (g4 9) (g4 3) = g4 7 := by decide +kernel

/-- src/decode/qr/format.rs:164 `CORRECT`. -/
def formatBits : List Bool := [0, 0, 0, 1, 1, 1, 1, 0, 1, 0, 1, 1, 0, 0, 1].map (· == 1)

/-- The bits at the given positions flipped. -/
def flipped (ps : List Nat) (bits : List Bool) : List Bool := bits.mapIdx fun i b => b ^^ ps.contains i

/-- src/decode/qr/format.rs:166-174 `test_correct`. -/
example : formatCorrect formatBits = .ok formatBits := by decide +kernel

/-- src/decode/qr/format.rs:176-186 `test_fixable`. -/
example : formatCorrect (flipped [4, 12] formatBits) = .ok formatBits := by decide +kernel

/-- src/decode/qr/format.rs:188-203 `test_corrupt`. -/
example : ∃ e, formatCorrect (flipped [4, 5, 6, 12, 13] formatBits) = .err e :=
  ⟨⟨"Format information corrupted"⟩, by decide +kernel⟩

/-- src/decode/qr/blocks.rs:296-315 `test_alignment_locs`. -/
example : ∃ al, alignmentLocation 36 = .ok al ∧ ∀ x < 4 * 36 + 17, (isAlignmentCoord al x = true ↔
    (4 ≤ x ∧ x ≤ 8) ∨ (22 ≤ x ∧ x ≤ 26) ∨ (48 ≤ x ∧ x ≤ 52) ∨ (74 ≤ x ∧ x ≤ 78) ∨ (100 ≤ x ∧ x ≤ 104) ∨
    (126 ≤ x ∧ x ≤ 130) ∨ (152 ≤ x ∧ x ≤ 156)) :=
  ⟨_, rfl, by decide +kernel⟩

end Verif.Props.UnitTests
