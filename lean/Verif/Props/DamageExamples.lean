import Verif.Props.Damage
import Verif.Props.DecoderExamples
/-! # A concrete case for `Verif.Props.Damage` -/
namespace Verif.Props
open Spec

/-- `helloGrid` with five modules of codeword 3 and two format modules inverted. -/
def helloGridHit : QRData :=
  { helloGrid with data := (List.range 441).map fun i =>
      if (i % 21, i / 21) ∈ ((dataModules 1).drop 24).take 5 ∨ (i % 21, i / 21) ∈ [(0, 8), (8, 7)] then
        255 - helloGrid.data.getD i 0
      else helloGrid.data.getD i 0 }

/-- The hypotheses of `damaged_symbol_decodes` hold of `helloGridHit`; five errors are reported. -/
example : ∃ info, qrDecodeWithInfo (.ok helloGridHit) = .ok ("HELLO WORLD".toList, info) ∧ info.errors = 5 := by
  obtain ⟨-, info, h, -, -, he⟩ := damaged_symbol_decodes helloGridHit helloGrid 1 (by decide) (by decide) .medium 2
    (by decide) (by decide) helloSegments (by unfold Segment.fits; decide) _ helloSegments_text helloGrid_isSymbol
    (by unfold WellFormed; decide +kernel)
    [true, false, false, false, false, false, false, false, true, false, false, false, false, false, false]
    (by decide) (by decide) (by decide) (by unfold Shows; decide +kernel) (· = 3)
    (fun i j _ hi hj _ _ => hi.trans hj.symm) (by
      have hall : ∀ i < 208, i / 8 ≠ 3 → ∀ p, (dataModules 1)[i]? = some p →
          moduleAt helloGridHit p.1 p.2 = moduleAt helloGrid p.1 p.2 := by
        have : ∀ i < 208, i / 8 ≠ 3 → ((dataModules 1)[i]?.map fun p => moduleAt helloGridHit p.1 p.2) =
            ((dataModules 1)[i]?.map fun p => moduleAt helloGrid p.1 p.2) := by decide +kernel
        intro i hi hne p hp
        have := this i hi hne
        rw [hp] at this
        exact Option.some.inj this
      intro i p hp hne
      refine hall i ?_ hne p hp
      have hlt := (List.getElem?_eq_some_iff.mp hp).1
      have : (dataModules 1).length = 208 := by decide +kernel
      omega)
  refine ⟨info, h, he.trans ?_⟩
  decide +kernel

end Verif.Props
