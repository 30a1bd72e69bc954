import Verif.Props.DetectExamples
import Verif.Props.Once

/-!
# Example for C79: four finder patterns in a square make four locations
-/
namespace Verif.Props
open Verif Verif.Spec LineScan

/-- Four finder patterns, one pixel per module. Any three of them could be those of a symbol. -/
def fourFinders : GrayImage := finderImage 24 24 1 [(1, 2), (14, 2), (1, 15), (14, 15)]

/-- What is found. Any two of these locations share two finder patterns. -/
def fourLocations : List QRLocation :=
  [⟨⟨.fin (9 / 2), .fin 5⟩, ⟨.fin (35 / 2), .fin 6⟩, ⟨.fin (9 / 2), .fin 18⟩, .fin 1, 1⟩,
   ⟨⟨.fin (35 / 2), .fin 6⟩, ⟨.fin (35 / 2), .fin 19⟩, ⟨.fin (9 / 2), .fin 5⟩, .fin 1, 1⟩,
   ⟨⟨.fin (9 / 2), .fin 18⟩, ⟨.fin (9 / 2), .fin 5⟩, ⟨.fin (35 / 2), .fin 19⟩, .fin 1, 1⟩,
   ⟨⟨.fin (35 / 2), .fin 19⟩, ⟨.fin (9 / 2), .fin 18⟩, ⟨.fin (35 / 2), .fin 6⟩, .fin 1, 1⟩]

set_option maxRecDepth 100000 in
theorem fourFinders_detected : detect fourFinders = .ret fourLocations := by decide +kernel

example : fourLocations.Pairwise fun a b => HasItsOwn a b ∧ HasItsOwn b a :=
  no_symbol_located_twice fourFinders (finderImage_valid (by norm_num) (by norm_num)) (by decide) fourLocations
    fourFinders_detected

end Verif.Props
