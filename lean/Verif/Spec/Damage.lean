import Verif.Spec.Encode
/-! # Specification: damaged symbols -/
namespace Verif.Spec

/-- Number of places at which two lists differ. -/
def distance {α : Type} [DecidableEq α] (a b : List α) : Nat := (a.zip b).countP fun p => p.1 ≠ p.2

/-- The block number of each codeword, in transmission order: the interleaving of the block numbers. -/
def blockNumbers (v : Nat) (l : ECLevel) : List Nat :=
  finalSequence ((List.range (numBlocks v l)).map fun i =>
    (List.replicate (blockData v l i) i, List.replicate (eccPerBlock v l) i))

end Verif.Spec
