import Verif.Spec.Enlarged

/-!
# Resized images

An image may be resized by any factor, not only by whole numbers: then the modules of a symbol do not all have the same
number of pixels. Sizes are in pixels of the small image, which are the modules of the resized one.
-/
namespace Verif.Spec

/-- `img` shows `g` resized to the width and the height of `img`: every pixel has the grey value of the pixel of `g` that
its centre falls on (nearest neighbour). -/
def Resized (img g : GrayImage) : Prop :=
  ∀ x < img.width, ∀ y < img.height,
    grey img x y = grey g ((2 * x + 1) * g.width / (2 * img.width)) ((2 * y + 1) * g.height / (2 * img.height))

/-- The last completed run (the first of the list) is clearly not shorter than a tenth of the one before. The first two
runs of a line do not matter. -/
def Calm : List Nat → Prop
  | b :: a :: _ :: _ => a + 2 ≤ 10 * b
  | _ => True

instance (rs : List Nat) : Decidable (Calm rs) := by unfold Calm; split <;> infer_instance

/-- In every row, no run is shorter than about a tenth of the one before, the first two aside. -/
def CalmRows (g : GrayImage) : Prop :=
  ∀ y < g.height, ∀ x < g.width, changesAt g x y → Calm (runs (leftOf g x y))

/-- Five runs that may have the shape of a finder pattern, `FinderShaped`, after resizing. -/
def NearlyShaped (a b c d e : Nat) : Prop :=
  let t := a + b + c + d + e
  (t ≤ 21 * a + 2 ∧ 21 * a ≤ 5 * t + 3) ∧ (t ≤ 21 * b + 2 ∧ 21 * b ≤ 5 * t + 3) ∧
  (t ≤ 3 * c ∧ 21 * c ≤ 11 * t + 3) ∧
  (t ≤ 21 * d + 2 ∧ 21 * d ≤ 5 * t + 3) ∧ (t ≤ 21 * e + 2 ∧ 21 * e ≤ 5 * t + 3)

instance (a b c d e : Nat) : Decidable (NearlyShaped a b c d e) := by unfold NearlyShaped; infer_instance

/-- The last five runs, the first five of the list, may have the shape of a finder pattern after resizing. -/
def NearlyEnd : List Nat → Prop
  | e :: d :: c :: b :: a :: _ => NearlyShaped a b c d e
  | _ => False

instance (rs : List Nat) : Decidable (NearlyEnd rs) := by unfold NearlyEnd; split <;> infer_instance

/-- Only the rows through the middle of the finder patterns at `fs` have anything like their shape. -/
def NothingAlike (g : GrayImage) (fs : List (Nat × Nat)) : Prop :=
  ∀ y < g.height, ∀ x ≤ g.width, RunEnd g x y → NearlyEnd (runs (leftOf g x y)) →
    ∃ f ∈ fs, x = f.1 + 7 ∧ f.2 + 2 ≤ y ∧ y < f.2 + 5

end Verif.Spec
