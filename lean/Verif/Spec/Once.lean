import Verif.Spec.Geometry
import Verif.Model.Point
import Verif.Model.Format

/-!
# Locations that are not the same
-/
namespace Verif.Spec

/-- The location reports these centres of the finder patterns and this module size. -/
def Reports (qr : QRLocation) (centres : List Pt) (m : ℚ) : Prop :=
  [qr.top_left, qr.top_right, qr.bottom_left] = centres.map (fun p => (⟨.fin p.1, .fin p.2⟩ : Point)) ∧
  qr.module_size = .fin m

/-- One of the finder patterns of `a` is none of those of `b`: its centre is more than half a module away from
each of them, half of the smaller module. -/
def HasItsOwn (a b : QRLocation) : Prop :=
  ∃ (as bs : List Pt) (m n : ℚ), Reports a as m ∧ Reports b bs n ∧
    ∃ p ∈ as, ∀ q ∈ bs, (min m n / 2) ^ 2 < dist2 p q

end Verif.Spec
