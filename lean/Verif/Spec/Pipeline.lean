import Verif.Model.Pipeline
/-! # Specification: the decoding pipeline as a sequence of component calls -/
namespace Verif.Spec

/-- `Calls extract decode img locs s rs s'`: starting in state `s`, for each location in turn the image and
the location are given to `extract`, what it returns is given to `decode`, and what that returns is the
next result; `s'` is the state after the last call. -/
inductive Calls {σ PREPD LOC DATA RESULT : Type} (extract : Extract σ PREPD LOC DATA)
    (decode : Decode σ DATA RESULT) (img : PREPD) :
    List (Location LOC) → σ → List (Except QRError RESULT) → σ → Prop where
  | nil (s : σ) : Calls extract decode img [] s [] s
  | cons {loc locs s x s1 r s2 rs s'} : extract img loc s = .ret (x, s1) → decode x s1 = .ret (r, s2) →
      Calls extract decode img locs s2 rs s' →
      Calls extract decode img (.qr loc :: locs) s (r :: rs) s'

/-- A builder method call. -/
inductive BuilderCall (σ IMG PREPD LOC DATA RESULT : Type) where
  | prepare (p : Prepare σ IMG PREPD)
  | detect (d : Detect σ PREPD LOC)
  | qr (e : Extract σ PREPD LOC DATA) (d : Decode σ DATA RESULT)

variable {σ IMG PREPD LOC DATA RESULT : Type}

/-- The last element of a list for which a choice function gives a value. -/
def lastSome {α β : Type} (f : α → Option β) (l : List α) : Option β := l.reverse.findSome? f

def BuilderCall.asPrepare : BuilderCall σ IMG PREPD LOC DATA RESULT → Option (Prepare σ IMG PREPD)
  | .prepare p => some p
  | _ => none
def BuilderCall.asDetect : BuilderCall σ IMG PREPD LOC DATA RESULT → Option (Detect σ PREPD LOC)
  | .detect d => some d
  | _ => none
def BuilderCall.asQr : BuilderCall σ IMG PREPD LOC DATA RESULT →
    Option (Extract σ PREPD LOC DATA × Decode σ DATA RESULT)
  | .qr e d => some (e, d)
  | _ => none

end Verif.Spec
