import Verif.Model.LineScan
import Verif.Model.Extract
import Verif.Spec.Negative

/-!
# Detection and extraction in images with other colours
-/
namespace Verif
open Spec

variable {f : U8 → U8} {img : GrayImage}

/-- The value of a run with `f` applied. -/
def Run.mapRet {α β : Type} (f : α → β) : Run α → Run β
  | .ret a => .ret (f a)
  | .panic => .panic

theorem recoloured_getPixel (f : U8 → U8) (img : GrayImage) (x y : Nat) :
    (recoloured f img).getPixel x y = (img.getPixel x y).mapRet f := by
  unfold GrayImage.getPixel recoloured
  simp only
  split
  · rw [List.getElem?_map]
    cases img.pixels[y * img.width + x]? <;> rfl
  · rfl

theorem recoloured_enumerate (f : U8 → U8) (img : GrayImage) :
    (recoloured f img).enumeratePixels = img.enumeratePixels.map fun q => (q.1, q.2.1, f q.2.2) := by
  unfold GrayImage.enumeratePixels recoloured
  simp only
  rw [List.zipIdx_map, List.map_map, List.map_map]
  rfl

namespace LineScan

theorem recoloured_refineLoop (hf : Function.Injective f) (ms : F64) (diag : Bool) :
    ∀ (rest : List (Nat × Nat)) (lp : U8) (s : FinderPattern) (lx ly : Nat),
      refineLoop (recoloured f img) ms diag rest (f lp) s lx ly = refineLoop img ms diag rest lp s lx ly := by
  intro rest
  induction rest with
  | nil => intro lp s lx ly; rfl
  | cons q rest ih =>
    intro lp s lx ly
    obtain ⟨x, y⟩ := q
    unfold refineLoop
    rw [recoloured_getPixel]
    cases img.getPixel x y with
    | panic => rfl
    | ret p =>
      simp only [Run.mapRet, Run.ret_bind]
      by_cases hp : p = lp
      · rw [if_pos hp, if_pos (by rw [hp])]
        cases addU32 s.p6 1 with
        | panic => rfl
        | ret p6 => rw [Run.ret_bind, Run.ret_bind, ih]
      · rw [if_neg hp, if_neg (fun h => hp (hf h))]
        cases accept ms diag s x y with
        | panic => rfl
        | ret r =>
          rw [Run.ret_bind, Run.ret_bind]
          cases r with
          | some pos => rfl
          | none =>
            simp only
            cases s.slide with
            | panic => rfl
            | ret s' => rw [Run.ret_bind, Run.ret_bind, ih]

theorem recoloured_refine (hf : Function.Injective f) (h127 : f 127#8 = 127#8) (ms : F64) (l : List (Nat × Nat))
    (diag : Bool) : refine (recoloured f img) ms l diag = refine img ms l diag := by
  unfold refine
  have h := recoloured_refineLoop (img := img) hf ms diag l 127#8 {} 0 0
  rw [h127] at h
  exact h

theorem recoloured_refineAll (hf : Function.Injective f) (h127 : f 127#8 = 127#8) (p : Point) (ms : F64) :
    refineAll (recoloured f img) p ms = refineAll img p ms := by
  have hv : ∀ p ms, refineVertical (recoloured f img) p ms = refineVertical img p ms :=
    fun p ms => recoloured_refine hf h127 _ _ _
  have hh : ∀ p ms, refineHorizontal (recoloured f img) p ms = refineHorizontal img p ms :=
    fun p ms => recoloured_refine hf h127 _ _ _
  have hd : ∀ p ms, refineDiagonal (recoloured f img) p ms = refineDiagonal img p ms :=
    fun p ms => recoloured_refine hf h127 _ _ _
  unfold refineAll
  simp only [hv, hh, hd]

/-- The state with the last pixel in the other colour. -/
def recolouredScan (f : U8 → U8) (st : Scan) : Scan := { st with last_pixel := f st.last_pixel }

theorem recoloured_atChange (hf : Function.Injective f) (h127 : f 127#8 = 127#8) (x y : Nat) (p : U8) (st : Scan) :
    atChange (recoloured f img) x y (f p) (recolouredScan f st) = (atChange img x y p st).mapRet (recolouredScan f) := by
  unfold atChange recolouredScan
  simp only [recoloured_refineAll hf h127]
  cases st.pattern.looksLikeFinder with
  | panic => rfl
  | ret b =>
    simp only [Run.ret_bind]
    cases b with
    | false =>
      cases st.pattern.slide <;> rfl
    | true =>
      simp only [if_true]
      cases st.pattern.estModSize with
      | panic => rfl
      | ret ms =>
        simp only [Run.ret_bind]
        split
        · cases st.pattern.slide <;> rfl
        · cases refineAll img ⟨F64.ofNat x - ms * F64.lit 35 10, F64.ofNat y⟩ ms with
          | panic => rfl
          | ret r =>
            simp only [Run.ret_bind]
            cases r with
            | none => cases st.pattern.slide <;> rfl
            | some r =>
              obtain ⟨a, b⟩ := r
              simp only
              cases st.pattern.slide <;> rfl

theorem recoloured_scanPixel (hf : Function.Injective f) (h127 : f 127#8 = 127#8) (st : Scan) (q : Nat × Nat × U8) :
    scanPixel (recoloured f img) (recolouredScan f st) (q.1, q.2.1, f q.2.2) =
      (scanPixel img st q).mapRet (recolouredScan f) := by
  obtain ⟨x, y, p⟩ := q
  unfold scanPixel
  simp only
  have hst : (if x = 0 then { recolouredScan f st with last_pixel := 127#8, pattern := {} } else recolouredScan f st) =
      recolouredScan f (if x = 0 then { st with last_pixel := 127#8, pattern := {} } else st) := by
    split
    · unfold recolouredScan; simp only [h127]
    · rfl
  rw [hst]
  generalize (if x = 0 then { st with last_pixel := 127#8, pattern := {} } else st : Scan) = st1
  by_cases hp : p = st1.last_pixel
  · rw [if_pos hp, if_pos (show f p = (recolouredScan f st1).last_pixel by rw [hp]; rfl)]
    change (addU32 st1.pattern.p6 1 >>= _) = _
    cases addU32 st1.pattern.p6 1 with
    | panic => rfl
    | ret p6 =>
      simp only [Run.ret_bind]
      change (checkedSub img.width 1 >>= _) = _
      cases checkedSub img.width 1 with
      | panic => rfl
      | ret n =>
        simp only [Run.ret_bind]
        split
        · rfl
        · exact recoloured_atChange hf h127 x y p { st1 with pattern := { st1.pattern with p6 := p6 } }
  · rw [if_neg hp, if_neg (show ¬ f p = (recolouredScan f st1).last_pixel from fun h => hp (hf h))]
    exact recoloured_atChange hf h127 x y p st1

theorem recoloured_fold (hf : Function.Injective f) (h127 : f 127#8 = 127#8) :
    ∀ (l : List (Nat × Nat × U8)) (st : Scan),
      (l.map fun q => (q.1, q.2.1, f q.2.2)).foldlM (scanPixel (recoloured f img)) (recolouredScan f st) =
        (l.foldlM (scanPixel img) st).mapRet (recolouredScan f) := by
  intro l
  induction l with
  | nil => intro st; rfl
  | cons q l ih =>
    intro st
    rw [List.map_cons, List.foldlM_cons, List.foldlM_cons, recoloured_scanPixel hf h127]
    cases scanPixel img st q with
    | panic => rfl
    | ret st' =>
      simp only [Run.mapRet, Run.ret_bind]
      exact ih st'

theorem recoloured_detect (hf : Function.Injective f) (h127 : f 127#8 = 127#8) :
    detect (recoloured f img) = detect img := by
  have hc : candidates (recoloured f img) = candidates img := by
    unfold candidates
    rw [recoloured_enumerate]
    have h := recoloured_fold (img := img) hf h127 img.enumeratePixels ⟨[], 127#8, {}⟩
    have e : recolouredScan f ⟨[], 127#8, {}⟩ = ⟨[], 127#8, {}⟩ := by unfold recolouredScan; simp only [h127]
    rw [e] at h
    rw [h]
    cases img.enumeratePixels.foldlM (scanPixel img) ⟨[], 127#8, {}⟩ <;> rfl
  unfold detect
  rw [hc]

end LineScan

namespace Extractor

theorem recoloured_sampleRow (f : U8 → U8) (img : GrayImage) (dx : Delta) : ∀ (n : Nat) (p : Point),
    sampleRow (recoloured f img) dx n p = (sampleRow img dx n p).mapRet (List.map f) := by
  intro n
  induction n with
  | zero => intro p; rfl
  | succ n ih =>
    intro p
    unfold sampleRow pixelAt
    rw [recoloured_getPixel, ih]
    cases img.getPixel p.x.round.toU32 p.y.round.toU32 with
    | panic => rfl
    | ret a =>
      simp only [Run.mapRet, Run.ret_bind]
      cases sampleRow img dx n (p + dx) <;> rfl

theorem recoloured_sampleRows (f : U8 → U8) (img : GrayImage) (p : Perspective) (size : Nat) :
    ∀ (n : Nat) (s : Point) (dx dy : Delta),
      sampleRows (recoloured f img) p size n s dx dy = (sampleRows img p size n s dx dy).mapRet (List.map f) := by
  intro n
  induction n with
  | zero => intro s dx dy; rfl
  | succ n ih =>
    intro s dx dy
    unfold sampleRows
    rw [recoloured_sampleRow, ih]
    cases sampleRow img dx size (s - F64.lit 3 * dx) with
    | panic => rfl
    | ret a =>
      simp only [Run.mapRet, Run.ret_bind]
      cases sampleRows img p size n (s + dy) (dx + p.ddx) (dy + p.ddy) with
      | panic => rfl
      | ret b => simp [Run.mapRet]

/-- The outcome with `f` applied to a result. -/
def mapOk {α β : Type} (f : α → β) : Outcome α → Outcome β
  | .ok a => .ok (f a)
  | .err e => .err e
  | .panic => .panic

theorem recoloured_extract (f : U8 → U8) (img : GrayImage) (loc : QRLocation) (h1 : loc.version = 1) :
    extract (recoloured f img) loc = mapOk (fun q => { q with data := q.data.map f }) (extract img loc) := by
  unfold extract
  rw [h1]
  cases mulU32 1 4 with
  | panic => rfl
  | ret v4 =>
    simp only
    cases addU32 17 v4 with
    | panic => rfl
    | ret size =>
      simp only
      have hp : determinePerspective (recoloured f img) 1 size loc = determinePerspective img 1 size loc := rfl
      rw [hp]
      cases determinePerspective img 1 size loc with
      | panic => rfl
      | err e => rfl
      | ok p =>
        simp only [recoloured_sampleRows]
        cases sampleRows img p size size (loc.top_left - F64.lit 3 * p.dy - F64.lit 3 * p.ddy)
            (p.dx - F64.lit 3 * p.ddx) (p.dy - F64.lit 3 * p.ddy) with
        | panic => rfl
        | ret data =>
          simp only [Run.mapRet]
          unfold QRData.new
          rw [if_pos (by decide), if_pos (by decide)]
          rfl

end Extractor
end Verif
