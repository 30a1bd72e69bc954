import Verif.Lemmas.Scan
import Verif.Props.Finder
import Verif.Spec.Detection

/-!
# Run lengths and the counters of the line scanner
-/
namespace Verif
open F64 LineScan FinderPattern Spec

theorem runs_ne_nil {α : Type} [DecidableEq α] (a : α) (l : List α) : ∃ n ns, runs (a :: l) = (n + 1) :: ns := by
  induction l generalizing a with
  | nil => exact ⟨0, [], rfl⟩
  | cons b l ih =>
    unfold runs
    split
    · obtain ⟨n, ns, h⟩ := ih b
      rw [h]; exact ⟨_, _, rfl⟩
    · exact ⟨0, _, rfl⟩

theorem runs_same {α : Type} [DecidableEq α] {a : α} {l : List α} {n : Nat} {ns : List Nat}
    (h : runs (a :: l) = n :: ns) : runs (a :: a :: l) = (n + 1) :: ns := by
  conv_lhs => unfold runs
  rw [if_pos rfl, h]

theorem runs_diff {α : Type} [DecidableEq α] {a b : α} {l : List α} (h : a ≠ b) :
    runs (a :: b :: l) = 1 :: runs (b :: l) := by
  conv_lhs => unfold runs
  rw [if_neg h]

theorem runs_sum {α : Type} [DecidableEq α] (l : List α) : (runs l).sum = l.length := by
  induction l with
  | nil => rfl
  | cons a l ih =>
    cases l with
    | nil => rfl
    | cons b l =>
      obtain ⟨n, ns, h⟩ := runs_ne_nil b l
      by_cases hab : a = b
      · subst hab
        rw [runs_same h]
        rw [h] at ih
        simp only [List.sum_cons, List.length_cons] at ih ⊢
        omega
      · rw [runs_diff hab]
        simp only [List.sum_cons, List.length_cons] at ih ⊢
        omega

theorem runs_replicate {α : Type} [DecidableEq α] (a : α) (n : Nat) (l : List α)
    (h : ∀ b, l.head? = some b → a ≠ b) : runs (List.replicate (n + 1) a ++ l) = (n + 1) :: runs l := by
  induction n with
  | zero =>
    cases l with
    | nil => rfl
    | cons b l => exact runs_diff (h b rfl)
  | succ n ih => exact runs_same ih

namespace FinderPattern

/-- The counters that belong to the runs of a line, latest first. -/
def of (rs : List Nat) : FinderPattern :=
  ⟨rs.getD 6 0, rs.getD 5 0, rs.getD 4 0, rs.getD 3 0, rs.getD 2 0, rs.getD 1 0, rs.getD 0 0⟩

theorem of_total (rs : List Nat) : (of rs).total ≤ rs.sum := by
  unfold of total
  rcases rs with _ | ⟨a, _ | ⟨b, _ | ⟨c, _ | ⟨d, _ | ⟨e, _ | ⟨f, _ | ⟨g, rs⟩⟩⟩⟩⟩⟩⟩ <;>
    simp <;> omega

theorem of_grow (n : Nat) (ns : List Nat) : of ((n + 1) :: ns) = { of (n :: ns) with p6 := (of (n :: ns)).p6 + 1 } := rfl

theorem slide_regular {s : FinderPattern} (h : s.total < 2 ^ 32) (hs : s.p5 ≤ 10 * s.p6 ∨ s.p4 = 0) :
    s.slide = .ret ⟨s.p1, s.p2, s.p3, s.p4, s.p5, s.p6, 1⟩ := by
  have h5 : s.p5 < 2 ^ 32 := by unfold total at h; omega
  have h6 : s.p6 < 2 ^ 32 := by unfold total at h; omega
  unfold slide
  rw [if_neg]
  · rfl
  · rcases hs with hs | hs
    · have hs' : (s.p5 : ℚ) ≤ 10 * s.p6 := by exact_mod_cast hs
      have h5' := cast_lt_u32 h5
      rw [ofNat_fin (u32_53 h5), ofNat_fin (u32_53 h6), lit_nat (by norm_num), div_fin (by norm_num), lt_fin]
      · have := roundQ_le_nat (u32_53 h6) (q := (s.p5 : ℚ) / ((10 : Nat) : ℚ))
          (by rw [div_le_iff₀ (by norm_num)]; push_cast; linarith)
        rw [decide_eq_false (by linarith)]
        simp
      · rw [abs_of_nonneg (by positivity), div_le_iff₀ (by norm_num)]
        push_cast; linarith
    · rw [hs]; simp

/-- At a colour change the counters move on, if the line has been steady. -/
theorem slide_of {rs : List Nat} (h : rs.sum < 2 ^ 32) (hs : Steady rs) : (of rs).slide = .ret (of (1 :: rs)) := by
  rw [slide_regular (lt_of_le_of_lt (of_total rs) h)]
  · rfl
  · unfold of
    rcases rs with _ | ⟨a, _ | ⟨b, _ | ⟨c, rs⟩⟩⟩
    · simp
    · simp
    · simp
    · left; simpa [Steady] using hs

/-- What is accepted ends like a finder pattern. -/
theorem of_accepted {rs : List Nat} (h : rs.sum < 2 ^ 32) (ha : (of rs).looksLikeFinder = .ret true) :
    finderEnd rs = some (of rs).five := by
  have ht := lt_of_le_of_lt (of_total rs) h
  have h5 : (of rs).p2 + (of rs).p3 + (of rs).p4 + (of rs).p5 + (of rs).p6 < 2 ^ 32 := by
    unfold total at ht; omega
  have := Props.accepted_is_finder_shaped _ h5 ha
  unfold finderEnd
  rcases rs with _ | ⟨a, _ | ⟨b, _ | ⟨c, _ | ⟨d, _ | ⟨e, rs⟩⟩⟩⟩⟩
  · simp [of, FinderShaped] at this
  · simp [of, FinderShaped] at this; omega
  · simp [of, FinderShaped] at this; omega
  · simp [of, FinderShaped] at this; omega
  · simp [of, FinderShaped] at this; omega
  · simp only
    rw [if_pos (show FinderShaped e d c b a from this)]; rfl

theorem looks_cases {s : FinderPattern} (h : s.total < 2 ^ 32) :
    s.looksLikeFinder = .ret false ∨ s.looksLikeFinder = .ret true := by
  obtain ⟨b, hb, -⟩ := looks_ret h
  cases b
  · exact Or.inl hb
  · exact Or.inr hb

end FinderPattern

namespace LineScan

/-- Grey value as a byte. -/
def pix (img : GrayImage) (x y : Nat) : U8 := img.pixels.getD (y * img.width + x) 0

theorem grey_pix (img : GrayImage) (x y : Nat) : grey img x y = (pix img x y).toNat := rfl

theorem pix_eq_iff {img : GrayImage} {x y x' y' : Nat} :
    pix img x y = pix img x' y' ↔ grey img x y = grey img x' y' := by
  rw [grey_pix, grey_pix, BitVec.toNat_inj]

theorem getPixel_pix {img : GrayImage} (hv : img.Valid) {x y : Nat} (hx : x < img.width) (hy : y < img.height) :
    img.getPixel x y = .ret (pix img x y) := by
  obtain ⟨p, hp⟩ := getPixel_ret hv hx hy
  rw [hp]
  unfold GrayImage.getPixel at hp
  rw [if_pos ⟨hx, hy⟩] at hp
  unfold pix
  rw [List.getD_eq_getElem?_getD]
  cases hq : img.pixels[y * img.width + x]? with
  | none => rw [hq] at hp; simp at hp
  | some q => rw [hq] at hp; simp only [Run.ret.injEq] at hp; rw [hp]; rfl

/-! ### Steps of `refine` -/

theorem loop_same {img : GrayImage} {ms : F64} {diag : Bool} {x y : Nat} {rest : List (Nat × Nat)} {lp : U8}
    {s : FinderPattern} {lx ly : Nat} (hp : img.getPixel x y = .ret lp) (ht : s.total + 1 < 2 ^ 32) :
    refineLoop img ms diag ((x, y) :: rest) lp s lx ly =
      refineLoop img ms diag rest lp { s with p6 := s.p6 + 1 } x y := by
  rw [refineLoop, hp, Run.ret_bind, if_pos rfl, (grow_ret ht).1, Run.ret_bind]

theorem loop_move {img : GrayImage} {ms : F64} {diag : Bool} {x y : Nat} {rest : List (Nat × Nat)} {lp p : U8}
    {s s' : FinderPattern} {lx ly : Nat} (hp : img.getPixel x y = .ret p) (hne : p ≠ lp)
    (ha : accept ms diag s x y = .ret none) (hs : s.slide = .ret s') :
    refineLoop img ms diag ((x, y) :: rest) lp s lx ly = refineLoop img ms diag rest p s' x y := by
  rw [refineLoop, hp, Run.ret_bind, if_neg hne, ha, Run.ret_bind]
  simp only
  rw [hs, Run.ret_bind]

theorem loop_found {img : GrayImage} {ms : F64} {diag : Bool} {x y : Nat} {rest : List (Nat × Nat)} {lp p : U8}
    {s : FinderPattern} {lx ly : Nat} {pos : FinderPosition} (hp : img.getPixel x y = .ret p) (hne : p ≠ lp)
    (ha : accept ms diag s x y = .ret (some pos)) :
    refineLoop img ms diag ((x, y) :: rest) lp s lx ly = .ret (some pos) := by
  rw [refineLoop, hp, Run.ret_bind, if_neg hne, ha, Run.ret_bind]
  rfl

theorem accept_none {ms : F64} {diag : Bool} {s : FinderPattern} {x y : Nat}
    (h : s.looksLikeFinder = .ret false) : accept ms diag s x y = .ret none := by
  unfold accept; rw [h, Run.ret_bind]; rfl

theorem accept_not_similar {ms : F64} {s : FinderPattern} {x y : Nat} (h : s.total < 2 ^ 32)
    (hd : F64.lt (diff ms (.fin (modQ s.five))) (F64.lit 2 10) = false) : accept ms false s x y = .ret none := by
  rcases looks_cases h with hl | hl
  · exact accept_none hl
  · unfold accept
    rw [hl, Run.ret_bind]
    simp only [if_true]
    rw [est_ret h, Run.ret_bind, hd]
    rfl

theorem accept_some {ms : F64} {diag : Bool} {s : FinderPattern} {x y : Nat} (h : s.total < 2 ^ 32)
    (hl : s.looksLikeFinder = .ret true)
    (hd : (F64.lt (diff ms (.fin (modQ s.five))) (F64.lit 2 10) || diag) = true) :
    accept ms diag s x y = .ret (some (found ms x y s.five)) := by
  unfold accept
  rw [hl, Run.ret_bind]
  simp only [if_true]
  rw [est_ret h, Run.ret_bind, if_pos hd]
  rfl

end LineScan
end Verif
