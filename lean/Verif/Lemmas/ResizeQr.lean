import Verif.Lemmas.RuledQr
import Verif.Lemmas.Resize
import Verif.Lemmas.Finders

/-!
# Symbols in resized images are located
-/
namespace Verif
namespace LineScan
open F64 FinderPattern Spec

section
variable {img g : GrayImage} {n w : Nat}

theorem edge_near (hn : 0 < n) (j : Nat) :
    (j : ℚ) * ((w : ℚ) / n) - 1 / 2 ≤ edge n w j ∧ (edge n w j : ℚ) ≤ j * ((w : ℚ) / n) + 1 / 2 := by
  obtain ⟨h1, h2⟩ := edge_bounds (w := w) hn j
  have n0 : (0 : ℚ) < n := by exact_mod_cast hn
  have k1 : (2 : ℚ) * n * edge n w j + 1 ≤ 2 * w * j + n := by exact_mod_cast h1
  have k2 : (2 : ℚ) * w * j ≤ 2 * n * edge n w j + n := by exact_mod_cast h2
  have e : (w : ℚ) = n * ((w : ℚ) / n) := by field_simp
  rw [e] at k1 k2
  generalize (w : ℚ) / n = m at *
  constructor
  · refine le_of_mul_le_mul_left ?_ n0; linarith
  · refine le_of_mul_le_mul_left ?_ n0; linarith

theorem seven_near (hn : 0 < n) :
    7 * ((w : ℚ) / n) - 1 ≤ (7 * w / n : Nat) ∧ ((7 * w / n : Nat) : ℚ) ≤ 7 * ((w : ℚ) / n) := by
  have n0 : (0 : ℚ) < n := by exact_mod_cast hn
  have h1 : n * (7 * w / n) ≤ 7 * w := Nat.mul_div_le _ _
  have h2 : 7 * w < n * (7 * w / n) + n := Nat.lt_mul_div_succ _ hn
  have k1 : (n : ℚ) * (7 * w / n : Nat) ≤ 7 * w := by exact_mod_cast h1
  have k2 : (7 : ℚ) * w < n * (7 * w / n : Nat) + n := by exact_mod_cast h2
  have e : (w : ℚ) = n * ((w : ℚ) / n) := by field_simp
  rw [e] at k1 k2
  generalize (w : ℚ) / n = m at *
  generalize ((7 * w / n : Nat) : ℚ) = d at *
  constructor
  · refine le_of_mul_le_mul_left ?_ n0; linarith
  · refine le_of_mul_le_mul_left ?_ n0; linarith

/-- A point close to the middle of the finder pattern at module `f`, in edges of pixels. -/
structure NearMiddle (m : ℚ) (fx fy : Nat) (p : Pt) : Prop where
  x1 : ((fx : ℚ) + 7 / 2) * m - 51 / 100 ≤ p.1
  x2 : p.1 ≤ ((fx : ℚ) + 7 / 2) * m + 51 / 100
  y1 : ((fy : ℚ) + 7 / 2) * m - 3 ≤ p.2
  y2 : p.2 ≤ ((fy : ℚ) + 7 / 2) * m + 1

theorem candidate_near (h : Square img g n w) (hb : w < 2 ^ 26) {fx fy : Nat}
    (hr : Ruled img (resizedLines n w fx) (resizedLines n w fy) (w / n) (3 * w / n) (5 * w / n) (7 * w / n))
    {c : FinderPosition} (hc : RuledCandidate (7 * w / n) (resizedLines n w fx, resizedLines n w fy) c) :
    ∃ (p : Pt) (μ : ℚ), c.location = ⟨.fin p.1, .fin p.2⟩ ∧ c.module_size = .fin μ ∧ NearMiddle ((w : ℚ) / n) fx fy p ∧
      (w : ℚ) / n - 27 / 125 ≤ μ ∧ μ ≤ (w : ℚ) / n + 36 / 250 := by
  obtain ⟨r, μ, rfl, hcf⟩ := hc
  obtain ⟨-, -, -, -, hx⟩ := ruled_modQ (f := (resizedLines n w fx, resizedLines n w fy)) hr (by rw [h.iw]; exact hb)
  obtain ⟨c1, c2, c3, c4⟩ := hcf
  obtain ⟨s1, s2⟩ := seven_near (w := w) h.pos
  simp only at hx c1 c2 c3 c4
  have q1 : ((resizedLines n w fy).a0 : ℚ) + (resizedLines n w fy).a7 ≤ 2 * r + 5 := by exact_mod_cast c1
  have q2 : (2 : ℚ) * r ≤ (resizedLines n w fy).a0 + (resizedLines n w fy).a7 + 1 := by exact_mod_cast c2
  have ex0 := edge_near (w := w) h.pos fx
  have ex7 := edge_near (w := w) h.pos (fx + 7)
  have ey0 := edge_near (w := w) h.pos fy
  have ey7 := edge_near (w := w) h.pos (fy + 7)
  rw [abs_le] at hx
  refine ⟨(centreQ (resizedLines n w fx).a7 ((resizedLines n w fx).a7 - (resizedLines n w fx).a0), (r : ℚ)), μ, rfl, rfl, ?_, ?_, ?_⟩
  · have b0 : (resizedLines n w fx).a0 = edge n w fx := rfl
    have b7 : (resizedLines n w fx).a7 = edge n w (fx + 7) := rfl
    have d0 : (resizedLines n w fy).a0 = edge n w fy := rfl
    have d7 : (resizedLines n w fy).a7 = edge n w (fy + 7) := rfl
    rw [b0, b7] at hx
    rw [d0, d7] at q1 q2
    push_cast at ex7 ey7
    rw [b0, b7]
    generalize centreQ (edge n w (fx + 7)) (edge n w (fx + 7) - edge n w fx) = X at *
    generalize (edge n w fx : ℚ) = A at *
    generalize (edge n w (fx + 7) : ℚ) = B at *
    generalize (edge n w fy : ℚ) = C at *
    generalize (edge n w (fy + 7) : ℚ) = D at *
    generalize (w : ℚ) / n = m at *
    constructor <;> simp only <;> linarith
  · linarith
  · linarith

/-- Three finder patterns in the corners of a symbol of version `v` are located as one symbol. -/
theorem Square.located (h : Square img g n w) (hv : img.Valid) (hb : w < 2 ^ 26) {v ox oy : Nat} (h1 : 1 ≤ v)
    (hs : (v + 16) * n ≤ 2 * w) (hx : 1 ≤ ox) (hy : 1 ≤ oy) (hx' : ox + (4 * v + 18) ≤ n) (hy' : oy + (4 * v + 18) ≤ n)
    (hf : ∀ f ∈ symbolFinders v 1 ox oy, CleanFinder g 1 f.1 f.2) (hc : CalmRows g)
    (ha : NothingAlike g (symbolFinders v 1 ox oy)) :
    ∃ (tl tr bl : Pt) (μ : ℚ),
      detect img = .ret [⟨⟨.fin tl.1, .fin tl.2⟩, ⟨.fin tr.1, .fin tr.2⟩, ⟨.fin bl.1, .fin bl.2⟩, .fin μ, v⟩] ∧
      NearMiddle ((w : ℚ) / n) ox oy tl ∧ NearMiddle ((w : ℚ) / n) (ox + (4 * v + 10)) oy tr ∧
      NearMiddle ((w : ℚ) / n) ox (oy + (4 * v + 10)) bl ∧
      (w : ℚ) / n - 27 / 125 ≤ μ ∧ μ ≤ (w : ℚ) / n + 36 / 250 := by
  have hfs : symbolFinders v 1 ox oy = [(ox, oy), (ox + (4 * v + 10), oy), (ox, oy + (4 * v + 10))] := by
    unfold symbolFinders; simp only [Nat.mul_one]
  rw [hfs] at hf ha
  obtain ⟨S, hS⟩ : ∃ S, S = 4 * v + 10 := ⟨_, rfl⟩
  rw [← hS] at hf ha ⊢
  have r1 := h.ruled (hf (ox, oy) (by simp)) hx hy (by simp only; omega) (by simp only; omega)
  have r2 := h.ruled (hf (ox + S, oy) (by simp)) (by simp only; omega) hy (by simp only; omega) (by simp only; omega)
  have r3 := h.ruled (hf (ox, oy + S) (by simp)) hx (by simp only; omega) (by simp only; omega) (by simp only; omega)
  simp only at r1 r2 r3
  have ho := h.only (by
    intro f hf'
    simp only [List.mem_cons, List.not_mem_nil, or_false] at hf'
    rcases hf' with rfl | rfl | rfl <;> simp only <;> omega) ha
  simp only [List.map_cons, List.map_nil] at ho
  have far : ∀ f, edge n w f + 2 * (7 * w / n) ≤ edge n w (f + S) := by
    intro f
    have k1 := (edge_step (w := w) h.pos f 14).1
    have k2 := edge_mono (w := w) h.pos (show f + 14 ≤ f + S by omega)
    have k3 := (resized_numbers (w := w) h.pos).2.2.2
    omega
  have less : ∀ a b, a < b → edge n w a < edge n w b := by
    intro a b hab
    have k1 := h.next a
    have k2 := edge_mono (w := w) h.pos (show a + 1 ≤ b from hab)
    have := h.big
    omega
  obtain ⟨cs, hcs, hall⟩ := candidates_ruled hv (by rw [h.iw]; exact hb) (by rw [h.ih]; exact hb)
    (fs := [(resizedLines n w ox, resizedLines n w oy), (resizedLines n w (ox + S), resizedLines n w oy),
      (resizedLines n w ox, resizedLines n w (oy + S))])
    (by
      intro f hf'
      simp only [List.mem_cons, List.not_mem_nil, or_false] at hf'
      rcases hf' with rfl | rfl | rfl
      · exact r1
      · exact r2
      · exact r3)
    (by
      rw [List.pairwise_cons, List.pairwise_cons, List.pairwise_cons]
      refine ⟨?_, ?_, by simp, List.Pairwise.nil⟩
      · intro b hb'
        simp only [List.mem_cons, List.not_mem_nil, or_false] at hb'
        rcases hb' with rfl | rfl
        · exact ⟨Or.inr ⟨rfl, less _ _ (by omega)⟩, Or.inl (far ox)⟩
        · exact ⟨Or.inl (less _ _ (by omega)), Or.inr (Or.inr (far oy))⟩
      · intro b hb'
        simp only [List.mem_cons, List.not_mem_nil, or_false] at hb'
        subst hb'
        exact ⟨Or.inl (less _ _ (by omega)), Or.inr (Or.inr (far oy))⟩)
    (h.steady hc) ho
  rcases hall with _ | ⟨k1, _ | ⟨k2, _ | ⟨k3, ⟨⟩⟩⟩⟩
  rename_i c1 c2 c3
  obtain ⟨tl, μ1, l1, s1, n1, a1, b1⟩ := candidate_near h hb r1 k1
  obtain ⟨tr, μ2, l2, s2, n2, a2, b2⟩ := candidate_near h hb r2 k2
  obtain ⟨bl, μ3, l3, s3, n3, a3, b3⟩ := candidate_near h hb r3 k3
  refine ⟨tl, tr, bl, μ1, ?_, n1, n2, n3, a1, b1⟩
  have n0 : (0 : ℚ) < n := by exact_mod_cast h.pos
  have big : (8 : ℚ) ≤ (w : ℚ) / n := by
    rw [le_div_iff₀ n0]; exact_mod_cast h.size
  have bigv : ((v : ℚ) + 16) / 2 ≤ (w : ℚ) / n := by
    rw [le_div_iff₀ n0]
    have : ((v : ℚ) + 16) * n ≤ 2 * w := by exact_mod_cast hs
    linarith
  have hw : (w : ℚ) ≤ 67108864 := by exact_mod_cast (le_of_lt hb)
  have n1' : (1 : ℚ) ≤ n := by exact_mod_cast h.pos
  have small : (w : ℚ) / n ≤ 67108864 := by
    rw [div_le_iff₀ n0]
    nlinarith
  have side : (S : ℚ) * ((w : ℚ) / n) ≤ 67108864 := by
    have e : (S : ℚ) * ((w : ℚ) / n) = (S * w) / n := by ring
    rw [e, div_le_iff₀ n0]
    have hSn : (S : ℚ) ≤ n := by exact_mod_cast (show S ≤ n by omega)
    have w0 : (0 : ℚ) ≤ w := Nat.cast_nonneg _
    nlinarith
  have hSv : (S : ℚ) = 4 * v + 10 := by rw [hS]; push_cast; ring
  have v1 : (1 : ℚ) ≤ v := by exact_mod_cast h1
  generalize (w : ℚ) / n = m at *
  obtain ⟨x1, x2, y1, y2⟩ := n1
  obtain ⟨x3, x4, y3, y4⟩ := n2
  obtain ⟨x5, x6, y5, y6⟩ := n3
  push_cast at x3 x4 y3 y4 x5 x6 y5 y6
  have S0 : 0 ≤ (S : ℚ) * m := by nlinarith
  have clear : Spec.ClearGeometry tl tr bl μ1 v := by
    refine clear_of_square (D := (S : ℚ) * m) h1 (by linarith) ?_ ?_ ?_ ?_ ?_ ?_
    · rw [abs_le]; constructor <;> linarith
    · rw [abs_le]; constructor <;> linarith
    · rw [abs_le]; constructor <;> linarith
    · rw [abs_le]; constructor <;> linarith
    · rw [hSv]
      have k : (4 * (v : ℚ) + 10 - 19 / 10) * μ1 ≤ (4 * (v : ℚ) + 10 - 19 / 10) * (m + 36 / 250) :=
        mul_le_mul_of_nonneg_left b1 (by linarith)
      linarith
    · rw [hSv]
      have k : (4 * (v : ℚ) + 10 + 19 / 10) * (m - 27 / 125) ≤ (4 * (v : ℚ) + 10 + 19 / 10) * μ1 :=
        mul_le_mul_of_nonneg_left a1 (by linarith)
      linarith
  have spans : Props.Spans tl tr bl := by
    refine ⟨?_, ?_, ?_, ?_⟩ <;> rw [abs_le] <;> norm_num <;> constructor <;> linarith
  have hq := Props.clear_geometry_is_located tl tr bl μ1 v clear spans tl tr bl (List.Perm.refl _)
  have d1 := diff_same_symbol (a := μ1) (b := μ2) (by linarith) (by norm_num; linarith) (by linarith) (by norm_num; linarith)
    (by linarith) (by linarith)
  have d2 := diff_same_symbol (a := μ1) (b := μ3) (by linarith) (by norm_num; linarith) (by linarith) (by norm_num; linarith)
    (by linarith) (by linarith)
  unfold detect
  rw [hcs, Run.ret_bind]
  refine locations_three ?_ ?_ ?_
  · rw [s1, s2]; exact d1
  · rw [s1, s3]; exact d2
  · rw [l1, l2, l3, s1]; exact hq

end
end LineScan
end Verif
