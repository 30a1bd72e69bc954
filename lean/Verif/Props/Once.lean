import Verif.Lemmas.Apart
import Verif.Props.Detect
import Verif.Spec.Once

/-!
# C79: no symbol is located twice
-/
namespace Verif.Props
open Verif Verif.Spec F64 LineScan LineScan.Apart

/-- The centres of a location. -/
def corners (qr : QRLocation) : List Point := [qr.top_left, qr.top_right, qr.bottom_left]

theorem findQrInternal_perm {a b c : Point} {ms : F64} {qr : QRLocation}
    (h : findQrInternal a b c ms = .ret (some qr)) :
    (corners qr).Perm [a, b, c] ∧ qr.module_size = ms := by
  unfold findQrInternal at h
  simp only at h
  split at h
  · cases h
  · split at h
    · cases h
    · generalize ((((dist a c / ms) + F64.lit 7) - F64.lit 1) / F64.lit 4).round.toU32 = n at h
      cases h1 : mulU32 4 n with
      | panic => rw [h1] at h; cases h
      | ret k =>
        rw [h1, Run.ret_bind] at h
        cases h2 : addU32 k 1 with
        | panic => rw [h2] at h; cases h
        | ret d =>
          rw [h2, Run.ret_bind] at h
          split at h
          · cases h
          · cases h3 : checkedSub d 17 with
            | panic => rw [h3] at h; cases h
            | ret e =>
              rw [h3, Run.ret_bind] at h
              split at h
              · injection h with h; injection h with h; subst h
                exact ⟨List.Perm.cons _ (List.Perm.swap _ _ _), rfl⟩
              · injection h with h; injection h with h; subst h
                exact ⟨List.Perm.refl _, rfl⟩

theorem findQr_perm {a b c : Point} {ms : F64} {qr : QRLocation} (h : findQr a b c ms = .ret (some qr)) :
    (corners qr).Perm [a, b, c] ∧ qr.module_size = ms := by
  unfold findQr at h
  cases h1 : findQrInternal a b c ms with
  | panic => rw [h1] at h; cases h
  | ret r1 =>
    rw [h1, Run.ret_bind] at h
    cases r1 with
    | some q =>
      injection h with h; injection h with h; subst h
      exact findQrInternal_perm h1
    | none =>
      simp only at h
      cases h2 : findQrInternal b a c ms with
      | panic => rw [h2] at h; cases h
      | ret r2 =>
        rw [h2, Run.ret_bind] at h
        cases r2 with
        | some q =>
          injection h with h; injection h with h; subst h
          obtain ⟨p, e⟩ := findQrInternal_perm h2
          exact ⟨p.trans (List.Perm.swap _ _ _), e⟩
        | none =>
          obtain ⟨p, e⟩ := findQrInternal_perm h
          refine ⟨p.trans ?_, e⟩
          exact (List.Perm.swap _ _ _).trans (List.Perm.cons _ (List.Perm.swap _ _ _))

/-- The location was made from these three candidates, in this order. -/
structure MadeFrom (qr : QRLocation) (c1 c2 c3 : FinderPosition) : Prop where
  corners : (corners qr).Perm [c1.location, c2.location, c3.location]
  size : qr.module_size = c1.module_size
  second : F64.gt (diff c1.module_size c2.module_size) (F64.lit 1 10) = false
  third : F64.gt (diff c1.module_size c3.module_size) (F64.lit 1 10) = false

theorem MadeFrom.mem {qr : QRLocation} {c1 c2 c3 : FinderPosition} (h : MadeFrom qr c1 c2 c3) {p : Point} :
    p ∈ Props.corners qr ↔ p = c1.location ∨ p = c2.location ∨ p = c3.location := by
  rw [h.corners.mem_iff]; simp

/-- `a` has a centre that `b` does not have. -/
def Other (a b : QRLocation) : Prop := ∃ p ∈ corners a, p ∉ corners b

theorem locations3_made {c1 c2 : FinderPosition}
    (h2 : F64.gt (diff c1.module_size c2.module_size) (F64.lit 1 10) = false) :
    ∀ (l : List FinderPosition) (r : List QRLocation),
      ((c1 :: c2 :: l).map (·.location)).Nodup → locations3 c1 c2 l = .ret r →
      (∀ qr ∈ r, ∃ c3 ∈ l, MadeFrom qr c1 c2 c3) ∧ r.Pairwise Other := by
  intro l
  induction l with
  | nil =>
    intro r _ h
    unfold locations3 at h
    injection h with h; subst h
    exact ⟨by simp, by simp⟩
  | cons c3 l ih =>
    intro r hn h
    have hn' : ((c1 :: c2 :: l).map (·.location)).Nodup := by
      simp only [List.map_cons, List.nodup_cons, List.mem_cons, not_or] at hn ⊢
      tauto
    have lift : ∀ r', locations3 c1 c2 l = .ret r' →
        (∀ qr ∈ r', ∃ c3' ∈ c3 :: l, MadeFrom qr c1 c2 c3') ∧ r'.Pairwise Other := by
      intro r' h'
      obtain ⟨m, p⟩ := ih r' hn' h'
      exact ⟨fun qr hq => by obtain ⟨c, hc, hm⟩ := m qr hq; exact ⟨c, List.mem_cons_of_mem _ hc, hm⟩, p⟩
    unfold locations3 at h
    split at h
    · exact lift r h
    · rename_i h3
      rw [Bool.not_eq_true] at h3
      cases hf : findQr c1.location c2.location c3.location c1.module_size with
      | panic => rw [hf] at h; cases h
      | ret o =>
        rw [hf, Run.ret_bind] at h
        cases o with
        | none => exact lift r h
        | some qr =>
          simp only at h
          cases hr : locations3 c1 c2 l with
          | panic => rw [hr] at h; cases h
          | ret r' =>
            rw [hr, Run.ret_bind] at h
            injection h with h; subst h
            obtain ⟨m, p⟩ := ih r' hn' hr
            obtain ⟨m', p'⟩ := lift r' hr
            obtain ⟨e1, e2⟩ := findQr_perm hf
            have hq : MadeFrom qr c1 c2 c3 := ⟨e1, e2, h2, h3⟩
            refine ⟨?_, List.pairwise_cons.mpr ⟨?_, p⟩⟩
            · intro q hq'
              rw [List.mem_cons] at hq'
              rcases hq' with rfl | hq'
              · exact ⟨c3, List.mem_cons_self, hq⟩
              · exact m' q hq'
            · intro b hb
              obtain ⟨c, hc, hm⟩ := m b hb
              refine ⟨c3.location, hq.mem.mpr (by simp), ?_⟩
              rw [hm.mem]
              have hcm : c.location ∈ l.map (·.location) := List.mem_map_of_mem hc
              simp only [List.map_cons, List.nodup_cons, List.mem_cons, not_or] at hn
              rintro (e | e | e)
              · exact hn.1.2.1 e.symm
              · exact hn.2.1.1 e.symm
              · rw [← e] at hcm; exact hn.2.2.1 hcm

theorem locations2_made {c1 : FinderPosition} :
    ∀ (l : List FinderPosition) (r : List QRLocation),
      ((c1 :: l).map (·.location)).Nodup → locations2 c1 l = .ret r →
      (∀ qr ∈ r, ∃ c2 c3, List.Sublist [c2, c3] l ∧ MadeFrom qr c1 c2 c3) ∧ r.Pairwise Other := by
  intro l
  induction l with
  | nil =>
    intro r _ h
    unfold locations2 at h
    injection h with h; subst h
    exact ⟨by simp, by simp⟩
  | cons c2 l ih =>
    intro r hn h
    have hn' : ((c1 :: l).map (·.location)).Nodup := by
      simp only [List.map_cons, List.nodup_cons, List.mem_cons, not_or] at hn ⊢
      tauto
    have lift : ∀ r', locations2 c1 l = .ret r' →
        (∀ qr ∈ r', ∃ d2 d3, List.Sublist [d2, d3] (c2 :: l) ∧ MadeFrom qr c1 d2 d3) ∧ r'.Pairwise Other := by
      intro r' h'
      obtain ⟨m, p⟩ := ih r' hn' h'
      exact ⟨fun qr hq => by obtain ⟨c, d, hc, hm⟩ := m qr hq; exact ⟨c, d, hc.cons _, hm⟩, p⟩
    unfold locations2 at h
    split at h
    · exact lift r h
    · rename_i h2
      rw [Bool.not_eq_true] at h2
      cases h3 : locations3 c1 c2 l with
      | panic => rw [h3] at h; cases h
      | ret r3 =>
        rw [h3, Run.ret_bind] at h
        cases hr : locations2 c1 l with
        | panic => rw [hr] at h; cases h
        | ret r' =>
          rw [hr, Run.ret_bind] at h
          injection h with h; subst h
          obtain ⟨m3, p3⟩ := locations3_made h2 l r3 hn h3
          obtain ⟨m, p⟩ := ih r' hn' hr
          obtain ⟨m', -⟩ := lift r' hr
          refine ⟨?_, List.pairwise_append.mpr ⟨p3, p, ?_⟩⟩
          · intro q hq
            rw [List.mem_append] at hq
            rcases hq with hq | hq
            · obtain ⟨c3, hc, hm⟩ := m3 q hq
              exact ⟨c2, c3, (List.singleton_sublist.mpr hc).cons_cons _, hm⟩
            · exact m' q hq
          · intro a ha b hb
            obtain ⟨c3, hc, hm⟩ := m3 a ha
            obtain ⟨d2, d3, hd, hmb⟩ := m b hb
            refine ⟨c2.location, hm.mem.mpr (by simp), ?_⟩
            rw [hmb.mem]
            have hd2 : d2.location ∈ l.map (·.location) := List.mem_map_of_mem (hd.subset (by simp))
            have hd3 : d3.location ∈ l.map (·.location) := List.mem_map_of_mem (hd.subset (by simp))
            simp only [List.map_cons, List.nodup_cons, List.mem_cons, not_or] at hn
            rintro (e | e | e)
            · exact hn.1.1 e.symm
            · rw [← e] at hd2; exact hn.2.1 hd2
            · rw [← e] at hd3; exact hn.2.1 hd3

theorem locations_made :
    ∀ (l : List FinderPosition) (r : List QRLocation),
      (l.map (·.location)).Nodup → locations l = .ret r →
      (∀ qr ∈ r, ∃ c1 c2 c3, List.Sublist [c1, c2, c3] l ∧ MadeFrom qr c1 c2 c3) ∧ r.Pairwise Other := by
  intro l
  induction l with
  | nil =>
    intro r _ h
    unfold locations at h
    injection h with h; subst h
    exact ⟨by simp, by simp⟩
  | cons c1 l ih =>
    intro r hn h
    have hn' : (l.map (·.location)).Nodup := by
      rw [List.map_cons, List.nodup_cons] at hn; exact hn.2
    unfold locations at h
    cases h3 : locations2 c1 l with
    | panic => rw [h3] at h; cases h
    | ret r3 =>
      rw [h3, Run.ret_bind] at h
      cases hr : locations l with
      | panic => rw [hr] at h; cases h
      | ret r' =>
        rw [hr, Run.ret_bind] at h
        injection h with h; subst h
        obtain ⟨m3, p3⟩ := locations2_made l r3 hn h3
        obtain ⟨m, p⟩ := ih r' hn' hr
        refine ⟨?_, List.pairwise_append.mpr ⟨p3, p, ?_⟩⟩
        · intro q hq
          rw [List.mem_append] at hq
          rcases hq with hq | hq
          · obtain ⟨c2, c3, hc, hm⟩ := m3 q hq
            exact ⟨c1, c2, c3, hc.cons_cons _, hm⟩
          · obtain ⟨c1', c2, c3, hc, hm⟩ := m q hq
            exact ⟨c1', c2, c3, hc.cons _, hm⟩
        · intro a ha b hb
          obtain ⟨c2, c3, hc, hm⟩ := m3 a ha
          obtain ⟨d1, d2, d3, hd, hmb⟩ := m b hb
          refine ⟨c1.location, hm.mem.mpr (by simp), ?_⟩
          rw [hmb.mem]
          have hd1 : d1.location ∈ l.map (·.location) := List.mem_map_of_mem (hd.subset (by simp))
          have hd2 : d2.location ∈ l.map (·.location) := List.mem_map_of_mem (hd.subset (by simp))
          have hd3 : d3.location ∈ l.map (·.location) := List.mem_map_of_mem (hd.subset (by simp))
          rw [List.map_cons, List.nodup_cons] at hn
          rintro (e | e | e)
          · rw [← e] at hd1; exact hn.1 hd1
          · rw [← e] at hd2; exact hn.1 hd2
          · rw [← e] at hd3; exact hn.1 hd3

/-- Different candidates have different locations. -/
theorem apart_nodup {img : GrayImage} {cs : List FinderPosition} (hg : ∀ c ∈ cs, GoodCandidate img c)
    (hp : cs.Pairwise CandApart) : (cs.map (·.location)).Nodup := by
  unfold List.Nodup
  rw [List.pairwise_map]
  refine hp.imp_of_mem ?_
  intro c d hc hd h e
  obtain ⟨⟨x, y, ec, -⟩, -⟩ := hg c hc
  obtain ⟨-, ⟨m, em, -⟩⟩ := hg d hd
  have := h x y x y m ec (by rw [← e, ec]) em
  have h2 : (x - x) ^ 2 + (y - y) ^ 2 = 0 := by ring
  rw [h2] at this
  exact absurd this (not_lt.mpr (sq_nonneg _))

theorem other_symm {a b : QRLocation} (hb : (corners b).Nodup) (h : Other a b) : Other b a := by
  by_contra hc
  have hsub : corners b ⊆ corners a := by
    intro q hq
    by_contra hn
    exact hc ⟨q, hq, hn⟩
  have hp := (List.subperm_of_subset hb hsub).perm_of_length_le (by simp [corners])
  obtain ⟨p, h1, h2⟩ := h
  exact h2 (hp.mem_iff.mpr h1)

/-- The module size of a location is about that of each of its candidates. -/
theorem made_size {img : GrayImage} {qr : QRLocation} {c1 c2 c3 : FinderPosition} (h : MadeFrom qr c1 c2 c3)
    (h1 : GoodCandidate img c1) {m mc : ℚ} (hm : qr.module_size = .fin m) {c : FinderPosition}
    (hc : c = c1 ∨ c = c2 ∨ c = c3) (hg : GoodCandidate img c) (hmc : c.module_size = .fin mc) :
    1 ≤ m ∧ 1 ≤ mc ∧ m ≤ 112 / 100 * mc := by
  obtain ⟨-, ⟨m1, e1, l1, u1⟩⟩ := h1
  obtain ⟨-, ⟨m2, e2, l2, u2⟩⟩ := hg
  rw [h.size, e1] at hm
  injection hm with hm
  subst hm
  rw [e2] at hmc
  injection hmc with hmc
  subst hmc
  refine ⟨l1, l2, ?_⟩
  have key : F64.gt (diff (.fin m1) (.fin m2)) (F64.lit 1 10) = false → m1 ≤ 112 / 100 * m2 := by
    intro hd
    obtain ⟨τ, hτ, hn⟩ := lit_1
    rw [hτ] at hd
    have := diff_le (by linarith) (by linarith) (by linarith) (by linarith) (le_trans l1 (le_max_left _ _)) hd
    have hu := uQ_small
    rw [abs_le] at hn this
    have hc : τ + 3 * uQ ≤ 1001 / 10000 := by linarith [hn.2]
    rcases le_total m1 m2 with hle | hle
    · linarith
    · rw [max_eq_left hle] at this
      have h2 := mul_le_mul_of_nonneg_right hc (show 0 ≤ m1 by linarith)
      linarith [this.2]
  rcases hc with rfl | rfl | rfl
  · rw [e1] at e2
    injection e2 with e2
    linarith
  · apply key; rw [← e1, ← e2]; exact h.second
  · apply key; rw [← e1, ← e2]; exact h.third

theorem own_of_other {img : GrayImage} {cs : List FinderPosition} (hg : ∀ c ∈ cs, GoodCandidate img c)
    (hp : cs.Pairwise CandApart) {a b : QRLocation} {a1 a2 a3 b1 b2 b3 : FinderPosition}
    (ha : MadeFrom a a1 a2 a3) (hac : ∀ c, c = a1 ∨ c = a2 ∨ c = a3 → c ∈ cs)
    (hb : MadeFrom b b1 b2 b3) (hbc : ∀ c, c = b1 ∨ c = b2 ∨ c = b3 → c ∈ cs)
    (hal : ProperlyLocated img a) (hbl : ProperlyLocated img b)
    (h : Other a b) : HasItsOwn a b := by
  obtain ⟨tl, tr, bl, m, ⟨e1, e2, e3, e4⟩, -, -⟩ := hal
  obtain ⟨tl', tr', bl', n, ⟨f1, f2, f3, f4⟩, -, -⟩ := hbl
  have ea : corners a = [tl, tr, bl].map (fun p => (⟨.fin p.1, .fin p.2⟩ : Point)) := by
    unfold corners; rw [e1, e2, e3]; rfl
  have eb : corners b = [tl', tr', bl'].map (fun p => (⟨.fin p.1, .fin p.2⟩ : Point)) := by
    unfold corners; rw [f1, f2, f3]; rfl
  refine ⟨_, _, m, n, ⟨ea, e4⟩, ⟨eb, f4⟩, ?_⟩
  obtain ⟨P, hP, hPb⟩ := h
  have hP' := hP
  rw [ea, List.mem_map] at hP'
  obtain ⟨p, hpm, rfl⟩ := hP'
  refine ⟨p, hpm, ?_⟩
  intro q hq
  have hQ : (⟨.fin q.1, .fin q.2⟩ : Point) ∈ corners b := by
    rw [eb]; exact List.mem_map_of_mem (f := fun p : Pt => (⟨.fin p.1, .fin p.2⟩ : Point)) hq
  have hc : ∃ c, (c = a1 ∨ c = a2 ∨ c = a3) ∧ c.location = ⟨.fin p.1, .fin p.2⟩ := by
    rcases ha.mem.mp hP with h | h | h
    · exact ⟨a1, by simp, h.symm⟩
    · exact ⟨a2, by simp, h.symm⟩
    · exact ⟨a3, by simp, h.symm⟩
  have hd : ∃ d, (d = b1 ∨ d = b2 ∨ d = b3) ∧ d.location = ⟨.fin q.1, .fin q.2⟩ := by
    rcases hb.mem.mp hQ with h | h | h
    · exact ⟨b1, by simp, h.symm⟩
    · exact ⟨b2, by simp, h.symm⟩
    · exact ⟨b3, by simp, h.symm⟩
  obtain ⟨c, hcm, ec⟩ := hc
  obtain ⟨d, hdm, ed⟩ := hd
  have hne : c ≠ d := by
    rintro rfl
    rw [ec] at ed
    rw [ed] at hPb
    exact hPb hQ
  have gc := hg c (hac c hcm)
  have gd := hg d (hbc d hdm)
  obtain ⟨mc, emc, -⟩ := gc.2
  obtain ⟨md, emd, -⟩ := gd.2
  obtain ⟨x1, x2, x3⟩ := made_size ha (hg a1 (hac a1 (by simp))) e4 hcm gc emc
  obtain ⟨y1, y2, y3⟩ := made_size hb (hg b1 (hbc b1 (by simp))) f4 hdm gd emd
  have hpw : cs.Pairwise fun c d => CandApart c d ∨ CandApart d c := hp.imp Or.inl
  haveI : Std.Symm (fun c d => CandApart c d ∨ CandApart d c) := ⟨fun _ _ h => h.symm⟩
  have := hpw.forall (hac c hcm) (hbc d hdm) hne
  have hmin0 : 0 ≤ min m n := le_min (by linarith) (by linarith)
  unfold dist2
  rcases this with h | h
  · have h := h _ _ _ _ _ ec ed emd
    have : (min m n / 2) ^ 2 ≤ (3 / 5 * md) ^ 2 := by
      apply pow_le_pow_left₀ (by linarith)
      have := min_le_right m n
      linarith
    nlinarith
  · have h := h _ _ _ _ _ ed ec emc
    have : (min m n / 2) ^ 2 ≤ (3 / 5 * mc) ^ 2 := by
      apply pow_le_pow_left₀ (by linarith)
      have := min_le_left m n
      linarith
    nlinarith

/-- **C79.** No symbol is located twice: of any two locations that detection returns for an image, each has a
finder pattern that is none of the other's, its centre being more than half a module away from all three. -/
theorem no_symbol_located_twice (img : GrayImage) (hv : img.Valid) (hs : img.width * img.height < 2 ^ 63)
    (qrs : List QRLocation) (hd : detect img = .ret qrs) :
    qrs.Pairwise fun a b => HasItsOwn a b ∧ HasItsOwn b a := by
  have hloc := detected_locations_are_proper img hv hs qrs hd
  obtain ⟨cs, hcs, hg, hp⟩ := candidates_apart hv
  unfold detect at hd
  rw [hcs, Run.ret_bind] at hd
  have hn := apart_nodup hg hp
  obtain ⟨hm, hpw⟩ := locations_made cs qrs hn hd
  refine hpw.imp_of_mem ?_
  intro a b ha hb h
  obtain ⟨a1, a2, a3, sa, ma⟩ := hm a ha
  obtain ⟨b1, b2, b3, sb, mb⟩ := hm b hb
  have ia : ∀ c, c = a1 ∨ c = a2 ∨ c = a3 → c ∈ cs := fun c hc => sa.subset (by simpa using hc)
  have ib : ∀ c, c = b1 ∨ c = b2 ∨ c = b3 → c ∈ cs := fun c hc => sb.subset (by simpa using hc)
  have nb : (corners b).Nodup := by
    rw [mb.corners.nodup_iff]
    exact (sb.map (·.location)).nodup hn
  exact ⟨own_of_other hg hp ma ia mb ib (hloc a ha) (hloc b hb) h,
    own_of_other hg hp mb ib ma ia (hloc b hb) (hloc a ha) (other_symm nb h)⟩

end Verif.Props
