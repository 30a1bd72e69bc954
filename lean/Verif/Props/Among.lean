import Verif.Lemmas.LocalScan
import Verif.Props.Default

/-!
# C66: a symbol among other things
-/
namespace Verif.Props
open Verif Verif.Spec F64 LineScan

theorem locations3_mem {c1 c2 c3 : FinderPosition} {qr : QRLocation}
    (h13 : F64.gt (diff c1.module_size c3.module_size) (F64.lit 1 10) = false)
    (hq : findQr c1.location c2.location c3.location c1.module_size = .ret (some qr)) :
    ∀ (l : List FinderPosition) {r : List QRLocation}, c3 ∈ l → locations3 c1 c2 l = .ret r → qr ∈ r := by
  intro l
  induction l with
  | nil => intro r h; simp at h
  | cons c l ih =>
    intro r hm hr
    unfold locations3 at hr
    rw [List.mem_cons] at hm
    rcases hm with rfl | hm
    · rw [if_neg (by rw [h13]; simp), hq, Run.ret_bind] at hr
      simp only at hr
      cases h : locations3 c1 c2 l with
      | panic => rw [h] at hr; cases hr
      | ret r' => rw [h, Run.ret_bind] at hr; rw [← Run.ret.inj hr]; simp
    · split at hr
      · exact ih hm hr
      · cases hf : findQr c1.location c2.location c.location c1.module_size with
        | panic => rw [hf] at hr; cases hr
        | ret o =>
          rw [hf, Run.ret_bind] at hr
          cases o with
          | none => exact ih hm hr
          | some q =>
            simp only at hr
            cases h : locations3 c1 c2 l with
            | panic => rw [h] at hr; cases hr
            | ret r' =>
              rw [h, Run.ret_bind] at hr
              rw [← Run.ret.inj hr]
              exact List.mem_cons_of_mem _ (ih hm h)

theorem locations2_mem {c1 c2 c3 : FinderPosition} {qr : QRLocation}
    (h12 : F64.gt (diff c1.module_size c2.module_size) (F64.lit 1 10) = false)
    (h13 : F64.gt (diff c1.module_size c3.module_size) (F64.lit 1 10) = false)
    (hq : findQr c1.location c2.location c3.location c1.module_size = .ret (some qr)) :
    ∀ (l : List FinderPosition) {r : List QRLocation}, [c2, c3].Sublist l → locations2 c1 l = .ret r → qr ∈ r := by
  intro l
  induction l with
  | nil => intro r h; simp at h
  | cons c l ih =>
    intro r hm hr
    unfold locations2 at hr
    cases hm with
    | cons _ hm =>
      split at hr
      · exact ih hm hr
      · cases h3 : locations3 c1 c l with
        | panic => rw [h3] at hr; cases hr
        | ret a =>
          rw [h3, Run.ret_bind] at hr
          cases h2 : locations2 c1 l with
          | panic => rw [h2] at hr; cases hr
          | ret b =>
            rw [h2, Run.ret_bind] at hr
            rw [← Run.ret.inj hr]
            exact List.mem_append_right _ (ih hm h2)
    | cons_cons _ hm =>
      rw [if_neg (by rw [h12]; simp)] at hr
      cases h3 : locations3 c1 c2 l with
      | panic => rw [h3] at hr; cases hr
      | ret a =>
        rw [h3, Run.ret_bind] at hr
        cases h2 : locations2 c1 l with
        | panic => rw [h2] at hr; cases hr
        | ret b =>
          rw [h2, Run.ret_bind] at hr
          rw [← Run.ret.inj hr]
          exact List.mem_append_left _ (locations3_mem h13 hq l (List.singleton_sublist.mp hm) h3)

theorem locations_mem {c1 c2 c3 : FinderPosition} {qr : QRLocation}
    (h12 : F64.gt (diff c1.module_size c2.module_size) (F64.lit 1 10) = false)
    (h13 : F64.gt (diff c1.module_size c3.module_size) (F64.lit 1 10) = false)
    (hq : findQr c1.location c2.location c3.location c1.module_size = .ret (some qr)) :
    ∀ (l : List FinderPosition) {r : List QRLocation}, [c1, c2, c3].Sublist l → locations l = .ret r → qr ∈ r := by
  intro l
  induction l with
  | nil => intro r h; simp at h
  | cons c l ih =>
    intro r hm hr
    unfold locations at hr
    cases h2 : locations2 c l with
    | panic => rw [h2] at hr; cases hr
    | ret a =>
      rw [h2, Run.ret_bind] at hr
      cases h1 : locations l with
      | panic => rw [h1] at hr; cases hr
      | ret b =>
        rw [h1, Run.ret_bind] at hr
        rw [← Run.ret.inj hr]
        cases hm with
        | cons _ hm => exact List.mem_append_right _ (ih hm h1)
        | cons_cons _ hm => exact List.mem_append_left _ (locations2_mem h12 h13 hq l hm h2)

/-- **C66 (detection).** If the image shows finder patterns of one module size, in rows without runs shorter than a
tenth of the one before, and nothing that looks like a finder pattern to the scan comes close to them before the scan
has reached them, then every symbol they form is among the locations, exactly, whatever else there is. -/
theorem symbol_is_among (img : GrayImage) (hv : img.Valid) (hpx : img.width * img.height < 2 ^ 63) (m : Nat)
    (hm : 2 ≤ m) (fs : List (Nat × Nat)) (hc : ∀ f ∈ fs, CleanFinder img m f.1 f.2) (ho : fs.Pairwise (ScanOrder m))
    (hs : ∀ f ∈ fs, ∀ y ≤ f.2 + 2 * m, SteadyRow img img.width y) (hn : NoOtherFindersNear img m fs) :
    ∃ locs, detect img = .ret locs ∧ ∀ v ox oy, 1 ≤ v → (symbolFinders v m ox oy).Sublist fs →
      ⟨reportedCentre m ox oy, reportedCentre m (ox + (4 * v + 10) * m) oy,
        reportedCentre m ox (oy + (4 * v + 10) * m), .fin m, v⟩ ∈ locs := by
  have hw := hv.2.1
  have hh := hv.2.2
  obtain ⟨cs, hcs, hsub, hg⟩ := candidates_local hv hm hc ho hs hn
  obtain ⟨locs, hl, -⟩ := locations_ret hv hpx cs hg
  unfold detect
  rw [hcs, Run.ret_bind]
  refine ⟨locs, hl, ?_⟩
  intro v ox oy h1 hsym
  have c1 := (hc (ox + (4 * v + 10) * m, oy) (hsym.subset (by simp [symbolFinders]))).1
  have c2 := (hc (ox, oy + (4 * v + 10) * m) (hsym.subset (by simp [symbolFinders]))).2.1
  simp only at c1 c2
  have e : (4 * v + 17) * m = (4 * v + 10) * m + 7 * m := by ring
  have hsub' := (hsym.map fun f : Nat × Nat => exactCandidate m f.1 f.2).trans hsub
  have hq := findQr_exact (ox := ox) (oy := oy) (m := m) (v := v) (by omega) h1 (by omega) (by omega)
  rw [← exactCandidate_location (by omega), ← exactCandidate_location (by omega), ← exactCandidate_location (by omega)]
  exact locations_mem (same_size (by omega)) (same_size (by omega)) hq cs hsub' hl

theorem forall₂_mem {α β : Type} {R : α → β → Prop} {as : List α} {bs : List β} (h : List.Forall₂ R as bs) {a : α}
    (ha : a ∈ as) : ∃ b ∈ bs, R a b := by
  induction h with
  | nil => simp at ha
  | cons h _ ih =>
    rw [List.mem_cons] at ha
    rcases ha with rfl | ha
    · exact ⟨_, by simp, h⟩
    · obtain ⟨b, hb, hr⟩ := ih ha
      exact ⟨b, List.mem_cons_of_mem _ hb, hr⟩

variable {σ IMG : Type}

theorem result_among {α : Type} {decode : Except QRError QRData → Outcome α} {img : GrayImage} {locs : List QRLocation}
    {rs : List (Except QRError α)} (hall : List.Forall₂ (ResultAt decode img) locs rs) {loc : QRLocation}
    (hin : loc ∈ locs) {q : QRData} (hext : Extractor.extract img loc = .ok q) {r : Except QRError α}
    (hr : Gives (decode (.ok q)) r) : r ∈ rs := by
  obtain ⟨r', hrm, hres⟩ := forall₂_mem hall hin
  rcases hres with ⟨g, hg', hgv⟩ | ⟨e, he, -⟩
  · rw [hext] at hg'
    injection hg' with hg'
    subst hg'
    rcases hgv with ⟨a, ha, rfl⟩ | ⟨e, he, rfl⟩
    · rcases hr with ⟨b, hb, rfl⟩ | ⟨e, he, -⟩
      · rw [ha] at hb; injection hb with hb; rw [← hb]; exact hrm
      · rw [ha] at he; cases he
    · rcases hr with ⟨b, hb, -⟩ | ⟨e', he', rfl⟩
      · rw [he] at hb; cases hb
      · rw [he] at he'; injection he' with he'; rw [← he']; exact hrm
  · rw [hext] at he; cases he

/-- **C68 (among other things).** As C66, for a grid with any data modules: the result of decoding it is among the
results. -/
theorem default_decoder_finds_grid (grayscale : IMG → GrayImage) (source : IMG) (hg : (grayscale source).Valid)
    (img : GrayImage) (himg : img = thresholded 5 7 (grayscale source)) (hpx : img.width * img.height ≤ 2 ^ 36)
    (hw : img.width ≤ 2 ^ 20) (hh : img.height ≤ 2 ^ 20) (m : Nat) (hm : 2 ≤ m) (fs : List (Nat × Nat))
    (hc : ∀ f ∈ fs, CleanFinder img m f.1 f.2) (ho : fs.Pairwise (ScanOrder m))
    (hs : ∀ f ∈ fs, ∀ y ≤ f.2 + 2 * m, SteadyRow img img.width y) (hn : NoOtherFindersNear img m fs)
    (q : QRData) (v : Nat) (h1 : 1 ≤ v) (h40 : v ≤ 40) (hq : WellFormed q v)
    (hal : 2 ≤ v → HasAlignment q) (ox oy : Nat) (hd : Drawn img q m ox oy)
    (hsym : (symbolFinders v m ox oy).Sublist fs) :
    (∃ d : Decoder σ IMG GrayImage QRLocation QRData (List Char), defaultDecoder grayscale = .ret d ∧
      ∀ r, Gives (qrDecode (.ok q)) r → ∀ s rs s', d.decode source s = .ret (rs, s') → r ∈ rs) ∧
    ∃ d : Decoder σ IMG GrayImage QRLocation QRData (List Char × QRInfo), defaultDecoderWithInfo grayscale = .ret d ∧
      ∀ r, Gives (qrDecodeWithInfo (.ok q)) r → ∀ s rs s', d.decode source s = .ret (rs, s') → r ∈ rs := by
  have hside : q.side = 4 * v + 17 := hq.2.1
  have d1 := hd.1
  have d2 := hd.2.1
  have hlow : 21 * 2 ≤ q.side * m := Nat.mul_le_mul (by omega) hm
  obtain ⟨hprep, hv⟩ := prepares (grayscale source) hg img himg hpx hw hh (by omega) (by omega)
  obtain ⟨locs, hdet, hin⟩ := symbol_is_among img hv (by omega) m hm fs hc ho hs hn
  have hin := hin v ox oy h1 hsym
  have hext := reported_location_extracts img hv hw hh q v h1 h40 hq hal m ox oy hm hd
  constructor
  · obtain ⟨d, hd, hiff⟩ := default_decoder_results (σ := σ) grayscale
    refine ⟨d, hd, ?_⟩
    intro r hr s rs s' hrun
    obtain ⟨-, img', locs', hp', hd', hall⟩ := (hiff _ _ _ _).mp hrun
    rw [hprep] at hp'
    have := Run.ret.inj hp'
    subst this
    rw [hdet] at hd'
    have := Run.ret.inj hd'
    subst this
    exact result_among hall hin hext hr
  · obtain ⟨d, hd, hiff⟩ := default_decoder_with_info_results (σ := σ) grayscale
    refine ⟨d, hd, ?_⟩
    intro r hr s rs s' hrun
    obtain ⟨-, img', locs', hp', hd', hall⟩ := (hiff _ _ _ _).mp hrun
    rw [hprep] at hp'
    have := Run.ret.inj hp'
    subst this
    rw [hdet] at hd'
    have := Run.ret.inj hd'
    subst this
    exact result_among hall hin hext hr

/-- **C66.** The default decoders read every symbol of an image that shows several, or one among other things. As in
C65, `img` is the thresholded image. Whenever decoding returns (another location might lead to a panic, see C55), the
text of the symbol is among the results. -/
theorem default_decoder_finds_symbol (grayscale : IMG → GrayImage) (source : IMG) (hg : (grayscale source).Valid)
    (img : GrayImage) (himg : img = thresholded 5 7 (grayscale source)) (hpx : img.width * img.height ≤ 2 ^ 36)
    (hw : img.width ≤ 2 ^ 20) (hh : img.height ≤ 2 ^ 20) (m : Nat) (hm : 2 ≤ m) (fs : List (Nat × Nat))
    (hc : ∀ f ∈ fs, CleanFinder img m f.1 f.2) (ho : fs.Pairwise (ScanOrder m))
    (hs : ∀ f ∈ fs, ∀ y ≤ f.2 + 2 * m, SteadyRow img img.width y) (hn : NoOtherFindersNear img m fs)
    (q : QRData) (v : Nat) (h1 : 1 ≤ v) (h40 : v ≤ 40)
    (l : ECLevel) (k : Nat) (hk : k < 8) (segments : List Segment) (hfit : ∀ s ∈ segments, s.fits v)
    (text : List Char) (htext : SegmentsText segments text) (hq : IsSymbol q v l k segments)
    (hal : 2 ≤ v → HasAlignment q) (ox oy : Nat) (hd : Drawn img q m ox oy)
    (hsym : (symbolFinders v m ox oy).Sublist fs) :
    (∃ d : Decoder σ IMG GrayImage QRLocation QRData (List Char), defaultDecoder grayscale = .ret d ∧
      ∀ s rs s', d.decode source s = .ret (rs, s') → .ok text ∈ rs) ∧
    ∃ info, info.version = v ∧ info.ecLevel = l ∧ info.errors = 0 ∧
      ∃ d : Decoder σ IMG GrayImage QRLocation QRData (List Char × QRInfo), defaultDecoderWithInfo grayscale = .ret d ∧
        ∀ s rs s', d.decode source s = .ret (rs, s') → .ok (text, info) ∈ rs := by
  obtain ⟨t1, info, t2, i1, i2, i3⟩ := symbol_decodes q v h1 h40 l k hk segments hfit text htext hq
  obtain ⟨⟨d, e, h⟩, d', e', h'⟩ := default_decoder_finds_grid (σ := σ) grayscale source hg img himg hpx hw hh m hm fs hc ho
    hs hn q v h1 h40 hq.1 hal ox oy hd hsym
  exact ⟨⟨d, e, h _ (Or.inl ⟨text, t1, rfl⟩)⟩, info, i1, i2, i3, d', e', h' _ (Or.inl ⟨(text, info), t2, rfl⟩)⟩

end Verif.Props
