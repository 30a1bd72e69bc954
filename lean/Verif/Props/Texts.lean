import Verif.Lemmas.Texts
import Verif.Props.Panics

/-!
# C78: exactly what the symbol says is returned
-/
namespace Verif.Props
open Verif Verif.Spec LineScan Extractor

variable {σ IMG : Type}

theorem data_of_says (version : Nat) (h1 : 1 ≤ version) (h40 : version ≤ 40) (input : List U8) (text : List Char)
    (h : Says version (streamOf input) text) : data input version = .ok text := by
  obtain ⟨pre, tail, hs, hr, ht⟩ := says_prefix h1 h40 h
  obtain ⟨f, hf, he⟩ := data_prefix hr hs
  rw [he, refData_terminated hf ht]
  simp [Outcome.map]

theorem data_of_garbled (version : Nat) (h1 : 1 ≤ version) (h40 : version ≤ 40) (input : List U8)
    (h : Garbled version (streamOf input)) : ∃ e, data input version = .err e := by
  obtain ⟨pre, rest, hp, hn, hs⟩ := h
  obtain ⟨t, hr⟩ := readsTo_readable h1 h40 hp
  obtain ⟨f, hf, he⟩ := data_prefix hr hs
  obtain ⟨f, rfl⟩ : ∃ g, f = g + 1 := ⟨f - 1, by omega⟩
  obtain ⟨e, he'⟩ := refData_noSegment h1 h40 hn f
  rw [he, he']
  exact ⟨e, rfl⟩

theorem data_cases (version : Nat) (h1 : 1 ≤ version) (h40 : version ≤ 40) (input : List U8) :
    (∃ t, Says version (streamOf input) t) ∨ Garbled version (streamOf input) ∨ data input version = .panic := by
  rcases refData_cases h1 h40 _ (streamOf input) (Nat.le_refl _) with h | h | ⟨pre, t, rest, hs, hr, hp⟩
  · exact .inl h
  · exact .inr (.inl h)
  · obtain ⟨f, hf, he⟩ := data_prefix hr hs
    obtain ⟨f, rfl⟩ : ∃ g, f = g + 1 := ⟨f - 1, by omega⟩
    rw [hp] at he
    exact .inr (.inr he)

/-- **C78, data.** A text is returned iff the bits are complete segments that say it, followed by the terminator or by
fewer than four bits. -/
theorem data_returns_iff (version : Nat) (h1 : 1 ≤ version) (h40 : version ≤ 40) (input : List U8) (text : List Char) :
    data input version = .ok text ↔ Says version (streamOf input) text := by
  refine ⟨fun h => ?_, data_of_says version h1 h40 input text⟩
  rcases data_cases version h1 h40 input with ⟨t, ht⟩ | hg | hp
  · have := data_of_says version h1 h40 input t ht
    rw [h] at this
    cases this
    exact ht
  · obtain ⟨e, he⟩ := data_of_garbled version h1 h40 input hg
    rw [h] at he; cases he
  · rw [h] at hp; cases hp

/-- C78, errors. The answer is an error iff after complete segments something follows that is no segment: an unknown
mode, too few bits, a pair of characters that is none, bytes that should be UTF-8 and are not. -/
theorem data_fails_iff (version : Nat) (h1 : 1 ≤ version) (h40 : version ≤ 40) (input : List U8) :
    (∃ e, data input version = .err e) ↔ Garbled version (streamOf input) := by
  refine ⟨?_, data_of_garbled version h1 h40 input⟩
  rintro ⟨e, h⟩
  rcases data_cases version h1 h40 input with ⟨t, ht⟩ | hg | hp
  · rw [data_of_says version h1 h40 input t ht] at h; cases h
  · exact hg
  · rw [h] at hp; cases hp

/-- What a stream says is unique. -/
theorem says_unique (version : Nat) (h1 : 1 ≤ version) (h40 : version ≤ 40) (input : List U8) (t u : List Char)
    (ht : Says version (streamOf input) t) (hu : Says version (streamOf input) u) : t = u := by
  have h := data_of_says version h1 h40 input t ht
  rw [data_of_says version h1 h40 input u hu] at h
  cases h; rfl

/-- Decoding a complete grid is reading the data it carries, if it carries any, and an error otherwise. -/
theorem decode_reads (q : QRData) (v : Nat) (hw : WellFormed q v) :
    (∃ payload, CarriesData q payload ∧ 1 ≤ v ∧ v ≤ 40 ∧ qrDecode (.ok q) = data payload v) ∨
    ((¬ ∃ payload, CarriesData q payload) ∧ ∃ e, qrDecode (.ok q) = .err e) := by
  have hver := hw.1
  have none_of : ∀ e, format q = .err e → ¬ ∃ payload, CarriesData q payload := by
    rintro e he ⟨_, l, m, bs, rows, cs, hx, -⟩
    rw [he] at hx; cases hx
  unfold qrDecode
  simp only
  rcases format_total q v hw with ⟨⟨l, m⟩, hx⟩ | hx
  · simp only [hx, Outcome.ok_bind]
    by_cases hk : 1 ≤ v ∧ v ≤ 40
    · obtain ⟨k, hk'⟩ := format_mask q l m hx
      have hk8 : k < 8 := by
        by_contra hc
        rw [no_other_mask k (by omega)] at hk'
        cases hk'
      obtain ⟨bs, hb, hlen⟩ := blocks_always_ok q v hk.1 hk.2 hw l k hk8 m hk'
      obtain ⟨-, -, rows, hrows, hl⟩ := blocks_ok_inv q l m bs hb
      rw [hver] at hrows
      obtain ⟨hp, -, hlen'⟩ := pairs_facts v hk.1 hk.2 l rows hrows bs hl
      simp only [hb, hver, hrows, Outcome.ok_bind]
      have e : (bs.zip rows).map (·.2) = rows := List.map_snd_zip (by omega)
      rcases correctBlocks_cases v l (bs.zip rows) hp [] with ⟨⟨e, he⟩, hn⟩ | ⟨cs, hcs, hok⟩
      · refine .inr ⟨?_, e, by simp only [he, Outcome.err_bind]⟩
        rintro ⟨_, l', m', bs', rows', cs, hx', hb', hrows', hcs, -⟩
        rw [hx] at hx'; cases hx'
        rw [hb] at hb'; cases hb'
        rw [hver, hrows] at hrows'; cases hrows'
        exact hn ⟨cs, hcs⟩
      · rw [hok, e]
        simp only [Outcome.ok_bind, List.nil_append]
        exact .inl ⟨_, ⟨l, m, bs, rows, cs, hx, hb, by rw [hver]; exact hrows, hcs, rfl⟩, hk.1, hk.2, rfl⟩
    · obtain ⟨e, he, -⟩ := blocks_unknown_version q (by omega) l m
      refine .inr ⟨?_, e, by simp only [he, Outcome.err_bind]⟩
      rintro ⟨_, l', m', bs', rows', cs, hx', hb', -⟩
      have := (blocks_ok_inv q l' m' bs' hb').1
      have := (blocks_ok_inv q l' m' bs' hb').2.1
      omega
  · exact .inr ⟨none_of _ hx, _, by simp only [hx, Outcome.err_bind]; rfl⟩

/-- A grid carries at most one payload. -/
theorem carries_unique (q : QRData) (p p' : List U8) (h : CarriesData q p) (h' : CarriesData q p') : p = p' := by
  obtain ⟨l, m, bs, rows, cs, hx, hb, hr, hcs, rfl⟩ := h
  obtain ⟨l', m', bs', rows', cs', hx', hb', hr', hcs', rfl⟩ := h'
  rw [hx] at hx'; cases hx'
  rw [hb] at hb'; cases hb'
  rw [hr] at hr'; cases hr'
  have : cs = cs' := forall₂_unique (fun p b b' h h' => by rw [h] at h'; exact Outcome.ok.inj h') hcs hcs'
  rw [this]

/-- **C78, one grid.** Decoding a complete grid returns a text iff the data that the grid carries after correction say
this text. -/
theorem decode_returns_iff (q : QRData) (v : Nat) (hw : WellFormed q v) (text : List Char) :
    qrDecode (.ok q) = .ok text ↔ ∃ payload, CarriesData q payload ∧ Says v (streamOf payload) text := by
  rcases decode_reads q v hw with ⟨payload, hc, h1, h40, he⟩ | ⟨hn, e, he⟩
  · rw [he, data_returns_iff v h1 h40]
    refine ⟨fun h => ⟨payload, hc, h⟩, ?_⟩
    rintro ⟨p, hc', h⟩
    rw [carries_unique q payload p hc hc']
    exact h
  · rw [he]
    constructor
    · intro h; cases h
    · rintro ⟨p, hc, -⟩
      exact absurd ⟨p, hc⟩ hn

/-- C78, one grid, errors. Decoding a complete grid returns an error iff it carries no data (the format information is
unreadable, the version unknown or a block beyond repair) or the data are garbled. -/
theorem decode_fails_iff (q : QRData) (v : Nat) (hw : WellFormed q v) :
    (∃ e, qrDecode (.ok q) = .err e) ↔
      (¬ ∃ payload, CarriesData q payload) ∨ ∃ payload, CarriesData q payload ∧ Garbled v (streamOf payload) := by
  rcases decode_reads q v hw with ⟨payload, hc, h1, h40, he⟩ | ⟨hn, e, he⟩
  · rw [he, data_fails_iff v h1 h40]
    constructor
    · exact fun h => .inr ⟨payload, hc, h⟩
    · rintro (hn | ⟨p, hc', h⟩)
      · exact absurd ⟨payload, hc⟩ hn
      · rw [carries_unique q payload p hc hc']
        exact h
  · exact ⟨fun _ => .inl hn, fun _ => ⟨e, he⟩⟩

/-- **C78.** No text is invented: a text is among the results of the default decoder iff it is said by the data that
are carried, after correction, by a grid that is extracted at a detected location. -/
theorem default_decoder_texts (grayscale : IMG → GrayImage) :
    ∃ d : Decoder σ IMG GrayImage QRLocation QRData (List Char), defaultDecoder grayscale = .ret d ∧
      ∀ source s rs s', d.decode source s = .ret (rs, s') → ∀ text, Except.ok text ∈ rs ↔
        ∃ img locs loc q payload, (BlockedMean.mk 5 7).prepare (grayscale source) = .ret img ∧ detect img = .ret locs ∧
          loc ∈ locs ∧ extract img loc = .ok q ∧ CarriesData q payload ∧
          Says loc.version (streamOf payload) text := by
  obtain ⟨d, hd, hiff⟩ := default_decoder_results (σ := σ) grayscale
  refine ⟨d, hd, fun source s rs s' h text => ?_⟩
  obtain ⟨-, img, locs, hp, hdet, hall⟩ := (hiff source s rs s').mp h
  have hwf : ∀ loc q, extract img loc = .ok q → WellFormed q loc.version := by
    intro loc q hq
    have hwf := extracted_grid_is_well_formed _ _ _ hq
    exact ⟨hwf.1, hwf.2.1, by rw [hwf.2.2.1, hwf.2.1]⟩
  constructor
  · intro hm
    obtain ⟨i, hi, he⟩ := List.getElem_of_mem hm
    have hl := hall.length_eq
    have hr := hall.get (i := i) (by omega) hi
    simp only [List.get_eq_getElem] at hr
    rw [he] at hr
    rcases hr with ⟨q, hq, ⟨a, ha, e⟩ | ⟨e', -, e⟩⟩ | ⟨e', -, e⟩
    · cases e
      obtain ⟨payload, hc, hs⟩ := (decode_returns_iff q _ (hwf _ _ hq) text).mp ha
      exact ⟨img, locs, _, q, payload, hp, hdet, List.getElem_mem _, hq, hc, hs⟩
    · cases e
    · cases e
  · rintro ⟨img', locs', loc, q, payload, hp', hdet', hl, hq, hc, hs⟩
    rw [hp] at hp'; cases hp'
    rw [hdet] at hdet'; cases hdet'
    obtain ⟨i, hi, he⟩ := List.getElem_of_mem hl
    have hlen := hall.length_eq
    have hr := hall.get (i := i) hi (by omega)
    simp only [List.get_eq_getElem] at hr
    rw [he] at hr
    have ha := (decode_returns_iff q _ (hwf _ _ hq) text).mpr ⟨payload, hc, hs⟩
    rcases hr with ⟨q', hq', ⟨a, ha', e⟩ | ⟨e', ha', e⟩⟩ | ⟨e', hq', e⟩
    · rw [hq] at hq'; cases hq'
      rw [ha] at ha'; cases ha'
      rw [← e]
      exact List.getElem_mem _
    · rw [hq] at hq'; cases hq'
      rw [ha] at ha'; cases ha'
    · rw [hq] at hq'; cases hq'

/-! ### Concrete cases -/

/-- A numeric segment with the group 1005, which no encoder writes, and a byte segment, terminated. -/
example : data [0x10#8, 0x0F#8, 0xED#8, 0x40#8, 0x14#8, 0x10#8] 1 = .ok "1005A".toList ∧
    Says 1 (streamOf [0x10#8, 0x0F#8, 0xED#8, 0x40#8, 0x14#8, 0x10#8]) "1005A".toList := by
  have h : data [0x10#8, 0x0F#8, 0xED#8, 0x40#8, 0x14#8, 0x10#8] 1 = .ok "1005A".toList := by decide +kernel
  exact ⟨h, (data_returns_iff 1 (by decide) (by decide) _ _).mp h⟩

/-- An illegal pair. -/
example : Garbled 1 (streamOf [0x20#8, 0x17#8, 0xFF#8]) := by
  refine ⟨[], _, .nil, NoSegment.pair (rest := []) 2 [] 2047 (by decide) rfl (by decide) (by decide) (by decide), ?_⟩
  decide +kernel

end Verif.Props
