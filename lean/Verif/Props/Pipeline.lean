import Verif.Spec.Pipeline
/-!
# Properties C40, C41: `Decoder::decode` and `DecoderBuilder`

Specification: `Verif.Spec.Pipeline`.
-/
namespace Verif.Props
open Spec

variable {σ IMG PREPD LOC DATA RESULT : Type}

theorem decodeAll_iff (qr : ExtractDecode σ PREPD LOC DATA RESULT) (img : PREPD) (locs : List (Location LOC))
    (acc : List (Except QRError RESULT)) (s : σ) (out : List (Except QRError RESULT)) (s' : σ) :
    decodeAll qr img locs acc s = .ret (out, s') ↔
      ∃ rs, out = acc ++ rs ∧ Calls qr.extract qr.decode img locs s rs s' := by
  induction locs generalizing acc s with
  | nil =>
    simp only [decodeAll, Eff.pure, Run.ret.injEq, Prod.mk.injEq]
    constructor
    · rintro ⟨rfl, rfl⟩
      exact ⟨[], by simp, .nil s⟩
    · rintro ⟨rs, rfl, h⟩
      cases h
      simp
  | cons loc locs ih =>
    cases loc with
    | qr loc =>
      simp only [decodeAll, Eff.bind]
      constructor
      · intro h
        cases hx : qr.extract img loc s with
        | panic => rw [hx] at h; cases h
        | ret x =>
          rw [hx] at h
          simp only at h
          cases hd : qr.decode x.1 x.2 with
          | panic => rw [hd] at h; cases h
          | ret y =>
            rw [hd] at h
            obtain ⟨rs, rfl, hc⟩ := (ih _ _).mp h
            exact ⟨y.1 :: rs, by simp, .cons hx hd hc⟩
      · rintro ⟨rs, rfl, h⟩
        cases h with
        | cons hx hd hc =>
          rw [hx]
          simp only
          rw [hd]
          simp only
          exact (ih _ _).mpr ⟨_, by simp, hc⟩

/-- C40, for all components, stateful ones included: decoding returns the results `rs` iff `prepare` and
`detect` return and then `extract` and `decode` are called once per location, in the order detected; the
results are those of the `decode` calls, errors included. -/
theorem decode_runs_all_locations (d : Decoder σ IMG PREPD LOC DATA RESULT) (source : IMG) (s : σ)
    (rs : List (Except QRError RESULT)) (s' : σ) :
    d.decode source s = .ret (rs, s') ↔
      ∃ img s1 locs s2, d.prepare source s = .ret (img, s1) ∧ d.detect img s1 = .ret (locs, s2) ∧
        Calls d.qr.extract d.qr.decode img locs s2 rs s' := by
  simp only [Decoder.decode, Eff.bind]
  constructor
  · intro h
    cases hp : d.prepare source s with
    | panic => rw [hp] at h; cases h
    | ret p =>
      rw [hp] at h
      simp only at h
      cases hd : d.detect p.1 p.2 with
      | panic => rw [hd] at h; cases h
      | ret l =>
        rw [hd] at h
        simp only at h
        refine ⟨p.1, p.2, l.1, l.2, rfl, hd, ?_⟩
        by_cases he : l.1.isEmpty
        · rw [if_pos he] at h
          simp only [Eff.pure, Run.ret.injEq, Prod.mk.injEq] at h
          rw [List.isEmpty_iff] at he
          rw [he, ← h.1, ← h.2]
          exact .nil _
        · rw [if_neg he] at h
          obtain ⟨rs', rfl, hc⟩ := (decodeAll_iff _ _ _ _ _ _ _).mp h
          exact hc
  · rintro ⟨img, s1, locs, s2, hp, hd, hc⟩
    rw [hp]
    simp only
    rw [hd]
    simp only
    by_cases he : locs.isEmpty
    · rw [if_pos he]
      rw [List.isEmpty_iff] at he
      subst he
      cases hc
      rfl
    · rw [if_neg he]
      exact (decodeAll_iff _ _ _ _ _ _ _).mpr ⟨rs, rfl, hc⟩

theorem calls_length {extract : Extract σ PREPD LOC DATA} {decode : Decode σ DATA RESULT} {img : PREPD}
    {locs : List (Location LOC)} {s s' : σ} {rs : List (Except QRError RESULT)}
    (h : Calls extract decode img locs s rs s') : rs.length = locs.length := by
  induction h with
  | nil => rfl
  | cons _ _ _ ih => simp [ih]

/-- C40: exactly one result per location; in particular none if nothing is detected. -/
theorem one_result_per_location (d : Decoder σ IMG PREPD LOC DATA RESULT) (source : IMG) (s : σ)
    (rs : List (Except QRError RESULT)) (s' : σ) (h : d.decode source s = .ret (rs, s')) :
    ∃ img s1 locs s2, d.prepare source s = .ret (img, s1) ∧ d.detect img s1 = .ret (locs, s2) ∧
      rs.length = locs.length := by
  obtain ⟨img, s1, locs, s2, hp, hd, hc⟩ := (decode_runs_all_locations d source s rs s').mp h
  refine ⟨img, s1, locs, s2, hp, hd, ?_⟩
  exact calls_length hc

/-- C40, for components without state: the result for each location is a function of the prepared image and
that location, whatever the other locations are and whether they fail. -/
theorem locations_are_independent (d : Decoder σ IMG PREPD LOC DATA RESULT) (prepare : IMG → PREPD)
    (detect : PREPD → List LOC) (extract : PREPD → LOC → Except QRError DATA)
    (decode : Except QRError DATA → Except QRError RESULT)
    (hp : ∀ i s, d.prepare i s = .ret (prepare i, s))
    (hd : ∀ p s, d.detect p s = .ret ((detect p).map .qr, s))
    (he : ∀ p l s, d.qr.extract p l s = .ret (extract p l, s))
    (hc : ∀ x s, d.qr.decode x s = .ret (decode x, s)) (source : IMG) (s : σ) :
    d.decode source s =
      .ret ((detect (prepare source)).map fun loc => decode (extract (prepare source) loc), s) := by
  rw [decode_runs_all_locations]
  refine ⟨_, _, _, _, hp _ _, hd _ _, ?_⟩
  induction detect (prepare source) with
  | nil => exact .nil s
  | cons loc locs ih => exact .cons (he _ _ _) (hc _ _) ih

/-! ### C41 -/

/-- A sequence of builder calls. -/
def runCalls (b : DecoderBuilder σ IMG PREPD LOC DATA RESULT) :
    List (BuilderCall σ IMG PREPD LOC DATA RESULT) → DecoderBuilder σ IMG PREPD LOC DATA RESULT
  | [] => b
  | .prepare p :: cs => runCalls (b.setPrepare p) cs
  | .detect d :: cs => runCalls (b.setDetect d) cs
  | .qr e d :: cs => runCalls (b.setQr e d) cs

theorem lastSome_cons {α β : Type} (f : α → Option β) (a : α) (l : List α) :
    lastSome f (a :: l) = (lastSome f l).or (f a) := by
  unfold lastSome
  rw [List.reverse_cons, List.findSome?_append]
  simp [List.findSome?]
  cases f a <;> rfl

theorem runCalls_eq (b : DecoderBuilder σ IMG PREPD LOC DATA RESULT)
    (cs : List (BuilderCall σ IMG PREPD LOC DATA RESULT)) :
    runCalls b cs = ⟨(lastSome BuilderCall.asPrepare cs).or b.prepare, (lastSome BuilderCall.asDetect cs).or b.detect,
      ((lastSome BuilderCall.asQr cs).map fun p => ⟨p.1, p.2⟩).or b.qr⟩ := by
  induction cs generalizing b with
  | nil => rfl
  | cons c cs ih =>
    simp only [lastSome_cons]
    cases c with
    | prepare p =>
      rw [runCalls, ih]
      generalize lastSome BuilderCall.asPrepare cs = P
      generalize lastSome BuilderCall.asDetect cs = D
      generalize lastSome BuilderCall.asQr cs = Q
      cases P <;> cases D <;> cases Q <;> rfl
    | detect d =>
      rw [runCalls, ih]
      generalize lastSome BuilderCall.asPrepare cs = P
      generalize lastSome BuilderCall.asDetect cs = D
      generalize lastSome BuilderCall.asQr cs = Q
      cases P <;> cases D <;> cases Q <;> rfl
    | qr e d =>
      rw [runCalls, ih]
      generalize lastSome BuilderCall.asPrepare cs = P
      generalize lastSome BuilderCall.asDetect cs = D
      generalize lastSome BuilderCall.asQr cs = Q
      cases P <;> cases D <;> cases Q <;> rfl

/-- C41. After any sequence of calls on a new builder, `build` panics iff one of the three components was
never given; otherwise it gives the decoder made of the component given last for each. -/
theorem builder_last_wins (cs : List (BuilderCall σ IMG PREPD LOC DATA RESULT)) :
    ((runCalls .new cs).build = .panic ↔
      (∀ p, .prepare p ∉ cs) ∨ (∀ d, .detect d ∉ cs) ∨ (∀ e d, .qr e d ∉ cs)) ∧
    (∀ p d e c, lastSome BuilderCall.asPrepare cs = some p → lastSome BuilderCall.asDetect cs = some d →
      lastSome BuilderCall.asQr cs = some (e, c) →
      (runCalls .new cs).build = .ret { prepare := p, detect := d, qr := { extract := e, decode := c } }) := by
  have hn : ∀ {α : Type} (f : BuilderCall σ IMG PREPD LOC DATA RESULT → Option α),
      lastSome f cs = none ↔ ∀ c ∈ cs, f c = none := by
    intro α f
    unfold lastSome
    rw [List.findSome?_eq_none_iff]
    simp
  have hp : lastSome BuilderCall.asPrepare cs = none ↔ ∀ p, BuilderCall.prepare p ∉ cs := by
    rw [hn]
    constructor
    · intro h p hp
      have := h _ hp
      simp [BuilderCall.asPrepare] at this
    · intro h c hc
      cases c with
      | prepare p => exact absurd hc (h p)
      | _ => rfl
  have hd : lastSome BuilderCall.asDetect cs = none ↔ ∀ d, BuilderCall.detect d ∉ cs := by
    rw [hn]
    constructor
    · intro h p hp
      have := h _ hp
      simp [BuilderCall.asDetect] at this
    · intro h c hc
      cases c with
      | detect p => exact absurd hc (h p)
      | _ => rfl
  have hq : lastSome BuilderCall.asQr cs = none ↔ ∀ e d, BuilderCall.qr e d ∉ cs := by
    rw [hn]
    constructor
    · intro h p d hp
      have := h _ hp
      simp [BuilderCall.asQr] at this
    · intro h c hc
      cases c with
      | qr p d => exact absurd hc (h p d)
      | _ => rfl
  rw [← hp, ← hd, ← hq, runCalls_eq]
  simp only [DecoderBuilder.new, Option.or_none, DecoderBuilder.build]
  constructor
  · cases lastSome BuilderCall.asPrepare cs <;> cases lastSome BuilderCall.asDetect cs <;> cases lastSome BuilderCall.asQr cs <;> simp
  · intro p d e c h1 h2 h3
    rw [h1, h2, h3]
    simp

/-! ### Non-vacuity -/

/-- A stateful decoder: the state counts the calls; the second location fails. -/
def countingDecoder : Decoder Nat Nat Nat Nat Nat Nat where
  prepare := fun i s => .ret (i * 2, s + 1)
  detect := fun p s => .ret ((List.range p).map .qr, s + 1)
  qr := {
    extract := fun p l s => .ret (if l = 1 then .error ⟨"no"⟩ else .ok (p + l), s + 1)
    decode := fun x s => .ret (x.map (· + s), s + 1) }

example : countingDecoder.decode 2 0 =
    .ret ([.ok 7, .error ⟨"no"⟩, .ok 13, .ok 16], 10) := rfl

example : countingDecoder.decode 0 0 = .ret ([], 2) := rfl

example : (runCalls (.new : DecoderBuilder Nat Nat Nat Nat Nat Nat)
    [.prepare countingDecoder.prepare, .detect countingDecoder.detect]).build = .panic := rfl

end Verif.Props
