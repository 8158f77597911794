import Verif.NonTransparent.Calls

/-!
# Listeners that panic

The functions of `Model.lean` that call the listener, with a listener that may panic. The panic leaves `Parse` (nothing in the repository
recovers, and the model assumes that the external loop does not either); the caller may recover, and the parser is left as it was when the
listener was called.
-/

namespace Verif.NonTransparent
open Verif.Rfc5424 (parse1 parse_eq parse1_eq resultOf descend)

/-- how a function ends: the message parser panics, the listener panics (what is left of the parser), or it returns -/
inductive Ran (α : Type) where
  | crash
  | panic (left : Machine)
  | ok (a : α)

/-- a listener: does it panic when it has got these results in this call of `Parse`, the last one just now? -/
abbrev Stop := List Result → Bool

/-- `m.emit(r)` (nontransparent/parser.go:190-193, 268-271) -/
def emitP (stop : Stop) (r : Result) (m : Machine) : Ran Machine :=
  if stop (m.out ++ [r]) then .panic { m with out := m.out ++ [r] } else .ok { m with out := m.out ++ [r] }

/-- `process` (nontransparent/parser.go:262-272) -/
def Machine.processP (stop : Stop) (m : Machine) : Ran Machine :=
  match m.candidate.getLast? with
  | none => .crash
  | some lastByte =>
    let m := if lastByte = m.trailer then { m with candidate := m.candidate.dropLast } else m
    match m.parseMsg m.candidate with
    | none => .crash
    | some (res, err, m) => emitP stop ⟨res, err.map .message⟩ m

/-- `tr0` (nontransparent/parser.go:57-64) -/
def Machine.tr0P (stop : Stop) (m : Machine) : Ran Machine :=
  if m.candidate.length > 0 then
    match m.processP stop with
    | .crash => .crash
    | .panic y => .panic y
    | .ok m => .ok { m with candidate := [] }
  else .ok { m with candidate := [] }

/-- one round of `Exec` (nontransparent/parser.go:36-149) -/
def stepByteP (stop : Stop) (data : Bytes) (cs : Nat) (b : UInt8) (m : Machine) : Ran (Nat × Machine) :=
  let start : Ran (Nat × Machine) := match m.tr0P stop with
    | .crash => .crash
    | .panic y => .panic y
    | .ok m => .ok (2, m)
  if cs = 1 then
    if b = 60 then start else .ok (0, m)
  else if cs = 2 then
    match next23 (widec m.trailertyp b) with
    | none => .ok (3, { m with candidate := m.candidate ++ data })
    | some n => .ok (n, m)
  else if cs = 3 then
    if widec m.trailertyp b = 60 then start
    else
      match next23 (widec m.trailertyp b) with
      | none => .ok (3, { m with candidate := m.candidate ++ data })
      | some n => .ok (n, m)
  else .ok (0, m)

/-- the bytes of `Exec` (nontransparent/parser.go:28-169) -/
def execLoopP (stop : Stop) (data : Bytes) : Bytes → Nat → Machine → Ran (Nat × Bool × Machine)
  | [], cs, m => .ok (cs, true, m)
  | b :: rest, cs, m =>
    match stepByteP stop data cs b m with
    | .crash => .crash
    | .panic y => .panic y
    | .ok (cs', m') => if cs' = 0 then .ok (0, false, m') else execLoopP stop data rest cs' m'

/-- `Exec` (nontransparent/parser.go:28-169) -/
def execP (stop : Stop) (data : Bytes) (cs : Nat) (m : Machine) : Ran (Nat × Bool × Machine) := execLoopP stop data data cs m

/-- `OnCompletion` (nontransparent/parser.go:180-195) -/
def Machine.onCompletionP (stop : Stop) (m : Machine) : Ran Machine :=
  match (if m.candidate.length > 0 then m.processP stop else .ok m) with
  | .crash => .crash
  | .panic y => .panic y
  | .ok m =>
    match m.readError with
    | some re =>
      if m.lastChunk.length > 0 then
        match m.parseMsg m.lastChunk with
        | none => .crash
        | some (res, err, m) => emitP stop ⟨res, match err with | none => some (.reading re) | some e => some (.message e)⟩ m
      else .ok m
    | none => .ok m

/-- the loop over the chunks (external, as `drive`) -/
def driveP (stop : Stop) (d : Driver) (end_ : ReadErr) (last : Bytes) : List Bytes → Nat → Machine → Ran Machine
  | [], cs, m =>
    if last = [] then .ok (if d.errOnEmpty then m.onErr [] end_ else m.onEOF [])
    else if d.execLast then
      match execP stop last cs m with
      | .crash => .crash
      | .panic y => .panic y
      | .ok (_, _, m) => .ok (m.onErr last end_)
    else .ok (m.onErr last end_)
  | c :: rest, cs, m =>
    match execP stop c cs m with
    | .crash => .crash
    | .panic y => .panic y
    | .ok (cs', ok, m') => if ok = false ∧ d.stopOnFail = true then .ok m' else driveP stop d end_ last rest cs' m'

/-- `machine.Parse` (nontransparent/parser.go:257-260) -/
def Machine.parseP (stop : Stop) (d : Driver) (m : Machine) (bytes : Bytes) (end_ : ReadErr := .unexpectedEOF) : Ran Machine :=
  match driveP stop d end_ (chunks m.trailer bytes).2 (chunks m.trailer bytes).1 1 m with
  | .crash => .crash
  | .panic y => .panic y
  | .ok m => m.onCompletionP stop

/-! ## Without a panic -/

/-- the outcome of a function whose listener does not panic -/
def Ran.of {α : Type} : Option α → Ran α
  | none => .crash
  | some a => .ok a

theorem processP_calm (m : Machine) : m.processP (fun _ => false) = Ran.of m.process := by
  simp only [Machine.processP, Machine.process]
  cases m.candidate.getLast? with
  | none => rfl
  | some l =>
    simp only []
    cases Machine.parseMsg _ _ with
    | none => rfl
    | some y => rfl

theorem tr0P_calm (m : Machine) : m.tr0P (fun _ => false) = Ran.of m.tr0 := by
  simp only [Machine.tr0P, Machine.tr0, processP_calm]
  split
  · cases m.process <;> rfl
  · rfl

theorem stepByteP_calm (data : Bytes) (cs : Nat) (b : UInt8) (m : Machine) :
    stepByteP (fun _ => false) data cs b m = Ran.of (stepByte data cs b m) := by
  simp only [stepByteP, stepByte, tr0P_calm]
  by_cases h1 : cs = 1
  · rw [if_pos h1, if_pos h1]
    by_cases hb : b = 60
    · rw [if_pos hb, if_pos hb]; cases m.tr0 <;> rfl
    · rw [if_neg hb, if_neg hb]; rfl
  · rw [if_neg h1, if_neg h1]
    by_cases h2 : cs = 2
    · rw [if_pos h2, if_pos h2]; cases next23 (widec m.trailertyp b) <;> rfl
    · rw [if_neg h2, if_neg h2]
      by_cases h3 : cs = 3
      · rw [if_pos h3, if_pos h3]
        by_cases hb : widec m.trailertyp b = 60
        · rw [if_pos hb, if_pos hb]; cases m.tr0 <;> rfl
        · rw [if_neg hb, if_neg hb]; cases next23 (widec m.trailertyp b) <;> rfl
      · rw [if_neg h3, if_neg h3]; rfl

theorem execLoopP_calm (data bs : Bytes) (cs : Nat) (m : Machine) :
    execLoopP (fun _ => false) data bs cs m = Ran.of (execLoop data bs cs m) := by
  induction bs generalizing cs m with
  | nil => rfl
  | cons b bs ih =>
    simp only [execLoopP, execLoop, stepByteP_calm]
    cases stepByte data cs b m with
    | none => rfl
    | some y =>
      obtain ⟨y1, y2⟩ := y
      simp only [Ran.of]
      by_cases h : y1 = 0
      · rw [if_pos h, if_pos h]
      · rw [if_neg h, if_neg h]; exact ih _ _

theorem onCompletionP_calm (m : Machine) : m.onCompletionP (fun _ => false) = Ran.of m.onCompletion := by
  simp only [Machine.onCompletionP, Machine.onCompletion, processP_calm]
  have : (if m.candidate.length > 0 then Ran.of m.process else Ran.ok m) = Ran.of (if m.candidate.length > 0 then m.process else some m) := by
    split <;> rfl
  rw [this]
  cases (if m.candidate.length > 0 then m.process else some m) with
  | none => rfl
  | some m1 =>
    simp only [Ran.of]
    cases m1.readError with
    | none => rfl
    | some re =>
      simp only []
      by_cases h : m1.lastChunk.length > 0
      · rw [if_pos h, if_pos h]
        cases m1.parseMsg m1.lastChunk <;> rfl
      · rw [if_neg h, if_neg h]

theorem driveP_calm (d : Driver) (e : ReadErr) (last : Bytes) (ls : List Bytes) (cs : Nat) (m : Machine) :
    driveP (fun _ => false) d e last ls cs m = Ran.of (drive d e last ls cs m) := by
  induction ls generalizing cs m with
  | nil =>
    simp only [driveP, drive, execP, exec, execLoopP_calm]
    by_cases h : last = []
    · rw [if_pos h, if_pos h]; rfl
    · rw [if_neg h, if_neg h]
      by_cases h2 : d.execLast = true
      · rw [if_pos h2, if_pos h2]; cases execLoop last last cs m <;> rfl
      · rw [if_neg h2, if_neg h2]; rfl
  | cons l ls ih =>
    simp only [driveP, drive, execP, exec, execLoopP_calm]
    cases execLoop l l cs m with
    | none => rfl
    | some y =>
      obtain ⟨y1, y2, y3⟩ := y
      simp only [Ran.of]
      by_cases h : y2 = false ∧ d.stopOnFail = true
      · rw [if_pos h, if_pos h]
      · rw [if_neg h, if_neg h]; exact ih _ _

/-- a listener that never panics: the model of `Model.lean` -/
theorem parseP_calm (d : Driver) (m : Machine) (bytes : Bytes) (e : ReadErr) : m.parseP (fun _ => false) d bytes e = Ran.of (m.parse d bytes e) := by
  simp only [Machine.parseP, Machine.parse, driveP_calm]
  cases drive d e (chunks m.trailer bytes).2 (chunks m.trailer bytes).1 1 m with
  | none => rfl
  | some x => exact onCompletionP_calm x

/-! ## Step by step -/

section
variable {stop : Stop} {be : Bool} {t : UInt8}

/-- the parser that is left when the listener panics at the result of the candidate -/
def leftAt (be : Bool) (t : UInt8) (m : Machine) (i : Rfc5424.M) : Machine :=
  { m with candidate := strip t m.candidate, internal := i, out := m.out ++ [pmsg be (strip t m.candidate)] }

theorem processP_spec {m : Machine} (h : Inv be t m) (hc : m.candidate ≠ []) :
    ∃ i, m.processP stop = (if stop (m.out ++ [pmsg be (strip t m.candidate)]) then .panic (leftAt be t m i) else .ok (leftAt be t m i)) ∧
      m.process = some (leftAt be t m i) ∧ i.bestEffort = be ∧ i.compliantMsg = false := by
  obtain ⟨m', e, e1, e2⟩ := parse_eq m.internal (strip t m.candidate)
  have hp : ∀ w, resultOf m.internal.bestEffort (descend m.internal.compliantMsg w) = resultOf be (descend false w) := by
    intro w; rw [h.ibe, h.ico]
  obtain ⟨typ, tr, cand, b, i, re, lc, out⟩ := m
  simp only at hc e h hp
  have htr : tr = t := h.tr
  subst htr
  refine ⟨m', ?_, ?_, e1.trans h.ibe, e2.trans h.ico⟩
  · simp only [Machine.processP]
    obtain ⟨l, hl⟩ : ∃ l, cand.getLast? = some l := by
      cases hh : cand.getLast? with
      | none => simp at hh; exact absurd hh hc
      | some l => exact ⟨l, rfl⟩
    simp only [hl]
    by_cases heq : l = tr
    · subst heq
      have hs : strip l cand = cand.dropLast := by rw [strip, if_pos hl]
      simp only [hs] at e ⊢
      simp only [if_true, Machine.parseMsg, e, pmsg, parse1_eq, hp, emitP, leftAt, hs]
    · have hs : strip tr cand = cand := by
        rw [strip, if_neg]; rw [hl]; simpa using heq
      simp only [hs] at e ⊢
      simp only [if_neg heq, Machine.parseMsg, e, pmsg, parse1_eq, hp, emitP, leftAt, hs]
  · simp only [Machine.process]
    obtain ⟨l, hl⟩ : ∃ l, cand.getLast? = some l := by
      cases hh : cand.getLast? with
      | none => simp at hh; exact absurd hh hc
      | some l => exact ⟨l, rfl⟩
    simp only [hl]
    by_cases heq : l = tr
    · subst heq
      have hs : strip l cand = cand.dropLast := by rw [strip, if_pos hl]
      rw [hs] at e
      simp only [if_true, Machine.parseMsg, e, pmsg, parse1_eq, hp, leftAt, hs]
    · have hs : strip tr cand = cand := by
        rw [strip, if_neg]; rw [hl]; simpa using heq
      rw [hs] at e
      simp only [if_neg heq, Machine.parseMsg, e, pmsg, parse1_eq, hp, leftAt, hs]

theorem leftAt_inv {m : Machine} (h : Inv be t m) {i : Rfc5424.M} (h1 : i.bestEffort = be) (h2 : i.compliantMsg = false) :
    Inv be t (leftAt be t m i) := ⟨h.tr, h.typ, h1, h2⟩

/-- does the listener panic at the result of the candidate? -/
def stopsAt (stop : Stop) (be : Bool) (t : UInt8) (m : Machine) : Prop := m.candidate ≠ [] ∧ stop (m.out ++ [pmsg be (strip t m.candidate)]) = true

theorem tr0P_spec {m : Machine} (h : Inv be t m) :
    (stopsAt stop be t m → ∃ i, m.tr0P stop = .panic (leftAt be t m i) ∧ Inv be t (leftAt be t m i)) ∧
      (¬ stopsAt stop be t m → m.tr0P stop = Ran.of m.tr0) := by
  by_cases hc : m.candidate = []
  · refine ⟨fun hh => absurd hc hh.1, fun _ => ?_⟩
    simp [Machine.tr0P, Machine.tr0, hc, Ran.of]
  · have hpos : m.candidate.length > 0 := List.length_pos_iff.mpr hc
    obtain ⟨i, a1, a2, a3, a4⟩ := processP_spec (stop := stop) h hc
    constructor
    · intro hh
      rw [if_pos hh.2] at a1
      exact ⟨i, by rw [Machine.tr0P, if_pos hpos, a1], leftAt_inv h a3 a4⟩
    · intro hh
      have : ¬ stop (m.out ++ [pmsg be (strip t m.candidate)]) = true := fun h' => hh ⟨hc, h'⟩
      rw [if_neg this] at a1
      rw [Machine.tr0P, if_pos hpos, a1, Machine.tr0, if_pos hpos, a2]
      rfl

theorem execLoopP_two {m : Machine} (h : Inv be t m) (data body rest : Bytes) (hb : t ∉ body) :
    execLoopP stop data (body ++ rest) 2 m = execLoopP stop data rest 2 m := by
  induction body with
  | nil => rfl
  | cons b body ih =>
    have hbt : b ≠ t := by rintro rfl; simp at hb
    have := (widec_other h b hbt).1
    simp only [List.cons_append, execLoopP, stepByteP]
    simp only [show (2 : Nat) ≠ 1 by decide, if_false, if_true, this, show (2 : Nat) ≠ 0 by decide]
    exact ih (by intro hh; exact hb (by simp [hh]))

theorem execLoopP_end {m : Machine} (h : Inv be t m) (data : Bytes) (cs : Nat) (hcs : cs = 2 ∨ cs = 3) :
    execLoopP stop data [t] cs m = .ok (3, true, { m with candidate := m.candidate ++ data }) := by
  have hw := widec_trailer h
  rcases hcs with rfl | rfl
  · simp [execLoopP, stepByteP, hw.1]
  · simp [execLoopP, stepByteP, hw.1, hw.2]

theorem stepP_lt {m : Machine} (h : Inv be t m) (data : Bytes) (cs : Nat) (hcs : cs = 1 ∨ cs = 3) :
    (stopsAt stop be t m → ∃ i, stepByteP stop data cs 60 m = .panic (leftAt be t m i) ∧ Inv be t (leftAt be t m i)) ∧
      (¬ stopsAt stop be t m → stepByteP stop data cs 60 m = Ran.of (stepByte data cs 60 m)) := by
  have hw : widec m.trailertyp 60 = 60 := (widec_other h 60 (lt_ne h)).2.mpr rfl
  have hS : stepByteP stop data cs 60 m = match m.tr0P stop with
      | .crash => .crash
      | .panic y => .panic y
      | .ok m => .ok (2, m) := by
    rcases hcs with rfl | rfl <;> simp [stepByteP, hw]
  have hM : stepByte data cs 60 m = m.tr0.map fun m => (2, m) := by
    rcases hcs with rfl | rfl <;> simp [stepByte, hw]
  obtain ⟨a, b⟩ := tr0P_spec (stop := stop) h
  rw [hS, hM]
  constructor
  · intro hh
    obtain ⟨i, c1, c2⟩ := a hh
    exact ⟨i, by rw [c1], c2⟩
  · intro hh
    rw [b hh]
    cases m.tr0 <;> rfl

/-- a line starting with `<` -/
theorem execP_new {m : Machine} (h : Inv be t m) {l : Bytes} (hl : IsLine t l) (h60 : l.head? = some 60) (cs : Nat) (hcs : cs = 1 ∨ cs = 3) :
    (stopsAt stop be t m → ∃ i, execP stop l cs m = .panic (leftAt be t m i) ∧ Inv be t (leftAt be t m i)) ∧
      (¬ stopsAt stop be t m → execP stop l cs m = Ran.of (exec l cs m)) := by
  obtain ⟨body, rfl, hb⟩ := hl
  have hlt := lt_ne h
  obtain ⟨q, rfl⟩ : ∃ q, body = 60 :: q := by
    cases body with
    | nil => simp at h60; exact absurd h60.symm hlt
    | cons c q => simp at h60; exact ⟨q, by rw [h60]⟩
  have hq : t ∉ q := by intro hh; exact hb (by simp [hh])
  obtain ⟨a, b⟩ := stepP_lt (stop := stop) h (60 :: q ++ [t]) cs hcs
  rw [execP, exec]
  generalize hd : 60 :: q ++ [t] = data at a b ⊢
  have hd' : data = 60 :: (q ++ [t]) := by rw [← hd]; rfl
  constructor
  · intro hh
    obtain ⟨i, c1, c2⟩ := a hh
    refine ⟨i, ?_, c2⟩
    conv => lhs; arg 3; rw [hd']
    rw [execLoopP, c1]
  · intro hh
    obtain ⟨m1, h1, h2, -⟩ := tr0_spec h
    have hw : widec m.trailertyp 60 = 60 := (widec_other h 60 hlt).2.mpr rfl
    have hstep : stepByte data cs 60 m = some (2, m1) := by
      rcases hcs with rfl | rfl <;> simp [stepByte, h1, hw]
    have b := b hh
    rw [hstep] at b
    conv => lhs; arg 3; rw [hd']
    conv => rhs; arg 1; arg 2; rw [hd']
    rw [execLoopP, b, execLoop, hstep]
    simp only [Ran.of, show (2 : Nat) ≠ 0 by decide, if_false]
    rw [execLoopP_two h2 _ _ _ hq, execLoopP_end h2 _ _ (Or.inl rfl), execLoop_two h2 _ _ _ hq, execLoop_end h2 _ _ (Or.inl rfl)]

theorem execP_more {m : Machine} (h : Inv be t m) {l : Bytes} (hl : IsLine t l) (h60 : l.head? ≠ some 60) :
    execP stop l 3 m = Ran.of (exec l 3 m) := by
  rw [exec_more h hl h60]
  obtain ⟨body, rfl, hb⟩ := hl
  cases body with
  | nil => exact execLoopP_end h _ _ (Or.inr rfl)
  | cons c q =>
    have hct : c ≠ t := by rintro rfl; simp at hb
    have hw := widec_other h c hct
    have hc : c ≠ 60 := by simpa using h60
    have hw60 : widec m.trailertyp c ≠ 60 := fun hh => hc (hw.2.mp hh)
    have hq : t ∉ q := by intro hh; exact hb (by simp [hh])
    rw [execP]
    generalize hd : c :: q ++ [t] = data
    conv => lhs; arg 3; rw [← hd]
    simp only [List.cons_append, execLoopP, stepByteP, show (3 : Nat) ≠ 1 by decide, show (3 : Nat) ≠ 2 by decide, if_false, if_true,
      hw60, hw.1, show (2 : Nat) ≠ 0 by decide]
    rw [execLoopP_two h _ _ _ hq, execLoopP_end h _ _ (Or.inl rfl)]
    rfl

theorem execP_bad (m : Machine) {l : Bytes} (hl : IsLine t l) (h60 : l.head? ≠ some 60) : execP stop l 1 m = .ok (0, false, m) := by
  obtain ⟨body, rfl, hb⟩ := hl
  cases body with
  | nil =>
    have : t ≠ 60 := by simpa using h60
    simp [execP, execLoopP, stepByteP, this]
  | cons c q =>
    have : c ≠ 60 := by simpa using h60
    simp [execP, execLoopP, stepByteP, this]

theorem execP_dead (m : Machine) {l : Bytes} (hl : l ≠ []) : execP stop l 0 m = .ok (0, false, m) := by
  cases l with
  | nil => exact absurd rfl hl
  | cons c q => simp [execP, execLoopP, stepByteP]

/-- an unterminated last chunk given to `Exec` -/
theorem execP_last {m : Machine} (h : Inv be t m) {l : Bytes} (hl : t ∉ l) (hne : l ≠ []) (cs : Nat) (hcs : cs = 0 ∨ cs = 1 ∨ cs = 3) :
    (cs ≠ 0 ∧ l.head? = some 60 ∧ stopsAt stop be t m → ∃ i, execP stop l cs m = .panic (leftAt be t m i) ∧ Inv be t (leftAt be t m i)) ∧
      (¬ (cs ≠ 0 ∧ l.head? = some 60 ∧ stopsAt stop be t m) → execP stop l cs m = Ran.of (exec l cs m)) := by
  obtain ⟨c, q, rfl⟩ : ∃ c q, l = c :: q := by
    cases l with
    | nil => exact absurd rfl hne
    | cons c q => exact ⟨c, q, rfl⟩
  have hct : c ≠ t := by rintro rfl; simp at hl
  have hq : t ∉ q := by intro hh; exact hl (by simp [hh])
  have hw := widec_other h c hct
  by_cases h0 : cs = 0
  · subst h0
    refine ⟨fun hh => absurd rfl hh.1, fun _ => ?_⟩
    rw [execP_dead m hne, exec_dead m hne]; rfl
  have hcs' : cs = 1 ∨ cs = 3 := by omega
  by_cases hc : c = 60
  · subst hc
    obtain ⟨a, b⟩ := stepP_lt (stop := stop) h (60 :: q) cs hcs'
    constructor
    · rintro ⟨-, -, hh⟩
      obtain ⟨i, c1, c2⟩ := a hh
      refine ⟨i, ?_, c2⟩
      rw [execP, execLoopP, c1]
    · intro hh
      have b := b fun h' => hh ⟨h0, rfl, h'⟩
      obtain ⟨m1, h1, h2, -⟩ := tr0_spec h
      have hstep : stepByte (60 :: q) cs 60 m = some (2, m1) := by
        rcases hcs' with rfl | rfl <;> simp [stepByte, h1, hw.2.mpr rfl]
      rw [hstep] at b
      rw [execP, execLoopP, b, exec, execLoop, hstep]
      simp only [Ran.of, show (2 : Nat) ≠ 0 by decide, if_false]
      have e1 := execLoopP_two (stop := stop) h2 (60 :: q) q [] hq
      have e2 := execLoop_two h2 (60 :: q) q [] hq
      simp only [List.append_nil] at e1 e2
      rw [e1, e2]
      rfl
  · refine ⟨fun hh => absurd (by simpa using hh.2.1) hc, fun _ => ?_⟩
    have hw60 : widec m.trailertyp c ≠ 60 := fun hh => hc (hw.2.mp hh)
    rcases hcs' with rfl | rfl
    · simp [execP, execLoopP, stepByteP, exec, execLoop, stepByte, hc, Ran.of]
    · simp only [execP, execLoopP, stepByteP, exec, execLoop, stepByte, show (3 : Nat) ≠ 1 by decide, show (3 : Nat) ≠ 2 by decide, if_false,
        if_true, hw60, hw.1, show (2 : Nat) ≠ 0 by decide]
      have e1 := execLoopP_two (stop := stop) h (c :: q) q [] hq
      have e2 := execLoop_two h (c :: q) q [] hq
      simp only [List.append_nil] at e1 e2
      rw [e1, e2]
      rfl

end
end Verif.NonTransparent
