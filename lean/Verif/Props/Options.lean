import Verif.Options
import Verif.FsmErr
import Verif.Props.Octet
import Verif.Props.NonTransparent
import Verif.Props.Rfc3164

/-!
# C63: options and accessors
-/

namespace Verif.Props
open Verif.Spec

/-! ## RFC 5424 -/
section
open Verif.Rfc5424 Verif.Fsm

theorem newMachineWith_eq (options : List MachineOption) :
    newMachineWith options = newMachine ⟨decide (.bestEffort ∈ options), decide (.compliantMsg ∈ options)⟩ := by
  have key : ∀ (options : List MachineOption) (m : M), options.foldl applyOpt m =
      { m with bestEffort := m.bestEffort || decide (.bestEffort ∈ options), compliantMsg := m.compliantMsg || decide (.compliantMsg ∈ options) } := by
    intro options
    induction options with
    | nil => intro m; simp
    | cons o os ih =>
      intro m
      rw [List.foldl_cons, ih]
      cases o <;> simp [applyOpt]
  rw [newMachineWith, key]
  simp [newMachine]

/-- C63: best effort is on exactly if the option was given; only which options are given matters for every later result, not their order
or number. -/
theorem C63_rfc5424_options (a b : List MachineOption) :
    (newMachineWith a).hasBestEffort = decide (.bestEffort ∈ a) ∧
    ((∀ o, o ∈ a ↔ o ∈ b) → ∀ input, (parse (newMachineWith a) input) = (parse (newMachineWith b) input)) := by
  refine ⟨by rw [newMachineWith_eq]; rfl, fun h input => ?_⟩
  rw [newMachineWith_eq, newMachineWith_eq]
  simp only [h]

theorem stepErr5424 (a : Gen.Rfc5424.Act) (m : M) : StepErr M.err 614 m (act a m) := by
  have := act_ok a m
  revert this
  cases act a m with
  | next m' => exact fun h => h.2.2
  | jump m' s => exact fun h => h.2.2.elim (fun g => Or.inl g.1) fun g => Or.inr g.2
  | panic => exact fun _ => trivial

theorem fail614 : FailState T 614 := by
  refine ⟨by rw [T_614], by rw [T_614], fun b => ?_, fun b => ?_⟩ <;>
  · by_cases h : b.toNat = 10 ∨ b.toNat = 13
    · have : (T 614).dispatch b.toNat = Gen.Rfc5424.st 0 := by
        rcases h with h | h <;> simp [T_614, Row.dispatch, lookup, h]
      simp [this, Gen.Rfc5424.st]
    · have : (T 614).dispatch b.toNat = Gen.Rfc5424.st 614 := by
        have h1 : ¬(10 ≤ b.toNat ∧ b.toNat ≤ 10) := by omega
        have h2 : ¬(13 ≤ b.toNat ∧ b.toNat ≤ 13) := by omega
        simp only [T_614, Row.dispatch, lookup, h1, h2]; rfl
      simp [this, Gen.Rfc5424.st]

/-- C63: after a call of `Parse`, in whatever state the machine was before, `Err()` is the error that was returned, and the options are
what they were. -/
theorem C63_rfc5424_err (m m' : M) (input : Bytes) (r : Rfc5424.Result) (h : parse m input = some (r, m')) :
    m'.error = r.err ∧ m'.hasBestEffort = m.hasBestEffort := by
  refine ⟨?_, ?_⟩
  · have hr := run_err (err := M.err) (adv := adv) stepErr5424 (fun _ => rfl) fail614 input 1 (reset m input) (Or.inl rfl)
    rw [parse] at h
    cases hx : run T act adv input 1 (reset m input) with
    | panic => rw [hx] at h; simp at h
    | loop => rw [hx] at h; simp at h
    | done cs m1 =>
      rw [hx] at h hr
      simp only [Option.some.injEq, Prod.mk.injEq] at h
      obtain ⟨rfl, rfl⟩ := h
      unfold finish M.error
      split
      · split <;> rfl
      · rename_i hc
        rcases hr with e | e | e
        · exact e
        · exact absurd (Or.inl (by omega)) hc
        · exact absurd (Or.inr e) hc
  · obtain ⟨m2, h2, h3, -⟩ := parse_eq m input
    rw [h2] at h
    simp only [Option.some.injEq, Prod.mk.injEq] at h
    rw [← h.2]; exact h3

example : (parse (newMachineWith [.compliantMsg, .bestEffort, .bestEffort]) (ascii "<1>1 x")).map (fun q =>
      (q.2.error, q.1.msg.isSome, q.2.hasBestEffort)) = some (some ⟨.timestamp, 5⟩, true, true) := by decide +kernel

end

/-! ## RFC 3164 -/
section
open Verif.Rfc3164 Verif.Fsm

/-- the last value that an option of some sort was given, or the default -/
def lastGiven {α β : Type} (f : α → Option β) (default : β) (l : List α) : β := ((l.filterMap f).getLast?).getD default

theorem lastGiven_cons {α β : Type} (f : α → Option β) (d : β) (x : α) (l : List α) :
    lastGiven f d (x :: l) = lastGiven f ((f x).getD d) l := by
  unfold lastGiven
  cases hx : f x with
  | none => simp [hx]
  | some y => simp [hx, List.getLast?_cons]

/-- C63: what the options of an RFC 3164 machine do: best effort and RFC 3339 are on if the option is given, of the others the last one
counts. -/
theorem C63_rfc3164_options (options : List MachineOption) :
    optsOf options = {
      bestEffort := options.any fun o => match o with | .bestEffort => true | _ => false
      rfc3339 := options.any fun o => match o with | .rfc3339 => true | _ => false
      yyyy := lastGiven (fun o => match o with | .year y => some y | _ => none) 0 options
      loc := lastGiven (fun o => match o with | .timezone l => some l | _ => none) none options
      timezone := lastGiven (fun o => match o with | .localeTimezone l => some l | _ => none) none options } := by
  have key : ∀ (options : List MachineOption) (o : Opts), options.foldl applyOpt o = {
      bestEffort := o.bestEffort || options.any fun o => match o with | .bestEffort => true | _ => false
      rfc3339 := o.rfc3339 || options.any fun o => match o with | .rfc3339 => true | _ => false
      yyyy := lastGiven (fun o => match o with | .year y => some y | _ => none) o.yyyy options
      loc := lastGiven (fun o => match o with | .timezone l => some l | _ => none) o.loc options
      timezone := lastGiven (fun o => match o with | .localeTimezone l => some l | _ => none) o.timezone options } := by
    intro options
    induction options with
    | nil => intro o; simp [lastGiven]
    | cons x xs ih =>
      intro o
      rw [List.foldl_cons, ih, lastGiven_cons, lastGiven_cons, lastGiven_cons]
      cases x <;> simp [applyOpt]
  rw [optsOf, key]
  simp

theorem stepErr3164 (o : Opts) (a : Gen.Rfc3164.Act) (m : M) : StepErr M.err 373 m (act o a m) := by
  have ht : ∀ {f : Bytes → Step M}, (∀ t, StepErr M.err 373 m (f t)) → StepErr M.err 373 m (withText m f) := by
    intro f hf
    unfold withText
    cases m.text with
    | none => trivial
    | some t => exact hf t
  cases a <;> simp only [act] <;> first
    | exact Or.inl rfl
    | rfl
    | (refine ht fun t => ?_
       first
       | rfl
       | (split
          · exact Or.inl rfl
          · rfl))

theorem fail373 (o : Opts) : FailState (T o) 373 := by
  refine ⟨by rw [T_373], by rw [T_373], fun b => ?_, fun b => ?_⟩ <;>
  · by_cases h : b.toNat = 10 ∨ b.toNat = 13
    · have : (T o 373).dispatch b.toNat = Gen.Rfc3164.st 0 := by
        rcases h with h | h <;> simp [T_373, Row.dispatch, lookup, h]
      simp [this, Gen.Rfc3164.st]
    · have : (T o 373).dispatch b.toNat = Gen.Rfc3164.st 373 := by
        have h1 : ¬(10 ≤ b.toNat ∧ b.toNat ≤ 10) := by omega
        have h2 : ¬(13 ≤ b.toNat ∧ b.toNat ≤ 13) := by omega
        simp only [T_373, Row.dispatch, lookup, h1, h2]; rfl
      simp [this, Gen.Rfc3164.st]

/-- C63: as `C63_rfc5424_err` -/
theorem C63_rfc3164_err (o : Opts) (m m' : M) (input : Bytes) (r : Rfc3164.Result) (h : parse o m input = some (r, m')) :
    m'.error = r.err := by
  have hr := run_err (err := M.err) (adv := adv) (stepErr3164 o) (fun _ => rfl) (fail373 o) input 1 (reset m input) (Or.inl rfl)
  rw [parse] at h
  cases hx : run (T o) (act o) adv input 1 (reset m input) with
  | panic => rw [hx] at h; simp at h
  | loop => rw [hx] at h; simp at h
  | done cs m1 =>
    rw [hx] at h hr
    simp only [Option.some.injEq, Prod.mk.injEq] at h
    obtain ⟨rfl, rfl⟩ := h
    unfold finish M.error
    split
    · split <;> rfl
    · rename_i hc
      rcases hr with e | e | e
      · exact e
      · exact absurd (Or.inl (by omega)) hc
      · exact absurd (Or.inr e) hc

example : (parse (optsOf [.year 2019, .bestEffort, .year 2020]) {} (ascii "<1>Oct 11 22:14:15 h")).map (fun q => (q.2.error, q.1.msg.isSome)) =
    some (some ⟨.hostname, 20⟩, true) ∧ (optsOf [.year 2019, .bestEffort, .year 2020]).yyyy = 2020 :=
  ⟨by decide +kernel, rfl⟩

end

/-! ## `WithBestEffort` as a method of a stream parser that exists already -/
section
open Verif.Octet

/-- what strict parsing makes of a text: a message of the result comes without an error -/
theorem strict_parse {m : Rfc5424.M} (hb : m.bestEffort = false) (hc : m.compliantMsg = false) (x : Bytes) :
    ∃ r m', Rfc5424.parse m x = some (r, m') ∧ m'.bestEffort = false ∧ m'.compliantMsg = false ∧ Rfc5424.parse1 {} x = some r ∧
      (r.msg ≠ none → r.err = none) := by
  obtain ⟨m', h, h1, h2⟩ := Rfc5424.parse_eq m x
  refine ⟨_, m', h, h1.trans hb, h2.trans hc, ?_, ?_⟩
  · rw [Rfc5424.parse1_eq, hb, hc]
  · rw [hb]
    cases Rfc5424.descend m.compliantMsg x with
    | ok o => intro _; rfl
    | err e part => intro h; exact absurd rfl h

/-- a message that strict parsing of some text returns -/
def StrictlyAccepted (m : Rfc5424.SyslogMessage) : Prop := ∃ x, Rfc5424.parse1 {} x = some ⟨some m, none⟩

theorem parseMsg_strict {p : Parser} (hb : p.internal.bestEffort = false) (hc : p.internal.compliantMsg = false) (x : Bytes) :
    ∃ r p', p.parseMsg x = some (r, p') ∧ p'.internal.bestEffort = false ∧ p'.internal.compliantMsg = false ∧
      ∀ m, r.msg = some m → StrictlyAccepted m := by
  obtain ⟨r, m', h1, h2, h3, h4, h5⟩ := strict_parse hb hc x
  refine ⟨_, _, by rw [Parser.parseMsg, h1], h2, h3, ?_⟩
  intro m hm
  refine ⟨x, ?_⟩
  have : r.msg = some m := hm
  have he : r.err = none := h5 (by rw [this]; simp)
  rw [h4]; cases r; simp only at this he; rw [this, he]

theorem scan_internal (p : Parser) : p.scan.2.internal = p.internal := by
  unfold Parser.scan
  split <;> rfl

theorem runLoop_strict : ∀ (fuel : Nat) (p : Parser), p.internal.bestEffort = false → p.internal.compliantMsg = false →
    ∀ rs p', runLoop fuel p = some (rs, p') → ∀ r ∈ rs, ∀ m, r.msg = some m → StrictlyAccepted m := by
  intro fuel
  induction fuel with
  | zero => intro p _ _ rs p' h; simp [runLoop] at h
  | succ fuel ih =>
    intro p hb hc rs p' h r hr m hm
    simp only [runLoop] at h
    have none_case : ∀ {e : Octet.Error} {q : Parser}, some ([(⟨none, some e⟩ : Octet.Result)], q) = some (rs, p') → False := by
      intro e q h
      simp only [Option.some.injEq, Prod.mk.injEq] at h
      rw [← h.1, List.mem_singleton] at hr
      subst hr
      simp at hm
    split at h
    · exact (none_case h).elim
    split at h
    · exact (none_case h).elim
    split at h
    · exact (none_case h).elim
    have i3 : p.scan.2.scan.2.scan.2.internal = p.internal := by rw [scan_internal, scan_internal, scan_internal]
    generalize p.scan.2.scan.2.scan = s3 at h i3
    obtain ⟨tok, p3⟩ := s3
    simp only at h i3
    obtain ⟨q, p4, g1, g2, g3, g4⟩ := parseMsg_strict (p := p3) (by rw [i3]; exact hb) (by rw [i3]; exact hc) tok.lit
    split at h
    · split at h
      · rw [g1] at h
        simp only [Option.some.injEq, Prod.mk.injEq] at h
        rw [← h.1, List.mem_singleton] at hr
        subst hr
        exact g4 m hm
      · exact (none_case h).elim
    · rw [g1] at h
      simp only at h
      have hout : ∀ x ∈ (if p4.bestEffort = true ∨ q.err = none then [q] else []), x = q := by
        intro x hx
        split at hx
        · simpa using hx
        · simp at hx
      split at h
      · simp only [Option.some.injEq, Prod.mk.injEq] at h
        rw [← h.1] at hr
        rcases List.mem_append.mp hr with hr | hr
        · rw [hout r hr] at hm; exact g4 m hm
        · rw [List.mem_singleton] at hr; subst hr; simp at hm
      · have i5 : p4.scan.2.internal = p4.internal := scan_internal p4
        generalize p4.scan = s5 at h i5
        obtain ⟨tok5, p5⟩ := s5
        simp only at h i5
        split at h
        · simp only [Option.some.injEq, Prod.mk.injEq] at h
          rw [← h.1] at hr
          rw [hout r hr] at hm; exact g4 m hm
        · cases hrec : runLoop fuel p5.unscan with
          | none => rw [hrec] at h; simp at h
          | some y =>
            obtain ⟨rest, p6⟩ := y
            rw [hrec] at h
            simp only [Option.some.injEq, Prod.mk.injEq] at h
            rw [← h.1] at hr
            rcases List.mem_append.mp hr with hr | hr
            · rw [hout r hr] at hm; exact g4 m hm
            · exact ih p5.unscan (by show p5.internal.bestEffort = false; rw [i5]; exact g2)
                (by show p5.internal.compliantMsg = false; rw [i5]; exact g3) rest p6 hrec r hr m hm

/-- C63: calling the method `WithBestEffort` on an octet counting parser that was made without the option turns on `HasBestEffort`, but
no partial message is ever passed to the listener: every message is one that strict parsing accepts. (The option makes it different, see the
example.) -/
theorem C63_octet_late_best_effort (opts : List Opt) (h : isBestEffort opts = false) (sched : List Read) (rs : List Octet.Result) (p' : Parser)
    (hp : (newParser opts).withBestEffort.parse sched = some (rs, p')) :
    (newParser opts).withBestEffort.hasBestEffort = true ∧ ∀ r ∈ rs, ∀ m, r.msg = some m → StrictlyAccepted m := by
  have h' : (opts.foldl applyOpt {}).bestEffort = false := h
  refine ⟨rfl, runLoop_strict _ _ ?_ ?_ rs p' hp⟩
  · show (Rfc5424.newMachine { bestEffort := (opts.foldl applyOpt {}).bestEffort }).bestEffort = false
    rw [h']; rfl
  · rfl

/-- the listener of a parser with the option gets the readable part of the wrong message, the other one does not; both go on -/
example : (((newParser []).withBestEffort.parse (sched1 ([msgBad, msgA].flatMap octetFrame))).map fun q =>
      q.1.map fun r => (r.msg.isSome, r.err.isSome)) = some [(false, true), (true, false)] ∧
    (((newParser [.bestEffort]).parse (sched1 ([msgBad, msgA].flatMap octetFrame))).map fun q =>
      q.1.map fun r => (r.msg.isSome, r.err.isSome)) = some [(true, true), (true, false)] := by
  constructor <;> decide +kernel

end

section
open Verif.NonTransparent

/-- `m` with the best effort flag set to `b` -/
def setBE (b : Bool) (m : Machine) : Machine := { m with bestEffort := b }

theorem parseMsg_be (b : Bool) (m : Machine) (x : Bytes) :
    (setBE b m).parseMsg x = (m.parseMsg x).map fun q => (q.1, q.2.1, setBE b q.2.2) := by
  unfold Machine.parseMsg setBE
  cases Rfc5424.parse m.internal x <;> rfl

theorem process_be (b : Bool) (m : Machine) : (setBE b m).process = m.process.map (setBE b) := by
  unfold Machine.process
  show (match m.candidate.getLast? with | none => _ | some lastByte => _) = _
  cases m.candidate.getLast? with
  | none => rfl
  | some l =>
    simp only []
    have e : (if l = (setBE b m).trailer then { setBE b m with candidate := (setBE b m).candidate.dropLast } else setBE b m) =
        setBE b (if l = m.trailer then { m with candidate := m.candidate.dropLast } else m) := by
      show (if l = m.trailer then _ else _) = _
      split <;> rfl
    rw [e]
    generalize (if l = m.trailer then { m with candidate := m.candidate.dropLast } else m) = m1
    rw [parseMsg_be]
    have hc : (setBE b m1).candidate = m1.candidate := rfl
    rw [hc]
    cases m1.parseMsg m1.candidate with
    | none => rfl
    | some q => rfl

theorem tr0_be (b : Bool) (m : Machine) : (setBE b m).tr0 = m.tr0.map (setBE b) := by
  unfold Machine.tr0
  show (if m.candidate.length > 0 then _ else _) = _
  split
  · rw [process_be]
    cases m.process <;> rfl
  · rfl

theorem stepByte_be (b : Bool) (data : Bytes) (cs : Nat) (c : UInt8) (m : Machine) :
    stepByte data cs c (setBE b m) = (stepByte data cs c m).map fun q => (q.1, setBE b q.2) := by
  unfold stepByte
  rw [tr0_be]
  split
  · split
    · cases m.tr0 <;> rfl
    · rfl
  · split
    · show (match next23 (widec m.trailertyp c) with | none => _ | some n => _) = _
      cases next23 (widec m.trailertyp c) <;> rfl
    · split
      · show (if widec m.trailertyp c = 60 then _ else match next23 (widec m.trailertyp c) with | none => _ | some n => _) = _
        split
        · cases m.tr0 <;> rfl
        · cases next23 (widec m.trailertyp c) <;> rfl
      · rfl

theorem execLoop_be (b : Bool) (data rest : Bytes) (cs : Nat) (m : Machine) :
    execLoop data rest cs (setBE b m) = (execLoop data rest cs m).map fun q => (q.1, q.2.1, setBE b q.2.2) := by
  induction rest generalizing cs m with
  | nil => rfl
  | cons c rest ih =>
    simp only [execLoop, stepByte_be]
    cases stepByte data cs c m with
    | none => rfl
    | some q =>
      simp only [Option.map_some]
      split
      · rfl
      · exact ih _ _

theorem drive_be (d : Driver) (e : ReadErr) (last : Bytes) (b : Bool) (cs : List Bytes) (n : Nat) (m : Machine) :
    drive d e last cs n (setBE b m) = (drive d e last cs n m).map (setBE b) := by
  induction cs generalizing n m with
  | nil =>
    simp only [drive, exec, execLoop_be]
    split
    · split <;> rfl
    · split
      · cases execLoop last last n m <;> rfl
      · rfl
  | cons c cs ih =>
    simp only [drive, exec, execLoop_be]
    cases execLoop c c n m with
    | none => rfl
    | some q =>
      simp only [Option.map_some]
      split
      · rfl
      · exact ih _ _

theorem onCompletion_be (b : Bool) (m : Machine) : (setBE b m).onCompletion = m.onCompletion.map (setBE b) := by
  unfold Machine.onCompletion
  have e : (if (setBE b m).candidate.length > 0 then (setBE b m).process else some (setBE b m)) =
      (if m.candidate.length > 0 then m.process else some m).map (setBE b) := by
    show (if m.candidate.length > 0 then _ else _) = _
    split
    · exact process_be b m
    · rfl
  rw [e]
  generalize (if m.candidate.length > 0 then m.process else some m) = r
  cases r with
  | none => rfl
  | some m1 =>
    simp only [Option.map_some]
    show (match m1.readError with | some re => _ | none => _) = _
    cases m1.readError with
    | none => rfl
    | some re =>
      simp only []
      show (if m1.lastChunk.length > 0 then _ else _) = _
      split
      · show (match (setBE b m1).parseMsg m1.lastChunk with | none => _ | some (res, err, m) => _) = _
        rw [parseMsg_be]
        cases m1.parseMsg m1.lastChunk <;> rfl
      · rfl

/-- C63: calling the method `WithBestEffort` on a non-transparent parser that exists already turns on `HasBestEffort` and has no other
effect: the listener gets the same results from every stream. -/
theorem C63_nontransparent_late_best_effort (d : Driver) (m : Machine) (bytes : Bytes) (e : ReadErr) :
    m.withBestEffort.hasBestEffort = true ∧
    (m.withBestEffort.parse d bytes e).map Machine.out = (m.parse d bytes e).map Machine.out := by
  refine ⟨rfl, ?_⟩
  show ((setBE true m).parse d bytes e).map Machine.out = _
  unfold Machine.parse
  show (match drive d e (chunks m.trailer bytes).2 (chunks m.trailer bytes).1 1 (setBE true m) with
    | none => none | some m => m.onCompletion).map Machine.out = _
  rw [drive_be]
  cases drive d e (chunks m.trailer bytes).2 (chunks m.trailer bytes).1 1 m with
  | none => rfl
  | some m1 =>
    simp only [Option.map_some]
    rw [onCompletion_be]
    cases m1.onCompletion <;> rfl

/-- with the option the results are different -/
example : ((newParser []).withBestEffort.parse ⟨true, true, true⟩ (ascii "<1>1 x\n")).map (fun m => m.out.map fun r => r.msg.isSome) = some [false] ∧
    ((newParser [.bestEffort]).parse ⟨true, true, true⟩ (ascii "<1>1 x\n")).map (fun m => m.out.map fun r => r.msg.isSome) = some [true] := by
  constructor <;> decide +kernel

end

end Verif.Props
