import Verif.Go.Rfc5424
import Verif.Go.Rfc3164
import Verif.Go.Builder
import Verif.Go.Lines
import Verif.Props.Rfc5424
import Verif.Props.Rfc3164
import Verif.Props.Rebuild
import Verif.Props.NonTransparent

/-!
# The Go function bodies, statement by statement (C100, C101)

`Verif.Gen.GoRfc5424.prog` and its siblings are the bodies of the four functions as they stand in the repository: every label, `goto`, `if`,
`switch`, assignment and `return`. `Sem.run` executes them. The theorems here say that such an execution ends, within a number of blocks
proportional to the length of the input, in a `return`, without a panic and without reaching a label that does not exist, and that what is
returned is what the other properties are about.
-/

namespace Verif.Props
open Verif.Go

/-! ## C100: the parsers -/

namespace Src

/-- A call of `(*machine).Parse` (rfc5424/machine.go:113-12046) when the variables and the fields of the machine are those of `g`, of at most
`13 n + 17` blocks for an input of `n` bytes -/
def call5424 (g : GS R5.V) (input : Bytes) : Fin Gen.GoRfc5424.R R5.V :=
  R5.sem.run Gen.GoRfc5424.prog (13 * input.length + 17) .entry { g with input := input }

/-- A call of `(*machine).Parse` (rfc3164/machine.go:97-7263) -/
def call3164 (g : GS R3.V) (input : Bytes) : Fin Gen.GoRfc3164.R R3.V :=
  R3.sem.run Gen.GoRfc3164.prog (13 * input.length + 17) .entry { g with input := input }

/-- The calls of a history on one machine: what each returns; `none` if one of them does not return -/
def calls5424 : List Bytes → GS R5.V → Option (List (Option Rfc5424.SyslogMessage × Option (Rfc5424.ErrKind × Int)))
  | [], _ => some []
  | i :: is, g => match call5424 g i with
    | .returned r g' => (calls5424 is g').map (R5.value r g' :: ·)
    | _ => none

def calls3164 : List Bytes → GS R3.V → Option (List (Option Base × Option (Rfc3164.ErrKind × Int)))
  | [], _ => some []
  | i :: is, g => match call3164 g i with
    | .returned r g' => (calls3164 is g').map (R3.value r g' :: ·)
    | _ => none

end Src

open Src

/-- **C100** (RFC 5424). Whatever earlier calls left in the variables, a call returns, within `13 n + 17` blocks, and what it returns is the
result of a new machine with the same options, of which C01-C18 and others speak; the options stay as they are. -/
theorem C100_rfc5424 (g : GS R5.V) (input : Bytes) : ∃ r g' res, call5424 g input = .returned r g' ∧
    Rfc5424.parse1 ⟨g.x.bestEffort, g.x.compliantMsg⟩ input = some res ∧
    R5.value r g' = (res.msg, res.err.map fun e => (e.kind, (e.col : Int))) ∧
    g'.x.bestEffort = g.x.bestEffort ∧ g'.x.compliantMsg = g.x.compliantMsg := by
  obtain ⟨m, hm⟩ : ∃ m : Rfc5424.M, m = { currentelem := g.x.currentelem, currentparam := g.x.currentparam, bestEffort := g.x.bestEffort, compliantMsg := g.x.compliantMsg } := ⟨_, rfl⟩
  obtain ⟨m', h1, h2, h3⟩ := Rfc5424.parse_eq m input
  have hs : R5.Starts m input { g with input := input } := by subst hm; exact ⟨rfl, rfl, rfl, rfl, rfl⟩
  obtain ⟨r, g', i1, i2, i3⟩ := R5.run_parse hs h1 _ (Nat.le_refl _)
  refine ⟨r, g', _, i1, Rfc5424.parse1_eq _ input, ?_, ?_, ?_⟩
  · rw [i2, hm]
  · rw [i3.x.bestEffort, h2, hm]
  · rw [i3.x.compliantMsg, h3, hm]

/-- **C100** (RFC 3164). -/
theorem C100_rfc3164 (g : GS R3.V) (input : Bytes) : ∃ r g' res, call3164 g input = .returned r g' ∧
    Rfc3164.parse1 g.x.o input = some res ∧
    R3.value r g' = (res.msg, res.err.map fun e => (e.kind, (e.col : Int))) ∧ g'.x.o = g.x.o := by
  have h1 := Rfc3164.parse_eq g.x.o {} input
  cases hp : Rfc3164.parse g.x.o {} input with
  | none => rw [hp] at h1; cases h1
  | some rm =>
    obtain ⟨res, m'⟩ := rm
    have hs : R3.Starts g.x.o input { g with input := input } := ⟨rfl, rfl⟩
    obtain ⟨r, g', i1, i2, i3⟩ := R3.run_parse hs hp _ (Nat.le_refl _)
    exact ⟨r, g', res, i1, by rw [Rfc3164.parse1, hp]; rfl, i2, i3.x.o⟩

/-- **C100**. A history of calls on one machine: every call returns what a new machine returns. -/
theorem C100_rfc5424_history (inputs : List Bytes) (g : GS R5.V) : ∃ rs, calls5424 inputs g = some rs ∧ rs.length = inputs.length ∧
    ∀ i (h : i < inputs.length), ∃ res, Rfc5424.parse1 ⟨g.x.bestEffort, g.x.compliantMsg⟩ inputs[i] = some res ∧
      rs[i]? = some (res.msg, res.err.map fun e => (e.kind, (e.col : Int))) := by
  induction inputs generalizing g with
  | nil => exact ⟨[], rfl, rfl, fun i h => by cases h⟩
  | cons a as ih =>
    obtain ⟨r, g', res, h1, h2, h3, h4, h5⟩ := C100_rfc5424 g a
    obtain ⟨rs, k1, k2, k3⟩ := ih g'
    rw [h4, h5] at k3
    refine ⟨R5.value r g' :: rs, by simp only [calls5424, h1, k1]; rfl, by simp only [List.length_cons, k2], fun i h => ?_⟩
    cases i with
    | zero => exact ⟨res, h2, by rw [List.getElem?_cons_zero, h3]⟩
    | succ i => exact k3 i (Nat.lt_of_succ_lt_succ h)

theorem C100_rfc3164_history (inputs : List Bytes) (g : GS R3.V) : ∃ rs, calls3164 inputs g = some rs ∧ rs.length = inputs.length ∧
    ∀ i (h : i < inputs.length), ∃ res, Rfc3164.parse1 g.x.o inputs[i] = some res ∧
      rs[i]? = some (res.msg, res.err.map fun e => (e.kind, (e.col : Int))) := by
  induction inputs generalizing g with
  | nil => exact ⟨[], rfl, rfl, fun i h => by cases h⟩
  | cons a as ih =>
    obtain ⟨r, g', res, h1, h2, h3, h4⟩ := C100_rfc3164 g a
    obtain ⟨rs, k1, k2, k3⟩ := ih g'
    rw [h4] at k3
    refine ⟨R3.value r g' :: rs, by simp only [calls3164, h1, k1]; rfl, by simp only [List.length_cons, k2], fun i h => ?_⟩
    cases i with
    | zero => exact ⟨res, h2, by rw [List.getElem?_cons_zero, h3]⟩
    | succ i => exact k3 i (Nat.lt_of_succ_lt_succ h)

/-- **C100**. The Go body accepts exactly the messages of the grammar and returns their parts (C01, of the source). -/
theorem C100_rfc5424_accepts_iff (g : GS R5.V) (hb : g.x.bestEffort = false) (hc : g.x.compliantMsg = false) (input : Bytes) (m : Rfc5424.SyslogMessage) :
    (∃ r g', call5424 g input = .returned r g' ∧ R5.value r g' = (some m, none)) ↔
      ∃ p : Spec.Parts, p.WF ∧ p.render = input ∧ p.toMessage = m := by
  rw [← C01_strict_accepts_iff_grammar]
  obtain ⟨r, g', res, h1, h2, h3, -, -⟩ := C100_rfc5424 g input
  rw [hb, hc] at h2
  obtain ⟨rm, re⟩ := res
  constructor
  · rintro ⟨r2, g2, k1, k2⟩
    rw [h1] at k1
    simp only [Fin.returned.injEq] at k1
    rw [← k1.1, ← k1.2, h3] at k2
    simp only [Prod.mk.injEq, Option.map_eq_none_iff] at k2
    rw [h2, k2.1, k2.2]
  · intro h
    rw [h2] at h
    simp only [Option.some.injEq, Rfc5424.Result.mk.injEq] at h
    exact ⟨r, g', h1, by rw [h3, h.1, h.2]; rfl⟩

/-- **C100**. The same for RFC 3164 (C31, of the source). -/
theorem C100_rfc3164_accepts_iff (g : GS R3.V) (hb : g.x.o.bestEffort = false) (input : Bytes) (m : Base) :
    (∃ r g', call3164 g input = .returned r g' ∧ R3.value r g' = (some m, none)) ↔
      ∃ p : Spec.Bsd.Parts, p.WF g.x.o.rfc3339 ∧ p.render = input ∧ p.toMessage (Rfc3164.whenTime g.x.o p.time) = m := by
  rw [← Bsd.C31_accepts_iff g.x.o hb]
  obtain ⟨r, g', res, h1, h2, h3, -⟩ := C100_rfc3164 g input
  obtain ⟨rm, re⟩ := res
  constructor
  · rintro ⟨r2, g2, k1, k2⟩
    rw [h1] at k1
    simp only [Fin.returned.injEq] at k1
    rw [← k1.1, ← k1.2, h3] at k2
    simp only [Prod.mk.injEq, Option.map_eq_none_iff] at k2
    rw [h2, k2.1, k2.2]
  · intro h
    rw [h2] at h
    simp only [Option.some.injEq, Rfc3164.Result.mk.injEq] at h
    exact ⟨r, g', h1, by rw [h3, h.1, h.2]; rfl⟩

/-- The execution itself, of the statements, on a message: it returns at the last `return` of the function. -/
def Src.isComplete : Fin Gen.GoRfc5424.R R5.V → Bool
  | .returned .complete g => R5.value .complete g = (some sample.toMessage, none)
  | _ => false

set_option maxRecDepth 100000 in
example : Src.isComplete (call5424 { x := {} } sample.render) = true := by decide +kernel

/-- On a message that breaks off, with best effort: the last state, and the partial message. -/
def Src.isPartial : Fin Gen.GoRfc5424.R R5.V → Bool
  | .returned .partialOutput g => g.cs = 614 ∧ (R5.value .partialOutput g).2 = some (.timestamp, 6)
  | _ => false

set_option maxRecDepth 100000 in
example : Src.isPartial (call5424 { x := { bestEffort := true } } (ascii "<34>1 ")) = true := by decide +kernel

/-! ## C101: the setters and the lines -/

namespace Src
open Builder (Globals Entry Call)
open Rfc5424 (SyslogMessage)

/-- A call of `sm.set(e, value)` (rfc5424/builder.go:67-9265), of at most `13 n + 17` blocks for a value of `n` bytes -/
def callSet (g : Globals) (e : Entry) (value : Bytes) (sm : SyslogMessage) : Fin Gen.GoBuilder.R RB.V :=
  RB.sem.run Gen.GoBuilder.prog (13 * value.length + 17) .entry { input := value, x := { from_ := e, sm := sm, glob := g } }

/-- the message after it; `none` if it does not return -/
def set (g : Globals) (e : Entry) (value : Bytes) (sm : SyslogMessage) : Option SyslogMessage :=
  match callSet g e value sm with
  | .returned _ g' => some g'.x.sm
  | _ => none

/-- `SetParameter` (rfc5424/builder.go:9325-9344) over the Go body of `set` -/
def setParameter (g : Globals) (id name value : Bytes) (sm : SyslogMessage) : Option (SyslogMessage × Globals) :=
  match set g .sdid id sm with
  | none => none
  | some sm1 =>
    if Builder.hasElement id sm1 then
      match set { g with currentid := id } .sdpn name sm1 with
      | none => none
      | some sm2 =>
        if Builder.hasParam id name sm2 then
          match set { currentid := id, currentparamname := name } .sdpv value sm2 with
          | none => none
          | some sm3 => some (sm3, { currentid := id, currentparamname := name })
        else some (sm2, { g with currentid := id })
    else some (sm1, g)

/-- One setter call (rfc5424/builder.go:9270-9349) over the Go body of `set` -/
def run (c : Call) (s : SyslogMessage × Globals) : Option (SyslogMessage × Globals) :=
  match c with
  | .priority v => some (Builder.setPriority s.1 v, s.2)
  | .version v => some (Builder.setVersion s.1 v, s.2)
  | .timestamp w => (set s.2 .timestamp w s.1).map (·, s.2)
  | .hostname w => (set s.2 .hostname w s.1).map (·, s.2)
  | .appname w => (set s.2 .appname w s.1).map (·, s.2)
  | .procID w => (set s.2 .procid w s.1).map (·, s.2)
  | .msgID w => (set s.2 .msgid w s.1).map (·, s.2)
  | .elementID w => (set s.2 .sdid w s.1).map (·, s.2)
  | .parameter id name value => setParameter s.2 id name value s.1
  | .message w => (set s.2 .msg w s.1).map (·, s.2)

/-- a chain of setter calls -/
def runCalls : List Call → SyslogMessage × Globals → Option (SyslogMessage × Globals)
  | [], s => some s
  | c :: cs, s =>
    match run c s with
    | none => none
    | some s' => runCalls cs s'

/-- A call of `Exec` on a chunk (nontransparent/parser.go:28-169), of at most `3 n + 5` blocks: the state it stores, whether the chunk has been
read to its end, and the receiver; `none` if it does not return -/
def exec (data : Bytes) (cs : Nat) (m : NonTransparent.Machine) : Option (Nat × Bool × NonTransparent.Machine) :=
  match RL.sem.run Gen.GoLines.prog (3 * data.length + 5) .entry { input := data, x := { m := m, scs := cs, sp := 0, spe := data.length } } with
  | .returned _ g => some (g.x.scs, decide (g.x.sp = g.x.spe), g.x.m)
  | _ => none

/-- the loop over the chunks (external, as in `NonTransparent.drive`) over the Go body of `Exec` -/
def drive (d : NonTransparent.Driver) (end_ : NonTransparent.ReadErr) (last : Bytes) : List Bytes → Nat → NonTransparent.Machine →
    Option NonTransparent.Machine
  | [], cs, m =>
    if last = [] then some (if d.errOnEmpty then m.onErr [] end_ else m.onEOF [])
    else if d.execLast then
      match exec last cs m with
      | none => none
      | some (_, _, m) => some (m.onErr last end_)
    else some (m.onErr last end_)
  | c :: rest, cs, m =>
    match exec c cs m with
    | none => none
    | some (cs', ok, m') => if ok = false ∧ d.stopOnFail = true then some m' else drive d end_ last rest cs' m'

/-- `machine.Parse` (nontransparent/parser.go:257-260) over the Go body of `Exec` -/
def parse (d : NonTransparent.Driver) (m : NonTransparent.Machine) (bytes : Bytes) (end_ : NonTransparent.ReadErr) : Option NonTransparent.Machine :=
  match drive d end_ (NonTransparent.chunks m.trailer bytes).2 (NonTransparent.chunks m.trailer bytes).1 1 m with
  | none => none
  | some m => m.onCompletion

end Src

/-- **C101**. `set` on any message with any entry point: it returns the message of the model, or both panic (which setter calls never
bring about, `C101_setters_return`). -/
theorem C101_set (g : Builder.Globals) (e : Builder.Entry) (value : Bytes) (sm : Rfc5424.SyslogMessage) :
    match Builder.set g e value sm with
    | some sm' => ∃ g', callSet g e value sm = .returned .sm g' ∧ g'.x.sm = sm'
    | none => callSet g e value sm = .panics := by
  have hs : RB.Starts g e value sm { input := value, x := { from_ := e, sm := sm, glob := g } } := ⟨rfl, rfl, rfl, rfl⟩
  cases h : Builder.set g e value sm with
  | some sm' => exact RB.run_set hs h _ (Nat.le_refl _)
  | none => exact RB.run_set_panics hs h _ (Nat.le_refl _)

theorem Src.set_eq : Src.set = Builder.set := by
  funext g e value sm
  have h := C101_set g e value sm
  unfold Src.set
  cases hs : Builder.set g e value sm with
  | none => rw [hs] at h; simp only at h; rw [h]
  | some sm' =>
    rw [hs] at h
    obtain ⟨g', h1, h2⟩ := h
    rw [h1]
    exact congrArg some h2

/-- **C101**. Every chain of setter calls over the Go body does what the model says. -/
theorem C101_setters (calls : List Builder.Call) (s : Rfc5424.SyslogMessage × Builder.Globals) :
    Src.runCalls calls s = Builder.runCalls calls s := by
  have h1 : ∀ (c : Builder.Call) s, Src.run c s = c.run s := by
    intro c s
    cases c <;> simp only [Src.run, Builder.Call.run, Src.set_eq]
    simp only [Src.setParameter, Builder.setParameter, Src.set_eq]
    rfl
  induction calls generalizing s with
  | nil => rfl
  | cons c cs ih =>
    simp only [Src.runCalls, Builder.runCalls, h1]
    cases c.run s with
    | none => rfl
    | some s' => exact ih s'

/-- **C101**. Started from a new message, every chain of setter calls over the Go body returns, with what C67 says the calls denote. -/
theorem C101_setters_return (calls : List Builder.Call) (g : Builder.Globals) :
    ∃ m g', Src.runCalls calls ({}, g) = some (m, g') ∧ Spec.Denotes calls m := by
  obtain ⟨m, g', h1, h2⟩ := C67_calls_denote calls g
  exact ⟨m, g', by rw [C101_setters]; exact h1, h2⟩

/-- **C101**. `Exec` on any chunk in any of the states of the automaton. -/
theorem C101_exec (data : Bytes) (cs : Nat) (hcs : cs ≤ 3) (m : NonTransparent.Machine) : Src.exec data cs m = NonTransparent.exec data cs m := by
  have h := RL.run_exec (data := data) (cs := cs) (m := m) (g := { input := data, x := { m := m, scs := cs, sp := 0, spe := data.length } })
    ⟨rfl, rfl, rfl, rfl, rfl⟩ hcs _ (Nat.le_refl _)
  unfold Src.exec
  cases he : NonTransparent.exec data cs m with
  | none => rw [he] at h; simp only at h; rw [h]
  | some r =>
    obtain ⟨cs', ok, m'⟩ := r
    rw [he] at h
    obtain ⟨g', h1, h2, h3, h4⟩ := h
    rw [h1]
    simp only [h2, h3, h4]

/-- **C101**. A stream in non-transparent framing, over the Go body of `Exec`: every stream, after any history, gives the results of the model. -/
theorem C101_lines (d : NonTransparent.Driver) (m : NonTransparent.Machine) (bytes : Bytes) (e : NonTransparent.ReadErr) :
    Src.parse d m bytes e = m.parse d bytes e := by
  have key : ∀ (last : Bytes) (cs : List Bytes) (n : Nat) (m : NonTransparent.Machine), n ≤ 3 →
      Src.drive d e last cs n m = NonTransparent.drive d e last cs n m := by
    intro last cs
    induction cs with
    | nil =>
      intro n m hn
      simp only [Src.drive, NonTransparent.drive, C101_exec last n hn]
      rfl
    | cons c cs ih =>
      intro n m hn
      simp only [Src.drive, NonTransparent.drive, C101_exec c n hn]
      cases hx : NonTransparent.exec c n m with
      | none => rfl
      | some r =>
        obtain ⟨n', ok, m'⟩ := r
        simp only
        rw [ih n' m' (RL.exec_state hn hx)]
  unfold Src.parse NonTransparent.Machine.parse
  rw [key _ _ 1 m (by omega)]
  rfl

/-! C101 on concrete values: a setter that takes its value, one that leaves the message alone, and a call of `set` that does panic in the Go
body, which is only possible when it is not called by a setter; and `Exec` on a chunk that starts a message, and on one that is refused. -/

set_option maxRecDepth 100000 in
example : (Src.set {} .hostname (ascii "host") {}).map (·.hostname) = some (some (ascii "host")) ∧
    (Src.set {} .hostname (ascii "a b") {}).map (·.hostname) = some none := by decide +kernel

theorem Src.set_panics {g : Builder.Globals} {e : Builder.Entry} {value : Bytes} {sm : Rfc5424.SyslogMessage} (h : Builder.set g e value sm = none) :
    callSet g e value sm = .panics := by
  have := C101_set g e value sm
  rw [h] at this
  exact this

set_option maxRecDepth 100000 in
example : callSet {} .sdpn (ascii "name") {} = .panics := Src.set_panics (by decide +kernel)

set_option maxRecDepth 100000 in
example : (Src.exec (ascii "<1>x\n") 1 {}).map (fun r => (r.1, r.2.1, r.2.2.candidate)) = some (3, true, ascii "<1>x\n") ∧
    (Src.exec (ascii "1>x\n") 1 {}).map (fun r => (r.1, r.2.1, r.2.2.candidate)) = some (0, false, []) := by decide +kernel

end Verif.Props
