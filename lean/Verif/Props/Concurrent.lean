import Verif.Conc.Lock
import Verif.Conc.Builders
import Verif.Props.Builder
import Verif.Props.Rfc3164

/-! # C16, C30: goroutines -/

namespace Verif.Props
open Verif.Spec
open Verif.Conc

/-! ## C16 (rfc5424) -/

namespace Rfc5424Parser
open Verif.Rfc5424

/-- what `parser.Parse` returns (rfc5424/parser.go:36-45) after the automaton stopped; `none` is a panic -/
def ret : Fsm.Res M → Option Result
  | .done cs m =>
    match finish cs m with
    | ⟨msg, some e⟩ => if m.bestEffort then some ⟨msg, some e⟩ else some ⟨none, some e⟩
    | ⟨msg, none⟩ => some ⟨msg, none⟩
  | .panic => none
  | .loop => none

/-- the machine inside a `parser` (rfc5424/parser.go:10-13) -/
def obj : Obj (Mem M) Bytes (Option Result) := fsmObj T act adv 1 reset ret

/-- `NewParser(options...)` (rfc5424/parser.go:16-22) -/
def fresh (o : Opts) : Mem M := ⟨0, [], newMachine o⟩

end Rfc5424Parser

open Rfc5424Parser in
/-- An uninterrupted call, on a machine left in any state by earlier calls. -/
theorem rfc5424_call (o : Rfc5424.Opts) (i : Bytes) (s : Mem Rfc5424.M) (r : Option Rfc5424.Result) (s' : Mem Rfc5424.M)
    (hP : s.vars.bestEffort = o.bestEffort ∧ s.vars.compliantMsg = o.compliantMsg) (h : Runs obj (obj.begin_ i s) r s') :
    r = Rfc5424.parse1 o i ∧ (s'.vars.bestEffort = o.bestEffort ∧ s'.vars.compliantMsg = o.compliantMsg) := by
  obtain ⟨h1, h2⟩ := fsm_runs i 1 (Rfc5424.reset s.vars i) r s' h
  obtain ⟨m', hp, hb, hc⟩ := Rfc5424.parse_eq s.vars i
  simp only [Rfc5424.parse] at hp
  cases hr : Fsm.run Rfc5424.T Rfc5424.act Rfc5424.adv i 1 (Rfc5424.reset s.vars i) with
  | panic => rw [hr] at hp; simp at hp
  | loop => rw [hr] at hp; simp at hp
  | done cs m =>
    rw [hr] at hp h1
    simp only [Option.some.injEq, Prod.mk.injEq] at hp
    obtain ⟨hpf, rfl⟩ := hp
    have hv := h2 cs m hr
    refine ⟨?_, by rw [hv, hb, hP.1], by rw [hv, hc, hP.2]⟩
    rw [h1, ret, Rfc5424.parse1_eq, ← hP.1, ← hP.2, ← hpf, hb]
    cases hf : Rfc5424.finish cs m with
    | mk msg err =>
      cases err with
      | none => rfl
      | some e =>
        by_cases hbe : s.vars.bestEffort = true
        · simp only [hbe, if_true]
        · rw [Bool.not_eq_true] at hbe
          rw [hf, hbe] at hpf
          simp only [hbe, Bool.false_eq_true, if_false, Option.some.injEq]
          cases hd : Rfc5424.descend s.vars.compliantMsg i with
          | ok x => rw [hd] at hpf; simp [Rfc5424.resultOf] at hpf
          | err x e => rw [hd] at hpf; simp [Rfc5424.resultOf] at hpf; rw [hpf.1]

/-- C16: any number of goroutines, each calling `Parse` any number of times on one `rfc5424.NewParser` value, under any
schedule: every call that has returned, returned exactly what a `Parse` of its input by a new machine returns (in particular,
no panic), the calls of each goroutine happen in its order, and at most one goroutine is inside. -/
theorem C16_concurrent_parse (o : Rfc5424.Opts) (prog : Nat → List Bytes) (g : G (Mem Rfc5424.M) Bytes (Option Rfc5424.Result))
    (h : Reach Rfc5424Parser.obj (init (Rfc5424Parser.fresh o) prog) g) :
    (∀ t, ∀ x ∈ (g.thr t).log, x.2 = Rfc5424.parse1 o x.1 ∧ x.2 ≠ none) ∧
    (∀ t, (g.thr t).log.map Prod.fst <+: prog t) ∧
    (∀ t t', (g.thr t).pc.inside = true → (g.thr t').pc.inside = true → t = t') := by
  have inv := inv_reach (o := Rfc5424Parser.obj) (P := fun s => s.vars.bestEffort = o.bestEffort ∧ s.vars.compliantMsg = o.compliantMsg)
    (iso := fun i r => r = Rfc5424.parse1 o i) (fun i s r s' hP hr => rfc5424_call o i s r s' hP hr) (s := Rfc5424Parser.fresh o)
    ⟨rfl, rfl⟩ h
  refine ⟨fun t x hx => ⟨inv.log t x hx, ?_⟩, fun t => ⟨_, inv.prog t⟩, fun t t' => exclusion inv⟩
  rw [inv.log t x hx, Rfc5424.parse1_eq]; simp

/-- C16: as long as a call is outstanding or a goroutine is inside, some goroutine can go on. -/
theorem C16_no_deadlock (o : Rfc5424.Opts) (prog : Nat → List Bytes) (g : G (Mem Rfc5424.M) Bytes (Option Rfc5424.Result))
    (h : Reach Rfc5424Parser.obj (init (Rfc5424Parser.fresh o) prog) g)
    (hn : ∃ t, (g.thr t).pc.inside = true ∨ (g.thr t).todo ≠ []) : ∃ t g', Step Rfc5424Parser.obj t g g' :=
  progress (inv_reach (P := fun s => s.vars.bestEffort = o.bestEffort ∧ s.vars.compliantMsg = o.compliantMsg)
    (iso := fun i r => r = Rfc5424.parse1 o i) (fun i s r s' hP hr => rfc5424_call o i s r s' hP hr) (s := Rfc5424Parser.fresh o)
    ⟨rfl, rfl⟩ h) hn

/-- Two goroutines, interrupted at every byte: goroutine 1 has to wait for goroutine 0 and gets its own result. -/
example : ∃ g, Reach Rfc5424Parser.obj (init (Rfc5424Parser.fresh {}) fun t => if t = 0 then [ascii "<"] else if t = 1 then [[]] else []) g ∧
    (g.thr 0).log = [(ascii "<", some ⟨none, some ⟨.prival, 1⟩⟩)] ∧ (g.thr 1).log = [([], some ⟨none, some ⟨.pri, 0⟩⟩)] := by
  refine ⟨_, .step (t := 1) (.step (t := 1) (.step (t := 1) (.step (t := 1) (.step (t := 0) (.step (t := 0) (.step (t := 0) (.step (t := 0)
    (.step (t := 0) .refl
      (.lock rfl rfl rfl)) (.begin_ rfl)) (.micro rfl rfl)) (.ret rfl rfl)) (.unlock rfl)) (.lock rfl rfl rfl)) (.begin_ rfl))
      (.ret rfl rfl)) (.unlock rfl), ?_, ?_⟩
  · decide +kernel
  · decide +kernel

/-- Without the mutex (`NewMachine` instead of `NewParser`) this is false: when goroutine B enters after A's first step, A returns
the result of B's input. -/
example (a b : Bytes) (o : Rfc5424.Opts) (r : Option Rfc5424.Result) (s' : Mem Rfc5424.M)
    (h : Runs Rfc5424Parser.obj (Rfc5424Parser.obj.begin_ b (Rfc5424Parser.obj.begin_ a (Rfc5424Parser.fresh o))) r s') :
    r = Rfc5424.parse1 o b :=
  (rfc5424_call o b _ r s' ⟨rfl, rfl⟩ h).1

/-! ## C16 (rfc3164) -/

namespace Rfc3164Parser
open Verif.Rfc3164

/-- what `parser.Parse` returns (rfc3164/parser.go:35-43) after the automaton stopped; `none` is a panic -/
def ret (o : Opts) : Fsm.Res M → Option Result
  | .done cs m =>
    match finish o cs m with
    | ⟨msg, some e⟩ => if o.bestEffort then some ⟨msg, some e⟩ else some ⟨none, some e⟩
    | ⟨msg, none⟩ => some ⟨msg, none⟩
  | .panic => none
  | .loop => none

/-- the machine inside a `parser` (rfc3164/parser.go:10-13). The fields set by options are never written again (rfc3164/machine.go:43-95), so
they are not part of the shared memory. -/
def obj (o : Opts) : Obj (Mem M) Bytes (Option Result) := fsmObj (T o) (act o) adv 1 reset (ret o)

/-- `NewParser(options...)` (rfc3164/parser.go:16-24) -/
def fresh : Mem M := ⟨0, [], {}⟩

end Rfc3164Parser

open Rfc3164Parser in
/-- An uninterrupted call, on a machine left in any state by earlier calls. -/
theorem rfc3164_call (o : Rfc3164.Opts) (i : Bytes) (s : Mem Rfc3164.M) (r : Option Rfc3164.Result) (s' : Mem Rfc3164.M)
    (h : Runs (obj o) ((obj o).begin_ i s) r s') : r = Rfc3164.parse1 o i := by
  obtain ⟨h1, -⟩ := fsm_runs i 1 (Rfc3164.reset s.vars i) r s' h
  have hp := Rfc3164.parse_eq o s.vars i
  have hq := Bsd.C37_parser_same_as_machine o s.vars i
  rw [Rfc3164.parse1_eq, ← hp, ← hq, h1]
  unfold Rfc3164.parserParse Rfc3164.parse ret
  cases Fsm.run (Rfc3164.T o) (Rfc3164.act o) Rfc3164.adv i 1 (Rfc3164.reset s.vars i) with
  | panic => rfl
  | loop => rfl
  | done cs m =>
    simp only
    cases Rfc3164.finish o cs m with
    | mk msg err =>
      cases err with
      | none => rfl
      | some e => simp only; split <;> rfl

/-- C16: the same for one `rfc3164.NewParser` value used by any number of goroutines under any schedule. -/
theorem C16_rfc3164_concurrent_parse (o : Rfc3164.Opts) (prog : Nat → List Bytes) (g : G (Mem Rfc3164.M) Bytes (Option Rfc3164.Result))
    (h : Reach (Rfc3164Parser.obj o) (init Rfc3164Parser.fresh prog) g) :
    (∀ t, ∀ x ∈ (g.thr t).log, x.2 = Rfc3164.parse1 o x.1 ∧ x.2 ≠ none) ∧
    (∀ t, (g.thr t).log.map Prod.fst <+: prog t) ∧
    (∀ t t', (g.thr t).pc.inside = true → (g.thr t').pc.inside = true → t = t') := by
  have inv := inv_reach (o := Rfc3164Parser.obj o) (P := fun _ => True)
    (iso := fun i r => r = Rfc3164.parse1 o i) (fun i s r s' _ hr => ⟨rfc3164_call o i s r s' hr, trivial⟩) (s := Rfc3164Parser.fresh)
    trivial h
  refine ⟨fun t x hx => ⟨inv.log t x hx, ?_⟩, fun t => ⟨_, inv.prog t⟩, fun t t' => exclusion inv⟩
  rw [inv.log t x hx, Rfc3164.parse1_eq]; simp

/-- C16: no deadlock. -/
theorem C16_rfc3164_no_deadlock (o : Rfc3164.Opts) (prog : Nat → List Bytes) (g : G (Mem Rfc3164.M) Bytes (Option Rfc3164.Result))
    (h : Reach (Rfc3164Parser.obj o) (init Rfc3164Parser.fresh prog) g)
    (hn : ∃ t, (g.thr t).pc.inside = true ∨ (g.thr t).todo ≠ []) : ∃ t g', Step (Rfc3164Parser.obj o) t g g' :=
  progress (inv_reach (P := fun _ => True)
    (iso := fun i r => r = Rfc3164.parse1 o i) (fun i s r s' _ hr => ⟨rfc3164_call o i s r s' hr, trivial⟩) (s := Rfc3164Parser.fresh)
    trivial h) hn

example : ∃ g, Reach (Rfc3164Parser.obj {}) (init Rfc3164Parser.fresh fun t => if t = 0 then [ascii "<"] else if t = 1 then [[]] else []) g ∧
    (g.thr 0).log = [(ascii "<", some ⟨none, some ⟨.prival, 1⟩⟩)] ∧ (g.thr 1).log = [([], some ⟨none, some ⟨.pri, 0⟩⟩)] := by
  refine ⟨_, .step (t := 1) (.step (t := 1) (.step (t := 1) (.step (t := 1) (.step (t := 0) (.step (t := 0) (.step (t := 0) (.step (t := 0)
    (.step (t := 0) .refl
      (.lock rfl rfl rfl)) (.begin_ rfl)) (.micro rfl rfl)) (.ret rfl rfl)) (.unlock rfl)) (.lock rfl rfl rfl)) (.begin_ rfl))
      (.ret rfl rfl)) (.unlock rfl), ?_, ?_⟩
  · decide +kernel
  · decide +kernel

/-! ## C30 -/

section
open Verif.Builder (Globals Call runCalls)
open Verif.Rfc5424 (SyslogMessage)
open Verif.Conc.Builders (Serial PC)

/-- C30, what holds: any number of goroutines, each with its own message and its own sequence of setter calls, under any schedule in
which no two `SetParameter` calls overlap (the other setters may be interleaved with everything): no goroutine panics, and between its
calls the message of each goroutine is exactly what its own calls make of it. -/
theorem C30_serialised (g : Globals) (msgs : Nat → SyslogMessage) (prog : Nat → List Call) (sched : List Nat) (s : Conc.Builders.G)
    (hser : Serial (Conc.Builders.init g msgs prog) sched) (he : (Conc.Builders.init g msgs prog).exec sched = some s) (t : Nat) :
    (s.thr t).pc ≠ .panicked ∧ (s.thr t).done <+: prog t ∧
    ((s.thr t).pc = .idle → ∃ g', runCalls (s.thr t).done (msgs t, {}) = some ((s.thr t).msg, g')) := by
  have h0 : ∀ t, Conc.Builders.Good (msgs t) g ((Conc.Builders.init g msgs prog).thr t) := fun t =>
    ⟨by simp [Conc.Builders.init], msgs t, rfl, rfl⟩
  have h1 := Conc.Builders.good_exec h0 (fun t t' h => by simp [Conc.Builders.init, Conc.Builders.PC.inside] at h) hser he t
  have h2 := Conc.Builders.prog_exec (prog := prog) (fun t _ => by simp [Conc.Builders.init, Conc.Builders.PC.call]) he t h1.alive
  refine ⟨h1.alive, ⟨_, h2⟩, fun hi => ?_⟩
  obtain ⟨m, a, b⟩ := h1.res
  rw [hi] at a b
  simp only [Conc.Builders.finish, Option.some.injEq, Conc.Builders.PC.call, List.append_nil] at a b
  subst a
  exact Conc.Builders.msgOf_some b

/-- two goroutines; each creates an element and sets a parameter in it -/
def twoBuilders : Nat → List Call
  | 0 => [.elementID (ascii "b"), .parameter (ascii "a") (ascii "x") (ascii "1")]
  | 1 => [.parameter (ascii "b") (ascii "y") (ascii "2")]
  | _ => []

/-- the two goroutines of an execution at its end -/
def outcome (prog : Nat → List Call) (sched : List Nat) : Option (Conc.Builders.Thread × Conc.Builders.Thread) :=
  ((Conc.Builders.init {} (fun _ => {}) prog).exec sched).map fun s => (s.thr 0, s.thr 1)

/-- a schedule without overlap, in which a setter of goroutine 0 runs in the middle of the `SetParameter` of goroutine 1 -/
example : (outcome twoBuilders [1, 1, 0, 1, 1, 1, 0, 0, 0, 0, 0]).map (fun x =>
      (param x.1.msg (ascii "a") (ascii "x"), (element x.1.msg (ascii "b")).isSome, param x.2.msg (ascii "b") (ascii "y"))) =
    some (some (ascii "1"), true, some (ascii "2")) := by decide +kernel

example : Serial (Conc.Builders.init {} (fun _ => {}) twoBuilders) [1, 1, 0, 1, 1, 1, 0, 0, 0, 0, 0] :=
  Conc.Builders.serial_of (n := 2) (fun t ht => by
    refine ⟨rfl, ?_⟩
    match t, ht with
    | t + 2, _ => rfl) (by decide +kernel)

/-- C30, what users expect and what is false: in this schedule both goroutines finish all their calls, but the first one's value ends up
in another element of its message than the one it named (and under a name that element did not have). -/
theorem C30_overlap_corrupts : ∃ sched a b, outcome twoBuilders sched = some (a, b) ∧ a.todo = [] ∧ a.pc = .idle ∧ b.todo = [] ∧ b.pc = .idle ∧
    param a.msg (ascii "a") (ascii "x") = some [] ∧ param a.msg (ascii "b") (ascii "x") = some (ascii "1") ∧
    (runCalls (twoBuilders 0) ({}, {})).map (fun r => (param r.1 (ascii "a") (ascii "x"), param r.1 (ascii "b") (ascii "x"))) =
      some (some (ascii "1"), none) := by
  refine ⟨[0, 0, 0, 0, 0, 1, 1, 0, 1, 1, 1], ?_⟩
  have h : (outcome twoBuilders [0, 0, 0, 0, 0, 1, 1, 0, 1, 1, 1]).isSome = true := by decide +kernel
  obtain ⟨⟨a, b⟩, hab⟩ := Option.isSome_iff_exists.mp h
  refine ⟨a, b, hab, ?_⟩
  have key : (outcome twoBuilders [0, 0, 0, 0, 0, 1, 1, 0, 1, 1, 1]).map (fun x => ((x.1.todo, x.1.pc), (x.2.todo, x.2.pc),
      param x.1.msg (ascii "a") (ascii "x"), param x.1.msg (ascii "b") (ascii "x"))) =
      some (([], .idle), ([], .idle), some [], some (ascii "1")) := by decide +kernel
  rw [hab] at key
  simp only [Option.map_some, Option.some.injEq, Prod.mk.injEq] at key
  obtain ⟨⟨h1, h2⟩, ⟨h3, h4⟩, h5, h6⟩ := key
  exact ⟨h1, h2, h3, h4, h5, h6, by decide +kernel⟩

/-- C30: an overlap can also crash the program: a write into the map of an element that the message does not have. Alone, a
`SetParameter` never panics (C22). -/
theorem C30_overlap_panics : ∃ prog sched a b, outcome prog sched = some (a, b) ∧ a.pc = .panicked := by
  refine ⟨fun t => if t = 0 then [.parameter (ascii "a") (ascii "x") (ascii "1")] else
    if t = 1 then [.parameter (ascii "b") (ascii "y") (ascii "2")] else [], [0, 0, 1, 1, 0], ?_⟩
  have key : (outcome (fun t => if t = 0 then [.parameter (ascii "a") (ascii "x") (ascii "1")] else
    if t = 1 then [.parameter (ascii "b") (ascii "y") (ascii "2")] else []) [0, 0, 1, 1, 0]).map (fun x => x.1.pc) = some .panicked := by
    decide +kernel
  obtain ⟨⟨a, b⟩, hab, hk⟩ := Option.map_eq_some_iff.mp key
  exact ⟨a, b, hab, hk⟩

end

end Verif.Props
