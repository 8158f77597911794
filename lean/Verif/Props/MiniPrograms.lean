import Verif.Mini.Store3
import Verif.Props.MiniParse
import Verif.Props.MiniCtor

/-!
# Programs that use both parser packages (C110)

A program makes parsers of `rfc5424` and of `rfc3164` and messages, parses, changes, reads and prints messages, in any order, and at any time its own code may write whatever
it likes into the variables of a message that it has. Everything of the library is executed: the hand-written functions statement by statement (`Verif.Gen.Mini.prog`), the
generated functions (`Parse` of both packages, `set`) block by block over the same memory. The theorems compare that with the same operations on values.
-/

set_option linter.constructorNameAsVariable false

namespace Verif.Props
open Verif.Mini Verif.Gen.Mini
open Verif.Builder (Globals Entry Call)
open Verif.Rfc5424 (SyslogMessage)

namespace Both
open MiniSrc (Does Returns does returns setterName setterArgs does_mono getElem?_snoc getElem?_lt getElem?_other getElem?_none)
variable {E : Type}

/-- the program; `left5` and `left3` are what the working fields of a machine hold when `Parse` begins, `now` is the clock -/
def bothX (extra : Nat → Nat) (order : List Bytes → List Bytes) (now : E → GoTime.Time × E) (left5 : W E → Go.GS Go.R5.V) (left3 : W E → Go.GS Go.R3.V) : Env0 E :=
  MiniSrc.buildX extra order fun f args => match f with
    | .sync_Lock => xLock args
    | .sync_Unlock => xUnlock args
    | .time_Now => xNow now args
    | .time_Year => xYear args
    | .rfc5424_machine_Parse => parseGo (call (libX extra order fun _ _ => M.stuck) 3) left5 args
    | .rfc3164_machine_Parse => Bsd.parseGo (call (libX extra order fun _ _ => M.stuck) 3) left3 args
    | _ => M.stuck

/-! ## Operations on values -/

/-- the methods of `syslog.Base` that give a text -/
inductive Word where
  | facilityMessage | facilityLevel | severityMessage | severityLevel | severityShortLevel

/-- the fields of `syslog.Base` -/
inductive Fld where
  | facility | severity | priority | timestamp | hostname | appname | procID | msgID | message

/-- what a field points to -/
inductive Content where
  | byte (b : UInt8)
  | text (t : Bytes)
  | time (t : GoTime.Time)
deriving DecidableEq

def Word.of (b : Base) : Word → Option String
  | .facilityMessage => b.facilityMessage
  | .facilityLevel => b.facilityLevel
  | .severityMessage => b.severityMessage
  | .severityLevel => b.severityLevel
  | .severityShortLevel => b.severityShortLevel

def Fld.of (b : Base) : Fld → Option Content
  | .facility => b.facility.map .byte
  | .severity => b.severity.map .byte
  | .priority => b.priority.map .byte
  | .timestamp => b.timestamp.map .time
  | .hostname => b.hostname.map .text
  | .appname => b.appname.map .text
  | .procID => b.procID.map .text
  | .msgID => b.msgID.map .text
  | .message => b.message.map .text

/-- what a program does; what it has is numbered in the order in which it got it -/
inductive ApiOp where
  /-- `rfc5424.NewParser(options...)` -/
  | newParser5 (os : List Rfc5424.MachineOption)
  /-- `rfc3164.NewParser(options...)` -/
  | newParser3 (os : List Opt3)
  /-- `p.WithBestEffort()` -/
  | withBestEffort (i : Nat)
  /-- `p.HasBestEffort()` -/
  | hasBestEffort (i : Nat)
  /-- `m, err := p.Parse(input)` -/
  | parse (i : Nat) (input : Bytes)
  /-- `m := &rfc5424.SyslogMessage{}` -/
  | newMessage
  /-- `m.SetX(..)` (for messages of rfc5424) -/
  | set (j : Nat) (c : Call)
  /-- `m.String()` (for messages of rfc5424) -/
  | string (j : Nat)
  /-- `m.Valid()` -/
  | valid (j : Nat)
  /-- `m.FacilityMessage()` and so on -/
  | word (j : Nat) (k : Word)
  /-- `m.Hostname` and so on: nil, or what it points to -/
  | read (j : Nat) (f : Fld)
  /-- `m.ComputeFromPriority(v)` -/
  | compute (j : Nat) (v : UInt8)
  /-- the code of the program writes something into the variables of the message -/
  | scribble (j : Nat)

/-- what it sees of the result -/
inductive Obs where
  | nothing
  | flag (b : Bool)
  /-- a message or nil, and the error -/
  | parsed5 (message : Bool) (err : Option Rfc5424.Err)
  | parsed3 (message : Bool) (err : Option Rfc3164.Err)
  /-- the text, or the error `invalid syslog` -/
  | text (t : Option Bytes)
  /-- a text, or nil -/
  | word (t : Option Bytes)
  /-- what the field points to, or nil -/
  | field (c : Option Content)
deriving DecidableEq

/-- what the program has: parsers and messages; `gone` is a message into which its own code wrote -/
inductive Thing where
  | parser5 (o : Rfc5424.Opts)
  | parser3 (o : Rfc3164.Opts)
  | msg5 (m : SyslogMessage)
  | msg3 (m : Base)
  | gone

structure Vals (E : Type) where
  things : List Thing := []
  glob : Globals := {}
  clock : E

/-- an operation on values; with a number that is not there, or that is of something else, it does nothing -/
def ApiOp.run (now : E → GoTime.Time × E) : ApiOp → Vals E → Option (Obs × Vals E)
  | .newParser5 os, s => some (.nothing, { s with things := s.things ++ [.parser5 ⟨(Rfc5424.newMachineWith os).bestEffort, (Rfc5424.newMachineWith os).compliantMsg⟩] })
  | .newParser3 os, s => some (.nothing, { s with things := s.things ++ [.parser3 (Rfc3164.optsOf (resolve now os s.clock))], clock := clockAfter now os s.clock })
  | .withBestEffort i, s => match s.things[i]? with
    | some (.parser5 o) => some (.nothing, { s with things := s.things.set i (.parser5 { o with bestEffort := true }) })
    | some (.parser3 o) => some (.nothing, { s with things := s.things.set i (.parser3 { o with bestEffort := true }) })
    | _ => some (.nothing, s)
  | .hasBestEffort i, s => match s.things[i]? with
    | some (.parser5 o) => some (.flag o.bestEffort, s)
    | some (.parser3 o) => some (.flag o.bestEffort, s)
    | _ => some (.nothing, s)
  | .parse i input, s => match s.things[i]? with
    | some (.parser5 o) => match Rfc5424.parserParse (Rfc5424.newMachine o) input with
      | some (r, _) => some (.parsed5 r.msg.isSome r.err, { s with things := s.things ++ r.msg.toList.map .msg5 })
      | none => none
    | some (.parser3 o) => match Rfc3164.parserParse o {} input with
      | some (r, _) => some (.parsed3 r.msg.isSome r.err, { s with things := s.things ++ r.msg.toList.map .msg3 })
      | none => none
    | _ => some (.nothing, s)
  | .newMessage, s => some (.nothing, { s with things := s.things ++ [.msg5 {}] })
  | .set j c, s => match s.things[j]? with
    | some (.msg5 m) => match c.run (m, s.glob) with
      | some (m', g') => some (.nothing, { s with things := s.things.set j (.msg5 m'), glob := g' })
      | none => none
    | _ => some (.nothing, s)
  | .string j, s => match s.things[j]? with
    | some (.msg5 m) => some (.text (Builder.string m), s)
    | _ => some (.nothing, s)
  | .valid j, s => match s.things[j]? with
    | some (.msg5 m) => some (.flag m.valid, s)
    | some (.msg3 m) => some (.flag m.valid, s)
    | _ => some (.nothing, s)
  | .word j k, s => match s.things[j]? with
    | some (.msg5 m) => some (.word ((k.of m.toBase).map ascii), s)
    | some (.msg3 m) => some (.word ((k.of m).map ascii), s)
    | _ => some (.nothing, s)
  | .read j f, s => match s.things[j]? with
    | some (.msg5 m) => some (.field (f.of m.toBase), s)
    | some (.msg3 m) => some (.field (f.of m), s)
    | _ => some (.nothing, s)
  | .compute j v, s => match s.things[j]? with
    | some (.msg5 m) => some (.nothing, { s with things := s.things.set j (.msg5 { m with toBase := m.toBase.computeFromPriority v }) })
    | some (.msg3 m) => some (.nothing, { s with things := s.things.set j (.msg3 (m.computeFromPriority v)) })
    | _ => some (.nothing, s)
  | .scribble j, s => match s.things[j]? with
    | some (.msg5 _) => some (.nothing, { s with things := s.things.set j .gone })
    | some (.msg3 _) => some (.nothing, { s with things := s.things.set j .gone })
    | _ => some (.nothing, s)

/-- one after the other; `none`: a panic -/
def runOps (now : E → GoTime.Time × E) : List ApiOp → Vals E → Option (List Obs × Vals E)
  | [], s => some ([], s)
  | op :: ops, s => match op.run now s with
    | some (ob, s') => (runOps now ops s').map fun r => (ob :: r.1, r.2)
    | none => none

/-! ## The same operations on memory -/

/-- a variable of the program: the address of a parser (and of the machine embedded in it) or of a message -/
inductive Var where
  | parser5 (a mi : Nat)
  | parser3 (a mi : Nat)
  | msg5 (b : Nat)
  | msg3 (b : Nat)
  | gone

/-- the names of the methods and of the fields (syslog.go:67-77, syslog.go:100-150) -/
def Word.name : Word → Nm
  | .facilityMessage => .syslog_Base_FacilityMessage
  | .facilityLevel => .syslog_Base_FacilityLevel
  | .severityMessage => .syslog_Base_SeverityMessage
  | .severityLevel => .syslog_Base_SeverityLevel
  | .severityShortLevel => .syslog_Base_SeverityShortLevel

def Fld.name : Fld → Nm
  | .facility => .Facility
  | .severity => .Severity
  | .priority => .Priority
  | .timestamp => .Timestamp
  | .hostname => .Hostname
  | .appname => .Appname
  | .procID => .ProcID
  | .msgID => .MsgID
  | .message => .Message

def Content.val : Content → Val
  | .byte b => byteVal b
  | .text t => .str t
  | .time t => timeVal t

/-- a method that returns a text: the pointer is nil, or it points to the text -/
def AsksWord (X : Env0 E) (b : Nat) (k : Word) (w : W E) (P : Obs → W E → Prop) : Prop :=
  Does X k.name [.ptr b []] w fun o => ∃ v w', o = .ok v w' ∧ ((v = .nil ∧ P (.word none) w') ∨ ∃ c t, v = .ptr c [] ∧ w'.heap c = .str t ∧ P (.word (some t)) w')

/-- a field: nil, or what it points to -/
def ReadsField (b : Nat) (f : Fld) (w : W E) (P : Obs → W E → Prop) : Prop :=
  ∃ v, (w.heap b).get f.name = some v ∧ ((v = .nil ∧ P (.field none) w) ∨ ∃ c p x, v = .ptr c p ∧ (w.heap c).getPath p = some (Content.val x) ∧ P (.field (some x)) w)

/-- what was there is as before, except the variables that the message in the variable `b` depends on -/
def Writes (w w' : W E) (b : Nat) : Prop := w.next ≤ w'.next ∧ (∀ x, x < w.next → ¬ Reaches w b x → w'.heap x = w.heap x) ∧ w'.glob = w.glob ∧ w'.ext = w.ext

/-- an operation, executed from the memory `w`; `P` describes what is seen, the variables and the memory then -/
def RunOp (X : Env0 E) : ApiOp → List Var → W E → (Obs → List Var → W E → Prop) → Prop
  | .newParser5 os, vs, w, P => Does X .rfc5424_NewParser [.slice w.next 0 os.length os.length] (newVar w (.arr (os.map optVal5))) fun o =>
    ∃ a mi w', o = .ok (.ptr a []) w' ∧ (w'.heap a).get .machine = some (.ptr mi []) ∧ P .nothing (vs ++ [.parser5 a mi]) w'
  | .newParser3 os, vs, w, P => Does X .rfc3164_NewParser [.slice w.next 0 os.length os.length] (newVar w (.arr (os.map optVal3))) fun o =>
    ∃ a mi w', o = .ok (.ptr a []) w' ∧ (w'.heap a).get .machine = some (.ptr mi []) ∧ P .nothing (vs ++ [.parser3 a mi]) w'
  | .withBestEffort i, vs, w, P => match vs[i]? with
    | some (.parser5 a mi) => (w.heap a).get .machine = some (.ptr mi []) ∧ Does X .rfc5424_machine_WithBestEffort [.ptr mi []] w fun o => ∃ w', o = .ok (.tuple []) w' ∧ P .nothing vs w'
    | some (.parser3 a mi) => (w.heap a).get .machine = some (.ptr mi []) ∧ Does X .rfc3164_machine_WithBestEffort [.ptr mi []] w fun o => ∃ w', o = .ok (.tuple []) w' ∧ P .nothing vs w'
    | _ => P .nothing vs w
  | .hasBestEffort i, vs, w, P => match vs[i]? with
    | some (.parser5 a _) => Does X .rfc5424_parser_HasBestEffort [.ptr a []] w fun o => ∃ b w', o = .ok (.bool b) w' ∧ P (.flag b) vs w'
    | some (.parser3 a _) => Does X .rfc3164_parser_HasBestEffort [.ptr a []] w fun o => ∃ b w', o = .ok (.bool b) w' ∧ P (.flag b) vs w'
    | _ => P .nothing vs w
  | .parse i input, vs, w, P => match vs[i]? with
    | some (.parser5 a _) => Does X .rfc5424_parser_Parse [.ptr a [], .str input] w fun o => ∃ v err w', o = .ok (.tuple [v, err5Val err]) w' ∧
      ((v = .nil ∧ P (.parsed5 false err) vs w') ∨ ∃ b, v = .ptr b [] ∧ P (.parsed5 true err) (vs ++ [.msg5 b]) w')
    | some (.parser3 a _) => Does X .rfc3164_parser_Parse [.ptr a [], .str input] w fun o => ∃ v err w', o = .ok (.tuple [v, err3Val err]) w' ∧
      ((v = .nil ∧ P (.parsed3 false err) vs w') ∨ ∃ b, v = .ptr b [] ∧ P (.parsed3 true err) (vs ++ [.msg3 b]) w')
    | _ => P .nothing vs w
  | .newMessage, vs, w, P => P .nothing (vs ++ [.msg5 w.next]) (newVar w zeroMsg)
  | .set j c, vs, w, P => match vs[j]? with
    | some (.msg5 b) => Does X (setterName c) (.ptr b [] :: setterArgs c) w fun o => ∃ w', o = .ok (.ptr b []) w' ∧ P .nothing vs w'
    | _ => P .nothing vs w
  | .string j, vs, w, P => match vs[j]? with
    | some (.msg5 b) => Does X .rfc5424_SyslogMessage_String [.ptr b []] w fun o => ∃ w',
      (∃ t, o = .ok (.tuple [.str t, .nil]) w' ∧ P (.text (some t)) vs w') ∨ o = .ok (.tuple [.str [], .err (ascii "invalid syslog") []]) w' ∧ P (.text none) vs w'
    | _ => P .nothing vs w
  | .valid j, vs, w, P => match vs[j]? with
    | some (.msg5 b) => Does X .rfc5424_SyslogMessage_Valid [.ptr b []] w fun o => ∃ r w', o = .ok (.bool r) w' ∧ P (.flag r) vs w'
    | some (.msg3 b) => Does X .syslog_Base_Valid [.ptr b []] w fun o => ∃ r w', o = .ok (.bool r) w' ∧ P (.flag r) vs w'
    | _ => P .nothing vs w
  | .word j k, vs, w, P => match vs[j]? with
    | some (.msg5 b) => AsksWord X b k w fun ob w' => P ob vs w'
    | some (.msg3 b) => AsksWord X b k w fun ob w' => P ob vs w'
    | _ => P .nothing vs w
  | .read j f, vs, w, P => match vs[j]? with
    | some (.msg5 b) => ReadsField b f w fun ob w' => P ob vs w'
    | some (.msg3 b) => ReadsField b f w fun ob w' => P ob vs w'
    | _ => P .nothing vs w
  | .compute j v, vs, w, P => match vs[j]? with
    | some (.msg5 b) => Does X .syslog_Base_ComputeFromPriority [.ptr b [], byteVal v] w fun o => ∃ w', o = .ok (.tuple []) w' ∧ P .nothing vs w'
    | some (.msg3 b) => Does X .syslog_Base_ComputeFromPriority [.ptr b [], byteVal v] w fun o => ∃ w', o = .ok (.tuple []) w' ∧ P .nothing vs w'
    | _ => P .nothing vs w
  | .scribble j, vs, w, P => match vs[j]? with
    | some (.msg5 b) => ∀ w', Writes w w' b → P .nothing (vs.set j .gone) w'
    | some (.msg3 b) => ∀ w', Writes w w' b → P .nothing (vs.set j .gone) w'
    | _ => P .nothing vs w

/-- one after the other -/
def RunOps (X : Env0 E) : List ApiOp → List Var → W E → (List Obs → List Var → W E → Prop) → Prop
  | [], vs, w, P => P [] vs w
  | op :: ops, vs, w, P => RunOp X op vs w fun ob vs' w' => RunOps X ops vs' w' fun obs => P (ob :: obs)

/-! ## The memory represents the values -/

/-- the variables of the memory that belong to what the program has -/
def Foot (w : W E) : Var → Nat → Prop
  | .parser5 a mi, x => x = a ∨ x = mi
  | .parser3 a mi, x => x = a ∨ x = mi
  | .msg5 b, x => Reaches w b x
  | .msg3 b, x => Reaches w b x
  | .gone, _ => False

/-- what the memory holds there -/
def Rep (w : W E) : Var → Thing → Prop
  | .parser5 a mi, .parser5 o => Live kit5 w a mi o
  | .parser3 a mi, .parser3 o => Live kit3 w a mi o
  | .msg5 b, .msg5 m => RepMsg w b m
  | .msg3 b, .msg3 m => Bsd.RepMsg w b m
  | .gone, .gone => True
  | _, _ => False

/-- The memory `w` holds the values `s` in the variables `vs`, and no two of them have a variable in common. -/
structure Holds (w : W E) (vs : List Var) (s : Vals E) : Prop where
  len : vs.length = s.things.length
  rep : ∀ (i : Nat) v t, vs[i]? = some v → s.things[i]? = some t → Rep w v t
  apart : ∀ (i j : Nat) v v', i ≠ j → vs[i]? = some v → vs[j]? = some v' → ∀ x, Foot w v x → ¬ Foot w v' x
  glob : HasGlob w s.glob
  clock : w.ext = s.clock

theorem live_keeps {K : Kit} {w w' : W E} {a mi : Nat} {c : K.Cfg} (h : Live K w a mi c) (hn : w.next ≤ w'.next) (h1 : w'.heap a = w.heap a) (h2 : w'.heap mi = w.heap mi) : Live K w' a mi c := by
  obtain ⟨fs, e, g⟩ := h.mach
  exact ⟨h1.trans h.parser, ⟨fs, h2.trans e, g⟩, h.ne, Nat.lt_of_lt_of_le h.lt hn, Nat.lt_of_lt_of_le h.mlt hn⟩

theorem Rep.foot_lt {w : W E} {v : Var} {t : Thing} (h : Rep w v t) {x : Nat} (hx : Foot w v x) : x < w.next := by
  cases v <;> cases t <;> try exact h.elim
  · rcases hx with rfl | rfl
    · exact Live.lt h
    · exact Live.mlt h
  · rcases hx with rfl | rfl
    · exact Live.lt h
    · exact Live.mlt h
  · exact Mini.RepMsg.reaches_lt h hx
  · exact Bsd.RepMsg.reaches_lt h hx
  · exact hx.elim

theorem Rep.congr {w w' : W E} {v : Var} {t : Thing} (h : Rep w v t) (hn : w.next ≤ w'.next) (hk : ∀ x, Foot w v x → w'.heap x = w.heap x) : Rep w' v t := by
  cases v <;> cases t <;> try exact h.elim
  · exact live_keeps h hn (hk _ (Or.inl rfl)) (hk _ (Or.inr rfl))
  · exact live_keeps h hn (hk _ (Or.inl rfl)) (hk _ (Or.inr rfl))
  · exact Mini.RepMsg.congr h hn fun x _ hx => hk x hx
  · exact Bsd.RepMsg.congr h hn hk
  · trivial

theorem Rep.foot_congr {w w' : W E} {v : Var} {t : Thing} (h : Rep w v t) (hk : ∀ x, Foot w v x → w'.heap x = w.heap x) {x : Nat} (hx : Foot w' v x) : Foot w v x := by
  cases v <;> cases t <;> try exact h.elim
  · exact hx
  · exact hx
  · exact Mini.RepMsg.reaches_congr h (fun x _ hx => hk x hx) hx
  · exact Bsd.RepMsg.reaches_congr h hk hx
  · exact hx

/-- something that the program has changes, and nothing else -/
theorem Holds.step {w w' : W E} {vs : List Var} {s : Vals E} (h : Holds w vs s) {j : Nat} {v : Var} (hv : vs[j]? = some v) (hn : w.next ≤ w'.next) (hk : ∀ x, x < w.next → ¬ Foot w v x → w'.heap x = w.heap x)
    {v' : Var} {t' : Thing} (hr : Rep w' v' t') (hf : ∀ x, x < w.next → Foot w' v' x → Foot w v x) {g : Globals} (hg : HasGlob w' g) {e : E} (he : w'.ext = e) :
    Holds w' (vs.set j v') ⟨s.things.set j t', g, e⟩ := by
  have hsame : ∀ (i : Nat) u, i ≠ j → vs[i]? = some u → ∀ x, Foot w u x → w'.heap x = w.heap x := by
    intro i u hi hu x hx
    obtain ⟨t, ht⟩ := getElem?_other h.len hu
    exact hk x ((h.rep i u t hu ht).foot_lt hx) fun hx' => h.apart i j u v hi hu hv x hx hx'
  have hlt : ∀ (i : Nat) u, i ≠ j → vs[i]? = some u → ∀ x, Foot w' u x → x < w.next ∧ Foot w u x := by
    intro i u hi hu x hx
    obtain ⟨t, ht⟩ := getElem?_other h.len hu
    have hr := h.rep i u t hu ht
    have hx' := hr.foot_congr (hsame i u hi hu) hx
    exact ⟨hr.foot_lt hx', hx'⟩
  have hj := getElem?_lt hv
  have hset : ∀ (i : Nat) u, (vs.set j v')[i]? = some u → (i = j ∧ u = v') ∨ (i ≠ j ∧ vs[i]? = some u) := by
    intro i u hu
    by_cases hi : i = j
    · subst hi
      rw [List.getElem?_set_self hj] at hu
      exact Or.inl ⟨rfl, (Option.some.inj hu).symm⟩
    · rw [List.getElem?_set_ne (Ne.symm hi)] at hu
      exact Or.inr ⟨hi, hu⟩
  refine ⟨by simp [h.len], ?_, ?_, hg, he⟩
  · intro i u t hu ht
    rcases hset i u hu with ⟨rfl, rfl⟩ | ⟨hi, hu⟩
    · rw [List.getElem?_set_self (by rw [← h.len]; exact hj)] at ht
      obtain rfl := Option.some.inj ht
      exact hr
    · rw [List.getElem?_set_ne (Ne.symm hi)] at ht
      exact (h.rep i u t hu ht).congr hn (hsame i u hi hu)
  · intro i i' u u' hne hu hu' x hx hx'
    rcases hset i u hu with ⟨rfl, rfl⟩ | ⟨hi, hu0⟩
    · rcases hset i' u' hu' with ⟨rfl, rfl⟩ | ⟨hi', hu0'⟩
      · exact hne rfl
      · obtain ⟨h1, h2⟩ := hlt i' u' hi' hu0' x hx'
        exact h.apart i i' v u' hne hv hu0' x (hf x h1 hx) h2
    · obtain ⟨h1, h2⟩ := hlt i u hi hu0 x hx
      rcases hset i' u' hu' with ⟨rfl, rfl⟩ | ⟨hi', hu0'⟩
      · exact h.apart i i' u v hne hu0 hv x h2 (hf x h1 hx')
      · exact h.apart i i' u u' hne hu0 hu0' x h2 (hlt i' u' hi' hu0' x hx').2

/-- nothing changes except new variables -/
theorem Holds.same {w w' : W E} {vs : List Var} {s : Vals E} (h : Holds w vs s) (hn : w.next ≤ w'.next) (hk : ∀ x, x < w.next → w'.heap x = w.heap x) {g : Globals} (hg : HasGlob w' g) {e : E} (he : w'.ext = e) :
    Holds w' vs ⟨s.things, g, e⟩ := by
  have hsame : ∀ (i : Nat) u, vs[i]? = some u → ∀ x, Foot w u x → w'.heap x = w.heap x := by
    intro i u hu x hx
    obtain ⟨t, ht⟩ := getElem?_other h.len hu
    exact hk x ((h.rep i u t hu ht).foot_lt hx)
  have hft : ∀ (i : Nat) u, vs[i]? = some u → ∀ x, Foot w' u x → Foot w u x := by
    intro i u hu x hx
    obtain ⟨t, ht⟩ := getElem?_other h.len hu
    exact (h.rep i u t hu ht).foot_congr (hsame i u hu) hx
  exact ⟨h.len, fun i u t hu ht => (h.rep i u t hu ht).congr hn (hsame i u hu), fun i j u u' hne hu hu' x hx hx' => h.apart i j u u' hne hu hu' x (hft i u hu x hx) (hft j u' hu' x hx'), hg, he⟩

theorem Holds.keeps {w w' : W E} {vs : List Var} {s : Vals E} (h : Holds w vs s) (hk : Keeps w w') : Holds w' vs s :=
  h.same hk.2.1 hk.1 (by rw [HasGlob, hk.2.2.1]; exact h.glob) (hk.2.2.2.trans h.clock)

/-- one thing more, in new variables -/
theorem Holds.add {w w' : W E} {vs : List Var} {s : Vals E} (h : Holds w vs s) (hn : w.next ≤ w'.next) (hk : ∀ x, x < w.next → w'.heap x = w.heap x) {g : Globals} (hg : HasGlob w' g) {e : E} (he : w'.ext = e)
    {v : Var} {t : Thing} (hr : Rep w' v t) (hf : ∀ x, Foot w' v x → w.next ≤ x) : Holds w' (vs ++ [v]) ⟨s.things ++ [t], g, e⟩ := by
  have h' := h.same hn hk hg he
  have hlt : ∀ (i : Nat) u, vs[i]? = some u → ∀ x, Foot w' u x → x < w.next := by
    intro i u hu x hx
    obtain ⟨t, ht⟩ := getElem?_other h.len hu
    have hr := h.rep i u t hu ht
    exact hr.foot_lt (hr.foot_congr (fun x hx => hk x (hr.foot_lt hx)) hx)
  refine ⟨by simp [h.len], ?_, ?_, hg, he⟩
  · intro i u t' hu ht
    rcases getElem?_snoc hu with hu | ⟨rfl, rfl⟩
    · rcases getElem?_snoc ht with ht | ⟨rfl, rfl⟩
      · exact h'.rep i u t' hu ht
      · have := getElem?_lt hu; have := h.len; omega
    · rcases getElem?_snoc ht with ht | ⟨_, rfl⟩
      · have := getElem?_lt ht; have := h.len; omega
      · exact hr
  · intro i j u u' hne hu hu' x hx hx'
    rcases getElem?_snoc hu with hu0 | ⟨rfl, rfl⟩
    · rcases getElem?_snoc hu' with hu0' | ⟨rfl, rfl⟩
      · exact h'.apart i j u u' hne hu0 hu0' x hx hx'
      · have := hlt i u hu0 x hx; have := hf x hx'; omega
    · rcases getElem?_snoc hu' with hu0' | ⟨rfl, rfl⟩
      · have := hlt j u' hu0' x hx'; have := hf x hx; omega
      · exact hne rfl

theorem Holds.addKeeps {w w' : W E} {vs : List Var} {s : Vals E} (h : Holds w vs s) (hk : Keeps w w') {v : Var} {t : Thing} (hr : Rep w' v t) (hf : ∀ x, Foot w' v x → w.next ≤ x) :
    Holds w' (vs ++ [v]) { s with things := s.things ++ [t] } :=
  h.add hk.2.1 hk.1 (by rw [HasGlob, hk.2.2.1]; exact h.glob) (hk.2.2.2.trans h.clock) hr hf

theorem set_same {α : Type} : ∀ {l : List α} {j : Nat} {v : α}, l[j]? = some v → l.set j v = l
  | [], _, _, _ => rfl
  | _ :: _, 0, _, h => by simp at h; simp [h]
  | _ :: l, j + 1, v, h => by simp at h; simp [set_same h]

/-- a message or a parser changes, in place -/
theorem Holds.inPlace {w w' : W E} {vs : List Var} {s : Vals E} (h : Holds w vs s) {j : Nat} {v : Var} (hv : vs[j]? = some v) (hn : w.next ≤ w'.next) (hk : ∀ x, x < w.next → ¬ Foot w v x → w'.heap x = w.heap x)
    {t' : Thing} (hr : Rep w' v t') (hf : ∀ x, x < w.next → Foot w' v x → Foot w v x) {g : Globals} (hg : HasGlob w' g) (he : w'.ext = w.ext) :
    Holds w' vs { s with things := s.things.set j t', glob := g } := by
  have := h.step hv hn hk hr hf hg (he.trans h.clock)
  rw [set_same hv] at this
  exact this

theorem RunOp.mono {X : Env0 E} {op : ApiOp} {vs : List Var} {w : W E} {P Q : Obs → List Var → W E → Prop} (h : RunOp X op vs w P) (hpq : ∀ ob vs w, P ob vs w → Q ob vs w) : RunOp X op vs w Q := by
  have word : ∀ {b k}, AsksWord X b k w (fun ob w' => P ob vs w') → AsksWord X b k w fun ob w' => Q ob vs w' := fun h =>
    does_mono h fun o ⟨v, w', h1, h2⟩ => ⟨v, w', h1, h2.imp (fun h => ⟨h.1, hpq _ _ _ h.2⟩) fun ⟨c, t, h3, h4, h5⟩ => ⟨c, t, h3, h4, hpq _ _ _ h5⟩⟩
  have field : ∀ {b f}, ReadsField b f w (fun ob w' => P ob vs w') → ReadsField b f w fun ob w' => Q ob vs w' := fun ⟨v, h1, h2⟩ =>
    ⟨v, h1, h2.imp (fun h => ⟨h.1, hpq _ _ _ h.2⟩) fun ⟨c, p, x, h3, h4, h5⟩ => ⟨c, p, x, h3, h4, hpq _ _ _ h5⟩⟩
  cases op with
  | newParser5 os => exact does_mono h fun o ⟨a, mi, w', h1, h2, h3⟩ => ⟨a, mi, w', h1, h2, hpq _ _ _ h3⟩
  | newParser3 os => exact does_mono h fun o ⟨a, mi, w', h1, h2, h3⟩ => ⟨a, mi, w', h1, h2, hpq _ _ _ h3⟩
  | newMessage => exact hpq _ _ _ h
  | withBestEffort i =>
    rcases hv : vs[i]? with _ | (_ | _ | _ | _ | _) <;> simp only [RunOp, hv] at h ⊢ <;> first
      | exact hpq _ _ _ h
      | exact ⟨h.1, does_mono h.2 fun o ⟨w', h1, h2⟩ => ⟨w', h1, hpq _ _ _ h2⟩⟩
  | hasBestEffort i =>
    rcases hv : vs[i]? with _ | (_ | _ | _ | _ | _) <;> simp only [RunOp, hv] at h ⊢ <;> first
      | exact hpq _ _ _ h
      | exact does_mono h fun o ⟨b, w', h1, h2⟩ => ⟨b, w', h1, hpq _ _ _ h2⟩
  | parse i input =>
    rcases hv : vs[i]? with _ | (_ | _ | _ | _ | _) <;> simp only [RunOp, hv] at h ⊢ <;> first
      | exact hpq _ _ _ h
      | exact does_mono h fun o ⟨v, err, w', h1, h2⟩ => ⟨v, err, w', h1, h2.imp (fun h => ⟨h.1, hpq _ _ _ h.2⟩) fun ⟨b, h3, h4⟩ => ⟨b, h3, hpq _ _ _ h4⟩⟩
  | set j c =>
    rcases hv : vs[j]? with _ | (_ | _ | _ | _ | _) <;> simp only [RunOp, hv] at h ⊢ <;> first
      | exact hpq _ _ _ h
      | exact does_mono h fun o ⟨w', h1, h2⟩ => ⟨w', h1, hpq _ _ _ h2⟩
  | string j =>
    rcases hv : vs[j]? with _ | (_ | _ | _ | _ | _) <;> simp only [RunOp, hv] at h ⊢ <;> first
      | exact hpq _ _ _ h
      | exact does_mono h fun o ⟨w', h1⟩ => ⟨w', h1.imp (fun ⟨t, h2, h3⟩ => ⟨t, h2, hpq _ _ _ h3⟩) fun h2 => ⟨h2.1, hpq _ _ _ h2.2⟩⟩
  | valid j =>
    rcases hv : vs[j]? with _ | (_ | _ | _ | _ | _) <;> simp only [RunOp, hv] at h ⊢ <;> first
      | exact hpq _ _ _ h
      | exact does_mono h fun o ⟨b, w', h1, h2⟩ => ⟨b, w', h1, hpq _ _ _ h2⟩
  | word j k =>
    rcases hv : vs[j]? with _ | (_ | _ | _ | _ | _) <;> simp only [RunOp, hv] at h ⊢ <;> first
      | exact hpq _ _ _ h
      | exact word h
  | read j f =>
    rcases hv : vs[j]? with _ | (_ | _ | _ | _ | _) <;> simp only [RunOp, hv] at h ⊢ <;> first
      | exact hpq _ _ _ h
      | exact field h
  | compute j v =>
    rcases hv : vs[j]? with _ | (_ | _ | _ | _ | _) <;> simp only [RunOp, hv] at h ⊢ <;> first
      | exact hpq _ _ _ h
      | exact does_mono h fun o ⟨w', h1, h2⟩ => ⟨w', h1, hpq _ _ _ h2⟩
  | scribble j =>
    rcases hv : vs[j]? with _ | (_ | _ | _ | _ | _) <;> simp only [RunOp, hv] at h ⊢ <;> first
      | exact hpq _ _ _ h
      | exact fun w' hw => hpq _ _ _ (h w' hw)

theorem RunOps.mono {X : Env0 E} : ∀ (ops : List ApiOp) {vs : List Var} {w : W E} {P Q : List Obs → List Var → W E → Prop}, (∀ ob vs w, P ob vs w → Q ob vs w) → RunOps X ops vs w P → RunOps X ops vs w Q
  | [], _, _, _, _, hpq, h => hpq _ _ _ h
  | _ :: ops, _, _, _, _, hpq, h => RunOp.mono h fun _ _ _ h' => RunOps.mono ops (fun _ _ _ h'' => hpq _ _ _ h'') h'

/-! ## Each operation -/

/-- the methods that give a text -/
theorem asksWord {X : Env0 E} (hp : X.prog = prog) (k : Word) {w : W E} {b : Nat} {m : Base} (h : HasBase w b m) {P : Obs → W E → Prop} (hP : ∀ w', Keeps w w' → P (.word ((k.of m).map ascii)) w') : AsksWord X b k w P := by
  have key : ∀ n, ∃ w', TextResult' (call X (n + 1) k.name [.ptr b []]) w w' (k.of m) ∧ Keeps w w' := by
    intro n
    cases k with
    | facilityMessage => exact (facilityMessage_call hp n b m w h).to
    | facilityLevel => exact facilityLevel_call hp n b m w h
    | severityMessage => exact (severityMessage_call hp n b m w h).to
    | severityLevel => exact (severityLevel_call hp n b m w h).to
    | severityShortLevel => exact (severityShortLevel_call hp n b m w h).to
  refine MiniSrc.does 1 fun n => ?_
  obtain ⟨w', h1, h2⟩ := key n
  have hP := hP w' h2
  cases ht : k.of m with
  | none =>
    rw [ht] at h1 hP
    exact ⟨_, h1, .nil, w', rfl, Or.inl ⟨rfl, hP⟩⟩
  | some t =>
    rw [ht] at h1 hP
    obtain ⟨c, h1, h3, _⟩ := h1
    exact ⟨_, h1, .ptr c [], w', rfl, Or.inr ⟨c, _, rfl, h3, hP⟩⟩

theorem points_content {α : Type} {w : W E} {own : Nat} {ty : Nm} {fs : List (Nm × Val)} {f : Nm} {enc : α → Val} {x : Option α} {b : Nat} (hb : w.heap b = .struct ty fs) (h : FieldAt w own fs f enc x) (mk : α → Content)
    (hmk : ∀ a, Content.val (mk a) = enc a) {P : Obs → W E → Prop} (hP : P (.field (x.map mk)) w) :
    ∃ v, (w.heap b).get f = some v ∧ ((v = .nil ∧ P (.field none) w) ∨ ∃ c p x, v = .ptr c p ∧ (w.heap c).getPath p = some (Content.val x) ∧ P (.field (some x)) w) := by
  obtain ⟨v, h1, h2⟩ := h
  refine ⟨v, by rw [hb]; exact h1, ?_⟩
  cases x with
  | none => exact Or.inl ⟨h2, hP⟩
  | some a =>
    obtain ⟨c, p, h3, _, _, h4⟩ := h2
    exact Or.inr ⟨c, p, mk a, h3, by rw [hmk]; exact h4, hP⟩

/-- the fields -/
theorem readsField (f : Fld) {w : W E} {b : Nat} {m : Base} (h : HasBase w b m) {P : Obs → W E → Prop} (hP : P (.field (f.of m)) w) : ReadsField b f w P := by
  obtain ⟨ty, fs, h1, h2, h3⟩ := h
  cases f with
  | facility => exact points_content h1 h3.facility .byte (fun _ => rfl) hP
  | severity => exact points_content h1 h3.severity .byte (fun _ => rfl) hP
  | priority => exact points_content h1 h3.priority .byte (fun _ => rfl) hP
  | timestamp => exact points_content h1 h3.timestamp .time (fun _ => rfl) hP
  | hostname => exact points_content h1 h3.hostname .text (fun _ => rfl) hP
  | appname => exact points_content h1 h3.appname .text (fun _ => rfl) hP
  | procID => exact points_content h1 h3.procID .text (fun _ => rfl) hP
  | msgID => exact points_content h1 h3.msgID .text (fun _ => rfl) hP
  | message => exact points_content h1 h3.message .text (fun _ => rfl) hP

/-- `ComputeFromPriority` (syslog.go:91-97) on a message of `rfc5424` -/
theorem compute5_call {X : Env0 E} (hp : X.prog = prog) (n : Nat) {w : W E} {a : Nat} {m : SyslogMessage} (hr : RepMsg w a m) (v : UInt8) :
    ∃ w', call X (n + 1) .syslog_Base_ComputeFromPriority [.ptr a [], byteVal v] w = some (.ok (.tuple []) w') ∧ RepMsg w' a { m with toBase := m.toBase.computeFromPriority v } ∧ KeepsBut a w w' ∧ Frame w w' a := by
  obtain ⟨w', ty, fs, c, hc, e1, h1, h2, hk, hb⟩ := computeFromPriority_call hp n a m.toBase v w hr.msg.base
  have h3 : ∀ f, f ≠ .Priority → f ≠ .Facility → f ≠ .Severity → List.lookup f (setField (setField (setField fs .Priority (.ptr c [])) .Facility (.ptr (c + 1) [])) .Severity (.ptr (c + 2) [])) = List.lookup f fs := by
    intro f f1 f2 f3
    rw [lookup_setField, if_neg f3, lookup_setField, if_neg f2, lookup_setField, if_neg f1]
  obtain ⟨ty', fs', v1, v2⟩ := hr.msg.version
  obtain ⟨rfl, rfl⟩ : ty' = ty ∧ fs' = fs := by rw [h1] at v1; injection v1 with q1 q2; exact ⟨q1.symm, q2.symm⟩
  refine ⟨w', e1, ⟨⟨hb, ⟨_, _, h2, ?_⟩, ?_⟩, ?_, hr.sorted⟩, hk, ?_⟩
  · rw [h3 _ (by decide) (by decide) (by decide), v2]
  · exact hr.msg.sd.put hk h1 h2 (h3 _ (by decide) (by decide) (by decide))
  · exact Shape.put hr.msg.sd hr.shape hk h1 h2 (h3 _ (by decide) (by decide) (by decide))
  · exact Frame.struct hr.msg.sd hk h1 h2 (h3 _ (by decide) (by decide) (by decide)) fun f x p hf hx => by
      rcases lookup_put hf with h | hf
      · injection h with h; omega
      rcases lookup_put hf with h | hf
      · injection h with h; omega
      rcases lookup_put hf with h | hf
      · injection h with h; omega
      exact ⟨p, hf⟩

section
variable (extra : Nat → Nat) (order : List Bytes → List Bytes) (now : E → GoTime.Time × E) (left5 : W E → Go.GS Go.R5.V) (left3 : W E → Go.GS Go.R3.V)

theorem bothX_env : ParserEnv (bothX extra order now left5 left3) := ⟨rfl, rfl, rfl, rfl⟩
theorem bothX_clock : ClockEnv (bothX extra order now left5 left3) now := ⟨rfl, rfl⟩

/-- what a variable is, and its value -/
theorem Holds.at {w : W E} {vs : List Var} {s : Vals E} (h : Holds w vs s) (i : Nat) : (vs[i]? = none ∧ s.things[i]? = none) ∨ ∃ v t, vs[i]? = some v ∧ s.things[i]? = some t ∧ Rep w v t := by
  cases hv : vs[i]? with
  | none => exact Or.inl ⟨rfl, getElem?_none h.len hv⟩
  | some v =>
    obtain ⟨t, ht⟩ := getElem?_other h.len hv
    exact Or.inr ⟨v, t, rfl, ht, h.rep i v t hv ht⟩

theorem glob_keeps {w w' : W E} {g : Globals} (h : HasGlob w g) (hk : w'.glob = w.glob) : HasGlob w' g := by rw [HasGlob, hk]; exact h

/-- an operation -/
theorem op_ok (ho : ∀ xs, (order xs).Perm xs) (op : ApiOp) {w : W E} {vs : List Var} {s : Vals E} (h : Holds w vs s) :
    ∃ ob s', op.run now s = some (ob, s') ∧ RunOp (bothX extra order now left5 left3) op vs w fun ob' vs' w' => ob' = ob ∧ Holds w' vs' s' := by
  have hX := bothX_env extra order now left5 left3
  have hN := bothX_clock extra order now left5 left3
  cases op with
  | newParser5 os =>
    refine ⟨_, _, rfl, MiniSrc.does 4 fun n => ?_⟩
    have hs : IsSlice (newVar w (.arr (os.map optVal5))) (.slice w.next 0 os.length os.length) (os.map optVal5) :=
      Or.inr ⟨w.next, 0, os.length, os.length, os.map optVal5, rfl, newVar_same w _, Nat.lt_succ_self _, by simp, Nat.le_refl _, by rw [List.drop_zero, List.take_of_length_le (by simp)]⟩
    obtain ⟨w', h1, h2, h3⟩ := newParser5_keeps hX n (newVar w (.arr (os.map optVal5))) hs
    refine ⟨_, h1, _, _, w', rfl, by rw [h2.parser]; rfl, rfl, ?_⟩
    refine h.addKeeps ((newVar_keeps w _).trans h3) h2 ?_
    rintro x (rfl | rfl)
    · show w.next ≤ w.next + 1 + 1; omega
    · show w.next ≤ w.next + 1; omega
  | newParser3 os =>
    refine ⟨_, _, rfl, MiniSrc.does 8 fun n => ?_⟩
    have hs : IsSlice (newVar w (.arr (os.map optVal3))) (.slice w.next 0 os.length os.length) (os.map optVal3) :=
      Or.inr ⟨w.next, 0, os.length, os.length, os.map optVal3, rfl, newVar_same w _, Nat.lt_succ_self _, by simp, Nat.le_refl _, by rw [List.drop_zero, List.take_of_length_le (by simp)]⟩
    obtain ⟨w', h1, h2, h3, h4, h5, h6⟩ := newParser3_call hX hN n (newVar w (.arr (os.map optVal3))) hs
    have hk := newVar_keeps w (.arr (os.map optVal3))
    rw [hk.2.2.2, h.clock] at h2 h3
    refine ⟨_, h1, _, _, w', rfl, by rw [h2.parser]; rfl, rfl, ?_⟩
    refine h.add (Nat.le_trans hk.2.1 h5) (fun x hx => (h4 x (Nat.lt_of_lt_of_le hx hk.2.1)).trans (hk.1 x hx)) (glob_keeps h.glob (h6.trans hk.2.2.1)) h3 h2 ?_
    rintro x (rfl | rfl)
    · show w.next ≤ w.next + 1 + 1; omega
    · show w.next ≤ w.next + 1; omega
  | withBestEffort i =>
    rcases h.at i with ⟨hv, ht⟩ | ⟨v, t, hv, ht, hr⟩
    · simp only [ApiOp.run, RunOp, hv, ht]; exact ⟨_, _, rfl, rfl, h⟩
    · cases v <;> cases t <;> (try exact hr.elim) <;> simp only [ApiOp.run, RunOp, hv, ht]
      · rename_i a mi o
        refine ⟨_, _, rfl, by rw [Live.parser hr]; rfl, MiniSrc.does 2 fun n => ?_⟩
        obtain ⟨w', h1, h2, h3, h4⟩ := live_turnOn hX (Or.inl rfl) n hr
        exact ⟨_, h1, w', rfl, rfl, h.inPlace hv h4.2.1 (fun x hx hn => h4.1 x hx fun hc => hn (Or.inr hc)) (t' := .parser5 { o with bestEffort := true }) h2 (fun x _ hx => hx) (glob_keeps h.glob h4.2.2.1) h4.2.2.2⟩
      · rename_i a mi o
        refine ⟨_, _, rfl, by rw [Live.parser hr]; rfl, MiniSrc.does 2 fun n => ?_⟩
        obtain ⟨w', h1, h2, h3, h4⟩ := live_turnOn hX (Or.inr rfl) n hr
        exact ⟨_, h1, w', rfl, rfl, h.inPlace hv h4.2.1 (fun x hx hn => h4.1 x hx fun hc => hn (Or.inr hc)) (t' := .parser3 { o with bestEffort := true }) h2 (fun x _ hx => hx) (glob_keeps h.glob h4.2.2.1) h4.2.2.2⟩
      all_goals exact ⟨_, _, rfl, rfl, h⟩
  | hasBestEffort i =>
    rcases h.at i with ⟨hv, ht⟩ | ⟨v, t, hv, ht, hr⟩
    · simp only [ApiOp.run, RunOp, hv, ht]; exact ⟨_, _, rfl, rfl, h⟩
    · cases v <;> cases t <;> (try exact hr.elim) <;> simp only [ApiOp.run, RunOp, hv, ht]
      · exact ⟨_, _, rfl, MiniSrc.does 2 fun n => ⟨_, live_hasBestEffort hX (Or.inl rfl) n hr, _, _, rfl, rfl, h⟩⟩
      · exact ⟨_, _, rfl, MiniSrc.does 2 fun n => ⟨_, live_hasBestEffort hX (Or.inr rfl) n hr, _, _, rfl, rfl, h⟩⟩
      all_goals exact ⟨_, _, rfl, rfl, h⟩
  | parse i input =>
    rcases h.at i with ⟨hv, ht⟩ | ⟨v, t, hv, ht, hr⟩
    · simp only [ApiOp.run, RunOp, hv, ht]; exact ⟨_, _, rfl, rfl, h⟩
    · cases v <;> cases t <;> (try exact hr.elim) <;> simp only [ApiOp.run, RunOp, hv, ht]
      · have key := fun n => live_parseMem (X := bothX extra order now left5 left3) (calls := call (libX extra order fun _ _ => M.stuck) 3) (left := left5) hX (fun _ => rfl) (packageOk rfl 0) n hr input
        obtain ⟨r, m', -, -, hres, -⟩ := key 0
        simp only [hres]
        refine ⟨_, _, rfl, MiniSrc.does 2 fun n => ?_⟩
        obtain ⟨r', m'', v, w', hr', h1, h2, h3⟩ := key n
        obtain ⟨rfl, rfl⟩ : r = r' ∧ m' = m'' := by rw [hres] at hr'; simpa using hr'
        refine ⟨_, h1, v, r.err, w', rfl, ?_⟩
        cases hm : r.msg with
        | none =>
          rw [hm] at h3
          exact Or.inl ⟨h3.1, rfl, by simpa using h.keeps h2⟩
        | some m =>
          rw [hm] at h3
          obtain ⟨_, b, rfl, hb1, hb2⟩ := h3
          exact Or.inr ⟨b, rfl, rfl, h.addKeeps h2 (v := .msg5 b) (t := .msg5 m) hb1 hb2⟩
      · have key := fun n => Bsd.live_parseMem (X := bothX extra order now left5 left3) (calls := call (libX extra order fun _ _ => M.stuck) 3) (left := left3) hX (fun _ => rfl) (Bsd.packageOk rfl 0) n hr input
        obtain ⟨r, m', -, -, hres, -⟩ := key 0
        simp only [hres]
        refine ⟨_, _, rfl, MiniSrc.does 2 fun n => ?_⟩
        obtain ⟨r', m'', v, w', hr', h1, h2, h3⟩ := key n
        obtain ⟨rfl, rfl⟩ : r = r' ∧ m' = m'' := by rw [hres] at hr'; simpa using hr'
        refine ⟨_, h1, v, r.err, w', rfl, ?_⟩
        cases hm : r.msg with
        | none =>
          rw [hm] at h3
          exact Or.inl ⟨h3.1, rfl, by simpa using h.keeps h2⟩
        | some m =>
          rw [hm] at h3
          obtain ⟨_, b, rfl, hb1, hb2⟩ := h3
          exact Or.inr ⟨b, rfl, rfl, h.addKeeps h2 (v := .msg3 b) (t := .msg3 m) hb1 hb2⟩
      all_goals exact ⟨_, _, rfl, rfl, h⟩
  | newMessage => exact ⟨_, _, rfl, rfl, h.addKeeps (newVar_keeps w _) (v := .msg5 w.next) (t := .msg5 {}) (newMsg_rep w) fun x hx => by rw [newMsg_reaches hx]; exact Nat.le_refl _⟩
  | set j c =>
    rcases h.at j with ⟨hv, ht⟩ | ⟨v, t, hv, ht, hr⟩
    · simp only [ApiOp.run, RunOp, hv, ht]; exact ⟨_, _, rfl, rfl, h⟩
    · cases v <;> cases t <;> (try exact hr.elim) <;> simp only [ApiOp.run, RunOp, hv, ht]
      case msg5.msg5 b m =>
        obtain ⟨m', g', hc, -⟩ := C22_only_own_field c m s.glob
        simp only [hc]
        refine ⟨_, _, rfl, MiniSrc.does 3 fun n => ?_⟩
        have hd := MiniSrc.setter_does (X := bothX extra order now left5 left3) rfl (MiniSrc.buildX_set extra order _) c hr h.glob n
        rw [hc] at hd
        obtain ⟨w', h1, h2, h3, h4⟩ := hd
        exact ⟨_, h1, w', rfl, rfl, h.inPlace hv h4.next (fun x hx hn => h4.same x hx fun hc => hn (Or.inl hc)) (t' := .msg5 m') h2 (fun x hx hf => h4.reaches hx hf) h3 h4.ext⟩
      all_goals exact ⟨_, _, rfl, rfl, h⟩
  | string j =>
    rcases h.at j with ⟨hv, ht⟩ | ⟨v, t, hv, ht, hr⟩
    · simp only [ApiOp.run, RunOp, hv, ht]; exact ⟨_, _, rfl, rfl, h⟩
    · cases v <;> cases t <;> (try exact hr.elim) <;> simp only [ApiOp.run, RunOp, hv, ht]
      case msg5.msg5 b m =>
        refine ⟨_, _, rfl, does_mono (C104_string extra order _ w ho b m (Mini.RepMsg.msg hr)) ?_⟩
        rintro o' ⟨w', h1, rfl⟩
        refine ⟨w', ?_⟩
        cases Builder.string m with
        | some t => exact Or.inl ⟨t, rfl, rfl, h.keeps h1⟩
        | none => exact Or.inr ⟨rfl, rfl, h.keeps h1⟩
      all_goals exact ⟨_, _, rfl, rfl, h⟩
  | valid j =>
    rcases h.at j with ⟨hv, ht⟩ | ⟨v, t, hv, ht, hr⟩
    · simp only [ApiOp.run, RunOp, hv, ht]; exact ⟨_, _, rfl, rfl, h⟩
    · cases v <;> cases t <;> (try exact hr.elim) <;> simp only [ApiOp.run, RunOp, hv, ht]
      case msg5.msg5 b m => exact ⟨_, _, rfl, MiniSrc.does 4 fun n => ⟨_, valid5_call rfl n b m w (Mini.RepMsg.msg hr).base (Mini.RepMsg.msg hr).version, _, _, rfl, rfl, h⟩⟩
      case msg3.msg3 b m => exact ⟨_, _, rfl, MiniSrc.does 3 fun n => ⟨_, baseValid_call rfl n b m w (Bsd.RepMsg.base hr), _, _, rfl, rfl, h⟩⟩
      all_goals exact ⟨_, _, rfl, rfl, h⟩
  | word j k =>
    rcases h.at j with ⟨hv, ht⟩ | ⟨v, t, hv, ht, hr⟩
    · simp only [ApiOp.run, RunOp, hv, ht]; exact ⟨_, _, rfl, rfl, h⟩
    · cases v <;> cases t <;> (try exact hr.elim) <;> simp only [ApiOp.run, RunOp, hv, ht]
      case msg5.msg5 b m => exact ⟨_, _, rfl, asksWord rfl k (Mini.RepMsg.msg hr).base fun w' hk => ⟨rfl, h.keeps hk⟩⟩
      case msg3.msg3 b m => exact ⟨_, _, rfl, asksWord rfl k (Bsd.RepMsg.base hr) fun w' hk => ⟨rfl, h.keeps hk⟩⟩
      all_goals exact ⟨_, _, rfl, rfl, h⟩
  | read j f =>
    rcases h.at j with ⟨hv, ht⟩ | ⟨v, t, hv, ht, hr⟩
    · simp only [ApiOp.run, RunOp, hv, ht]; exact ⟨_, _, rfl, rfl, h⟩
    · cases v <;> cases t <;> (try exact hr.elim) <;> simp only [ApiOp.run, RunOp, hv, ht]
      case msg5.msg5 b m => exact ⟨_, _, rfl, readsField f (Mini.RepMsg.msg hr).base ⟨rfl, h⟩⟩
      case msg3.msg3 b m => exact ⟨_, _, rfl, readsField f (Bsd.RepMsg.base hr) ⟨rfl, h⟩⟩
      all_goals exact ⟨_, _, rfl, rfl, h⟩
  | compute j v =>
    rcases h.at j with ⟨hv, ht⟩ | ⟨u, t, hv, ht, hr⟩
    · simp only [ApiOp.run, RunOp, hv, ht]; exact ⟨_, _, rfl, rfl, h⟩
    · cases u <;> cases t <;> (try exact hr.elim) <;> simp only [ApiOp.run, RunOp, hv, ht]
      case msg5.msg5 b m =>
        refine ⟨_, _, rfl, MiniSrc.does 1 fun n => ?_⟩
        obtain ⟨w', h1, h2, h3, h4⟩ := compute5_call (X := bothX extra order now left5 left3) rfl n hr v
        exact ⟨_, h1, w', rfl, rfl, h.inPlace hv h3.2.1 (fun x hx hn => h3.1 x hx fun hc => hn (Or.inl (Or.inl hc))) (t' := .msg5 _) h2 (fun x hx hf => h4.reaches hx hf) (glob_keeps h.glob h3.2.2.1) h3.2.2.2⟩
      case msg3.msg3 b m =>
        refine ⟨_, _, rfl, MiniSrc.does 1 fun n => ?_⟩
        obtain ⟨w', h1, h2, h3, h4⟩ := Bsd.RepMsg.compute (X := bothX extra order now left5 left3) rfl n hr v
        exact ⟨_, h1, w', rfl, rfl, h.inPlace hv h3.2.1 (fun x hx hn => h3.1 x hx fun hc => hn (Or.inl (Or.inl hc))) (t' := .msg3 _) h2 h4 (glob_keeps h.glob h3.2.2.1) h3.2.2.2⟩
      all_goals exact ⟨_, _, rfl, rfl, h⟩
  | scribble j =>
    rcases h.at j with ⟨hv, ht⟩ | ⟨v, t, hv, ht, hr⟩
    · simp only [ApiOp.run, RunOp, hv, ht]; exact ⟨_, _, rfl, rfl, h⟩
    · cases v <;> cases t <;> (try exact hr.elim) <;> simp only [ApiOp.run, RunOp, hv, ht]
      case msg5.msg5 b m => exact ⟨_, _, rfl, fun w' hw => ⟨rfl, h.step hv hw.1 hw.2.1 (v' := .gone) (t' := .gone) trivial (fun _ _ hf => hf.elim) (glob_keeps h.glob hw.2.2.1) (hw.2.2.2.trans h.clock)⟩⟩
      case msg3.msg3 b m => exact ⟨_, _, rfl, fun w' hw => ⟨rfl, h.step hv hw.1 hw.2.1 (v' := .gone) (t' := .gone) trivial (fun _ _ hf => hf.elim) (glob_keeps h.glob hw.2.2.1) (hw.2.2.2.trans h.clock)⟩⟩
      all_goals exact ⟨_, _, rfl, rfl, h⟩

end

/-- the operations that may change the thing with the number `i` -/
def ApiOp.changes (i : Nat) : ApiOp → Prop
  | .withBestEffort j => j = i
  | .set j _ => j = i
  | .compute j _ => j = i
  | .scribble j => j = i
  | _ => False

/-- other operations leave the variable with the number `i` -/
theorem RunOp.kept {X : Env0 E} {op : ApiOp} {vs : List Var} {w : W E} {P : Obs → List Var → W E → Prop} {i : Nat} {u : Var} (hu : vs[i]? = some u) (hn : ¬ op.changes i) (h : RunOp X op vs w P) :
    RunOp X op vs w fun ob vs' w' => P ob vs' w' ∧ vs'[i]? = some u := by
  have snoc : ∀ v, (vs ++ [v])[i]? = some u := fun v => by rw [List.getElem?_append_left (getElem?_lt hu)]; exact hu
  cases op with
  | newParser5 os => exact does_mono h fun o ⟨a, mi, w', h1, h2, h3⟩ => ⟨a, mi, w', h1, h2, h3, snoc _⟩
  | newParser3 os => exact does_mono h fun o ⟨a, mi, w', h1, h2, h3⟩ => ⟨a, mi, w', h1, h2, h3, snoc _⟩
  | newMessage => exact ⟨h, snoc _⟩
  | withBestEffort j =>
    rcases hv : vs[j]? with _ | (_ | _ | _ | _ | _) <;> simp only [RunOp, hv] at h ⊢ <;> first
      | exact ⟨h, hu⟩
      | exact ⟨h.1, does_mono h.2 fun o ⟨w', h1, h2⟩ => ⟨w', h1, h2, hu⟩⟩
  | hasBestEffort j =>
    rcases hv : vs[j]? with _ | (_ | _ | _ | _ | _) <;> simp only [RunOp, hv] at h ⊢ <;> first
      | exact ⟨h, hu⟩
      | exact does_mono h fun o ⟨b, w', h1, h2⟩ => ⟨b, w', h1, h2, hu⟩
  | parse j input =>
    rcases hv : vs[j]? with _ | (_ | _ | _ | _ | _) <;> simp only [RunOp, hv] at h ⊢ <;> first
      | exact ⟨h, hu⟩
      | exact does_mono h fun o ⟨v, err, w', h1, h2⟩ => ⟨v, err, w', h1, h2.imp (fun h => ⟨h.1, h.2, hu⟩) fun ⟨b, h3, h4⟩ => ⟨b, h3, h4, snoc _⟩⟩
  | set j c =>
    rcases hv : vs[j]? with _ | (_ | _ | _ | _ | _) <;> simp only [RunOp, hv] at h ⊢ <;> first
      | exact ⟨h, hu⟩
      | exact does_mono h fun o ⟨w', h1, h2⟩ => ⟨w', h1, h2, hu⟩
  | string j =>
    rcases hv : vs[j]? with _ | (_ | _ | _ | _ | _) <;> simp only [RunOp, hv] at h ⊢ <;> first
      | exact ⟨h, hu⟩
      | exact does_mono h fun o ⟨w', h1⟩ => ⟨w', h1.imp (fun ⟨t, h2, h3⟩ => ⟨t, h2, h3, hu⟩) fun h2 => ⟨h2.1, h2.2, hu⟩⟩
  | valid j =>
    rcases hv : vs[j]? with _ | (_ | _ | _ | _ | _) <;> simp only [RunOp, hv] at h ⊢ <;> first
      | exact ⟨h, hu⟩
      | exact does_mono h fun o ⟨b, w', h1, h2⟩ => ⟨b, w', h1, h2, hu⟩
  | word j k =>
    rcases hv : vs[j]? with _ | (_ | _ | _ | _ | _) <;> simp only [RunOp, hv] at h ⊢ <;> first
      | exact ⟨h, hu⟩
      | exact does_mono h fun o ⟨v, w', h1, h2⟩ => ⟨v, w', h1, h2.imp (fun h => ⟨h.1, h.2, hu⟩) fun ⟨c, t, h3, h4, h5⟩ => ⟨c, t, h3, h4, h5, hu⟩⟩
  | read j f =>
    rcases hv : vs[j]? with _ | (_ | _ | _ | _ | _) <;> simp only [RunOp, hv] at h ⊢ <;> first
      | exact ⟨h, hu⟩
      | (obtain ⟨v, h1, h2⟩ := h; exact ⟨v, h1, h2.imp (fun h => ⟨h.1, h.2, hu⟩) fun ⟨c, p, x, h3, h4, h5⟩ => ⟨c, p, x, h3, h4, h5, hu⟩⟩)
  | compute j v =>
    rcases hv : vs[j]? with _ | (_ | _ | _ | _ | _) <;> simp only [RunOp, hv] at h ⊢ <;> first
      | exact ⟨h, hu⟩
      | exact does_mono h fun o ⟨w', h1, h2⟩ => ⟨w', h1, h2, hu⟩
  | scribble j =>
    have hj : j ≠ i := hn
    rcases hv : vs[j]? with _ | (_ | _ | _ | _ | _) <;> simp only [RunOp, hv] at h ⊢ <;> first
      | exact ⟨h, hu⟩
      | exact fun w' hw => ⟨h w' hw, by rw [List.getElem?_set_ne hj]; exact hu⟩

theorem RunOps.kept {X : Env0 E} {i : Nat} {u : Var} : ∀ (ops : List ApiOp) {vs : List Var} {w : W E} {P : List Obs → List Var → W E → Prop}, vs[i]? = some u → (∀ op ∈ ops, ¬ op.changes i) →
    RunOps X ops vs w P → RunOps X ops vs w fun obs vs' w' => P obs vs' w' ∧ vs'[i]? = some u
  | [], _, _, _, hu, _, h => ⟨h, hu⟩
  | op :: ops, _, _, _, hu, hn, h => RunOp.mono (RunOp.kept hu (hn op (List.mem_cons_self ..)) h) fun _ _ _ ⟨h1, h2⟩ =>
    RunOps.kept ops h2 (fun o ho => hn o (List.mem_cons_of_mem _ ho)) h1

/-- ... and its value -/
theorem ApiOp.run_kept {now : E → GoTime.Time × E} {op : ApiOp} {s s' : Vals E} {ob : Obs} (h : op.run now s = some (ob, s')) {i : Nat} {t : Thing} (ht : s.things[i]? = some t) (hn : ¬ op.changes i) : s'.things[i]? = some t := by
  have snoc : ∀ l, (s.things ++ l)[i]? = some t := fun l => by rw [List.getElem?_append_left (getElem?_lt ht)]; exact ht
  have set : ∀ j v, j ≠ i → (s.things.set j v)[i]? = some t := fun j v hj => by rw [List.getElem?_set_ne hj]; exact ht
  have fin : ∀ {o : Obs} {s1 : Vals E}, some (o, s1) = some (ob, s') → s1.things[i]? = some t → s'.things[i]? = some t := fun h h1 => by
    injection h with h; injection h with _ h; rw [← h]; exact h1
  cases op with
  | newParser5 os => exact fin h (snoc _)
  | newParser3 os => exact fin h (snoc _)
  | newMessage => exact fin h (snoc _)
  | withBestEffort j =>
    have hj : j ≠ i := hn
    rcases hv : s.things[j]? with _ | (_ | _ | _ | _ | _) <;> simp only [ApiOp.run, hv] at h <;> first
      | exact fin h ht
      | exact fin h (set _ _ hj)
  | hasBestEffort j =>
    rcases hv : s.things[j]? with _ | (_ | _ | _ | _ | _) <;> simp only [ApiOp.run, hv] at h <;> exact fin h ht
  | parse j input =>
    rcases hv : s.things[j]? with _ | (_ | _ | _ | _ | _) <;> simp only [ApiOp.run, hv] at h <;> first
      | exact fin h ht
      | (split at h <;> first
          | exact fin h (snoc _)
          | cases h)
  | set j c =>
    have hj : j ≠ i := hn
    rcases hv : s.things[j]? with _ | (_ | _ | _ | _ | _) <;> simp only [ApiOp.run, hv] at h <;> first
      | exact fin h ht
      | (split at h <;> first
          | exact fin h (set _ _ hj)
          | cases h)
  | string j =>
    rcases hv : s.things[j]? with _ | (_ | _ | _ | _ | _) <;> simp only [ApiOp.run, hv] at h <;> exact fin h ht
  | valid j =>
    rcases hv : s.things[j]? with _ | (_ | _ | _ | _ | _) <;> simp only [ApiOp.run, hv] at h <;> exact fin h ht
  | word j k =>
    rcases hv : s.things[j]? with _ | (_ | _ | _ | _ | _) <;> simp only [ApiOp.run, hv] at h <;> exact fin h ht
  | read j f =>
    rcases hv : s.things[j]? with _ | (_ | _ | _ | _ | _) <;> simp only [ApiOp.run, hv] at h <;> exact fin h ht
  | compute j v =>
    have hj : j ≠ i := hn
    rcases hv : s.things[j]? with _ | (_ | _ | _ | _ | _) <;> simp only [ApiOp.run, hv] at h <;> first
      | exact fin h ht
      | exact fin h (set _ _ hj)
  | scribble j =>
    have hj : j ≠ i := hn
    rcases hv : s.things[j]? with _ | (_ | _ | _ | _ | _) <;> simp only [ApiOp.run, hv] at h <;> first
      | exact fin h ht
      | exact fin h (set _ _ hj)

theorem runOps_kept {now : E → GoTime.Time × E} {i : Nat} {t : Thing} : ∀ (ops : List ApiOp) {s s' : Vals E} {obs : List Obs}, runOps now ops s = some (obs, s') → s.things[i]? = some t →
    (∀ op ∈ ops, ¬ op.changes i) → s'.things[i]? = some t
  | [], _, _, _, h, ht, _ => by injection h with h; injection h with _ h; rw [← h]; exact ht
  | op :: ops, s, _, _, h, ht, hn => by
    unfold runOps at h
    cases h1 : op.run now s with
    | none => rw [h1] at h; cases h
    | some r =>
      obtain ⟨ob, s1⟩ := r
      rw [h1] at h
      dsimp only at h
      cases h2 : runOps now ops s1 with
      | none => rw [h2] at h; cases h
      | some r =>
        obtain ⟨obs', s2⟩ := r
        rw [h2] at h
        injection h with h
        injection h with _ h
        rw [← h]
        exact runOps_kept ops h2 (ApiOp.run_kept h1 ht (hn op (List.mem_cons_self ..))) fun o ho => hn o (List.mem_cons_of_mem _ ho)

end Both

open Both
open MiniSrc (Does does)

section
variable {E : Type} (extra : Nat → Nat) (order : List Bytes → List Bytes) (now : E → GoTime.Time × E) (left5 : W E → Go.GS Go.R5.V) (left3 : W E → Go.GS Go.R3.V) (w : W E)

/-- **C110** (any operations, both packages): executed from a memory that holds the values `s`, any list of operations ends, no call panics, the program sees what the same
operations on values give, and the memory holds the values that they give: in particular what the program's own code writes into a message that it has changes nothing else. -/
theorem C110_values (ho : ∀ xs, (order xs).Perm xs) (ops : List ApiOp) (vs : List Var) (s : Vals E) (h : Holds w vs s) :
    RunOps (bothX extra order now left5 left3) ops vs w fun obs vs' w' => ∃ s', runOps now ops s = some (obs, s') ∧ Holds w' vs' s' := by
  induction ops generalizing w vs s with
  | nil => exact ⟨s, rfl, h⟩
  | cons op ops ih =>
    obtain ⟨ob, s1, h1, h2⟩ := op_ok extra order now left5 left3 ho op h
    refine RunOp.mono h2 ?_
    rintro ob' vs1 w1 ⟨rfl, h3⟩
    refine RunOps.mono ops ?_ (ih w1 vs1 s1 h3)
    rintro obs vs' w' ⟨s', h4, h5⟩
    exact ⟨s', by simp only [runOps, h1, h4, Option.map_some], h5⟩

/-- **C110** (a whole program): it begins with nothing, in any memory. -/
theorem C110_program (ho : ∀ xs, (order xs).Perm xs) (ops : List ApiOp) (g : Globals) (hg : HasGlob w g) :
    RunOps (bothX extra order now left5 left3) ops [] w fun obs vs' w' => ∃ s', runOps now ops { glob := g, clock := w.ext } = some (obs, s') ∧ Holds w' vs' s' :=
  C110_values extra order now left5 left3 w ho ops [] { glob := g, clock := w.ext } ⟨rfl, fun _ _ _ h => (by cases h), fun _ _ _ _ _ h => (by cases h), hg, rfl⟩

/-- **C110** (`Parse` of `rfc3164`): on a parser that nobody is using it ends without a panic and returns the error of the model, and its message in new variables, or nil;
everything that existed before, the parser included, is as before, and nothing of the message is shared with it. -/
theorem C110_parse3 (a mi : Nat) (o : Rfc3164.Opts) (h : Live kit3 w a mi o) (input : Bytes) :
    Does (bothX extra order now left5 left3) .rfc3164_parser_Parse [.ptr a [], .str input] w fun out => ∃ r m' v w', out = .ok (.tuple [v, err3Val r.err]) w' ∧
      Rfc3164.parserParse o {} input = some (r, m') ∧ Keeps w w' ∧ Live kit3 w' a mi o ∧
      match r.msg with
      | none => v = .nil
      | some m => ∃ b, v = .ptr b [] ∧ Mini.Bsd.RepMsg w' b m ∧ ∀ x, Reaches w' b x → w.next ≤ x := by
  refine does 2 fun n => ?_
  obtain ⟨r, m', v, w', h1, h2, h3, h4⟩ := Mini.Bsd.live_parseMem (X := bothX extra order now left5 left3) (calls := call (libX extra order fun _ _ => M.stuck) 3) (left := left3)
    (bothX_env extra order now left5 left3) (fun _ => rfl) (Mini.Bsd.packageOk rfl 0) n h input
  refine ⟨_, h2, r, m', v, w', rfl, h1, h3, Both.live_keeps h h3.2.1 (h3.1 _ h.lt) (h3.1 _ h.mlt), ?_⟩
  cases hm : r.msg with
  | none => rw [hm] at h4; exact h4.1
  | some m => rw [hm] at h4; exact h4.rep

/-- **C110** (what is kept): a parser changes only by its own `WithBestEffort`, a message only by its own setters, its own `ComputeFromPriority` or the program's own code: after any
operations without these the same variable holds the same value, whatever was parsed, changed, printed or written elsewhere in between. -/
theorem C110_kept (ho : ∀ xs, (order xs).Perm xs) (ops : List ApiOp) (vs : List Var) (s : Vals E) (h : Holds w vs s) (i : Nat) (v : Var) (t : Thing) (hv : vs[i]? = some v) (ht : s.things[i]? = some t)
    (hn : ∀ op ∈ ops, ¬ op.changes i) :
    RunOps (bothX extra order now left5 left3) ops vs w fun _ vs' w' => vs'[i]? = some v ∧ Rep w' v t := by
  refine RunOps.mono ops ?_ (RunOps.kept ops hv hn (C110_values extra order now left5 left3 w ho ops vs s h))
  rintro obs vs' w' ⟨⟨s', h1, h2⟩, h3⟩
  exact ⟨h3, h2.rep i v t h3 (runOps_kept ops h1 ht hn)⟩

end

/-! ## Instances -/

namespace Both
open MiniSrc (Clock tick)

/-- nothing there yet; it is 2026 -/
def bareWorld : W Clock :=
  { heap := fun _ => .nil, next := 0, glob := fun x => if x = .currentid then .str [] else if x = .currentparamname then .str [] else .nil, ext := ⟨2026⟩ }

def bsdLine : Bytes := ascii "<34>Oct 11 22:14:15 mymachine su: failed"

/-- Three parsers of both packages (the clock ticks once a year at each reading); two results of the same line, of different years; the code of the program writes into the first of them;
the same line again; then messages are changed, read and printed. -/
def progB : List ApiOp :=
  [.newParser5 [], .newParser3 [.bestEffort, .currentYear], .newParser3 [.currentYear], .parse 0 (ascii "<165>1 - h a - - [x k=\"v\"] hello"), .parse 1 bsdLine, .parse 2 bsdLine, .read 4 .timestamp,
   .read 5 .timestamp, .scribble 4, .read 4 .timestamp, .parse 1 bsdLine, .read 6 .hostname, .word 6 .severityMessage, .compute 5 165, .read 5 .priority, .read 6 .priority, .read 6 .timestamp,
   .set 3 (.hostname (ascii "other")), .string 3, .valid 5, .parse 2 (ascii "<34>Oct 1x"), .parse 1 (ascii "<34>Oct 1x"), .hasBestEffort 2, .word 7 .facilityLevel]

def seenB : List Obs :=
  [.nothing, .nothing, .nothing, .parsed5 true none, .parsed3 true none, .parsed3 true none, .field (some (.time ⟨2026, 10, 11, 22, 14, 15, 0, 0⟩)),
   .field (some (.time ⟨2027, 10, 11, 22, 14, 15, 0, 0⟩)), .nothing, .nothing, .parsed3 true none, .field (some (.text (ascii "mymachine"))), .word (some (ascii "critical conditions")), .nothing,
   .field (some (.byte 165)), .field (some (.byte 34)), .field (some (.time ⟨2026, 10, 11, 22, 14, 15, 0, 0⟩)),
   .nothing, .text (some (ascii "<165>1 - other a - - [x k=\"v\"] hello")), .flag true, .parsed3 false (some ⟨.timestamp, 9⟩), .parsed3 true (some ⟨.timestamp, 9⟩), .flag false, .word (some (ascii "auth"))]

end Both

open MiniSrc (Clock tick)

/-- what that program sees, executed, whatever its own code writes into the message -/
example (extra : Nat → Nat) (left5 : W Clock → Go.GS Go.R5.V) (left3 : W Clock → Go.GS Go.R3.V) :
    RunOps (bothX extra List.reverse tick left5 left3) progB [] Both.bareWorld fun obs _ _ => obs = seenB := by
  have hrun : (runOps tick progB { clock := ⟨2026⟩ }).map Prod.fst = some seenB := by decide +kernel
  refine RunOps.mono progB ?_ (C110_program extra List.reverse tick left5 left3 Both.bareWorld (fun xs => List.reverse_perm xs) progB {} ⟨rfl, rfl⟩)
  rintro obs vs' w' ⟨s', h1, -⟩
  have h1 : runOps tick progB { clock := ⟨2026⟩ } = some (obs, s') := h1
  rw [h1] at hrun
  exact Option.some.inj hrun

/-- a memory that holds three parsers and three messages: the one after the first six operations -/
example (extra : Nat → Nat) (left5 : W Clock → Go.GS Go.R5.V) (left3 : W Clock → Go.GS Go.R3.V) :
    RunOps (bothX extra List.reverse tick left5 left3) (progB.take 6) [] Both.bareWorld fun _ vs w => ∃ s, Holds w vs s ∧ s.things.length = 6 ∧ ∃ m, s.things[4]? = some (.msg3 m) := by
  have hrun : (runOps tick (progB.take 6) { clock := ⟨2026⟩ }).map (fun r => (r.2.things.length, match r.2.things[4]? with | some (.msg3 _) => true | _ => false)) = some (6, true) := by decide +kernel
  refine RunOps.mono (progB.take 6) ?_ (C110_program extra List.reverse tick left5 left3 Both.bareWorld (fun xs => List.reverse_perm xs) (progB.take 6) {} ⟨rfl, rfl⟩)
  rintro obs vs' w' ⟨s', h1, h2⟩
  have h1 : runOps tick (progB.take 6) { clock := ⟨2026⟩ } = some (obs, s') := h1
  rw [h1] at hrun
  have hrun := Option.some.inj hrun
  simp only [Prod.mk.injEq] at hrun
  refine ⟨s', h2, hrun.1, ?_⟩
  have h3 := hrun.2
  split at h3
  · exact ⟨_, by assumption⟩
  · cases h3

/-- the second of these parsers is not changed by the first six operations after it, whatever they are: none of them is its own `WithBestEffort` -/
example : ∀ op ∈ (progB.drop 3).take 6, ¬ op.changes 1 := by
  intro op hop
  simp only [progB, List.drop_succ_cons, List.drop_zero, List.take_succ_cons, List.take_zero, List.mem_cons, List.not_mem_nil, or_false] at hop
  rcases hop with rfl | rfl | rfl | rfl | rfl | rfl <;> simp [ApiOp.changes]

end Verif.Props
