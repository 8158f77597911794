import Verif.Mini.Opts
import Verif.Mini.OctetEnv
import Verif.Options

/-!
# The constructors, the options and the locked `Parse` of packages `rfc5424` and `rfc3164`

`machine.Parse` (written by Ragel: C100) is not written in this language; what it does is an assumption here (`Parse5Ok`, `Parse3Ok`).
-/

set_option linter.constructorNameAsVariable false
set_option linter.unusedSimpArgs false

namespace Verif.Mini
open Verif.Gen.Mini

variable {E : Type}

theorem exec_deferd (X : Env0 E) (calls : Nm → List Val → M E Val) (e : Expr) (rest : Stmt) (l : Loc) (w : W E) :
    exec X calls (.deferd e rest) l w = (match exec X calls rest l w with
    | none => none
    | some (.ok r w1) => M.bind (eval X calls l e) (fun _ => M.pure r) w1
    | some (.panic w1) => M.bind (eval X calls l e) (fun _ => M.panic) w1) := rfl

/-! ## `sync.Mutex` -/

/-- `Lock()`; a locked mutex blocks: nobody else would unlock it (goroutines: `Verif/Conc/Lock.lean`) -/
def xLock : List Val → M E Val
  | [.ptr a [.Mutex]] => fun w => match (w.heap a).get .Mutex, (w.heap a).put .Mutex (.bool true) with
    | some (.bool false), some v => some (.ok (.tuple []) { w with heap := upd w.heap a v })
    | _, _ => none
  | _ => M.stuck

/-- `Unlock()`; unlocking what is not locked is a fatal error -/
def xUnlock : List Val → M E Val
  | [.ptr a [.Mutex]] => fun w => match (w.heap a).get .Mutex, (w.heap a).put .Mutex (.bool false) with
    | some (.bool true), some v => some (.ok (.tuple []) { w with heap := upd w.heap a v })
    | some (.bool false), some _ => some (.panic w)
    | _, _ => none
  | _ => M.stuck

/-- an environment with this program and this mutex -/
structure ParserEnv (X : Env0 E) : Prop where
  prog : X.prog = Gen.Mini.prog
  meth : X.meth = Gen.Mini.meth
  lock : X.call .sync_Lock = xLock
  unlock : X.call .sync_Unlock = xUnlock

/-- `parser` (rfc5424/parser.go:10-13, rfc3164/parser.go:10-13) -/
def lockedVal (ty : Nm) (locked : Bool) (mi : Nat) : Val := .struct ty [(.Mutex, .bool locked), (.machine, .ptr mi [])]

section
variable {ty : Nm} {w : W E} {a mi : Nat} {b : Bool}

theorem lock_free (h : w.heap a = lockedVal ty false mi) : xLock [.ptr a [.Mutex]] w = some (.ok (.tuple []) { w with heap := upd w.heap a (lockedVal ty true mi) }) := by
  show (match (w.heap a).get .Mutex, (w.heap a).put .Mutex (.bool true) with
    | some (.bool false), some v => some (Out.ok (Val.tuple []) { w with heap := upd w.heap a v })
    | _, _ => none) = _
  simp [h, lockedVal, setField]

theorem lock_blocks (h : w.heap a = lockedVal ty true mi) : xLock [.ptr a [.Mutex]] w = none := by
  show (match (w.heap a).get .Mutex, (w.heap a).put .Mutex (.bool true) with
    | some (.bool false), some v => some (Out.ok (Val.tuple []) { w with heap := upd w.heap a v })
    | _, _ => none) = _
  simp [h, lockedVal, setField]

theorem unlock_held (h : w.heap a = lockedVal ty true mi) : xUnlock [.ptr a [.Mutex]] w = some (.ok (.tuple []) { w with heap := upd w.heap a (lockedVal ty false mi) }) := by
  show (match (w.heap a).get .Mutex, (w.heap a).put .Mutex (.bool false) with
    | some (.bool true), some v => some (Out.ok (Val.tuple []) { w with heap := upd w.heap a v })
    | some (.bool false), some _ => some (.panic w)
    | _, _ => none) = _
  simp [h, lockedVal, setField]
end

/-- the package: the names of its type and functions -/
structure Pkg where
  parser : Nm
  machine : Nm
  parse : Nm
  machineParse : Nm

def pkg5 : Pkg := ⟨.rfc5424_parser, .rfc5424_machine, .rfc5424_parser_Parse, .rfc5424_machine_Parse⟩
def pkg3 : Pkg := ⟨.rfc3164_parser, .rfc3164_machine, .rfc3164_parser_Parse, .rfc3164_machine_Parse⟩

/-- what the caller gets: in strict mode an error comes without a message -/
def filtered (be : Bool) (msg err : Val) : List Val := if err.isNil then [msg, .nil] else if be then [msg, err] else [.nil, err]

section
variable {X : Env0 E} (hX : ParserEnv X) {p : Pkg} (hpk : p = pkg5 ∨ p = pkg3) (n : Nat) {w w2 : W E} {a mi : Nat} {input : Val}
include hX hpk

/-- `parser.Parse` (rfc5424/parser.go:32-45, rfc3164/parser.go:32-45) when `machine.Parse` returns -/
theorem parser_returns {be : Bool} {msg err : Val} (ha : w.heap a = lockedVal p.parser false mi)
    (hc : X.call p.machineParse [.ptr mi [], input] { w with heap := upd w.heap a (lockedVal p.parser true mi) } = some (.ok (.tuple [msg, err]) w2))
    (ha2 : w2.heap a = lockedVal p.parser true mi) {fs : List (Nm × Val)} (hm : w2.heap mi = .struct p.machine fs) (hbe : fs.lookup .bestEffort = some (.bool be)) :
    call X (n + 2) p.parse [.ptr a [], input] w = some (.ok (.tuple (filtered be msg err)) { w2 with heap := upd w2.heap a (lockedVal p.parser false mi) }) := by
  have hl := lock_free ha
  have hu := unlock_held ha2
  obtain ⟨w1, hw1⟩ : ∃ w1 : W E, w1 = { w with heap := upd w.heap a (lockedVal p.parser true mi) } := ⟨_, rfl⟩
  rw [← hw1] at hc hl
  have h1 : w1.heap a = lockedVal p.parser true mi := by rw [hw1]; simp
  rcases hpk with rfl | rfl
  all_goals
    simp only [pkg5, pkg3, lockedVal] at hc hl hu h1 ha2 hm ⊢
    first
      | rw [call_fn hX.prog prog_rfc5424_parser_Parse]
      | rw [call_fn hX.prog prog_rfc3164_parser_Parse]
    cases he : err.isNil <;> cases hb : be <;> subst hb <;>
      simp [rfc5424_parser_Parse, rfc3164_parser_Parse, exec_deferd, call_ext hX.prog prog_sync_Lock, call_ext hX.prog prog_sync_Unlock, hX.lock, hX.unlock, hl, h1,
        call_ext hX.prog prog_rfc5424_machine_Parse, call_ext hX.prog prog_rfc3164_machine_Parse, hc, assignAll, bindOpt, he, ha2, hm, hbe, hu, filtered]

/-- … when `machine.Parse` panics: the lock is released all the same -/
theorem parser_panics (ha : w.heap a = lockedVal p.parser false mi)
    (hc : X.call p.machineParse [.ptr mi [], input] { w with heap := upd w.heap a (lockedVal p.parser true mi) } = some (.panic w2))
    (ha2 : w2.heap a = lockedVal p.parser true mi) :
    call X (n + 2) p.parse [.ptr a [], input] w = some (.panic { w2 with heap := upd w2.heap a (lockedVal p.parser false mi) }) := by
  have hl := lock_free ha
  have hu := unlock_held ha2
  obtain ⟨w1, hw1⟩ : ∃ w1 : W E, w1 = { w with heap := upd w.heap a (lockedVal p.parser true mi) } := ⟨_, rfl⟩
  rw [← hw1] at hc hl
  have h1 : w1.heap a = lockedVal p.parser true mi := by rw [hw1]; simp
  rcases hpk with rfl | rfl
  all_goals
    simp only [pkg5, pkg3, lockedVal] at hc hl hu h1 ha2 ⊢
    first
      | rw [call_fn hX.prog prog_rfc5424_parser_Parse]
      | rw [call_fn hX.prog prog_rfc3164_parser_Parse]
    simp [rfc5424_parser_Parse, rfc3164_parser_Parse, exec_deferd, call_ext hX.prog prog_sync_Lock, call_ext hX.prog prog_sync_Unlock, hX.lock, hX.unlock, hl, h1,
        call_ext hX.prog prog_rfc5424_machine_Parse, call_ext hX.prog prog_rfc3164_machine_Parse, hc, assignAll, bindOpt, ha2, hu]

/-- … when somebody else holds the lock: it does not get to `machine.Parse` -/
theorem parser_blocks (ha : w.heap a = lockedVal p.parser true mi) : call X (n + 2) p.parse [.ptr a [], input] w = none := by
  have hl := lock_blocks ha
  rcases hpk with rfl | rfl
  all_goals
    simp only [pkg5, pkg3, lockedVal] at hl ⊢
    first
      | rw [call_fn hX.prog prog_rfc5424_parser_Parse]
      | rw [call_fn hX.prog prog_rfc3164_parser_Parse]
    simp [rfc5424_parser_Parse, rfc3164_parser_Parse, call_ext hX.prog prog_sync_Lock, hX.lock, hl]

end

/-! ## The configuration of a machine -/

/-- A package with what its machines are configured with, and what `machine.Parse` returns. -/
structure Kit where
  pkg : Pkg
  withBestEffort : Nm
  hasBestEffort : Nm
  Cfg : Type
  /-- the fields of the struct that hold the configuration -/
  fields : Cfg → List (Nm × Val)
  be : Cfg → Bool
  turnOn : Cfg → Cfg
  result : Cfg → Bytes → Option (Val × Val)

/-- the machine in the variable `mi` has the configuration `c` -/
def IsMach (K : Kit) (w : W E) (mi : Nat) (c : K.Cfg) : Prop := ∃ fs, w.heap mi = .struct K.pkg.machine fs ∧ ∀ f v, (f, v) ∈ K.fields c → fs.lookup f = some v

/-- `machine.Parse` returns what the model returns for the configuration, and changes nothing but the machine (and new variables) -/
def ParseOk (K : Kit) (X : Env0 E) : Prop :=
  ∀ (w : W E) (mi : Nat) (c : K.Cfg) (input : Bytes), IsMach K w mi c → ∃ msg err w', K.result c input = some (msg, err) ∧
    X.call K.pkg.machineParse [.ptr mi [], .str input] w = some (.ok (.tuple [msg, err]) w') ∧ IsMach K w' mi c ∧
    w.next ≤ w'.next ∧ (∀ x, x < w.next → x ≠ mi → w'.heap x = w.heap x) ∧ w'.ext = w.ext

def loc3Val : Option GoTime.Location → Val
  | none => .nil
  | some l => .ext (.loc l)

def msg3Val : Option Base → Val
  | none => .nil
  | some m => .ext (.msg3 m)

def err3Val : Option Rfc3164.Err → Val
  | none => .nil
  | some e => .ext (.err3 e)

/-- `rfc5424` -/
def kit5 : Kit where
  pkg := pkg5
  withBestEffort := .rfc5424_machine_WithBestEffort
  hasBestEffort := .rfc5424_parser_HasBestEffort
  Cfg := Rfc5424.Opts
  fields := fun o => [(.bestEffort, .bool o.bestEffort), (.compliantMsg, .bool o.compliantMsg)]
  be := fun o => o.bestEffort
  turnOn := fun o => { o with bestEffort := true }
  result := fun o input => (Rfc5424.parse1 o input).map fun r => (msgVal r.msg, err5Val r.err)

/-- `rfc3164` -/
def kit3 : Kit where
  pkg := pkg3
  withBestEffort := .rfc3164_machine_WithBestEffort
  hasBestEffort := .rfc3164_parser_HasBestEffort
  Cfg := Rfc3164.Opts
  fields := fun o => [(.bestEffort, .bool o.bestEffort), (.yyyy, .int .int o.yyyy), (.rfc3339, .bool o.rfc3339), (.loc, loc3Val o.loc), (.timezone, loc3Val o.timezone)]
  be := fun o => o.bestEffort
  turnOn := fun o => { o with bestEffort := true }
  result := fun o input => (Rfc3164.parse1 o input).map fun r => (msg3Val r.msg, err3Val r.err)

/-- a parser that nobody is using, with the machine `mi` -/
structure Live (K : Kit) (w : W E) (a mi : Nat) (c : K.Cfg) : Prop where
  parser : w.heap a = lockedVal K.pkg.parser false mi
  mach : IsMach K w mi c
  ne : a ≠ mi
  lt : a < w.next
  mlt : mi < w.next

/-- calls of the methods of a parser; `WithBestEffort` is promoted from the embedded `*machine` -/
inductive PCall where
  | parse (input : Bytes)
  | withBestEffort
  | hasBestEffort

/-- the calls, one after the other: the results and the world afterwards -/
def runCalls (K : Kit) (X : Env0 E) (n a mi : Nat) : List PCall → W E → Option (List Val × W E)
  | [], w => some ([], w)
  | c :: cs, w =>
    match (match c with
      | .parse input => call X n K.pkg.parse [.ptr a [], .str input] w
      | .withBestEffort => call X n K.withBestEffort [.ptr mi []] w
      | .hasBestEffort => call X n K.hasBestEffort [.ptr a []] w) with
    | some (.ok v w1) => (runCalls K X n a mi cs w1).map fun r => (v :: r.1, r.2)
    | _ => none

/-- what they return: every `Parse` is that of a new machine with the configuration of this moment -/
def expected (K : Kit) : K.Cfg → List PCall → List Val → Prop
  | _, [], vs => vs = []
  | c, .parse input :: cs, vs => ∃ msg err rest, K.result c input = some (msg, err) ∧ vs = .tuple (filtered (K.be c) msg err) :: rest ∧ expected K c cs rest
  | c, .withBestEffort :: cs, vs => ∃ rest, vs = .tuple [] :: rest ∧ expected K (K.turnOn c) cs rest
  | c, .hasBestEffort :: cs, vs => ∃ rest, vs = .bool (K.be c) :: rest ∧ expected K c cs rest

/-- the configuration after the calls -/
def cfgAfter (K : Kit) : K.Cfg → List PCall → K.Cfg
  | c, [] => c
  | c, .withBestEffort :: cs => cfgAfter K (K.turnOn c) cs
  | c, _ :: cs => cfgAfter K c cs

section
variable {X : Env0 E} (hX : ParserEnv X) {K : Kit} (hK : K = kit5 ∨ K = kit3) (n : Nat) {w : W E} {a mi : Nat} {c : K.Cfg}
include hX hK

theorem live_parse (hP : ParseOk K X) (h : Live K w a mi c) (input : Bytes) :
    ∃ msg err w', K.result c input = some (msg, err) ∧ call X (n + 2) K.pkg.parse [.ptr a [], .str input] w = some (.ok (.tuple (filtered (K.be c) msg err)) w') ∧
      Live K w' a mi c ∧ w.next ≤ w'.next ∧ w'.ext = w.ext := by
  obtain ⟨w1, hw1⟩ : ∃ w1 : W E, w1 = { w with heap := upd w.heap a (lockedVal K.pkg.parser true mi) } := ⟨_, rfl⟩
  have hm1 : IsMach K w1 mi c := by
    obtain ⟨fs, e, g⟩ := h.mach
    exact ⟨fs, by rw [hw1]; simp [Mini.upd, Ne.symm h.ne, e], g⟩
  obtain ⟨msg, err, w2, hr, hc, hm2, hn, hh, hx⟩ := hP w1 mi c input hm1
  have hw1n : w1.next = w.next := by rw [hw1]
  have ha2 : w2.heap a = lockedVal K.pkg.parser true mi := by
    rw [hh a (by rw [hw1n]; exact h.lt) h.ne, hw1]; simp
  have hm2' := hm2
  obtain ⟨fs, e, g⟩ := hm2'
  have hbe : fs.lookup .bestEffort = some (.bool (K.be c)) := by
    apply g
    rcases hK with rfl | rfl <;> simp [kit5, kit3]
  rw [hw1] at hc
  refine ⟨msg, err, _, hr, parser_returns hX (by rcases hK with rfl | rfl <;> simp [kit5, kit3]) n h.parser hc ha2 e hbe, ?_, by rw [← hw1n]; exact hn, by rw [hx, hw1]⟩
  exact ⟨by simp, ⟨fs, by simp [Mini.upd, Ne.symm h.ne, e], g⟩, h.ne, by have := h.lt; simp only; omega, by have := h.mlt; simp only; omega⟩

/-- `WithBestEffort` changes nothing but the machine -/
theorem live_turnOn (h : Live K w a mi c) :
    ∃ w', call X (n + 2) K.withBestEffort [.ptr mi []] w = some (.ok (.tuple []) w') ∧ Live K w' a mi (K.turnOn c) ∧ w'.next = w.next ∧ KeepsBut mi w w' := by
  obtain ⟨fs, e, g⟩ := h.mach
  have hbe : fs.lookup .bestEffort = some (.bool (K.be c)) := by
    apply g
    rcases hK with rfl | rfl <;> simp [kit5, kit3]
  have hs := store_field e hbe (.bool true)
  rw [coerce_bool] at hs
  refine ⟨{ w with heap := upd w.heap mi (.struct K.pkg.machine (setField fs .bestEffort (.bool true))) }, ?_, ?_, rfl, KeepsBut.upd w mi _⟩
  · rcases hK with rfl | rfl
    · simp only [kit5] at hs ⊢
      rw [call_fn hX.prog prog_rfc5424_machine_WithBestEffort]
      simp [rfc5424_machine_WithBestEffort, hs]
    · simp only [kit3] at hs ⊢
      rw [call_fn hX.prog prog_rfc3164_machine_WithBestEffort]
      simp [rfc3164_machine_WithBestEffort, hs]
  · refine ⟨by simp [Mini.upd, h.ne, h.parser], ⟨setField fs .bestEffort (.bool true), by simp, ?_⟩, h.ne, h.lt, h.mlt⟩
    intro f v hf
    rw [lookup_setField]
    rcases hK with rfl | rfl
    · simp only [kit5, List.mem_cons, Prod.mk.injEq, List.not_mem_nil, or_false] at hf g hbe
      rcases hf with ⟨rfl, rfl⟩ | ⟨rfl, rfl⟩
      · simp [hbe]
      · rw [if_neg (by simp)]; exact g _ _ (by simp)
    · simp only [kit3, List.mem_cons, Prod.mk.injEq, List.not_mem_nil, or_false] at hf g hbe
      rcases hf with ⟨rfl, rfl⟩ | ⟨rfl, rfl⟩ | ⟨rfl, rfl⟩ | ⟨rfl, rfl⟩ | ⟨rfl, rfl⟩
      · simp [hbe]
      all_goals rw [if_neg (by simp)]; exact g _ _ (by simp)

theorem live_withBestEffort (h : Live K w a mi c) :
    ∃ w', call X (n + 2) K.withBestEffort [.ptr mi []] w = some (.ok (.tuple []) w') ∧ Live K w' a mi (K.turnOn c) ∧ w'.next = w.next ∧ w'.ext = w.ext := by
  obtain ⟨w', h1, h2, h3, h4⟩ := live_turnOn hX hK n h
  exact ⟨w', h1, h2, h3, h4.2.2.2⟩

theorem live_hasBestEffort (h : Live K w a mi c) : call X (n + 2) K.hasBestEffort [.ptr a []] w = some (.ok (.bool (K.be c)) w) := by
  obtain ⟨fs, e, g⟩ := h.mach
  have hbe : fs.lookup .bestEffort = some (.bool (K.be c)) := by
    apply g
    rcases hK with rfl | rfl <;> simp [kit5, kit3]
  have hp := h.parser
  rcases hK with rfl | rfl
  · simp only [kit5, pkg5, lockedVal] at hp e ⊢
    rw [call_fn hX.prog prog_rfc5424_parser_HasBestEffort]
    simp [rfc5424_parser_HasBestEffort, hp, e, hbe, kit5]
  · simp only [kit3, pkg3, lockedVal] at hp e ⊢
    rw [call_fn hX.prog prog_rfc3164_parser_HasBestEffort]
    simp [rfc3164_parser_HasBestEffort, hp, e, hbe, kit3]

theorem live_calls (hP : ParseOk K X) (cs : List PCall) : ∀ {w : W E} {c : K.Cfg}, Live K w a mi c →
    ∃ vs w', runCalls K X (n + 2) a mi cs w = some (vs, w') ∧ expected K c cs vs ∧ Live K w' a mi (cfgAfter K c cs) ∧ w'.ext = w.ext := by
  induction cs with
  | nil => intro w c h; exact ⟨[], w, rfl, rfl, h, rfl⟩
  | cons x cs ih =>
    intro w c h
    cases x with
    | parse input =>
      obtain ⟨msg, err, w1, e1, e2, h1, -, hx⟩ := live_parse hX hK n hP h input
      obtain ⟨vs, w2, e3, e4, h2, hy⟩ := ih h1
      exact ⟨_, w2, by simp [runCalls, e2, e3], ⟨msg, err, vs, e1, rfl, e4⟩, h2, hy.trans hx⟩
    | withBestEffort =>
      obtain ⟨w1, e2, h1, -, hx⟩ := live_withBestEffort hX hK n h
      obtain ⟨vs, w2, e3, e4, h2, hy⟩ := ih h1
      exact ⟨_, w2, by simp [runCalls, e2, e3], ⟨vs, rfl, e4⟩, h2, hy.trans hx⟩
    | hasBestEffort =>
      obtain ⟨vs, w2, e3, e4, h2, hy⟩ := ih h
      exact ⟨_, w2, by simp [runCalls, live_hasBestEffort hX hK n h, e3], ⟨vs, rfl, e4⟩, h2, hy⟩

end

/-! ## `rfc5424.NewParser` -/

/-- the value that the function of an option returns -/
def optVal5 : Rfc5424.MachineOption → Val
  | .bestEffort => .clo .rfc5424_WithBestEffort_fn []
  | .compliantMsg => .clo .rfc5424_WithCompliantMsg_fn []

/-- the configuration that these options give -/
def cfg5 (os : List Rfc5424.MachineOption) : Rfc5424.Opts := ⟨(Rfc5424.newMachineWith os).bestEffort, (Rfc5424.newMachineWith os).compliantMsg⟩

theorem cfg5_eq (os : List Rfc5424.MachineOption) : cfg5 os = ⟨os.contains .bestEffort, os.contains .compliantMsg⟩ := by
  have key : ∀ (os : List Rfc5424.MachineOption) (m : Rfc5424.M), (os.foldl Rfc5424.applyOpt m).bestEffort = (m.bestEffort || os.contains .bestEffort) ∧
      (os.foldl Rfc5424.applyOpt m).compliantMsg = (m.compliantMsg || os.contains .compliantMsg) := by
    intro os
    induction os with
    | nil => intro m; simp
    | cons o os ih =>
      intro m
      rw [List.foldl_cons]
      obtain ⟨h1, h2⟩ := ih (Rfc5424.applyOpt m o)
      rw [h1, h2]
      cases o <;> simp [Rfc5424.applyOpt]
  simp only [cfg5, Rfc5424.newMachineWith]
  rw [(key os {}).1, (key os {}).2]
  simp

theorem optVal5_bool (os : List Rfc5424.MachineOption) : os.map optVal5 = (os.map fun o => decide (o = .bestEffort)).map opt5Val := by
  rw [List.map_map]
  apply List.map_congr_left
  intro o _
  cases o <;> rfl

/-- `WithBestEffort`, `WithCompliantMsg` (rfc5424/options.go:8-29) -/
theorem option5_call {X : Env0 E} (hp : X.prog = prog) (n : Nat) (w : W E) :
    call X (n + 1) .rfc5424_WithBestEffort [] w = some (.ok (optVal5 .bestEffort) w) ∧ call X (n + 1) .rfc5424_WithCompliantMsg [] w = some (.ok (optVal5 .compliantMsg) w) := by
  constructor
  · rw [call_fn hp prog_rfc5424_WithBestEffort]; simp [rfc5424_WithBestEffort, optVal5]
  · rw [call_fn hp prog_rfc5424_WithCompliantMsg]; simp [rfc5424_WithCompliantMsg, optVal5]

theorem isMach_new5 {w : W E} {mi : Nat} {o : Rfc5424.Opts} (h : w.heap mi = machVal o.bestEffort o.compliantMsg) : IsMach kit5 w mi o := by
  refine ⟨_, h, fun f v hf => ?_⟩
  simp only [kit5, List.mem_cons, Prod.mk.injEq, List.not_mem_nil, or_false] at hf
  rcases hf with ⟨rfl, rfl⟩ | ⟨rfl, rfl⟩ <;> simp

/-- `NewParser` (rfc5424/parser.go:16-22) -/
theorem newParser5_keeps {X : Env0 E} (hX : ParserEnv X) (n : Nat) (w : W E) {s : Val} {os : List Rfc5424.MachineOption} (hs : IsSlice w s (os.map optVal5)) :
    ∃ w', call X (n + 4) .rfc5424_NewParser [s] w = some (.ok (.ptr (w.next + 1) []) w') ∧ Live kit5 w' (w.next + 1) w.next (cfg5 os) ∧ Keeps w w' := by
  rw [optVal5_bool] at hs
  have em := newMachine_call hX.prog hX.meth n w hs
  have c1 : (os.map fun o => decide (o = Rfc5424.MachineOption.bestEffort)).contains true = (cfg5 os).bestEffort := by
    rw [cfg5_eq]; induction os with
    | nil => rfl
    | cons o os ih => cases o <;> simp_all
  have c2 : (os.map fun o => decide (o = Rfc5424.MachineOption.bestEffort)).contains false = (cfg5 os).compliantMsg := by
    rw [cfg5_eq]
    rw [Bool.eq_iff_iff]
    simp only [List.contains_iff_mem, List.mem_map, decide_eq_false_iff_not]
    constructor
    · rintro ⟨o, h1, h2⟩; cases o with
      | bestEffort => exact absurd rfl h2
      | compliantMsg => exact h1
    · intro h; exact ⟨_, h, by simp⟩
  rw [c1, c2] at em
  rw [call_fn hX.prog prog_rfc5424_NewParser]
  refine ⟨{ w with heap := upd (upd w.heap w.next (machVal (cfg5 os).bestEffort (cfg5 os).compliantMsg)) (w.next + 1) (lockedVal .rfc5424_parser false w.next), next := w.next + 1 + 1 }, ?_, ⟨?_, ?_, ?_, ?_, ?_⟩, ?_, by simp only; omega, rfl, rfl⟩
  · simp [rfc5424_NewParser, em, Zero.rfc5424_parser, putAll, setField, lockedVal]
  · simp [kit5, pkg5]
  · exact isMach_new5 (by simp [Mini.upd])
  · omega
  · simp
  · simp only; omega
  · intro c hc
    simp [Mini.upd, show c ≠ w.next by omega, show c ≠ w.next + 1 by omega]

theorem newParser5_call {X : Env0 E} (hX : ParserEnv X) (n : Nat) (w : W E) {s : Val} {os : List Rfc5424.MachineOption} (hs : IsSlice w s (os.map optVal5)) :
    ∃ w', call X (n + 4) .rfc5424_NewParser [s] w = some (.ok (.ptr (w.next + 1) []) w') ∧ Live kit5 w' (w.next + 1) w.next (cfg5 os) ∧ w'.ext = w.ext ∧
      (∀ c, c < w.next → w'.heap c = w.heap c) := by
  obtain ⟨w', h1, h2, h3⟩ := newParser5_keeps hX n w hs
  exact ⟨w', h1, h2, h3.2.2.2, h3.1⟩

/-! ## `rfc3164.NewMachine`, `rfc3164.NewParser` -/

/-- a new machine with this configuration (rfc3164/machine.go:29-40) -/
def mach3Val (o : Rfc3164.Opts) : Val :=
  .struct .rfc3164_machine [(.data, .nil), (.cs, .int .int 0), (.p, .int .int 0), (.pe, .int .int 0), (.eof, .int .int 0), (.pb, .int .int 0), (.err, .nil), (.bestEffort, .bool o.bestEffort), (.yyyy, .int .int o.yyyy), (.rfc3339, .bool o.rfc3339), (.loc, loc3Val o.loc), (.timezone, loc3Val o.timezone)]

theorem isMach_new3 {w : W E} {mi : Nat} {o : Rfc3164.Opts} (h : w.heap mi = mach3Val o) : IsMach kit3 w mi o := by
  refine ⟨_, h, fun f v hf => ?_⟩
  simp only [kit3, List.mem_cons, Prod.mk.injEq, List.not_mem_nil, or_false] at hf
  rcases hf with ⟨rfl, rfl⟩ | ⟨rfl, rfl⟩ | ⟨rfl, rfl⟩ | ⟨rfl, rfl⟩ | ⟨rfl, rfl⟩ <;> simp

/-- the arguments of `WithYear`, and the other options, as the user writes them -/
inductive Opt3 where
  | bestEffort
  /-- `WithYear(Year{y})` -/
  | year (y : Int)
  /-- `WithYear(CurrentYear{})` -/
  | currentYear
  | timezone (l : Option GoTime.Location)
  | localeTimezone (l : Option GoTime.Location)
  | rfc3339

/-- `time.Now()`; `now` is the clock -/
def xNow (now : E → GoTime.Time × E) : List Val → M E Val
  | [] => fun w => some (.ok (.ext (.time (now w.ext).1)) { w with ext := (now w.ext).2 })
  | _ => M.stuck

/-- `t.Year()` -/
def xYear : List Val → M E Val
  | [.ext (.time t)] => M.pure (.int .int t.year)
  | _ => M.stuck

structure ClockEnv (X : Env0 E) (now : E → GoTime.Time × E) : Prop where
  now : X.call .time_Now = xNow now
  year : X.call .time_Year = xYear

/-- what the operators return when the options are applied, one after the other -/
def resolve (now : E → GoTime.Time × E) : List Opt3 → E → List Rfc3164.MachineOption
  | [], _ => []
  | .bestEffort :: os, e => .bestEffort :: resolve now os e
  | .year y :: os, e => .year y :: resolve now os e
  | .currentYear :: os, e => .year (now e).1.year :: resolve now os (now e).2
  | .timezone l :: os, e => .timezone l :: resolve now os e
  | .localeTimezone l :: os, e => .localeTimezone l :: resolve now os e
  | .rfc3339 :: os, e => .rfc3339 :: resolve now os e

/-- the clock afterwards -/
def clockAfter (now : E → GoTime.Time × E) : List Opt3 → E → E
  | [], e => e
  | .currentYear :: os, e => clockAfter now os (now e).2
  | _ :: os, e => clockAfter now os e

/-- the argument of `WithYear` -/
def yearVal (y : Int) : Val := .struct .rfc3164_Year [(.YYYY, .int .int y)]

def optVal3 : Opt3 → Val
  | .bestEffort => .clo .rfc3164_WithBestEffort_fn []
  | .year y => .clo .rfc3164_WithYear_fn [yearVal y]
  | .currentYear => .clo .rfc3164_WithYear_fn [Zero.rfc3164_CurrentYear]
  | .timezone l => .clo .rfc3164_WithTimezone_fn [loc3Val l]
  | .localeTimezone l => .clo .rfc3164_WithLocaleTimezone_fn [loc3Val l]
  | .rfc3339 => .clo .rfc3164_WithRFC3339_fn []

/-- the functions of the options (rfc3164/options.go:10-68) -/
theorem option3_call {X : Env0 E} (hp : X.prog = prog) (n : Nat) (w : W E) :
    call X (n + 1) .rfc3164_WithBestEffort [] w = some (.ok (optVal3 .bestEffort) w) ∧
    (∀ y, call X (n + 1) .rfc3164_WithYear [yearVal y] w = some (.ok (optVal3 (.year y)) w)) ∧
    call X (n + 1) .rfc3164_WithYear [Zero.rfc3164_CurrentYear] w = some (.ok (optVal3 .currentYear) w) ∧
    (∀ l, call X (n + 1) .rfc3164_WithTimezone [loc3Val l] w = some (.ok (optVal3 (.timezone l)) w)) ∧
    (∀ l, call X (n + 1) .rfc3164_WithLocaleTimezone [loc3Val l] w = some (.ok (optVal3 (.localeTimezone l)) w)) ∧
    call X (n + 1) .rfc3164_WithRFC3339 [] w = some (.ok (optVal3 .rfc3339) w) := by
  refine ⟨?_, fun y => ?_, ?_, fun l => ?_, fun l => ?_, ?_⟩
  · rw [call_fn hp prog_rfc3164_WithBestEffort]; simp [rfc3164_WithBestEffort, optVal3]
  · rw [call_fn hp prog_rfc3164_WithYear]; simp [rfc3164_WithYear, optVal3]
  · rw [call_fn hp prog_rfc3164_WithYear]; simp [rfc3164_WithYear, optVal3]
  · rw [call_fn hp prog_rfc3164_WithTimezone]; simp [rfc3164_WithTimezone, optVal3]
  · rw [call_fn hp prog_rfc3164_WithLocaleTimezone]; simp [rfc3164_WithLocaleTimezone, optVal3]
  · rw [call_fn hp prog_rfc3164_WithRFC3339]; simp [rfc3164_WithRFC3339, optVal3]

@[simp] theorem coerce_loc3 (u : Val) (l : Option GoTime.Location) : u.coerce (loc3Val l) = loc3Val l := by cases l <;> simp [loc3Val]

section
variable {X : Env0 E} (hX : ParserEnv X) {now : E → GoTime.Time × E} (hN : ClockEnv X now) (n : Nat) {w : W E} {a : Nat} {o : Rfc3164.Opts}

/-- `YearOperation{o}.Operate()` (rfc3164/year.go:18-38) -/
theorem operate_call (hp : X.prog = prog) (hm : X.meth = meth) (w : W E) :
    (∀ y, call X (n + 2) .rfc3164_YearOperation_Operate [.struct .rfc3164_YearOperation [(.Operator, yearVal y)]] w = some (.ok (.int .int y) w)) ∧
    (ClockEnv X now → call X (n + 3) .rfc3164_YearOperation_Operate [.struct .rfc3164_YearOperation [(.Operator, Zero.rfc3164_CurrentYear)]] w =
      some (.ok (.int .int (now w.ext).1.year) { w with ext := (now w.ext).2 })) := by
  constructor
  · intro y
    rw [call_fn hp prog_rfc3164_YearOperation_Operate]
    have e : call X (n + 1) .rfc3164_Year_Apply [yearVal y] w = some (.ok (.int .int y) w) := by
      rw [call_fn hp prog_rfc3164_Year_Apply]; simp [rfc3164_Year_Apply, yearVal]
    have ht : (typeOf (yearVal y) : M E Nm) w = some (.ok .rfc3164_Year w) := rfl
    simp [rfc3164_YearOperation_Operate, ht, hm, meth_rfc3164_Year_Apply, e]
  · intro hN
    rw [call_fn hp prog_rfc3164_YearOperation_Operate]
    have e : call X (n + 2) .rfc3164_CurrentYear_Apply [Zero.rfc3164_CurrentYear] w = some (.ok (.int .int (now w.ext).1.year) { w with ext := (now w.ext).2 }) := by
      rw [call_fn hp prog_rfc3164_CurrentYear_Apply]
      simp [rfc3164_CurrentYear_Apply, call_ext hp prog_time_Now, call_ext hp prog_time_Year, hN.now, hN.year, show xNow now [] w = some (.ok (.ext (.time (now w.ext).1)) { w with ext := (now w.ext).2 }) from rfl,
        show ∀ t (w : W E), xYear [.ext (.time t)] w = some (.ok (.int .int t.year) w) from fun _ _ => rfl]
    have ht : (typeOf Zero.rfc3164_CurrentYear : M E Nm) w = some (.ok .rfc3164_CurrentYear w) := rfl
    simp [rfc3164_YearOperation_Operate, ht, hm, meth_rfc3164_CurrentYear_Apply, e]

/-- a method that sets one field -/
theorem mach3_store (h : w.heap a = mach3Val o) :
    (storeAt (.ptr a [.bestEffort]) (.bool true) : M E Unit) w = some (.ok () { w with heap := upd w.heap a (mach3Val { o with bestEffort := true }) }) ∧
    (∀ y, (storeAt (.ptr a [.yyyy]) (.int .int y) : M E Unit) w = some (.ok () { w with heap := upd w.heap a (mach3Val { o with yyyy := y }) })) ∧
    (∀ l, (storeAt (.ptr a [.loc]) (loc3Val l) : M E Unit) w = some (.ok () { w with heap := upd w.heap a (mach3Val { o with loc := l }) })) ∧
    (∀ l, (storeAt (.ptr a [.timezone]) (loc3Val l) : M E Unit) w = some (.ok () { w with heap := upd w.heap a (mach3Val { o with timezone := l }) })) ∧
    (storeAt (.ptr a [.rfc3339]) (.bool true) : M E Unit) w = some (.ok () { w with heap := upd w.heap a (mach3Val { o with rfc3339 := true }) }) := by
  refine ⟨?_, fun y => ?_, fun l => ?_, fun l => ?_, ?_⟩ <;>
    · rw [store_field h (by simp; rfl)]
      simp [setField, mach3Val]

include hX hN in
/-- `opt(m)` (rfc3164/machine.go:46-48) -/
theorem opt3_call {l : Loc} (h : w.heap a = mach3Val o) (x : Opt3) :
    eval X (call X (n + 6)) l (.callVal (.lit (optVal3 x)) (.cons (.lit (.ptr a [])) .unit)) w = some (.ok (.ptr a [])
      { w with heap := upd w.heap a (mach3Val ((resolve now [x] w.ext).foldl Rfc3164.applyOpt o)), ext := clockAfter now [x] w.ext }) := by
  obtain ⟨s1, s2, s3, s4, s5⟩ := mach3_store h
  have hp := hX.prog
  have hm := hX.meth
  cases x with
  | bestEffort =>
    have e1 : call X (n + 5) .rfc3164_machine_WithBestEffort [.ptr a []] w = some (.ok (.tuple []) { w with heap := upd w.heap a (mach3Val { o with bestEffort := true }) }) := by
      rw [call_fn hp prog_rfc3164_machine_WithBestEffort]; simp [rfc3164_machine_WithBestEffort, s1]
    have e : call X (n + 6) .rfc3164_WithBestEffort_fn [.ptr a []] w = some (.ok (.ptr a []) { w with heap := upd w.heap a (mach3Val { o with bestEffort := true }) }) := by
      rw [call_fn hp prog_rfc3164_WithBestEffort_fn]
      simp [rfc3164_WithBestEffort_fn, typeOf_ptr h, hm, meth_rfc3164_machine_WithBestEffort, e1]
    simp [optVal3, e, resolve, clockAfter, Rfc3164.applyOpt]
  | year y =>
    have e0 := (operate_call (now := now) (X := X) (n + 2) hp hm w).1 y
    have e1 : call X (n + 5) .rfc3164_machine_WithYear [.ptr a [], yearVal y] w = some (.ok (.tuple []) { w with heap := upd w.heap a (mach3Val { o with yyyy := y }) }) := by
      rw [call_fn hp prog_rfc3164_machine_WithYear]
      simp [rfc3164_machine_WithYear, Zero.rfc3164_YearOperation, putAll, setField, yearVal] at e0 ⊢
      simp [e0, s2]
    have e : call X (n + 6) .rfc3164_WithYear_fn [yearVal y, .ptr a []] w = some (.ok (.ptr a []) { w with heap := upd w.heap a (mach3Val { o with yyyy := y }) }) := by
      rw [call_fn hp prog_rfc3164_WithYear_fn]
      simp [rfc3164_WithYear_fn, e1]
    simp [optVal3, e, resolve, clockAfter, Rfc3164.applyOpt]
  | currentYear =>
    have e0 := (operate_call (now := now) (X := X) (n + 1) hp hm w).2 hN
    have s2' := (mach3_store (w := { w with ext := (now w.ext).2 }) h).2.1 (now w.ext).1.year
    have e1 : call X (n + 5) .rfc3164_machine_WithYear [.ptr a [], Zero.rfc3164_CurrentYear] w = some (.ok (.tuple []) { w with heap := upd w.heap a (mach3Val { o with yyyy := (now w.ext).1.year }), ext := (now w.ext).2 }) := by
      rw [call_fn hp prog_rfc3164_machine_WithYear]
      simp [rfc3164_machine_WithYear, Zero.rfc3164_YearOperation, putAll, setField, Zero.rfc3164_CurrentYear] at e0 ⊢
      simp [e0, s2']
    have e : call X (n + 6) .rfc3164_WithYear_fn [Zero.rfc3164_CurrentYear, .ptr a []] w = some (.ok (.ptr a []) { w with heap := upd w.heap a (mach3Val { o with yyyy := (now w.ext).1.year }), ext := (now w.ext).2 }) := by
      rw [call_fn hp prog_rfc3164_WithYear_fn]
      simp [rfc3164_WithYear_fn, e1]
    simp [optVal3, e, resolve, clockAfter, Rfc3164.applyOpt]
  | timezone z =>
    have e1 : call X (n + 5) .rfc3164_machine_WithTimezone [.ptr a [], loc3Val z] w = some (.ok (.tuple []) { w with heap := upd w.heap a (mach3Val { o with loc := z }) }) := by
      rw [call_fn hp prog_rfc3164_machine_WithTimezone]; simp [rfc3164_machine_WithTimezone, s3]
    have e : call X (n + 6) .rfc3164_WithTimezone_fn [loc3Val z, .ptr a []] w = some (.ok (.ptr a []) { w with heap := upd w.heap a (mach3Val { o with loc := z }) }) := by
      rw [call_fn hp prog_rfc3164_WithTimezone_fn]
      simp [rfc3164_WithTimezone_fn, e1]
    simp [optVal3, e, resolve, clockAfter, Rfc3164.applyOpt]
  | localeTimezone z =>
    have e1 : call X (n + 5) .rfc3164_machine_WithLocaleTimezone [.ptr a [], loc3Val z] w = some (.ok (.tuple []) { w with heap := upd w.heap a (mach3Val { o with timezone := z }) }) := by
      rw [call_fn hp prog_rfc3164_machine_WithLocaleTimezone]; simp [rfc3164_machine_WithLocaleTimezone, s4]
    have e : call X (n + 6) .rfc3164_WithLocaleTimezone_fn [loc3Val z, .ptr a []] w = some (.ok (.ptr a []) { w with heap := upd w.heap a (mach3Val { o with timezone := z }) }) := by
      rw [call_fn hp prog_rfc3164_WithLocaleTimezone_fn]
      simp [rfc3164_WithLocaleTimezone_fn, e1]
    simp [optVal3, e, resolve, clockAfter, Rfc3164.applyOpt]
  | rfc3339 =>
    have e1 : call X (n + 5) .rfc3164_machine_WithRFC3339 [.ptr a []] w = some (.ok (.tuple []) { w with heap := upd w.heap a (mach3Val { o with rfc3339 := true }) }) := by
      rw [call_fn hp prog_rfc3164_machine_WithRFC3339]; simp [rfc3164_machine_WithRFC3339, s5]
    have e : call X (n + 6) .rfc3164_WithRFC3339_fn [.ptr a []] w = some (.ok (.ptr a []) { w with heap := upd w.heap a (mach3Val { o with rfc3339 := true }) }) := by
      rw [call_fn hp prog_rfc3164_WithRFC3339_fn]
      simp [rfc3164_WithRFC3339_fn, e1]
    simp [optVal3, e, resolve, clockAfter, Rfc3164.applyOpt]

theorem resolve_append (a b : List Opt3) : ∀ e : E, resolve now (a ++ b) e = resolve now a e ++ resolve now b (clockAfter now a e) ∧ clockAfter now (a ++ b) e = clockAfter now b (clockAfter now a e) := by
  induction a with
  | nil => intro e; exact ⟨rfl, rfl⟩
  | cons x a ih => intro e; cases x <;> simp [resolve, clockAfter, ih]

include hX hN in
/-- `NewMachine` (rfc3164/machine.go:43-51) -/
theorem newMachine3_call (w : W E) {s : Val} {os : List Opt3} (hs : IsSlice w s (os.map optVal3)) :
    call X (n + 7) .rfc3164_NewMachine [s] w = some (.ok (.ptr w.next [])
      { w with heap := Mini.upd w.heap w.next (mach3Val (Rfc3164.optsOf (resolve now os w.ext))), next := w.next + 1, ext := clockAfter now os w.ext }) := by
  rw [call_fn hX.prog prog_rfc3164_NewMachine]
  obtain ⟨w1, hw1⟩ : ∃ w1 : W E, w1 = { w with heap := Mini.upd w.heap w.next Zero.rfc3164_machine, next := w.next + 1 } := ⟨_, rfl⟩
  have hs1 : IsSlice w1 s (os.map optVal3) := hs.upd (by rw [hw1]; exact Nat.le_succ _) (fun c hc => by rw [hw1]; simp [Mini.upd, show c ≠ w.next by omega])
  obtain ⟨l', w', e, done, rest, h1, h2, h3, h4⟩ := range_exec (X := X) (calls := call X (n + 6)) (x := some .opt) (e := .var .options) (body := .expr (.callVal (.var .opt) (.cons (.var .m) .unit)))
    (l := (Loc.empty.set .options s).set .m (.ptr w.next [])) (w := w1) (s := s) (vs := os.map optVal3)
    (fun vs l w' => ∃ done rest, os = done ++ rest ∧ vs = rest.map optVal3 ∧ l .m = .ptr w.next [] ∧
      w' = { w with heap := Mini.upd w.heap w.next (mach3Val (Rfc3164.optsOf (resolve now done w.ext))), next := w.next + 1, ext := clockAfter now done w.ext }) (by simp) hs1
    ⟨[], os, rfl, rfl, by simp, by rw [hw1]; rfl⟩
    (by
      rintro v rest l w' ⟨done, rest', h1, h2, h3, h4⟩
      cases rest' with
      | nil => simp at h2
      | cons o rest' =>
        simp only [List.map_cons, List.cons.injEq] at h2
        obtain ⟨rfl, rfl⟩ := h2
        have hh : w'.heap w.next = mach3Val (Rfc3164.optsOf (resolve now done w.ext)) := by rw [h4]; simp
        have := opt3_call (l := l) hX hN n hh o
        refine ⟨l.set .opt (optVal3 o), { w with heap := Mini.upd w.heap w.next (mach3Val (Rfc3164.optsOf (resolve now (done ++ [o]) w.ext))), next := w.next + 1, ext := clockAfter now (done ++ [o]) w.ext }, ?_, done ++ [o], rest', by simp [h1], rfl, by simp [h3], rfl⟩
        simp only [eval_callVal, eval_lit, eval_cons, eval_unit, bind_apply, of_some, argsOf_tuple, pure_apply] at this
        simp only [exec_expr, eval_callVal, eval_var, eval_cons, eval_unit, bind_apply, of_some, argsOf_tuple, pure_apply, bindOpt, set_apply, h3, if_true, show (Nm.m = Nm.opt) = False by simp, if_false, this]
        rw [h4]
        simp only [upd_upd, (resolve_append done [o] w.ext).1, (resolve_append done [o] w.ext).2, Rfc3164.optsOf, List.foldl_append])
  obtain rfl : rest = [] := by cases rest with
    | nil => rfl
    | cons _ _ => simp at h2
  rw [List.append_nil] at h1
  subst h1
  rw [hw1] at e
  simp [rfc3164_NewMachine, e, h3, h4]

include hX hN in
/-- `NewParser` (rfc3164/parser.go:16-22) -/
theorem newParser3_call (w : W E) {s : Val} {os : List Opt3} (hs : IsSlice w s (os.map optVal3)) :
    ∃ w', call X (n + 8) .rfc3164_NewParser [s] w = some (.ok (.ptr (w.next + 1) []) w') ∧ Live kit3 w' (w.next + 1) w.next (Rfc3164.optsOf (resolve now os w.ext)) ∧
      w'.ext = clockAfter now os w.ext ∧ (∀ c, c < w.next → w'.heap c = w.heap c) ∧ w.next ≤ w'.next ∧ w'.glob = w.glob := by
  have em := newMachine3_call hX hN n w hs
  rw [call_fn hX.prog prog_rfc3164_NewParser]
  refine ⟨{ w with heap := upd (upd w.heap w.next (mach3Val (Rfc3164.optsOf (resolve now os w.ext)))) (w.next + 1) (lockedVal .rfc3164_parser false w.next), next := w.next + 1 + 1, ext := clockAfter now os w.ext }, ?_, ⟨?_, ?_, ?_, ?_, ?_⟩, rfl, ?_, by simp only; omega, rfl⟩
  · simp [rfc3164_NewParser, em, Zero.rfc3164_parser, putAll, setField, lockedVal]
  · simp [kit3, pkg3]
  · exact isMach_new3 (by simp [Mini.upd])
  · omega
  · simp
  · simp only; omega
  · intro c hc
    simp [Mini.upd, show c ≠ w.next by omega, show c ≠ w.next + 1 by omega]

end

end Verif.Mini
