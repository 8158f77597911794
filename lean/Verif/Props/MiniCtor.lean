import Verif.Mini.Ctor
import Verif.Props.Mini
import Verif.Props.Rfc5424
import Verif.Props.Rfc3164

/-!
# Constructors, options and the locked `Parse`, statement by statement (C105)

The programs of `rfc5424/{options,parser}.go`, `rfc3164/{options,parser,year}.go` and the hand-written part of the two `machine.go`. `machine.Parse` itself,
written by Ragel, is assumed to return what the model says for the configuration in the fields of the machine, and to change nothing but the machine
(`Mini.ParseOk`; C100 is about its program).
-/

set_option linter.constructorNameAsVariable false

namespace Verif.Props
open Verif.Mini Verif.Gen.Mini

namespace MiniSrc
variable {E : Type}

/-- what `parser.Parse` returns for a parser with this configuration, by the model -/
def parserResult5 (o : Rfc5424.Opts) (input : Bytes) : Option (Val × Val) :=
  (Rfc5424.parserParse (Rfc5424.newMachine o) input).map fun r => (msgVal r.1.msg, err5Val r.1.err)

def parserResult3 (o : Rfc3164.Opts) (input : Bytes) : Option (Val × Val) :=
  (Rfc3164.parserParse o {} input).map fun r => (msg3Val r.1.msg, err3Val r.1.err)

/-- A parser `a` (with the machine `mi`) serves any sequence of calls: `Parse` returns what `res` says for the configuration of the moment and does not
touch the clock, `HasBestEffort` the mode, `WithBestEffort` switches it on for the calls that follow. -/
def Serves (K : Kit) (res : K.Cfg → Bytes → Option (Val × Val)) (X : Env0 E) (a mi : Nat) : K.Cfg → List PCall → W E → Prop
  | _, [], _ => True
  | c, .parse input :: cs, w => ∃ msg err, res c input = some (msg, err) ∧
    Does X K.pkg.parse [.ptr a [], .str input] w fun o => ∃ w', o = .ok (.tuple [msg, err]) w' ∧ w'.ext = w.ext ∧ Serves K res X a mi c cs w'
  | c, .withBestEffort :: cs, w =>
    Does X K.withBestEffort [.ptr mi []] w fun o => ∃ w', o = .ok (.tuple []) w' ∧ w'.ext = w.ext ∧ Serves K res X a mi (K.turnOn c) cs w'
  | c, .hasBestEffort :: cs, w =>
    Does X K.hasBestEffort [.ptr a []] w fun o => o = .ok (.bool (K.be c)) w ∧ Serves K res X a mi c cs w

theorem live_serves {K : Kit} {res : K.Cfg → Bytes → Option (Val × Val)} {X : Env0 E} {a mi : Nat} (hX : ParserEnv X) (hK : K = kit5 ∨ K = kit3) (hP : ParseOk K X)
    (hres : ∀ c input msg err, K.result c input = some (msg, err) → ∃ m e, res c input = some (m, e) ∧ filtered (K.be c) msg err = [m, e]) (cs : List PCall) :
    ∀ {w : W E} {c : K.Cfg}, Live K w a mi c → Serves K res X a mi c cs w := by
  induction cs with
  | nil => intro w c _; exact trivial
  | cons x cs ih =>
    intro w c h
    cases x with
    | parse input =>
      obtain ⟨msg, err, -, hr, -⟩ := live_parse hX hK 0 hP h input
      obtain ⟨m, e, h1, h2⟩ := hres _ _ _ _ hr
      refine ⟨m, e, h1, does 2 fun n => ?_⟩
      obtain ⟨msg', err', w', hr', e2, h3, -, hx⟩ := live_parse hX hK n hP h input
      obtain ⟨rfl, rfl⟩ : msg = msg' ∧ err = err' := by rw [hr] at hr'; simpa using hr'
      rw [h2] at e2
      exact ⟨_, e2, w', rfl, hx, ih h3⟩
    | withBestEffort =>
      refine does 2 fun n => ?_
      obtain ⟨w', e2, h3, -, hx⟩ := live_withBestEffort hX hK n h
      exact ⟨_, e2, w', rfl, hx, ih h3⟩
    | hasBestEffort => exact does 2 fun n => ⟨_, live_hasBestEffort hX hK n h, rfl, ih h⟩

theorem filter5 (o : Rfc5424.Opts) (input : Bytes) (msg err : Val) (h : kit5.result o input = some (msg, err)) :
    ∃ m e, parserResult5 o input = some (m, e) ∧ filtered (kit5.be o) msg err = [m, e] := by
  simp only [kit5, Rfc5424.parse1, Option.map_map] at h
  simp only [parserResult5, Rfc5424.parserParse]
  cases hp : Rfc5424.parse (Rfc5424.newMachine o) input with
  | none => rw [hp] at h; simp at h
  | some q =>
    obtain ⟨⟨m, e⟩, q⟩ := q
    rw [hp] at h
    simp only [Option.map_some, Function.comp, Option.some.injEq, Prod.mk.injEq] at h
    obtain ⟨rfl, rfl⟩ := h
    cases e with
    | none => exact ⟨_, _, rfl, by simp [filtered, err5Val]⟩
    | some e =>
      cases hb : o.bestEffort with
      | true => exact ⟨msgVal m, err5Val (some e), by simp [Rfc5424.newMachine, hb], by simp [filtered, err5Val, kit5, hb]⟩
      | false => exact ⟨.nil, err5Val (some e), by simp [Rfc5424.newMachine, hb, msgVal], by simp [filtered, err5Val, kit5, hb]⟩

theorem filter3 (o : Rfc3164.Opts) (input : Bytes) (msg err : Val) (h : kit3.result o input = some (msg, err)) :
    ∃ m e, parserResult3 o input = some (m, e) ∧ filtered (kit3.be o) msg err = [m, e] := by
  simp only [kit3, Rfc3164.parse1, Option.map_map] at h
  simp only [parserResult3, Rfc3164.parserParse]
  cases hp : Rfc3164.parse o {} input with
  | none => rw [hp] at h; simp at h
  | some q =>
    obtain ⟨⟨m, e⟩, q⟩ := q
    rw [hp] at h
    simp only [Option.map_some, Function.comp, Option.some.injEq, Prod.mk.injEq] at h
    obtain ⟨rfl, rfl⟩ := h
    cases e with
    | none => exact ⟨_, _, rfl, by simp [filtered, err3Val]⟩
    | some e =>
      cases hb : o.bestEffort with
      | true => exact ⟨msg3Val m, err3Val (some e), by simp, by simp [filtered, err3Val, kit3, hb]⟩
      | false => exact ⟨.nil, err3Val (some e), by simp [msg3Val], by simp [filtered, err3Val, kit3, hb]⟩

end MiniSrc

open MiniSrc

section
variable {E : Type} (X : Env0 E) (w : W E)

/-- **C105** (option functions): each returns a function value and does nothing else: no operator is consulted, no clock read. -/
theorem C105_options (hp : X.prog = prog) :
    Returns X .rfc5424_WithBestEffort [] w (optVal5 .bestEffort) ∧ Returns X .rfc5424_WithCompliantMsg [] w (optVal5 .compliantMsg) ∧
    Returns X .rfc3164_WithBestEffort [] w (optVal3 .bestEffort) ∧ (∀ y, Returns X .rfc3164_WithYear [yearVal y] w (optVal3 (.year y))) ∧
    Returns X .rfc3164_WithYear [Zero.rfc3164_CurrentYear] w (optVal3 .currentYear) ∧ (∀ l, Returns X .rfc3164_WithTimezone [loc3Val l] w (optVal3 (.timezone l))) ∧
    (∀ l, Returns X .rfc3164_WithLocaleTimezone [loc3Val l] w (optVal3 (.localeTimezone l))) ∧ Returns X .rfc3164_WithRFC3339 [] w (optVal3 .rfc3339) :=
  ⟨returns 1 fun n => (option5_call hp n w).1, returns 1 fun n => (option5_call hp n w).2, returns 1 fun n => (option3_call hp n w).1,
    fun y => returns 1 fun n => (option3_call hp n w).2.1 y, returns 1 fun n => (option3_call hp n w).2.2.1, fun l => returns 1 fun n => (option3_call hp n w).2.2.2.1 l,
    fun l => returns 1 fun n => (option3_call hp n w).2.2.2.2.1 l, returns 1 fun n => (option3_call hp n w).2.2.2.2.2⟩

/-- **C105** (rfc5424): `NewParser(options...)` returns a new parser; any sequence of calls of its methods is served as the model says for the configuration
that the options give. -/
theorem C105_rfc5424 (hX : ParserEnv X) (hP : ParseOk kit5 X) (s : Val) (os : List Rfc5424.MachineOption) (hs : IsSlice w s (os.map optVal5)) :
    Does X .rfc5424_NewParser [s] w fun o => ∃ a mi w', o = .ok (.ptr a []) w' ∧ w'.heap a = lockedVal .rfc5424_parser false mi ∧ w.next ≤ a ∧ w.next ≤ mi ∧ (∀ c, c < w.next → w'.heap c = w.heap c) ∧
      w'.ext = w.ext ∧ ∀ cs, Serves kit5 parserResult5 X a mi ⟨(Rfc5424.newMachineWith os).bestEffort, (Rfc5424.newMachineWith os).compliantMsg⟩ cs w' :=
  does 4 fun n => by
    obtain ⟨w', h1, h2, h3, h4⟩ := newParser5_call hX n w hs
    exact ⟨_, h1, _, _, w', rfl, h2.parser, Nat.le_succ _, Nat.le_refl _, h4, h3, fun cs => live_serves hX (Or.inl rfl) hP filter5 cs h2⟩

/-- **C105** (rfc3164): the same; `resolve` says what the operators of `WithYear` returned when the options were applied, from left to right, each once; the
calls of `Parse` afterwards read no clock. -/
theorem C105_rfc3164 (now : E → GoTime.Time × E) (hX : ParserEnv X) (hN : ClockEnv X now) (hP : ParseOk kit3 X) (s : Val) (os : List Opt3) (hs : IsSlice w s (os.map optVal3)) :
    Does X .rfc3164_NewParser [s] w fun o => ∃ a mi w', o = .ok (.ptr a []) w' ∧ w'.heap a = lockedVal .rfc3164_parser false mi ∧ w.next ≤ a ∧ w.next ≤ mi ∧ (∀ c, c < w.next → w'.heap c = w.heap c) ∧
      w'.ext = clockAfter now os w.ext ∧ ∀ cs, Serves kit3 parserResult3 X a mi (Rfc3164.optsOf (resolve now os w.ext)) cs w' :=
  does 8 fun n => by
    obtain ⟨w', h1, h2, h3, h4, -⟩ := newParser3_call hX hN n w hs
    exact ⟨_, h1, _, _, w', rfl, h2.parser, Nat.le_succ _, Nat.le_refl _, h4, h3, fun cs => live_serves hX (Or.inr rfl) hP filter3 cs h2⟩

/-- **C105** (the lock): whatever `machine.Parse` is. It is called with the lock held. If it returns, or if it panics, `Parse` does so too, with the lock
released; if somebody holds the lock, `Parse` does not call it. -/
theorem C105_lock (hX : ParserEnv X) (p : Pkg) (hp : p = pkg5 ∨ p = pkg3) (a mi : Nat) (input : Val) :
    (∀ w2 be msg err fs, w.heap a = lockedVal p.parser false mi →
      X.call p.machineParse [.ptr mi [], input] { w with heap := upd w.heap a (lockedVal p.parser true mi) } = some (.ok (.tuple [msg, err]) w2) →
      w2.heap a = lockedVal p.parser true mi → w2.heap mi = .struct p.machine fs → fs.lookup .bestEffort = some (.bool be) →
      Does X p.parse [.ptr a [], input] w fun o =>
        o = .ok (.tuple (if err.isNil then [msg, .nil] else if be then [msg, err] else [.nil, err])) { w2 with heap := upd w2.heap a (lockedVal p.parser false mi) }) ∧
    (∀ w2, w.heap a = lockedVal p.parser false mi →
      X.call p.machineParse [.ptr mi [], input] { w with heap := upd w.heap a (lockedVal p.parser true mi) } = some (.panic w2) →
      w2.heap a = lockedVal p.parser true mi →
      Does X p.parse [.ptr a [], input] w fun o => o = .panic { w2 with heap := upd w2.heap a (lockedVal p.parser false mi) }) ∧
    (w.heap a = lockedVal p.parser true mi → ∀ n, call X (n + 2) p.parse [.ptr a [], input] w = none) :=
  ⟨fun _ _ _ _ _ h1 h2 h3 h4 h5 => does 2 fun n => ⟨_, parser_returns hX hp n h1 h2 h3 h4 h5, rfl⟩,
    fun _ h1 h2 h3 => does 2 fun n => ⟨_, parser_panics hX hp n h1 h2 h3, rfl⟩,
    fun h n => parser_blocks hX hp n h⟩

/-- **C105** (small methods of the machines): `Err` and `HasBestEffort` return the fields; `text` returns the bytes from `pb` to `p`, and panics if there are
none such. -/
theorem C105_machine (hp : X.prog = prog) (a : Nat) (ty : Nm) (fs : List (Nm × Val)) (h : w.heap a = .struct ty fs) :
    (∀ e, fs.lookup .err = some e → Returns X .rfc5424_machine_Err [.ptr a []] w e ∧ Returns X .rfc3164_machine_Err [.ptr a []] w e) ∧
    (∀ b, fs.lookup .bestEffort = some (.bool b) → Returns X .rfc5424_machine_HasBestEffort [.ptr a []] w (.bool b) ∧ Returns X .rfc3164_machine_HasBestEffort [.ptr a []] w (.bool b)) ∧
    (∀ (data : Bytes) (pb p : Nat), fs.lookup .data = some (.str data) → fs.lookup .pb = some (.int .int pb) → fs.lookup .p = some (.int .int p) →
      (Does X .rfc5424_machine_text [.ptr a []] w fun o => o = match Rfc5424.slice data pb p with
        | some t => .ok (.str t) w
        | none => .panic w) ∧
      (Does X .rfc3164_machine_text [.ptr a []] w fun o => o = match Rfc3164.slice data pb p with
        | some t => .ok (.str t) w
        | none => .panic w)) := by
  refine ⟨fun e he => ⟨returns 1 fun n => ?_, returns 1 fun n => ?_⟩, fun b hb => ⟨returns 1 fun n => ?_, returns 1 fun n => ?_⟩, fun data pb p hd hpb hpp => ?_⟩
  · rw [call_fn hp prog_rfc5424_machine_Err]; simp [rfc5424_machine_Err, h, he]
  · rw [call_fn hp prog_rfc3164_machine_Err]; simp [rfc3164_machine_Err, h, he]
  · rw [call_fn hp prog_rfc5424_machine_HasBestEffort]; simp [rfc5424_machine_HasBestEffort, h, hb]
  · rw [call_fn hp prog_rfc3164_machine_HasBestEffort]; simp [rfc3164_machine_HasBestEffort, h, hb]
  · have key : ((if (0 : Int) ≤ pb ∧ (pb : Int) ≤ p ∧ (p : Int) ≤ data.length then some (.ok (.str ((data.take (p : Int).toNat).drop (pb : Int).toNat)) w) else some (.panic w)) : Option (Out E Val)) =
        some (match Rfc5424.slice data pb p with
        | some t => .ok (.str t) w
        | none => .panic w) := by
      by_cases hh : pb ≤ p ∧ p ≤ data.length
      · rw [if_pos (by omega), Rfc5424.slice, if_pos hh]
        simp [List.drop_take]
      · rw [if_neg (by omega), Rfc5424.slice, if_neg hh]
    have e5 : ∀ n, call X (n + 1) .rfc5424_machine_text [.ptr a []] w = some (match Rfc5424.slice data pb p with
        | some t => .ok (.str t) w
        | none => .panic w) := by
      intro n
      rw [call_fn hp prog_rfc5424_machine_text, ← key]
      by_cases hh : (0 : Int) ≤ pb ∧ (pb : Int) ≤ p ∧ (p : Int) ≤ data.length
      · simp [rfc5424_machine_text, h, hd, hpb, hpp, hh]
      · simp [rfc5424_machine_text, h, hd, hpb, hpp, show ¬(pb ≤ p ∧ p ≤ data.length) by omega]
    have e3 : ∀ n, call X (n + 1) .rfc3164_machine_text [.ptr a []] w = some (match Rfc5424.slice data pb p with
        | some t => .ok (.str t) w
        | none => .panic w) := by
      intro n
      rw [call_fn hp prog_rfc3164_machine_text, ← key]
      by_cases hh : (0 : Int) ≤ pb ∧ (pb : Int) ≤ p ∧ (p : Int) ≤ data.length
      · simp [rfc3164_machine_text, h, hd, hpb, hpp, hh]
      · simp [rfc3164_machine_text, h, hd, hpb, hpp, show ¬(pb ≤ p ∧ p ≤ data.length) by omega]
    exact ⟨does 1 fun n => ⟨_, e5 n, rfl⟩, does 1 fun n => ⟨_, e3 n, rfl⟩⟩

end

/-! ## Instances -/

namespace MiniSrc

/-- a clock that says when it is read; every reading is a year later -/
structure Clock where
  y : Int

def tick (c : Clock) : GoTime.Time × Clock := (⟨c.y, 1, 1, 0, 0, 0, 0, 0⟩, ⟨c.y + 1⟩)

/-- the configuration of a machine in memory, -/
def cfgOf5 (v : Val) : Option Rfc5424.Opts :=
  match v.get .bestEffort, v.get .compliantMsg with
  | some (.bool be), some (.bool co) => some ⟨be, co⟩
  | _, _ => none

def locOf3 : Val → Option (Option GoTime.Location)
  | .nil => some none
  | .ext (.loc l) => some (some l)
  | _ => none

def cfgOf3 (v : Val) : Option Rfc3164.Opts :=
  match v.get .bestEffort, v.get .yyyy, v.get .rfc3339, v.get .loc, v.get .timezone with
  | some (.bool be), some (.int .int y), some (.bool r), some l, some t =>
    match locOf3 l, locOf3 t with
    | some l, some t => some ⟨be, y, r, l, t⟩
    | _, _ => none
  | _, _, _, _, _ => none

/-- and a `machine.Parse` that returns what the model says and leaves a trace in the machine -/
def xMachine5 {E : Type} : List Val → M E Val
  | [.ptr mi [], .str input] => fun w => match cfgOf5 (w.heap mi) with
    | some o => match Rfc5424.parse1 o input, (w.heap mi).put .data (.str input) with
      | some r, some v => some (.ok (.tuple [msgVal r.msg, err5Val r.err]) { w with heap := upd w.heap mi v })
      | _, _ => some (.panic w)
    | none => none
  | _ => M.stuck

def xMachine3 {E : Type} : List Val → M E Val
  | [.ptr mi [], .str input] => fun w => match cfgOf3 (w.heap mi) with
    | some o => match Rfc3164.parse1 o input, (w.heap mi).put .data (.str input) with
      | some r, some v => some (.ok (.tuple [msg3Val r.msg, err3Val r.err]) { w with heap := upd w.heap mi v })
      | _, _ => some (.panic w)
    | none => none
  | _ => M.stuck

def clockX : Env0 Clock where
  extra := fun _ => 0
  order := id
  call := fun f => match f with
    | .sync_Lock => xLock
    | .sync_Unlock => xUnlock
    | .time_Now => xNow tick
    | .time_Year => xYear
    | .rfc5424_machine_Parse => xMachine5
    | .rfc3164_machine_Parse => xMachine3
    | _ => fun _ => M.stuck
  meth := meth
  prog := prog

theorem clockX_env : ParserEnv clockX := ⟨rfl, rfl, rfl, rfl⟩
theorem clockX_clock : ClockEnv clockX tick := ⟨rfl, rfl⟩

theorem isMach_cfg5 {E : Type} {w : W E} {mi : Nat} {c : Rfc5424.Opts} (h : IsMach kit5 w mi c) : cfgOf5 (w.heap mi) = some c := by
  obtain ⟨fs, e, g⟩ := h
  have h1 := g .bestEffort (.bool c.bestEffort) (by simp [kit5])
  have h2 := g .compliantMsg (.bool c.compliantMsg) (by simp [kit5])
  simp [cfgOf5, e, h1, h2]

theorem locOf3_val (l : Option GoTime.Location) : locOf3 (loc3Val l) = some l := by cases l <;> rfl

theorem isMach_cfg3 {E : Type} {w : W E} {mi : Nat} {c : Rfc3164.Opts} (h : IsMach kit3 w mi c) : cfgOf3 (w.heap mi) = some c := by
  obtain ⟨fs, e, g⟩ := h
  have h1 := g .bestEffort (.bool c.bestEffort) (by simp [kit3])
  have h2 := g .yyyy (.int .int c.yyyy) (by simp [kit3])
  have h3 := g .rfc3339 (.bool c.rfc3339) (by simp [kit3])
  have h4 := g .loc (loc3Val c.loc) (by simp [kit3])
  have h5 := g .timezone (loc3Val c.timezone) (by simp [kit3])
  simp [cfgOf3, e, h1, h2, h3, h4, h5, locOf3_val]

theorem isMach_put {E : Type} {K : Kit} (hK : K = kit5 ∨ K = kit3) {w : W E} {mi : Nat} {c : K.Cfg} (h : IsMach K w mi c) (d : Val) :
    ∃ v, (w.heap mi).put .data d = some v ∧ IsMach K { w with heap := upd w.heap mi v } mi c := by
  obtain ⟨fs, e, g⟩ := h
  refine ⟨.struct K.pkg.machine (setField fs .data d), by simp [e], setField fs .data d, by simp, fun f v hf => ?_⟩
  rw [lookup_setField, if_neg]
  · exact g f v hf
  · rintro rfl
    rcases hK with rfl | rfl <;> simp [kit5, kit3] at hf

theorem clockX_ok5 : ParseOk kit5 clockX := by
  intro w mi c input h
  have hc := isMach_cfg5 h
  obtain ⟨v, hv, hm⟩ := isMach_put (Or.inl rfl) h (.str input)
  have hr := Rfc5424.parse1_eq c input
  refine ⟨_, _, { w with heap := upd w.heap mi v }, by simp only [kit5, hr]; rfl, ?_, hm, Nat.le_refl _, fun x _ hx => by simp [upd, hx], rfl⟩
  show (match cfgOf5 (w.heap mi) with
    | some o => match Rfc5424.parse1 o input, (w.heap mi).put .data (.str input) with
      | some r, some v => some (Out.ok (Val.tuple [msgVal r.msg, err5Val r.err]) { w with heap := upd w.heap mi v })
      | _, _ => some (.panic w)
    | none => none) = _
  rw [hc]
  simp only [hr, hv]

theorem clockX_ok3 : ParseOk kit3 clockX := by
  intro w mi c input h
  have hc := isMach_cfg3 h
  obtain ⟨v, hv, hm⟩ := isMach_put (Or.inr rfl) h (.str input)
  have hr := Rfc3164.parse1_eq c input
  refine ⟨_, _, { w with heap := upd w.heap mi v }, by simp only [kit3, hr]; rfl, ?_, hm, Nat.le_refl _, fun x _ hx => by simp [upd, hx], rfl⟩
  show (match cfgOf3 (w.heap mi) with
    | some o => match Rfc3164.parse1 o input, (w.heap mi).put .data (.str input) with
      | some r, some v => some (Out.ok (Val.tuple [msg3Val r.msg, err3Val r.err]) { w with heap := upd w.heap mi v })
      | _, _ => some (.panic w)
    | none => none) = _
  rw [hc]
  simp only [hr, hv]

/-- options in memory: `WithYear(CurrentYear{}), WithRFC3339(), WithYear(CurrentYear{}), WithBestEffort()` -/
def clockWorld : W Clock where
  heap := fun a => if a = 0 then .arr ([.currentYear, .rfc3339, .currentYear, .bestEffort].map optVal3) else if a = 1 then .arr ([.compliantMsg].map optVal5) else .nil
  next := 2
  glob := fun _ => .nil
  ext := ⟨2024⟩

theorem clock_slice3 : IsSlice clockWorld (.slice 0 0 4 4) ([.currentYear, .rfc3339, .currentYear, .bestEffort].map optVal3) :=
  Or.inr ⟨0, 0, 4, 4, _, rfl, rfl, by decide, by decide, by decide, rfl⟩

theorem clock_slice5 : IsSlice clockWorld (.slice 1 0 1 1) ([.compliantMsg].map optVal5) :=
  Or.inr ⟨1, 0, 1, 1, _, rfl, rfl, by decide, by decide, by decide, rfl⟩

end MiniSrc

/-- the clock is read twice, when the parser is made; the year of the second reading counts -/
example : Does clockX .rfc3164_NewParser [.slice 0 0 4 4] clockWorld fun o => ∃ a mi w', o = .ok (.ptr a []) w' ∧ w'.ext = ⟨2026⟩ ∧
    ∀ cs, Serves kit3 parserResult3 clockX a mi { bestEffort := true, yyyy := 2025, rfc3339 := true } cs w' := by
  obtain ⟨d, h⟩ := C105_rfc3164 clockX clockWorld tick clockX_env clockX_clock clockX_ok3 _ _ clock_slice3
  refine ⟨d, fun n hn => ?_⟩
  obtain ⟨o, h1, a, mi, w', h2, -, -, -, -, h3, h4⟩ := h n hn
  exact ⟨o, h1, a, mi, w', h2, h3, h4⟩

/-- strict: an error comes without the message; `WithBestEffort` on the parser in use: with it -/
example : Does clockX .rfc5424_NewParser [.slice 1 0 1 1] clockWorld fun o => ∃ a mi w', o = .ok (.ptr a []) w' ∧
    Serves kit5 parserResult5 clockX a mi ⟨false, true⟩ [.parse (ascii "<1>1 x"), .withBestEffort, .hasBestEffort, .parse (ascii "<1>1 x")] w' := by
  obtain ⟨d, h⟩ := C105_rfc5424 clockX clockWorld clockX_env clockX_ok5 _ _ clock_slice5
  refine ⟨d, fun n hn => ?_⟩
  obtain ⟨o, h1, a, mi, w', h2, -, -, -, -, -, h4⟩ := h n hn
  exact ⟨o, h1, a, mi, w', h2, h4 _⟩

example : parserResult5 ⟨false, true⟩ (ascii "<1>1 x") = some (.nil, .ext (.err5 ⟨.timestamp, 5⟩)) ∧
    (∃ m, parserResult5 ⟨true, true⟩ (ascii "<1>1 x") = some (.ext (.msg5 m), .ext (.err5 ⟨.timestamp, 5⟩))) := by
  constructor
  · have : (Rfc5424.parserParse (Rfc5424.newMachine ⟨false, true⟩) (ascii "<1>1 x")).map (fun r => r.1) = some ⟨none, some ⟨.timestamp, 5⟩⟩ := by decide +kernel
    obtain ⟨q, h1, h2⟩ := Option.map_eq_some_iff.mp this
    rw [parserResult5, h1]
    simp only [Option.map_some, h2]
    rfl
  · have : (Rfc5424.parserParse (Rfc5424.newMachine ⟨true, true⟩) (ascii "<1>1 x")).map (fun r => (r.1.msg.isSome, r.1.err)) = some (true, some ⟨.timestamp, 5⟩) := by decide +kernel
    obtain ⟨q, h1, h2⟩ := Option.map_eq_some_iff.mp this
    simp only [Prod.mk.injEq] at h2
    obtain ⟨m, hm⟩ := Option.isSome_iff_exists.mp h2.1
    refine ⟨m, ?_⟩
    rw [parserResult5, h1]
    simp only [Option.map_some, hm, h2.2]
    rfl

/-- a `machine.Parse` that panics leaves an unlocked parser -/
example (X : Env0 Unit) (hX : ParserEnv X) (hc : ∀ args w, X.call .rfc5424_machine_Parse args w = some (.panic w)) (w : W Unit) (h : w.heap 3 = lockedVal .rfc5424_parser false 4) :
    Does X .rfc5424_parser_Parse [.ptr 3 [], .str []] w fun o => ∃ w', o = .panic w' ∧ w'.heap 3 = lockedVal .rfc5424_parser false 4 := by
  obtain ⟨d, g⟩ := (C105_lock X w hX pkg5 (Or.inl rfl) 3 4 (.str [])).2.1 _ h (hc _ _) (by simp)
  refine ⟨d, fun n hn => ?_⟩
  obtain ⟨o, h1, h2⟩ := g n hn
  exact ⟨o, h1, _, h2, by simp [pkg5]⟩

end Verif.Props
