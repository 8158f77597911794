import Verif.Mini.Store
import Verif.Go.Rfc3164

/-!
# `machine.Parse` of `rfc3164/machine.go` executed over memory

The program `Verif.Gen.GoRfc3164.prog` with a second meaning, as in `Verif/Mini/ParseGo.lean`: `output` is a pointer to a new struct `syslogMessage`, the
options are read from the struct of the machine, the returned message is made by executing `export`.
-/

set_option linter.constructorNameAsVariable false
set_option linter.unusedSimpArgs false

namespace Verif.Mini.Bsd
open Verif.Gen.Mini
open Verif.Rfc3164 (ErrKind)
open Verif.Gen.GoRfc3164 (A C R)
open Verif.Go (GS Same Flow Corr)

variable {E : Type}

/-- The variables of `Parse` and the fields of `machine` (rfc3164/machine.go:29-40, rfc3164/machine.go:97-7263) besides those of `GS` and the options, and the memory.
`output` is an address; `tLoc` is the location of `t`. The working fields of the machine are kept here, not in the memory: only `Parse` uses them. `bad` is set when
something happens that is not modelled. -/
structure VP (E : Type) where
  w : W E
  pb : Int := 0
  err : Option (ErrKind × Int) := none
  output : Nat := 0
  t : GoTime.Time := Rfc3164.zeroTime
  tLoc : GoTime.Location := GoTime.utc
  e : Bool := false
  bad : Bool := false

/-- what a computation does to the memory, and its result; a panic of it is one of the program -/
def peff {α : Type} (g : GS (VP E)) (act : M E α) (f : α → VP E → VP E) : Option (GS (VP E)) :=
  match act g.x.w with
  | some (.ok x w) => some { g with x := f x { g.x with w := w } }
  | some (.panic _) => none
  | none => some { g with x := { g.x with bad := true } }

/-- `m.text()` (rfc3164/machine.go:92-94) -/
def textP (g : GS (VP E)) : Option Bytes := Go.R3.sliceInt g.data g.x.pb g.p

/-- `output.f = v` -/
def putOut (g : GS (VP E)) (f : Nm) (v : Val) : Option (GS (VP E)) := peff g (storeAt (.ptr g.x.output [f]) v) fun _ x => x

/-- `output.f = v`, where `v` uses `m.text()` -/
def putText (g : GS (VP E)) (f : Nm) (v : Bytes → Val) : Option (GS (VP E)) :=
  match textP g with
  | none => none
  | some t => putOut g f (v t)

/-- a field of the machine, or of `output` -/
def read (w : W E) (a : Nat) (f : Nm) : Option Val := (w.heap a).getPath [f]

/-- a pointer to a location, or nil -/
def asLoc : Option Val → Option (Option GoTime.Location)
  | some .nil => some none
  | some (.ext (.loc l)) => some (some l)
  | _ => none

def asTime : Option Val → Option GoTime.Time
  | some (.ext (.time t)) => some t
  | _ => none

def asInt : Option Val → Option Int
  | some (.int .int y) => some y
  | _ => none

def asBool : Option Val → Option Bool
  | some (.bool b) => some b
  | _ => none

/-- something that is not modelled -/
def bad (g : GS (VP E)) : GS (VP E) := { g with x := { g.x with bad := true } }

/-- `m.err = fmt.Errorf(kind, m.p)` -/
def errP (k : ErrKind) (g : GS (VP E)) : Option (GS (VP E)) := some { g with x := { g.x with err := some (k, g.p) } }

/-- the statements of `Parse` (their Go text is at the constructors of `Verif.Gen.GoRfc3164.A`, rfc3164/machine.go:97-7263); `mi` is the machine -/
def parseStmt (mi : Nat) : A → GS (VP E) → Option (GS (VP E))
  | .pbZero, g => some { g with x := { g.x with pb := 0 } }
  | .errNil, g => some { g with x := { g.x with err := none } }
  | .outputNew, g => peff g (alloc Zero.rfc3164_syslogMessage) fun c x => { x with output := c }
  | .pbP, g => some { g with x := { g.x with pb := g.p } }
  | .priority, g => putText g .priority fun t => byteVal (Common.toU8 (Common.unsafeDec t))
  | .prioritySet, g => putOut g .prioritySet (.bool true)
  | .stampParse, g => match textP g with
    | none => none
    | some t => match Rfc3164.parseStamp t with
      | some tm => some { g with x := { g.x with t := tm, tLoc := GoTime.utc, e := false } }
      | none => some { g with x := { g.x with t := Rfc3164.zeroTime, tLoc := GoTime.utc, e := true } }
  | .rfc3339Parse, g => match textP g with
    | none => none
    | some t => match GoTime.parseRFC3339Micro t with
      | some tm => some { g with x := { g.x with t := tm, tLoc := GoTime.utc, e := false } }
      | none => some { g with x := { g.x with t := Rfc3164.zeroTime, tLoc := GoTime.utc, e := true } }
  | .parseInLocation, g => match asLoc (read g.x.w mi .timezone) with
    | none => some (bad g)
    | some none => none
    | some (some l) => match textP g with
      | none => none
      | some t => match Rfc3164.parseStamp t with
        | some tm => some { g with x := { g.x with t := Rfc3164.inZone tm l, tLoc := l } }
        | none => some { g with x := { g.x with t := Rfc3164.zeroTime, tLoc := GoTime.utc } }
  | .timestampAddDate, g => match asInt (read g.x.w mi .yyyy) with
    | none => some (bad g)
    | some y => putOut g .timestamp (timeVal (g.x.t.addYears y g.x.tLoc))
  | .timestampIn, g => match asLoc (read g.x.w mi .loc) with
    | none => some (bad g)
    | some none => none
    | some (some l) => match asTime (read g.x.w g.x.output .timestamp) with
      | none => some (bad g)
      | some t => putOut g .timestamp (timeVal (t.inLoc l))
  | .timestamp, g => putOut g .timestamp (timeVal g.x.t)
  | .timestampSet, g => putOut g .timestampSet (.bool true)
  | .errTime, g => errP .timeParse g
  | .hostname, g => putText g .hostname .str
  | .tag, g => putText g .tag .str
  | .content, g => putText g .content .str
  | .message, g => putText g .message .str
  | .errPrival, g => errP .prival g
  | .errPri, g => errP .pri g
  | .errTimestamp, g => errP .timestamp g
  | .errRFC3339, g => errP .rfc3339 g
  | .errHostname, g => errP .hostname g
  | .errTag, g => errP .tag g

/-- the conditions of `Parse` (rfc3164/machine.go:97-7263) -/
def parseCond (calls : Nm → List Val → M E Val) (mi : Nat) : C → GS (VP E) → Option Bool
  | .eNotNil, g => some g.x.e
  | .rfc3339, g => asBool (read g.x.w mi .rfc3339)
  | .hasTimezone, g => (asLoc (read g.x.w mi .timezone)).map fun l => l.isSome
  | .hasLoc, g => (asLoc (read g.x.w mi .loc)).map fun l => l.isSome
  | .bestEffortMinimal, g => match asBool (read g.x.w mi .bestEffort) with
    | some true => ask (calls .rfc3164_syslogMessage_minimal [.ptr g.x.output []] g.x.w)
    | o => o

/-- the meaning of the program of `Parse` over memory (rfc3164/machine.go:97-7263) -/
def parseSem (calls : Nm → List Val → M E Val) (mi : Nat) : Go.Sem A C (VP E) := ⟨parseStmt mi, parseCond calls mi⟩

/-- the return statements (rfc3164/machine.go:7254-7262) -/
def parseRet (calls : Nm → List Val → M E Val) (x : VP E) : R → M E Val
  | .partialOutput => M.bind (calls .rfc3164_syslogMessage_export [.ptr x.output []]) fun v => M.pure (.tuple [v, err3Val (x.err.map fun e => ⟨e.1, e.2.toNat⟩)])
  | .failed => M.pure (.tuple [.nil, err3Val (x.err.map fun e => ⟨e.1, e.2.toNat⟩)])
  | .complete => M.bind (calls .rfc3164_syslogMessage_export [.ptr x.output []]) fun v => M.pure (.tuple [v, .nil])

/-- the variables before the first statement: `left` is what earlier calls left in the machine -/
def parseStart (left : GS Go.R3.V) (w : W E) (input : Bytes) : GS (VP E) :=
  { input := input, data := left.data, p := left.p, pe := left.pe, eof := left.eof, cs := left.cs, widec := left.widec,
    x := { w := w, pb := left.x.pb, err := left.x.err, t := left.x.t, tLoc := left.x.tLoc, e := left.x.e } }

/-- `Parse` (rfc3164/machine.go:97-7263), executed as it is written, of at most `13 n + 17` blocks for an input of `n` bytes -/
def parseGo (calls : Nm → List Val → M E Val) (left : W E → GS Go.R3.V) (args : List Val) : M E Val :=
  match args with
  | [.ptr mi [], .str input] => fun w =>
    match (parseSem calls mi).run Gen.GoRfc3164.prog (13 * input.length + 17) .entry (parseStart (left w) w input) with
    | .returned r g => if g.x.bad then none else parseRet calls g.x r g.x.w
    | .panics => some (.panic w)
    | _ => none
  | _ => M.stuck

/-! ## The message under construction in memory -/

/-- the new struct in the variable `s` represents `o` -/
structure RepOut (w0 w : W E) (s : Nat) (o : Rfc3164.Out) : Prop where
  new : w0.next ≤ s
  lt : s < w.next
  val : w.heap s = out3Val o

/-- a field is stored -/
theorem RepOut.put {w0 w : W E} {s : Nat} {o o' : Rfc3164.Out} (hr : RepOut w0 w s o) (hk : Keeps w0 w) (f : Nm) (v : Val)
    (hp : (out3Val o).putPath [f] v = some (out3Val o')) : ∃ w', (storeAt (.ptr s [f]) v : M E Unit) w = some (.ok () w') ∧ RepOut w0 w' s o' ∧ Keeps w0 w' := by
  refine ⟨{ w with heap := Mini.upd w.heap s (out3Val o') }, ?_, ⟨hr.new, hr.lt, upd_same _ _ _⟩, ?_⟩
  · show (match (w.heap s).putPath [f] v with
      | some x => some (Out.ok () { w with heap := Mini.upd w.heap s x })
      | none => none) = _
    rw [hr.val, hp]
  · have := hr.new
    exact ⟨fun c hc => (upd_ne _ _ (by omega)).trans (hk.1 c hc), hk.2⟩

/-! ## The two meanings -/

/-- What is known at a statement: whether `output` points to the new struct. -/
def pflow : Flow A C Bool where
  start := true
  ok := fun d => d
  stmt := fun d a => match a with
    | .outputNew => some true
    | .priority | .prioritySet | .timestampAddDate | .timestampIn | .timestamp | .timestampSet | .hostname | .tag | .content | .message => if d then some true else none
    | _ => some d
  cond := fun d c => match c with
    | .bestEffortMinimal => d
    | _ => true
  thn := fun d _ => d
  meet := fun d d' => d && d'

def pflowOk (cn : Go.Code A C R × Go.Lbl) : Bool := pflow.fine pflow.start cn.1

set_option maxRecDepth 100000 in
theorem pflow_sts : Gen.GoRfc3164.sts.all pflowOk = true := by decide +kernel
set_option maxRecDepth 100000 in
theorem pflow_stCases : Gen.GoRfc3164.stCases.all pflowOk = true := by decide +kernel
set_option maxRecDepth 100000 in
theorem pflow_trs : Gen.GoRfc3164.trs.all pflowOk = true := by decide +kernel
set_option maxRecDepth 100000 in
theorem pflow_testEofs : Gen.GoRfc3164.testEofs.all pflowOk = true := by decide +kernel
set_option maxRecDepth 100000 in
theorem pflow_ends : (pflowOk Gen.GoRfc3164.entry && pflowOk Gen.GoRfc3164.stOut && pflowOk Gen.GoRfc3164.testEof && pflowOk Gen.GoRfc3164.out) = true := by decide +kernel
set_option maxRecDepth 100000 in
theorem pflow_entry : pflow.fine false Gen.GoRfc3164.entry.1 = true := by decide +kernel

theorem pflow_prog (l : Go.Lbl) (cn : Go.Code A C R × Go.Lbl) (h : Gen.GoRfc3164.prog l = some cn) : pflow.fine pflow.start cn.1 = true := by
  have he := pflow_ends
  simp only [Bool.and_eq_true] at he
  cases l with
  | entry => obtain rfl := Option.some.inj h; exact he.1.1.1
  | st n => exact Go.Tree.all_find (f := pflowOk) pflow_sts h
  | stCase n => exact Go.Tree.all_find (f := pflowOk) pflow_stCases h
  | tr n => exact Go.Tree.all_find (f := pflowOk) pflow_trs h
  | testEofN n => exact Go.Tree.all_find (f := pflowOk) pflow_testEofs h
  | stOut => obtain rfl := Option.some.inj h; exact he.1.1.2
  | testEof => obtain rfl := Option.some.inj h; exact he.1.2
  | out => obtain rfl := Option.some.inj h; exact he.2

/-- the memory `y` represents the values `x`; `w0` is the memory before the call -/
structure ParseRel (w0 : W E) (o : Rfc3164.Opts) (d : Bool) (x : Go.R3.V) (y : VP E) : Prop where
  bad : y.bad = false
  pb : y.pb = x.pb
  err : y.err = x.err
  t : y.t = x.t
  tLoc : y.tLoc = x.tLoc
  e : y.e = x.e
  o : x.o = o
  keeps : Keeps w0 y.w
  rep : d = true → RepOut w0 y.w y.output x.output

theorem ParseRel.put {w0 : W E} {o : Rfc3164.Opts} {d d' : Bool} {x : Go.R3.V} {y : VP E} (h : ParseRel w0 o d x y) {w' : W E} {out : Rfc3164.Out} (hr : RepOut w0 w' y.output out) (hk : Keeps w0 w') :
    ParseRel w0 o d' { x with output := out } { y with w := w' } :=
  { h with rep := fun _ => hr, keeps := hk }

theorem same_textP {x : GS Go.R3.V} {y : GS (VP E)} (h : Same x y) (hp : y.x.pb = x.x.pb) : textP y = Go.R3.text x := by
  unfold textP Go.R3.text
  rw [h.data, h.p, hp]

theorem peff_ok {α : Type} {g : GS (VP E)} {act : M E α} {f : α → VP E → VP E} {x : α} {w : W E} (h : act g.x.w = some (.ok x w)) :
    peff g act f = some { g with x := f x { g.x with w := w } } := by
  unfold peff
  rw [h]

/-- a store to a field that does not use `m.text()` -/
theorem put_step {w0 : W E} {o : Rfc3164.Opts} {d : Bool} {g : GS Go.R3.V} {g' : GS (VP E)} (h : Same g g') (hq : ParseRel w0 o d g.x g'.x) (hd : d = true) (f : Nm) (v : Val) (out : Rfc3164.Out)
    (hp : (out3Val g.x.output).putPath [f] v = some (out3Val out)) : Go.StepRel (ParseRel w0 o true) (some { g with x := { g.x with output := out } }) (putOut g' f v) := by
  obtain ⟨w', e1, e2, e3⟩ := (hq.rep hd).put hq.keeps f v hp
  exact ⟨_, peff_ok e1, Same.x h _ _, hq.put e2 e3⟩

/-- a store to a field of something computed from `m.text()` -/
theorem text_step {w0 : W E} {o : Rfc3164.Opts} {d : Bool} {g : GS Go.R3.V} {g' : GS (VP E)} (h : Same g g') (hq : ParseRel w0 o d g.x g'.x) (hd : d = true) (f : Nm) (v : Bytes → Val) (out : Bytes → Rfc3164.Out → Rfc3164.Out)
    (hp : ∀ t, (out3Val g.x.output).putPath [f] (v t) = some (out3Val (out t g.x.output))) :
    Go.StepRel (ParseRel w0 o true) (Go.R3.fromText g out) (putText g' f v) := by
  unfold Go.R3.fromText putText
  rw [same_textP h hq.pb]
  cases Go.R3.text g with
  | none => rfl
  | some t => exact put_step h hq hd f (v t) (out t g.x.output) (hp t)

theorem need {d d' : Bool} {b : Bool} (h : (if b then some d else none) = some d') : b = true ∧ d = d' := by
  cases b with
  | true => exact ⟨rfl, Option.some.inj h⟩
  | false => cases h

/-- what `Parse` uses of the other functions of the package: `minimal` and `export` -/
structure PackageOk (calls : Nm → List Val → M E Val) : Prop where
  minimal : ∀ (s : Nat) (o : Rfc3164.Out) (w : W E), w.heap s = out3Val o → calls .rfc3164_syslogMessage_minimal [.ptr s []] w = some (.ok (.bool o.minimal) w)
  exports : ∀ (s : Nat) (o : Rfc3164.Out) (w : W E), w.heap s = out3Val o → s < w.next →
    ∃ w', calls .rfc3164_syslogMessage_export [.ptr s []] w = some (.ok (.ptr w.next []) w') ∧ Keeps w w' ∧ HasBase w' w.next o.export ∧
      ∃ ty fs, w'.heap w.next = .struct ty fs ∧ fs.lookup .StructuredData = none ∧ ∀ f x p, fs.lookup f = some (.ptr x p) → x = s ∨ w.next ≤ x

theorem packageOk {X : Env0 E} (hp : X.prog = prog) (n : Nat) : PackageOk (call X (n + 3)) where
  minimal := fun s o w h => minimal3_call hp n s o w h
  exports := fun s o w h hs => export3_call hp (n + 1) s o w h hs

/-- the fields of the machine -/
theorem mach_read {w0 w : W E} {mi : Nat} {o : Rfc3164.Opts} (hm : IsMach kit3 w0 mi o) (hlt : mi < w0.next) (hk : Keeps w0 w) {f : Nm} {v : Val} (hf : (f, v) ∈ kit3.fields o) : read w mi f = some v := by
  obtain ⟨fs, h1, h2⟩ := hm
  unfold read
  rw [hk.1 mi hlt, h1]
  simp [Val.getPath, Val.get, h2 f v hf]

theorem asLoc_loc3 (l : Option GoTime.Location) : asLoc (some (loc3Val l)) = some l := by cases l <;> rfl

theorem parseCorr {calls : Nm → List Val → M E Val} (hc : PackageOk calls) {w0 : W E} {mi : Nat} {o : Rfc3164.Opts} (hm : IsMach kit3 w0 mi o) (hlt : mi < w0.next) :
    Corr pflow Go.R3.sem (parseSem calls mi) (ParseRel w0 o) where
  left := fun d d' x y h => { h with rep := fun k => h.rep (by simp only [pflow, Bool.and_eq_true] at k; exact k.1) }
  right := fun d d' x y h => { h with rep := fun k => h.rep (by simp only [pflow, Bool.and_eq_true] at k; exact k.2) }
  start := fun d x y hd h => { h with rep := fun _ => h.rep hd }
  thn := fun d c g g' hc h hq hb => hq
  cond := by
    intro d c g g' hd h hq
    have rd := fun f v hf => mach_read hm hlt hq.keeps (f := f) (v := v) hf
    show parseCond calls mi c g' = Go.R3.cond c g
    cases c with
    | eNotNil => simp only [parseCond, Go.R3.cond, hq.e]
    | rfc3339 => simp only [parseCond, Go.R3.cond, rd .rfc3339 (.bool o.rfc3339) (by simp [kit3]), hq.o, asBool]
    | hasTimezone => simp only [parseCond, Go.R3.cond, rd .timezone (loc3Val o.timezone) (by simp [kit3]), hq.o, asLoc_loc3, Option.map_some]
    | hasLoc => simp only [parseCond, Go.R3.cond, rd .loc (loc3Val o.loc) (by simp [kit3]), hq.o, asLoc_loc3, Option.map_some]
    | bestEffortMinimal =>
      simp only [parseCond, Go.R3.cond, rd .bestEffort (.bool o.bestEffort) (by simp [kit3]), hq.o, asBool]
      cases o.bestEffort with
      | false => rfl
      | true =>
        simp only [hc.minimal _ _ _ (hq.rep hd).val, Bool.true_and]
        rfl
  stmt := by
    intro d d' s g g' hf h hq
    have ht := same_textP h hq.pb
    have rd := fun f v hf => mach_read hm hlt hq.keeps (f := f) (v := v) hf
    show Go.StepRel (ParseRel w0 o d') (Go.R3.stmt s g) (parseStmt mi s g')
    cases s with
    | pbZero => obtain rfl := Option.some.inj hf; exact ⟨_, rfl, Same.x h _ _, { hq with pb := rfl }⟩
    | errNil => obtain rfl := Option.some.inj hf; exact ⟨_, rfl, Same.x h _ _, { hq with err := rfl }⟩
    | pbP => obtain rfl := Option.some.inj hf; exact ⟨_, rfl, Same.x h _ _, { hq with pb := h.p }⟩
    | outputNew =>
      obtain rfl := Option.some.inj hf
      simp only [parseStmt, Go.R3.stmt]
      refine ⟨_, peff_ok (x := g'.x.w.next) rfl, Same.x h _ _, { hq with keeps := ?_, rep := fun _ => ⟨hq.keeps.2.1, Nat.lt_succ_self _, upd_same _ _ _⟩ }⟩
      have := hq.keeps.2.1
      exact ⟨fun c hc => (upd_ne _ _ (by omega)).trans (hq.keeps.1 c hc), Nat.le_succ_of_le this, hq.keeps.2.2.1, hq.keeps.2.2.2⟩
    | priority => obtain ⟨hd, rfl⟩ := need hf; simp only [parseStmt, Go.R3.stmt]; exact text_step h hq hd _ _ _ (fun t => rfl)
    | hostname => obtain ⟨hd, rfl⟩ := need hf; simp only [parseStmt, Go.R3.stmt]; exact text_step h hq hd _ _ _ (fun t => rfl)
    | tag => obtain ⟨hd, rfl⟩ := need hf; simp only [parseStmt, Go.R3.stmt]; exact text_step h hq hd _ _ _ (fun t => rfl)
    | content => obtain ⟨hd, rfl⟩ := need hf; simp only [parseStmt, Go.R3.stmt]; exact text_step h hq hd _ _ _ (fun t => rfl)
    | message => obtain ⟨hd, rfl⟩ := need hf; simp only [parseStmt, Go.R3.stmt]; exact text_step h hq hd _ _ _ (fun t => rfl)
    | prioritySet => obtain ⟨hd, rfl⟩ := need hf; simp only [parseStmt, Go.R3.stmt]; exact put_step h hq hd _ _ _ rfl
    | timestampSet => obtain ⟨hd, rfl⟩ := need hf; simp only [parseStmt, Go.R3.stmt]; exact put_step h hq hd _ _ _ rfl
    | timestamp => obtain ⟨hd, rfl⟩ := need hf; simp only [parseStmt, Go.R3.stmt, hq.t]; exact put_step h hq hd _ _ _ rfl
    | stampParse =>
      obtain rfl := Option.some.inj hf
      simp only [parseStmt, Go.R3.stmt]
      rw [ht]
      cases Go.R3.text g with
      | none => rfl
      | some t =>
        simp only [Option.map_some]
        cases Rfc3164.parseStamp t with
        | none => exact ⟨_, rfl, Same.x h _ _, { hq with t := rfl, e := rfl, tLoc := rfl }⟩
        | some tm => exact ⟨_, rfl, Same.x h _ _, { hq with t := rfl, e := rfl, tLoc := rfl }⟩
    | rfc3339Parse =>
      obtain rfl := Option.some.inj hf
      simp only [parseStmt, Go.R3.stmt]
      rw [ht]
      cases Go.R3.text g with
      | none => rfl
      | some t =>
        simp only [Option.map_some]
        cases GoTime.parseRFC3339Micro t with
        | none => exact ⟨_, rfl, Same.x h _ _, { hq with t := rfl, e := rfl, tLoc := rfl }⟩
        | some tm => exact ⟨_, rfl, Same.x h _ _, { hq with t := rfl, e := rfl, tLoc := rfl }⟩
    | parseInLocation =>
      obtain rfl := Option.some.inj hf
      simp only [parseStmt, Go.R3.stmt, rd .timezone (loc3Val o.timezone) (by simp [kit3]), asLoc_loc3, hq.o]
      cases o.timezone with
      | none => rfl
      | some l =>
        simp only [Option.bind_some]
        rw [ht]
        cases Go.R3.text g with
        | none => rfl
        | some t =>
          simp only [Option.map_some]
          cases Rfc3164.parseStamp t with
          | none => exact ⟨_, rfl, Same.x h _ _, { hq with o := rfl, t := rfl, tLoc := rfl }⟩
          | some tm => exact ⟨_, rfl, Same.x h _ _, { hq with o := rfl, t := rfl, tLoc := rfl }⟩
    | timestampAddDate =>
      obtain ⟨hd, rfl⟩ := need hf
      simp only [parseStmt, Go.R3.stmt, rd .yyyy (.int .int o.yyyy) (by simp [kit3]), asInt, hq.t, hq.tLoc]
      have ho := hq.o
      subst ho
      refine put_step h hq hd _ _ _ ?_
      rfl
    | timestampIn =>
      obtain ⟨hd, rfl⟩ := need hf
      have hts : asTime (read g'.x.w g'.x.output .timestamp) = some g.x.output.timestamp := by
        unfold read
        rw [(hq.rep hd).val]
        rfl
      simp only [parseStmt, Go.R3.stmt, rd .loc (loc3Val o.loc) (by simp [kit3]), asLoc_loc3, hts]
      have ho := hq.o
      subst ho
      cases g.x.o.loc with
      | none => rfl
      | some l =>
        simp only [Option.map_some]
        refine put_step h hq hd _ _ _ ?_
        rfl
    | _ => obtain rfl := Option.some.inj hf; exact ⟨_, rfl, Same.x h _ _, { hq with err := by rw [h.p] }⟩

/-- the struct in the variable `b` is the message `m` of `rfc3164` -/
structure RepMsg (w : W E) (b : Nat) (m : Base) : Prop where
  base : HasBase w b m
  plain : ∀ ty fs, w.heap b = .struct ty fs → fs.lookup .StructuredData = none

/-- A message that is new since `w0`: it, and everything it depends on, is in variables that did not exist. -/
structure NewMsg (w0 w : W E) (v : Val) (m : Base) : Prop where
  keeps : Keeps w0 w
  rep : ∃ a, v = .ptr a [] ∧ RepMsg w a m ∧ ∀ x, Reaches w a x → w0.next ≤ x

/-- `export` of the message under construction -/
theorem RepOut.exported {calls : Nm → List Val → M E Val} (hc : PackageOk calls) {w0 w : W E} {s : Nat} {o : Rfc3164.Out} (hr : RepOut w0 w s o) (hk : Keeps w0 w) :
    ∃ v w', calls .rfc3164_syslogMessage_export [.ptr s []] w = some (.ok v w') ∧ NewMsg w0 w' v o.export := by
  have hnew := hr.new
  have hlt := hr.lt
  have hkn := hk.2.1
  obtain ⟨w', e1, e2, e3, ty, fs, f1, f2, f3⟩ := hc.exports s o w hr.val hlt
  have same : ∀ ty2 fs2, w'.heap w.next = .struct ty2 fs2 → fs2 = fs := by
    intro ty2 fs2 h
    rw [f1] at h
    injection h with _ h
    exact h.symm
  refine ⟨.ptr w.next [], w', e1, ⟨fun x hx => (e2.1 x (by omega)).trans (hk.1 x hx), Nat.le_trans hkn e2.2.1, e2.2.2.1.trans hk.2.2.1, e2.2.2.2.trans hk.2.2.2⟩, w.next, rfl, ⟨e3, ?_⟩, ?_⟩
  · intro ty2 fs2 h
    rw [same ty2 fs2 h]
    exact f2
  · intro x hx
    rcases hx with (rfl | ⟨ty2, fs2, c, p, c', mm, g1, g2, g3, g4, g5⟩) | ⟨ty2, fs2, f, p, _, g1, g2⟩
    · exact hkn
    · rw [same ty2 fs2 g1, f2] at g2; cases g2
    · rw [same ty2 fs2 g1] at g2
      rcases f3 f x p g2 with rfl | h
      · exact hnew
      · omega

/-- what is returned: the message of the model in new variables, or nil -/
def Given (w0 w : W E) (v : Val) : Option Base → Prop
  | none => v = .nil ∧ Keeps w0 w
  | some m => NewMsg w0 w v m

/-- **`machine.Parse`, executed over memory.** -/
theorem parseGo_ok {calls : Nm → List Val → M E Val} (hc : PackageOk calls) (left : W E → GS Go.R3.V) {w : W E} {mi : Nat} {o : Rfc3164.Opts} (hm : IsMach kit3 w mi o) (hlt : mi < w.next) (input : Bytes) :
    ∃ res v w', Rfc3164.parse1 o input = some res ∧ parseGo calls left [.ptr mi [], .str input] w = some (.ok (.tuple [v, err3Val res.err]) w') ∧ Given w w' v res.msg := by
  obtain ⟨l0, hl0⟩ : ∃ l0 : GS Go.R3.V, l0 = { left w with x := { (left w).x with o := o } } := ⟨_, rfl⟩
  obtain ⟨r, g, res, h1, h2, h3, -⟩ := Props.C100_rfc3164 l0 input
  have h2 : Rfc3164.parse1 o input = some res := by rw [hl0] at h2; exact h2
  have hrel : ParseRel w o false l0.x (parseStart (left w) w input).x := by
    rw [hl0]
    exact ⟨rfl, rfl, rfl, rfl, rfl, rfl, rfl, ⟨fun _ _ => rfl, Nat.le_refl _, rfl, rfl⟩, (fun h => by cases h)⟩
  have hsame : Same { l0 with input := input } (parseStart (left w) w input) := by rw [hl0]; exact ⟨rfl, rfl, rfl, rfl, rfl, rfl, rfl⟩
  have hrun := (parseCorr hc hm hlt).run_from (l := .entry) (cn := Gen.GoRfc3164.entry) rfl pflow_entry pflow_prog (13 * input.length + 17) hsame hrel
  have h1 : Go.R3.sem.run Gen.GoRfc3164.prog (13 * input.length + 17) .entry { l0 with input := input } = .returned r g := h1
  rw [h1] at hrun
  have hgo : parseGo calls left [.ptr mi [], .str input] w =
      match (parseSem calls mi).run Gen.GoRfc3164.prog (13 * input.length + 17) .entry (parseStart (left w) w input) with
      | .returned r g => if g.x.bad then none else parseRet calls g.x r g.x.w
      | .panics => some (.panic w)
      | _ => none := rfl
  rw [hgo]
  cases hr2 : (parseSem calls mi).run Gen.GoRfc3164.prog (13 * input.length + 17) .entry (parseStart (left w) w input) with
  | panics => rw [hr2] at hrun; exact hrun.elim
  | stuck => rw [hr2] at hrun; exact hrun.elim
  | timeout => rw [hr2] at hrun; exact hrun.elim
  | returned r' g' =>
    rw [hr2] at hrun
    obtain ⟨rfl, _, hq⟩ := hrun
    simp only [hq.bad, Bool.false_eq_true, ite_false]
    have hrep := hq.rep rfl
    have herr : (g'.x.err.map fun e => (⟨e.1, e.2.toNat⟩ : Rfc3164.Err)) = g.x.err.map fun e => ⟨e.1, e.2.toNat⟩ := by rw [hq.err]
    have hres : ∀ e : Option (ErrKind × Int), e = (res.err.map fun e => (e.kind, (e.col : Int))) → (e.map fun e => (⟨e.1, e.2.toNat⟩ : Rfc3164.Err)) = res.err := by
      rintro e rfl
      cases res.err <;> simp
    cases r' with
    | failed =>
      simp only [Go.R3.value, Prod.mk.injEq] at h3
      refine ⟨res, .nil, g'.x.w, h2, ?_, ?_⟩
      · simp only [parseRet, pure_apply, herr, hres _ h3.2]
      · rw [← h3.1]; exact ⟨rfl, hq.keeps⟩
    | partialOutput =>
      simp only [Go.R3.value, Prod.mk.injEq] at h3
      obtain ⟨v, w', e1, e2⟩ := hrep.exported hc hq.keeps
      refine ⟨res, v, w', h2, ?_, ?_⟩
      · simp only [parseRet, bind_apply, e1, pure_apply, herr, hres _ h3.2]
      · rw [← h3.1]; exact e2
    | complete =>
      simp only [Go.R3.value, Prod.mk.injEq] at h3
      obtain ⟨v, w', e1, e2⟩ := hrep.exported hc hq.keeps
      refine ⟨res, v, w', h2, ?_, ?_⟩
      · have : res.err = none := by simpa using h3.2.symm
        rw [this]
        simp only [parseRet, bind_apply, e1, pure_apply]
        rfl
      · rw [← h3.1]; exact e2

end Verif.Mini.Bsd
