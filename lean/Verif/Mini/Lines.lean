import Verif.Mini.Ctor
import Verif.NonTransparent.Run
import Verif.Go.Lines

/-!
# The non-transparent framing package: callbacks, `process` and `Parse`

`Exec` is written by Ragel; its program (`Verif.Gen.GoLines.prog`, C101) is executed here over the struct in memory (`execGo`) and calls
`process`. The loop of `github.com/leodido/ragel-machinery` is `driveM`, with the callbacks in the same places as in
`NonTransparent.drive`; what is not known about it is a `Driver`. `machine.Parse` of package `rfc5424` is a parameter (`ParseOk`).
-/

set_option linter.constructorNameAsVariable false
set_option linter.unusedSimpArgs false

namespace Verif.Mini
open Verif.Gen.Mini
open Verif.NonTransparent (Machine TrailerType ReadErr Driver)

/-- What belongs to other packages: what the `io.Reader` (object 0) delivers and how it ends, what the listener got. -/
structure EN where
  stream : Bytes
  stop : ReadErr
  out : List (Val × Val)

def readErrVal : ReadErr → Val
  | .unexpectedEOF => .ext (.readErr 0)
  | .other n => .ext (.readErr (n + 1))

/-- an `error` that may be nil -/
def readErrOpt : Option ReadErr → Val
  | none => .nil
  | some e => readErrVal e

def nerrVal : Option NonTransparent.Error → Val
  | none => .nil
  | some (.message e) => .ext (.err5 e)
  | some (.reading e) => readErrVal e

/-- the two fields of the `syslog.Result` that the listener gets -/
def nresVal (r : NonTransparent.Result) : Val × Val := (msgVal r.msg, nerrVal r.err)

/-- the listener gets a pointer to a `syslog.Result` -/
def xEmitN : List Val → M EN Val
  | [.ptr a []] => fun w => match (w.heap a).get .Message, (w.heap a).get .Error with
    | some m, some e => some (.ok (.tuple []) { w with ext := { w.ext with out := w.ext.out ++ [(m, e)] } })
    | _, _ => none
  | _ => M.stuck

def xErrorfN : List Val → M EN Val
  | .str f :: args => M.pure (.err f args)
  | _ => M.stuck

/-- `strings.ToUpper` (simplification: `NonTransparent.toUpper`) -/
def xUpper : List Val → M EN Val
  | [.str s] => M.pure (.str (NonTransparent.toUpper s))
  | _ => M.stuck

/-- `parser.ArbitraryReader`, `parser.New`, `parser.WithStart` of `ragel-machinery`: the arguments are kept -/
def xKeep : List Val → M EN Val := fun args => M.pure (.tuple args)

/-- the package without the loop -/
def ntBase (extra : Nat → Nat) (order : List Bytes → List Bytes) (parse5 : List Val → M EN Val) : Env0 EN where
  extra := extra
  order := order
  call := fun f => match f with
    | .rfc5424_machine_Parse => parse5
    | .emit => xEmitN
    | .fmt_Errorf => xErrorfN
    | .strings_ToUpper => xUpper
    | .ragel_ArbitraryReader => xKeep
    | .ragel_New => xKeep
    | .ragel_WithStart => xKeep
    | _ => fun _ => M.stuck
  meth := meth
  prog := prog

/-! ## `Exec` and the loop around it -/

/-- a `[]byte` that is a value -/
def bytesOf : Val → Option Bytes
  | .nil => some []
  | .str s => some s
  | _ => none

/-- `m.candidate` -/
def candidate (a : Nat) : M EN Bytes := fun w => match (w.heap a).get .candidate with
  | some v => match bytesOf v with
    | some s => some (.ok s w)
    | none => none
  | none => none

/-- `m.trailertyp` -/
def trailertyp (a : Nat) : M EN TrailerType := fun w => match (w.heap a).get .trailertyp with
  | some (.int .int t) => some (.ok t w)
  | _ => none

/-- `tr0` (nontransparent/parser.go:57-64) -/
def tr0M (calls : Nm → List Val → M EN Val) (a : Nat) : M EN Unit :=
  M.bind (candidate a) fun s => M.bind (if s.length > 0 then calls .nontransparent_machine_process [.ptr a []] else M.pure (.tuple [])) fun _ =>
    storeAt (.ptr a [.candidate]) (.str [])

/-- `tr3` (nontransparent/parser.go:104-107) -/
def tr3M (a : Nat) (data : Bytes) : M EN Unit := M.bind (candidate a) fun s => storeAt (.ptr a [.candidate]) (.str (s ++ data))

/-- one round of `Exec` (nontransparent/parser.go:36-149), as `NonTransparent.stepByte` -/
def stepM (calls : Nm → List Val → M EN Val) (a : Nat) (data : Bytes) (cs : Nat) (b : UInt8) : M EN Nat :=
  M.bind (trailertyp a) fun t =>
    if cs = 1 then
      if b = 60 then M.bind (tr0M calls a) fun _ => M.pure 2 else M.pure 0
    else if cs = 2 then
      match NonTransparent.next23 (NonTransparent.widec t b) with
      | none => M.bind (tr3M a data) fun _ => M.pure 3
      | some n => M.pure n
    else if cs = 3 then
      if NonTransparent.widec t b = 60 then M.bind (tr0M calls a) fun _ => M.pure 2
      else match NonTransparent.next23 (NonTransparent.widec t b) with
        | none => M.bind (tr3M a data) fun _ => M.pure 3
        | some n => M.pure n
    else M.pure 0

/-- what `Exec` (nontransparent/parser.go:28-169) does, in the structure of `NonTransparent.exec` (an intermediate step of the proof): the state afterwards, and
whether the chunk was consumed -/
def execM (calls : Nm → List Val → M EN Val) (a : Nat) (data : Bytes) : Bytes → Nat → M EN (Nat × Bool)
  | [], cs => M.pure (cs, true)
  | b :: rest, cs => M.bind (stepM calls a data cs b) fun cs' => if cs' = 0 then M.pure (0, false) else execM calls a data rest cs'

/-- The receiver is in memory; the parameter `s`: what `s.Get` returns and `s.Set` stores (the data are `GS.input`). -/
structure VM where
  w : W EN
  scs : Nat := 0
  sp : Int := 0
  spe : Int := 0
  seof : Int := 0

/-- a statement that changes the memory; a panic of the statement is one of the program -/
def effect {α : Type} (g : Go.GS VM) (act : M EN α) : Option (Go.GS VM) :=
  match act g.x.w with
  | some (.ok _ w) => some { g with x := { g.x with w := w } }
  | _ => none

/-- the statements of `Exec` (their Go text is at the constructors of `Verif.Gen.GoLines.A`, nontransparent/parser.go:28-169) -/
def memStmt (calls : Nm → List Val → M EN Val) (a : Nat) : Gen.GoLines.A → Go.GS VM → Option (Go.GS VM)
  | .get, g => some { g with cs := g.x.scs, p := g.x.sp, pe := g.x.spe, eof := g.x.seof, data := g.input }
  | .set, g => some { g with x := { g.x with scs := g.cs, sp := g.p, spe := g.pe, seof := g.eof } }
  | .process, g => effect g (calls .nontransparent_machine_process [.ptr a []])
  | .candidateNew, g => effect g (storeAt (.ptr a [.candidate]) (.str []))
  | .candidateAppend, g => effect g (tr3M a g.data)

/-- the conditions of `Exec` (nontransparent/parser.go:28-169) -/
def memCond (a : Nat) : Gen.GoLines.C → Go.GS VM → Option Bool
  | .hasCandidate, g => match candidate a g.x.w with
    | some (.ok s _) => some (0 < s.length)
    | _ => none
  | .isLF, g => match trailertyp a g.x.w with
    | some (.ok t _) => some (t = NonTransparent.LF)
    | _ => none
  | .isNUL, g => match trailertyp a g.x.w with
    | some (.ok t _) => some (t = NonTransparent.NUL)
    | _ => none

/-- the meaning of the program of `Exec` (nontransparent/parser.go:28-169) over the memory -/
def memSem (calls : Nm → List Val → M EN Val) (a : Nat) : Go.Sem Gen.GoLines.A Gen.GoLines.C VM := ⟨memStmt calls a, memCond a⟩

/-- `Exec` (nontransparent/parser.go:28-169) on a chunk, executed as it is written, of at most `3 n + 5` blocks: the state it stores, and whether
the chunk has been read to its end; `none` if it does not return -/
def execGo (calls : Nm → List Val → M EN Val) (a : Nat) (data : Bytes) (cs : Nat) : M EN (Nat × Bool) := fun w =>
  match (memSem calls a).run Gen.GoLines.prog (3 * data.length + 5) .entry { input := data, x := { w := w, scs := cs, sp := 0, spe := data.length } } with
  | .returned _ g => some (.ok (g.x.scs, decide (g.x.sp = g.x.spe)) g.x.w)
  | _ => none

/-- the loop over the chunks (external), as `NonTransparent.drive` -/
def driveM (calls : Nm → List Val → M EN Val) (d : Driver) (a : Nat) (stop : ReadErr) (last : Bytes) : List Bytes → Nat → M EN Unit
  | [], cs =>
    if last = [] then
      M.bind (if d.errOnEmpty then calls .nontransparent_machine_OnErr [.ptr a [], .str [], readErrVal stop] else calls .nontransparent_machine_OnEOF [.ptr a [], .str []]) fun _ => M.pure ()
    else
      M.bind (if d.execLast then execGo calls a last cs else M.pure (cs, true)) fun _ =>
      M.bind (calls .nontransparent_machine_OnErr [.ptr a [], .str last, readErrVal stop]) fun _ => M.pure ()
  | c :: rest, cs => M.bind (execGo calls a c cs) fun r => if r.2 = false ∧ d.stopOnFail = true then M.pure () else driveM calls d a stop last rest r.1

/-- `parser.New(parser.ArbitraryReader(reader, trailer), m, parser.WithStart(1)).Parse()` (external) -/
def xRagelParse (calls : Nm → List Val → M EN Val) (d : Driver) : List Val → M EN Val
  | [.tuple [.tuple [.ext (.obj 0), .int .u8 t], .ptr a [], .tuple [.int .const 1]]] => fun w =>
    (M.bind (driveM calls d a w.ext.stop (NonTransparent.chunks (UInt8.ofInt t) w.ext.stream).2 (NonTransparent.chunks (UInt8.ofInt t) w.ext.stream).1 1) fun _ =>
      calls .nontransparent_machine_OnCompletion [.ptr a []]) w
  | _ => M.stuck

/-- the package -/
def ntX (extra : Nat → Nat) (order : List Bytes → List Bytes) (parse5 : List Val → M EN Val) (d : Driver) : Env0 EN :=
  { ntBase extra order parse5 with
    call := fun f => match f with
      | .ragel_Parse => xRagelParse (call (ntBase extra order parse5) 5) d
      | f => (ntBase extra order parse5).call f }

/-! ## The machine in memory -/

/-- `machine` (nontransparent/parser.go:16-25) -/
def ntVal (m : Machine) (cv lv em mi : Val) : Val :=
  .struct .nontransparent_machine [(.trailertyp, .int .int m.trailertyp), (.trailer, byteVal m.trailer), (.candidate, cv), (.bestEffort, .bool m.bestEffort), (.internal, mi), (.emit, em),
    (.readError, readErrOpt m.readError), (.lastChunk, lv)]

/-- with a listener, or without -/
def emitVal : Bool → Val
  | true => .ext .listener
  | false => .clo .nontransparent_NewParser_fn []

/-- How the value that `Parse` of `rfc5424` returns represents a message, in a memory in which the variables `lo ≤ x < hi` belong to it; it is kept if those are. `glob`: the
package variables are known to be kept. -/
structure NRel where
  rel : Nat → Nat → W EN → Val → Option Rfc5424.SyslogMessage → Prop
  glob : Prop
  keep : ∀ {lo hi : Nat} {w w' : W EN} {v : Val} {m : Option Rfc5424.SyslogMessage}, rel lo hi w v m → hi ≤ w.next → w.next ≤ w'.next → (∀ x, lo ≤ x → x < hi → w'.heap x = w.heap x) → rel lo hi w' v m
  lower : ∀ {lo lo' hi : Nat} {w : W EN} {v : Val} {m : Option Rfc5424.SyslogMessage}, rel lo hi w v m → lo' ≤ lo → rel lo' hi w v m

/-- `Parse` returns what the model returns for the configuration, and changes nothing but the machine and new variables -/
def NParses (parse5 : List Val → M EN Val) (MR : NRel) : Prop :=
  ∀ (w : W EN) (mi : Nat) (o : Rfc5424.Opts) (input : Bytes), IsMach kit5 w mi o → mi < w.next → ∃ r v w', Rfc5424.parse1 o input = some r ∧
    parse5 [.ptr mi [], .str input] w = some (.ok (.tuple [v, err5Val r.err]) w') ∧ IsMach kit5 w' mi o ∧ w.next ≤ w'.next ∧ (∀ x, x < w.next → x ≠ mi → w'.heap x = w.heap x) ∧ w'.ext = w.ext ∧
    (MR.glob → w'.glob = w.glob) ∧ MR.rel w.next w'.next w' v r.msg

/-- the two fields of each `syslog.Result` represent the results; the messages are in variables of their own, between `lo` and `hi` -/
def OutL (MR : NRel) (hi : Nat) (w : W EN) : Nat → List (Val × Val) → List NonTransparent.Result → Prop
  | lo, [], [] => lo ≤ hi
  | lo, v :: vs, r :: rs => ∃ mid, lo ≤ mid ∧ MR.rel lo mid w v.1 r.msg ∧ v.2 = nerrVal r.err ∧ OutL MR hi w mid vs rs
  | _, _, _ => False

/-- what the listener got after `pre`: nothing if there is none -/
def Got (MR : NRel) (lo hi : Nat) (w : W EN) (em : Bool) (pre : List (Val × Val)) (rs : List NonTransparent.Result) : Prop :=
  ∃ vs, w.ext.out = pre ++ vs ∧ lo ≤ hi ∧ (em = false → vs = []) ∧ (em = true → OutL MR hi w lo vs rs)

theorem OutL.le {MR : NRel} {hi : Nat} {w : W EN} : ∀ {vs : List (Val × Val)} {rs : List NonTransparent.Result} {lo : Nat}, OutL MR hi w lo vs rs → lo ≤ hi
  | [], [], _, h => h
  | _ :: _, _ :: _, _, ⟨_, h1, _, _, h2⟩ => Nat.le_trans h1 h2.le
  | [], _ :: _, _, h => h.elim
  | _ :: _, [], _, h => h.elim

theorem OutL.keep {MR : NRel} {hi : Nat} {w w' : W EN} (hn : hi ≤ w.next) (hn' : w.next ≤ w'.next) : ∀ {vs : List (Val × Val)} {rs : List NonTransparent.Result} {lo : Nat}, OutL MR hi w lo vs rs →
    (∀ x, lo ≤ x → x < hi → w'.heap x = w.heap x) → OutL MR hi w' lo vs rs
  | [], [], _, h, _ => h
  | _ :: _, _ :: _, _, ⟨mid, h1, h2, h3, h4⟩, hh =>
    ⟨mid, h1, MR.keep h2 (Nat.le_trans h4.le hn) hn' fun x hx hx' => hh x hx (Nat.lt_of_lt_of_le hx' h4.le), h3, OutL.keep hn hn' h4 fun x hx hx' => hh x (Nat.le_trans h1 hx) hx'⟩
  | [], _ :: _, _, h, _ => h.elim
  | _ :: _, [], _, h, _ => h.elim

theorem OutL.append {MR : NRel} {hi k : Nat} {w : W EN} {v : Val × Val} {r : NonTransparent.Result} (hk : k ≤ hi) (hv : MR.rel k hi w v.1 r.msg) (he : v.2 = nerrVal r.err) :
    ∀ {vs : List (Val × Val)} {rs : List NonTransparent.Result} {lo : Nat}, OutL MR k w lo vs rs → OutL MR hi w lo (vs ++ [v]) (rs ++ [r])
  | [], [], lo, h => ⟨hi, Nat.le_trans h hk, MR.lower hv h, he, Nat.le_refl _⟩
  | _ :: _, _ :: _, _, ⟨mid, h1, h2, h3, h4⟩ => ⟨mid, h1, h2, h3, OutL.append hk hv he h4⟩
  | [], _ :: _, _, h => h.elim
  | _ :: _, [], _, h => h.elim

theorem OutL.higher {MR : NRel} {hi hi' : Nat} {w : W EN} (hh : hi ≤ hi') : ∀ {vs : List (Val × Val)} {rs : List NonTransparent.Result} {lo : Nat}, OutL MR hi w lo vs rs → OutL MR hi' w lo vs rs
  | [], [], _, h => Nat.le_trans h hh
  | _ :: _, _ :: _, _, ⟨mid, h1, h2, h3, h4⟩ => ⟨mid, h1, h2, h3, OutL.higher hh h4⟩
  | [], _ :: _, _, h => h.elim
  | _ :: _, [], _, h => h.elim

theorem Got.keep {MR : NRel} {lo hi : Nat} {w w' : W EN} {em : Bool} {pre : List (Val × Val)} {rs : List NonTransparent.Result} (h : Got MR lo hi w em pre rs) (hn : hi ≤ w.next) (hn' : w.next ≤ w'.next)
    (hx : w'.ext.out = w.ext.out) (hh : ∀ x, lo ≤ x → x < hi → w'.heap x = w.heap x) : Got MR lo hi w' em pre rs := by
  obtain ⟨vs, h1, h2, h3, h4⟩ := h
  exact ⟨vs, hx.trans h1, h2, h3, fun e => (h4 e).keep hn hn' hh⟩

theorem Got.higher {MR : NRel} {lo hi hi' : Nat} {w : W EN} {em : Bool} {pre : List (Val × Val)} {rs : List NonTransparent.Result} (h : Got MR lo hi w em pre rs) (hh : hi ≤ hi') : Got MR lo hi' w em pre rs := by
  obtain ⟨vs, h1, h2, h3, h4⟩ := h
  exact ⟨vs, h1, Nat.le_trans h2 hh, h3, fun e => (h4 e).higher hh⟩

structure RepN (MR : NRel) (lo : Nat) (w : W EN) (a mi : Nat) (em : Bool) (pre : List (Val × Val)) (m : Machine) : Prop where
  heap : ∃ cv lv, w.heap a = ntVal m cv lv (emitVal em) (.ptr mi []) ∧ bytesOf cv = some m.candidate ∧ bytesOf lv = some m.lastChunk
  mach : IsMach kit5 w mi ⟨m.internal.bestEffort, m.internal.compliantMsg⟩
  ne : a ≠ mi
  lt : a < w.next
  mlt : mi < w.next
  low : a < lo
  mlow : mi < lo
  out : Got MR lo w.next w em pre m.out

/-- what stays -/
structure StepN (MR : NRel) (a mi : Nat) (w w' : W EN) : Prop where
  heap : ∀ c, c < w.next → c ≠ a → c ≠ mi → w'.heap c = w.heap c
  next : w.next ≤ w'.next
  stream : w'.ext.stream = w.ext.stream
  stop : w'.ext.stop = w.ext.stop
  glob : MR.glob → w'.glob = w.glob

theorem StepN.refl {MR : NRel} {a mi : Nat} {w : W EN} : StepN MR a mi w w := ⟨fun _ _ _ _ => rfl, Nat.le_refl _, rfl, rfl, fun _ => rfl⟩

theorem StepN.trans {MR : NRel} {a mi : Nat} {w w1 w2 : W EN} (h1 : StepN MR a mi w w1) (h2 : StepN MR a mi w1 w2) : StepN MR a mi w w2 :=
  ⟨fun c hc ha hm => by rw [h2.heap c (by have := h1.next; omega) ha hm, h1.heap c hc ha hm], Nat.le_trans h1.next h2.next, h2.stream.trans h1.stream, h2.stop.trans h1.stop, fun g => (h2.glob g).trans (h1.glob g)⟩

theorem bytesOf_str {v : Val} {s : Bytes} (h : bytesOf v = some s) (hs : s ≠ []) : v = .str s := by
  cases v with
  | nil => simp [bytesOf] at h; exact absurd h hs
  | str t => simp [bytesOf] at h; rw [h]
  | _ => simp [bytesOf] at h

theorem lenVal_bytes {v : Val} {s : Bytes} (h : bytesOf v = some s) (w : W EN) : (lenVal v : M EN Val) w = some (.ok (natVal s.length) w) := by
  cases v with
  | nil => simp [bytesOf] at h; subst h; rfl
  | str t => simp [bytesOf] at h; subst h; rfl
  | _ => simp [bytesOf] at h

section
variable {extra : Nat → Nat} {order : List Bytes → List Bytes} {parse5 : List Val → M EN Val} {MR : NRel} (hP : NParses parse5 MR)
variable {lo : Nat} {w : W EN} {a mi : Nat} {em : Bool} {pre : List (Val × Val)} {m m' : Machine}

local notation "NB" => ntBase extra order parse5

/-- assignments to fields -/
theorem nt_store {cv lv e i : Val} (h : w.heap a = ntVal m cv lv e i) :
    (∀ s : Bytes, (storeAt (.ptr a [.candidate]) (.str s) : M EN Unit) w = some (.ok () { w with heap := upd w.heap a (ntVal { m with candidate := s } (.str s) lv e i) })) ∧
    (∀ s : Bytes, (storeAt (.ptr a [.lastChunk]) (.str s) : M EN Unit) w = some (.ok () { w with heap := upd w.heap a (ntVal { m with lastChunk := s } cv (.str s) e i) })) ∧
    (∀ r, (storeAt (.ptr a [.readError]) (readErrVal r) : M EN Unit) w = some (.ok () { w with heap := upd w.heap a (ntVal { m with readError := some r } cv lv e i) })) ∧
    ((storeAt (.ptr a [.bestEffort]) (.bool true) : M EN Unit) w = some (.ok () { w with heap := upd w.heap a (ntVal { m with bestEffort := true } cv lv e i) })) ∧
    (∀ b : Bool, (storeAt (.ptr a [.emit]) (emitVal b) : M EN Unit) w = some (.ok () { w with heap := upd w.heap a (ntVal m cv lv (emitVal b) i) })) ∧
    (∀ b : UInt8, (storeAt (.ptr a [.trailer]) (byteVal b) : M EN Unit) w = some (.ok () { w with heap := upd w.heap a (ntVal { m with trailer := b } cv lv e i) })) ∧
    (∀ t : Int, (storeAt (.ptr a [.trailertyp]) (.int .int t) : M EN Unit) w = some (.ok () { w with heap := upd w.heap a (ntVal { m with trailertyp := t } cv lv e i) })) ∧
    (∀ p, (storeAt (.ptr a [.internal]) (.ptr p []) : M EN Unit) w = some (.ok () { w with heap := upd w.heap a (ntVal m cv lv e (.ptr p [])) })) := by
  refine ⟨fun s => ?_, fun s => ?_, fun r => ?_, ?_, fun b => ?_, fun b => ?_, fun t => ?_, fun p => ?_⟩
  · rw [store_field h (by simp; rfl)]; simp [setField, ntVal]
  · rw [store_field h (by simp; rfl)]; simp [setField, ntVal]
  · rw [store_field h (by simp; rfl)]; cases r <;> simp [setField, ntVal, readErrVal, readErrOpt]
  · rw [store_field h (by simp; rfl)]; simp [setField, ntVal]
  · rw [store_field h (by simp; rfl)]; cases b <;> simp [setField, ntVal, emitVal]
  · rw [store_field h (by simp; rfl)]; simp [setField, ntVal, byteVal]
  · rw [store_field h (by simp; rfl)]; simp [setField, ntVal]
  · rw [store_field h (by simp; rfl)]; simp [setField, ntVal]

/-- the struct is replaced by another one: what remains -/
theorem RepN.put (h : RepN MR lo w a mi em pre m) {cv lv : Val} {em' : Bool} (hc : bytesOf cv = some m'.candidate) (hl : bytesOf lv = some m'.lastChunk) (hi : m'.internal = m.internal)
    (ho : m'.out = m.out) (he : em' = em) : RepN MR lo { w with heap := upd w.heap a (ntVal m' cv lv (emitVal em') (.ptr mi [])) } a mi em' pre m' := by
  subst he
  obtain ⟨fs, e, g⟩ := h.mach
  exact ⟨⟨cv, lv, by simp, hc, hl⟩, ⟨fs, by simp [Mini.upd, Ne.symm h.ne, e], by rw [hi]; exact g⟩, h.ne, h.lt, h.mlt, h.low, h.mlow,
    by rw [ho]; exact h.out.keep (Nat.le_refl _) (Nat.le_refl _) rfl fun x hx _ => by have := h.low; simp [Mini.upd, show x ≠ a by omega]⟩

theorem StepN.put (v : Val) : StepN MR a mi w { w with heap := upd w.heap a v } := ⟨fun c _ ha _ => by simp [Mini.upd, ha], Nat.le_refl _, rfl, rfl, fun _ => rfl⟩

/-- `m.emit(&syslog.Result{...})`, evaluated -/
theorem emit_exec (n : Nat) (h : RepN MR lo w a mi em pre m) (r : NonTransparent.Result) {v : Val} {k : Nat} (hg : Got MR lo k w em pre m.out) (hk : k ≤ w.next) (hv : MR.rel k w.next w v r.msg) {l : Loc} (hm : l .m = .ptr a []) (h1 : l .res = v)
    (h2 : l .err = nerrVal r.err) :
    ∃ w', exec NB (call NB (n + 1)) (.expr (.callVal (.field (.var .m) .emit) (.cons (.new (.mk Zero.syslog_Result [.Message, .Error] (.cons (.var .res) (.cons (.var .err) .unit)))) .unit))) l w =
      some (.ok (.next, l) w') ∧ RepN MR lo w' a mi em pre { m with out := m.out ++ [r] } ∧ StepN MR a mi w w' := by
  obtain ⟨cv, lv, hh, hc, hl⟩ := h.heap
  have hlt := h.lt
  have hmlt := h.mlt
  obtain ⟨w1, hw1⟩ : ∃ w1 : W EN, w1 = { w with heap := upd w.heap w.next (.struct .syslog_Result [(.Message, v), (.Error, nerrVal r.err)]), next := w.next + 1 } := ⟨_, rfl⟩
  have e1 : eval NB (call NB (n + 1)) l (.new (.mk Zero.syslog_Result [.Message, .Error] (.cons (.var .res) (.cons (.var .err) .unit)))) w = some (.ok (.ptr w.next []) w1) := by
    rw [hw1]
    have c1 : Val.coerce .nil v = v := by simp [Val.coerce]
    have c2 : Val.coerce .nil (nerrVal r.err) = nerrVal r.err := by
      cases r.err with
      | none => rfl
      | some e => cases e with
        | message e => rfl
        | reading e => cases e <;> rfl
    simp [h1, h2, Zero.syslog_Result, putAll, setField, c1, c2]
  have e0 : eval NB (call NB (n + 1)) l (.field (.var .m) .emit) w = some (.ok (emitVal em) w) := by
    simp only [ntVal] at hh
    simp [hm, hh]
  have hr : RepN MR lo { w1 with ext := { w1.ext with out := if em then w1.ext.out ++ [(v, nerrVal r.err)] else w1.ext.out } } a mi em pre { m with out := m.out ++ [r] } := by
    obtain ⟨fs, e, g⟩ := h.mach
    refine ⟨⟨cv, lv, ?_, hc, hl⟩, ⟨fs, ?_, g⟩, h.ne, ?_, ?_, h.low, h.mlow, ?_⟩
    · rw [hw1]; simp [Mini.upd, show a ≠ w.next by omega, hh]; rfl
    · rw [hw1]; simp [Mini.upd, show mi ≠ w.next by omega, e]
    · rw [hw1]; simp only; omega
    · rw [hw1]; simp only; omega
    · have hold : ∀ x, x < w.next → (upd w.heap w.next (.struct .syslog_Result [(.Message, v), (.Error, nerrVal r.err)])) x = w.heap x := fun x hx => by simp [Mini.upd, show x ≠ w.next by omega]
      obtain ⟨vs, g1, g2, g3, g4⟩ := hg
      rw [hw1]
      cases em with
      | false => exact ⟨vs, g1, Nat.le_trans g2 (by simp only; omega), g3, nofun⟩
      | true =>
        refine ⟨vs ++ [(v, nerrVal r.err)], by simp [g1], Nat.le_trans g2 (by simp only; omega), nofun, fun _ => ?_⟩
        refine OutL.higher (hi := w.next) (Nat.le_succ _) ?_
        refine OutL.append hk (MR.keep hv (Nat.le_refl _) (Nat.le_succ _) fun x _ hx => hold x hx) rfl ?_
        exact (g4 rfl).keep hk (Nat.le_succ _) fun x _ hx => hold x (by omega)
  have st : StepN MR a mi w { w1 with ext := { w1.ext with out := if em then w1.ext.out ++ [(v, nerrVal r.err)] else w1.ext.out } } := by
    rw [hw1]
    exact ⟨fun c hc _ _ => by simp [Mini.upd, show c ≠ w.next by omega], Nat.le_succ _, rfl, rfl, fun _ => rfl⟩
  refine ⟨_, ?_, hr, st⟩
  rw [exec_expr]
  simp only [eval_callVal, bind_apply, e0]
  simp only [eval_cons, eval_unit, bind_apply, e1, argsOf_tuple, of_some, pure_apply]
  cases em with
  | true =>
    have e2 : call NB (n + 1) .emit [.ptr w.next []] w1 = some (.ok (.tuple []) { w1 with ext := { w1.ext with out := w1.ext.out ++ [(v, nerrVal r.err)] } }) := by
      rw [call_ext (X := NB) (p := prog) rfl prog_emit]
      show (match (w1.heap w.next).get .Message, (w1.heap w.next).get .Error with
        | some m, some e => some (Out.ok (Val.tuple []) { w1 with ext := { w1.ext with out := w1.ext.out ++ [(m, e)] } })
        | _, _ => none) = _
      rw [hw1]
      simp
    simp [emitVal, e2]
  | false =>
    have e2 : call NB (n + 1) .nontransparent_NewParser_fn [.ptr w.next []] w1 = some (.ok (.tuple []) w1) := by
      rw [call_fn (X := NB) (p := prog) rfl prog_nontransparent_NewParser_fn]
      simp [nontransparent_NewParser_fn]
    simp [emitVal, e2]

include hP in
/-- `res, err := m.internal.Parse(data)` -/
theorem parse_exec (n : Nat) (h : RepN MR lo w a mi em pre m) (data : Bytes) {l : Loc} {f : Nm} (hm : l .m = .ptr a []) (hl : (w.heap a).get f = some (.str data)) :
    ∃ res err i v w', Rfc5424.parse m.internal data = some (⟨res, err⟩, i) ∧
      exec NB (call NB (n + 1)) (.multi [some .res, some .err] (.call .rfc5424_machine_Parse (.cons (.field (.var .m) .internal) (.cons (.field (.var .m) f) .unit)))) l w =
        some (.ok (.next, (l.set .res v).set .err (err5Val err)) w') ∧ RepN MR lo w' a mi em pre { m with internal := i } ∧ StepN MR a mi w w' ∧ w'.heap a = w.heap a ∧
      Got MR lo w.next w' em pre m.out ∧ MR.rel w.next w'.next w' v res := by
  obtain ⟨cv, lv, hh, hc, hlv⟩ := h.heap
  obtain ⟨r0, v, w', hr, hcall, hm', hn, hheap, hext, hglob, hrel⟩ := hP w mi _ data h.mach h.mlt
  obtain ⟨i, hp, i1, i2⟩ := Rfc5424.parse_eq m.internal data
  have hr' := Rfc5424.parse1_eq ⟨m.internal.bestEffort, m.internal.compliantMsg⟩ data
  simp only at hr'
  obtain ⟨r, hr0⟩ : ∃ r, r = Rfc5424.resultOf m.internal.bestEffort (Rfc5424.descend m.internal.compliantMsg data) := ⟨_, rfl⟩
  rw [← hr0] at hr' hp
  rw [hr'] at hr
  obtain rfl : r = r0 := Option.some.inj hr
  have ha : w'.heap a = w.heap a := hheap a h.lt h.ne
  have hgot : Got MR lo w.next w' em pre m.out := h.out.keep (Nat.le_refl _) hn (by rw [hext]) fun x hx hx' => hheap x hx' (by have := h.mlow; omega)
  refine ⟨r.msg, r.err, i, v, w', hp, ?_, ?_, ⟨fun c hc ha hm => hheap c hc hm, hn, by rw [hext], by rw [hext], hglob⟩, ha, hgot, hrel⟩
  · have e1 : call NB (n + 1) .rfc5424_machine_Parse [.ptr mi [], .str data] w = _ := (congrFun (call_ext (X := NB) (p := prog) rfl prog_rfc5424_machine_Parse n _) w).trans hcall
    have hi : (w.heap a).get .internal = some (.ptr mi []) := by rw [hh]; simp [ntVal]
    obtain ⟨fs, hfs⟩ : ∃ fs, w.heap a = .struct .nontransparent_machine fs := ⟨_, hh⟩
    rw [hfs] at hi hl
    simp only [get_struct] at hi hl
    simp [hm, hfs, hi, hl, e1, assignAll, bindOpt]
  · refine ⟨⟨cv, lv, by rw [ha, hh]; rfl, hc, hlv⟩, ?_, h.ne, Nat.lt_of_lt_of_le h.lt hn, Nat.lt_of_lt_of_le h.mlt hn, h.low, h.mlow, hgot.higher hn⟩
    rw [i1, i2]; exact hm'

/-- the fields, whatever is in the others -/
theorem RepN.struct (h : RepN MR lo w a mi em pre m) : ∃ cv lv, w.heap a = .struct .nontransparent_machine [(.trailertyp, .int .int m.trailertyp), (.trailer, byteVal m.trailer), (.candidate, cv), (.bestEffort, .bool m.bestEffort),
    (.internal, .ptr mi []), (.emit, emitVal em), (.readError, readErrOpt m.readError), (.lastChunk, lv)] ∧ bytesOf cv = some m.candidate ∧ bytesOf lv = some m.lastChunk := h.heap

include hP in
/-- `process` (nontransparent/parser.go:262-272) -/
theorem process_call (n : Nat) (h : RepN MR lo w a mi em pre m) (hc0 : m.candidate ≠ []) (hc1 : m.candidate.length < 2 ^ 63) :
    ∃ m' w', m.process = some m' ∧ call NB (n + 2) .nontransparent_machine_process [.ptr a []] w = some (.ok (.tuple []) w') ∧ RepN MR lo w' a mi em pre m' ∧ StepN MR a mi w w' := by
  obtain ⟨cv, lv, hh, hc, hl⟩ := h.struct
  have hcv := bytesOf_str hc hc0
  subst hcv
  obtain ⟨init, b, hb⟩ : ∃ init b, m.candidate = init ++ [b] := ⟨_, _, (List.dropLast_concat_getLast hc0).symm⟩
  obtain ⟨m1, hm1⟩ : ∃ m1, m1 = if b = m.trailer then { m with candidate := m.candidate.dropLast } else m := ⟨_, rfl⟩
  obtain ⟨l, hl0⟩ : ∃ l : Loc, l = (Loc.empty.set .m (.ptr a [])).set .lastByte (natVal init.length) := ⟨_, rfl⟩
  have hlen : m.candidate.length = init.length + 1 := by rw [hb]; simp
  have e1 : exec NB (call NB (n + 1)) (.assign .lastByte (.bin .sub (.len (.field (.var .m) .candidate)) (.lit (.int .const 1)))) (Loc.empty.set .m (.ptr a [])) w = some (.ok (.next, l) w) := by
    rw [hl0]
    simp [hh, hlen, natVal, wrap_int (x := (init.length : Int)) (by omega) (by omega)]
  have hlm : l .m = .ptr a [] := by rw [hl0]; simp
  have hlb : l .lastByte = natVal init.length := by rw [hl0]; simp
  have hx : (nth (m.candidate.map byteVal) (init.length : Nat) : M EN Val) = M.pure (byteVal b) := nth_some (by rw [hb]; simp)
  have hgl : m.candidate.getLast? = some b := by rw [hb]; simp
  obtain ⟨w1, e2, h1, st1, hcan⟩ : ∃ w1, exec NB (call NB (n + 1)) (.ifs (.bin .eq (.index (.field (.var .m) .candidate) (.var .lastByte)) (.field (.var .m) .trailer)) (.store (.addr (.var .m) .candidate) (.sub (.field (.var .m) .candidate) (.lit .nil) (.var .lastByte))) .skip) l w =
      some (.ok (.next, l) w1) ∧ RepN MR lo w1 a mi em pre m1 ∧ StepN MR a mi w w1 ∧ (w1.heap a).get .candidate = some (.str m1.candidate) := by
    have hcond : eval NB (call NB (n + 1)) l (.bin .eq (.index (.field (.var .m) .candidate) (.var .lastByte)) (.field (.var .m) .trailer)) w = some (.ok (.bool (decide (b = m.trailer))) w) := by
      have hx' := hx
      simp only [byteVal] at hx'
      simp [hlm, hlb, hh, natVal, hx, byteVal]
      rw [Bool.eq_iff_iff]
      simp only [beq_iff_eq, decide_eq_true_eq]
      exact ⟨fun e => UInt8.toNat_inj.mp (by omega), fun e => by rw [e]⟩
    rw [exec_ifs]
    simp only [bind_apply, hcond, truth_bool, decide_eq_true_eq]
    by_cases hbt : b = m.trailer
    · rw [if_pos hbt] at hm1
      have hdl : m.candidate.dropLast = init := by rw [hb]; simp
      rw [hdl] at hm1
      have hst := (nt_store (m := m) hh).1 init
      have hput := h.put (m' := { m with candidate := init }) (cv := .str init) (lv := lv) rfl hl rfl rfl rfl
      refine ⟨_, ?_, hm1 ▸ hput, .put _, by rw [hm1]; simp [ntVal]⟩
      rw [if_pos hbt]
      have ht : m.candidate.take init.length = init := by rw [hb]; simp
      have hle : (init.length : Int) ≤ init.length + 1 := by omega
      simp [hlm, hlb, hh, natVal, hlen, ht, hst, hle]
      rw [hm1]
    · rw [if_neg hbt] at hm1
      refine ⟨w, ?_, hm1 ▸ h, .refl, by rw [hh, hm1]; simp⟩
      rw [if_neg hbt]; rfl
  obtain ⟨res, err, i, v, w2, hp, e3, h2, st2, ha2, hg2, hv2⟩ := parse_exec (extra := extra) (order := order) hP n h1 m1.candidate (l := l) (f := .candidate) hlm hcan
  obtain ⟨w3, e4, h3, st3⟩ := emit_exec n h2 ⟨res, err.map .message⟩ hg2 st2.next hv2 (l := (l.set .res v).set .err (err5Val err)) (by simp [hlm]) (by simp) (by cases err <;> rfl)
  refine ⟨_, w3, ?_, ?_, h3, (st1.trans st2).trans st3⟩
  · simp only [Machine.process, hgl, ← hm1, Machine.parseMsg, hp]
  · rw [call_fn (X := NB) (p := prog) rfl prog_nontransparent_machine_process]
    have : exec NB (call NB (n + 1)) nontransparent_machine_process.body (Loc.empty.set .m (.ptr a [])) w = some (.ok (.next, (l.set .res v).set .err (err5Val err)) w3) :=
      (seq_next e1).trans ((seq_next e2).trans ((seq_next e3).trans e4))
    simp [nontransparent_machine_process] at this ⊢
    simp [this]

/-- `OnErr` (nontransparent/parser.go:171-175) -/
theorem onErr_call (n : Nat) (h : RepN MR lo w a mi em pre m) (chunk : Bytes) (e : ReadErr) :
    ∃ w', call NB (n + 1) .nontransparent_machine_OnErr [.ptr a [], .str chunk, readErrVal e] w = some (.ok (.tuple []) w') ∧ RepN MR lo w' a mi em pre (m.onErr chunk e) ∧ StepN MR a mi w w' := by
  obtain ⟨cv, lv, hh, hc, hl⟩ := h.heap
  have e1 := (nt_store hh).2.1 chunk
  obtain ⟨w1, hw1⟩ : ∃ w1 : W EN, w1 = { w with heap := upd w.heap a (ntVal { m with lastChunk := chunk } cv (.str chunk) (emitVal em) (.ptr mi [])) } := ⟨_, rfl⟩
  rw [← hw1] at e1
  have h1 : RepN MR lo w1 a mi em pre { m with lastChunk := chunk } := by rw [hw1]; exact h.put (m' := { m with lastChunk := chunk }) hc rfl rfl rfl rfl
  have e2 := (nt_store (w := w1) (a := a) (m := { m with lastChunk := chunk }) (cv := cv) (lv := .str chunk) (e := emitVal em) (i := .ptr mi []) (by rw [hw1]; simp)).2.2.1 e
  refine ⟨_, ?_, h1.put (m' := m.onErr chunk e) (cv := cv) (lv := .str chunk) hc rfl rfl rfl rfl, StepN.trans (by rw [hw1]; exact .put _) (.put _)⟩
  rw [call_fn (X := NB) (p := prog) rfl prog_nontransparent_machine_OnErr]
  simp [nontransparent_machine_OnErr, e1, e2]
  rfl

/-- `OnEOF` (nontransparent/parser.go:177-178) -/
theorem onEOF_call (n : Nat) (chunk : Val) : call NB (n + 1) .nontransparent_machine_OnEOF [.ptr a [], chunk] w = some (.ok (.tuple []) w) := by
  rw [call_fn (X := NB) (p := prog) rfl prog_nontransparent_machine_OnEOF]
  simp [nontransparent_machine_OnEOF]

include hP in
/-- `OnCompletion` (nontransparent/parser.go:180-195) -/
theorem onCompletion_call (n : Nat) (h : RepN MR lo w a mi em pre m) (hc1 : m.candidate.length < 2 ^ 63) :
    ∃ m' w', m.onCompletion = some m' ∧ call NB (n + 3) .nontransparent_machine_OnCompletion [.ptr a []] w = some (.ok (.tuple []) w') ∧ RepN MR lo w' a mi em pre m' ∧ StepN MR a mi w w' := by
  obtain ⟨l, hl0⟩ : ∃ l : Loc, l = Loc.empty.set .m (.ptr a []) := ⟨_, rfl⟩
  have hlm : l .m = .ptr a [] := by rw [hl0]; simp
  obtain ⟨m1, w1, hm1, e1, h1, st1⟩ : ∃ m1 w1, (if m.candidate.length > 0 then m.process else some m) = some m1 ∧
      exec NB (call NB (n + 2)) (.ifs (.bin .gt (.len (.field (.var .m) .candidate)) (.lit (.int .const 0))) (.expr (.call .nontransparent_machine_process (.cons (.var .m) .unit))) .skip) l w =
        some (.ok (.next, l) w1) ∧ RepN MR lo w1 a mi em pre m1 ∧ StepN MR a mi w w1 := by
    obtain ⟨cv, lv, hh, hc, hl⟩ := h.struct
    have hcond : eval NB (call NB (n + 2)) l (.bin .gt (.len (.field (.var .m) .candidate)) (.lit (.int .const 0))) w = some (.ok (.bool (decide (m.candidate.length > 0))) w) := by
      simp [hlm, hh, lenVal_bytes hc, natVal]
    rw [exec_ifs]
    simp only [bind_apply, hcond, truth_bool, decide_eq_true_eq]
    by_cases hp : m.candidate.length > 0
    · obtain ⟨m1, w1, q1, q2, q3, q4⟩ := process_call (extra := extra) (order := order) hP n h (by intro e; rw [e] at hp; simp at hp) hc1
      refine ⟨m1, w1, by rw [if_pos hp]; exact q1, ?_, q3, q4⟩
      rw [if_pos hp]
      simp [hlm, q2]
    · exact ⟨m, w, by rw [if_neg hp], by rw [if_neg hp]; rfl, h, .refl⟩
  obtain ⟨cv, lv, hh, hc, hl⟩ := h1.struct
  have hcond : eval NB (call NB (n + 2)) l (.and (.bin .ne (.field (.var .m) .readError) (.lit .nil)) (.bin .gt (.len (.field (.var .m) .lastChunk)) (.lit (.int .const 0)))) w1 =
      some (.ok (.bool (m1.readError.isSome && decide (m1.lastChunk.length > 0))) w1) := by
    cases hre : m1.readError with
    | none => simp [hlm, hh, hre, readErrOpt]
    | some e =>
      have : (readErrVal e).isNil = false := by cases e <;> rfl
      simp [hlm, hh, hre, readErrOpt, lenVal_bytes hl, natVal, this]
  have hbody : nontransparent_machine_OnCompletion.params = [.m] := rfl
  obtain ⟨m2, w2, l2, hm2, e2, h2, st2⟩ : ∃ m2 w2 l2, m.onCompletion = some m2 ∧ exec NB (call NB (n + 2)) (.ifs (.and (.bin .ne (.field (.var .m) .readError) (.lit .nil)) (.bin .gt (.len (.field (.var .m) .lastChunk)) (.lit (.int .const 0)))) (.seq (.multi [some .res, some .err] (.call .rfc5424_machine_Parse (.cons (.field (.var .m) .internal) (.cons (.field (.var .m) .lastChunk) .unit)))) <|
    .seq (.ifs (.bin .eq (.var .err) (.lit .nil)) (.assign .err (.field (.var .m) .readError)) .skip) <|
    .expr (.callVal (.field (.var .m) .emit) (.cons (.new (.mk Zero.syslog_Result [.Message, .Error] (.cons (.var .res) (.cons (.var .err) .unit)))) .unit))) .skip) l w1 = some (.ok (.next, l2) w2) ∧ RepN MR lo w2 a mi em pre m2 ∧ StepN MR a mi w1 w2 := by
    rw [exec_ifs]
    simp only [bind_apply, hcond, truth_bool]
    cases hre : m1.readError with
    | none => exact ⟨m1, w1, l, by simp only [Machine.onCompletion, hm1, hre], by simp, h1, .refl⟩
    | some re =>
      by_cases hlc : m1.lastChunk.length > 0
      · obtain ⟨res, err, i, v, w3, hp, e3, h3, st3, ha3, hg3, hv3⟩ := parse_exec (extra := extra) (order := order) hP (n + 1) h1 m1.lastChunk (l := l) (f := .lastChunk) hlm
          (by rw [hh, bytesOf_str hl (by intro e; rw [e] at hlc; simp at hlc)]; simp)
        obtain ⟨l1, hl1⟩ : ∃ l1 : Loc, l1 = (l.set .res v).set .err (err5Val err) := ⟨_, rfl⟩
        obtain ⟨fe, hfe⟩ : ∃ fe : Option NonTransparent.Error, fe = match err with | none => some (.reading re) | some e => some (.message e) := ⟨_, rfl⟩
        obtain ⟨l2, e4, h4m, h4r, h4e⟩ : ∃ l2, exec NB (call NB (n + 2)) (.ifs (.bin .eq (.var .err) (.lit .nil)) (.assign .err (.field (.var .m) .readError)) .skip) l1 w3 = some (.ok (.next, l2) w3) ∧
            l2 .m = .ptr a [] ∧ l2 .res = v ∧ l2 .err = nerrVal fe := by
          cases err with
          | none =>
            refine ⟨l1.set .err (readErrVal re), ?_, by simp [hl1, hlm], by simp [hl1], by rw [hfe]; simp [nerrVal]⟩
            rw [hl1]
            simp [err5Val, hlm, ha3, hh, hre, readErrOpt]
          | some e => exact ⟨l1, by rw [hl1]; simp [err5Val], by simp [hl1, hlm], by simp [hl1], by rw [hl1, hfe]; simp [nerrVal, err5Val]⟩
        obtain ⟨w4, e5, h5, st5⟩ := emit_exec (n + 1) h3 ⟨res, fe⟩ hg3 st3.next hv3 (l := l2) h4m h4r h4e
        refine ⟨_, w4, l2, ?_, ?_, h5, st3.trans st5⟩
        · simp only [Machine.onCompletion, hm1, hre, if_pos hlc, Machine.parseMsg, hp, hfe]
          cases err <;> rfl
        · simp only [Option.isSome_some, Bool.true_and, decide_eq_true_eq, if_pos hlc]
          rw [hl1] at e4
          exact (seq_next e3).trans ((seq_next e4).trans e5)
      · exact ⟨m1, w1, l, by simp only [Machine.onCompletion, hm1, hre, if_neg hlc], by simp only [Option.isSome_some, Bool.true_and, decide_eq_true_eq, if_neg hlc]; rfl, h1, .refl⟩
  refine ⟨m2, w2, hm2, ?_, h2, st1.trans st2⟩
  rw [call_fn (X := NB) (p := prog) rfl prog_nontransparent_machine_OnCompletion]
  have : exec NB (call NB (n + 2)) nontransparent_machine_OnCompletion.body (Loc.empty.set .m (.ptr a [])) w = some (.ok (.next, l2) w2) := by
    rw [hl0] at e1 e2
    exact (seq_next e1).trans e2
  simp only [hbody, params_cons, params_nil, Option.map_some, of_some, bind_apply, pure_apply, this]

/-! ### `Exec` and the loop -/

/-- the trailer byte is that of the trailer type -/
def Agrees (m : Machine) : Prop := (m.trailertyp = NonTransparent.LF ∧ m.trailer = 10) ∨ (m.trailertyp = NonTransparent.NUL ∧ m.trailer = 0)

/-- the same trailer -/
def Same (m m' : Machine) : Prop := m'.trailertyp = m.trailertyp ∧ m'.trailer = m.trailer

theorem Same.agrees (h : Same m m') (ha : Agrees m) : Agrees m' := by rw [Agrees, h.1, h.2]; exact ha

theorem Same.trans {m1 m2 m3 : Machine} (h : Same m1 m2) (h' : Same m2 m3) : Same m1 m3 := ⟨h'.1.trans h.1, h'.2.trans h.2⟩

theorem process_same (h : m.process = some m') : Same m m' ∧ m'.candidate.length ≤ m.candidate.length := by
  simp only [Machine.process, Machine.parseMsg] at h
  split at h
  · cases h
  · rename_i b hb
    split at h
    · cases h
    · rename_i x res err m2 hx
      split at hx
      · cases hx
      · rename_i r i hi
        simp only [Option.some.injEq, Prod.mk.injEq] at hx h
        obtain ⟨-, -, rfl⟩ := hx
        subst h
        split
        · exact ⟨⟨rfl, rfl⟩, by simp⟩
        · exact ⟨⟨rfl, rfl⟩, Nat.le_refl _⟩

theorem onCompletion_same (h : m.onCompletion = some m') : Same m m' ∧ m'.candidate.length ≤ m.candidate.length := by
  simp only [Machine.onCompletion] at h
  split at h
  · cases h
  · rename_i m1 h1
    have hs : Same m m1 ∧ m1.candidate.length ≤ m.candidate.length := by
      split at h1
      · exact process_same h1
      · cases h1; exact ⟨⟨rfl, rfl⟩, Nat.le_refl _⟩
    split at h
    · split at h
      · simp only [Machine.parseMsg] at h
        split at h
        · cases h
        · rename_i x res err m2 hx
          split at hx
          · cases hx
          · simp only [Option.some.injEq, Prod.mk.injEq] at hx h
            obtain ⟨-, -, rfl⟩ := hx
            subst h
            exact hs
      · cases h; exact hs
    · cases h; exact hs

/-- what is read through the struct -/
theorem candidate_rep (h : RepN MR lo w a mi em pre m) : candidate a w = some (.ok m.candidate w) := by
  obtain ⟨cv, lv, hh, hc, hl⟩ := h.struct
  have : (w.heap a).get .candidate = some cv := by rw [hh]; simp
  simp only [candidate, this, hc]

theorem trailertyp_rep (h : RepN MR lo w a mi em pre m) : trailertyp a w = some (.ok m.trailertyp w) := by
  obtain ⟨cv, lv, hh, hc, hl⟩ := h.struct
  have : (w.heap a).get .trailertyp = some (.int .int m.trailertyp) := by rw [hh]; simp
  simp only [trailertyp, this]

theorem storeCandidate (h : RepN MR lo w a mi em pre m) (s : Bytes) :
    ∃ w', (storeAt (.ptr a [.candidate]) (.str s) : M EN Unit) w = some (.ok () w') ∧ RepN MR lo w' a mi em pre { m with candidate := s } ∧ StepN MR a mi w w' := by
  obtain ⟨cv, lv, hh, hc, hl⟩ := h.heap
  exact ⟨_, (nt_store hh).1 s, h.put (m' := { m with candidate := s }) (cv := .str s) rfl hl rfl rfl rfl, .put _⟩

include hP in
theorem tr0_sim (n : Nat) (h : RepN MR lo w a mi em pre m) (hc1 : m.candidate.length < 2 ^ 63) :
    ∃ m' w', m.tr0 = some m' ∧ tr0M (call NB (n + 2)) a w = some (.ok () w') ∧ RepN MR lo w' a mi em pre m' ∧ StepN MR a mi w w' ∧ Same m m' ∧ m'.candidate = [] := by
  by_cases hp : m.candidate.length > 0
  · obtain ⟨m1, w1, q1, q2, q3, q4⟩ := process_call (extra := extra) (order := order) hP n h (by intro e; rw [e] at hp; simp at hp) hc1
    obtain ⟨w2, q5, q6, q7⟩ := storeCandidate q3 []
    refine ⟨{ m1 with candidate := [] }, w2, by simp only [Machine.tr0, if_pos hp, q1], ?_, q6, q4.trans q7, (process_same q1).1, rfl⟩
    simp only [tr0M, bind_apply, candidate_rep h, if_pos hp, q2, q5]
  · obtain ⟨w2, q5, q6, q7⟩ := storeCandidate h []
    refine ⟨{ m with candidate := [] }, w2, by simp only [Machine.tr0, if_neg hp], ?_, q6, q7, ⟨rfl, rfl⟩, rfl⟩
    simp only [tr0M, bind_apply, candidate_rep h, if_neg hp, pure_apply, q5]

theorem tr3_sim (h : RepN MR lo w a mi em pre m) (data : Bytes) :
    ∃ w', tr3M a data w = some (.ok () w') ∧ RepN MR lo w' a mi em pre { m with candidate := m.candidate ++ data } ∧ StepN MR a mi w w' := by
  obtain ⟨w2, q5, q6, q7⟩ := storeCandidate h (m.candidate ++ data)
  exact ⟨w2, by simp only [tr3M, bind_apply, candidate_rep h, q5], q6, q7⟩

theorem next23_trailer (ha : Agrees m) {b : UInt8} (h : NonTransparent.next23 (NonTransparent.widec m.trailertyp b) = none) : b = m.trailer := by
  by_cases hb : b = m.trailer
  · exact hb
  · have := (NonTransparent.widec_other (be := m.internal.bestEffort) (t := m.trailer) (m := { m with internal := { bestEffort := m.internal.bestEffort } }) ⟨rfl, ha, rfl, rfl⟩ b hb).1
    simp only at this
    rw [this] at h
    cases h

include hP in
/-- one byte -/
theorem step_sim (n : Nat) (data : Bytes) (cs : Nat) (b : UInt8) (h : RepN MR lo w a mi em pre m) (hag : Agrees m) (hc1 : m.candidate.length < 2 ^ 63) :
    ∃ cs' m' w', NonTransparent.stepByte data cs b m = some (cs', m') ∧ stepM (call NB (n + 2)) a data cs b w = some (.ok cs' w') ∧ RepN MR lo w' a mi em pre m' ∧ StepN MR a mi w w' ∧ Same m m' ∧
      m'.candidate.length ≤ m.candidate.length + if b = m.trailer then data.length else 0 := by
  have h0 : ∀ x, stepM (call NB (n + 2)) a data cs b w = x ↔ (if cs = 1 then
      if b = 60 then M.bind (tr0M (call NB (n + 2)) a) fun _ => M.pure 2 else M.pure 0
    else if cs = 2 then
      match NonTransparent.next23 (NonTransparent.widec m.trailertyp b) with
      | none => M.bind (tr3M a data) fun _ => M.pure 3
      | some n => M.pure n
    else if cs = 3 then
      if NonTransparent.widec m.trailertyp b = 60 then M.bind (tr0M (call NB (n + 2)) a) fun _ => M.pure 2
      else match NonTransparent.next23 (NonTransparent.widec m.trailertyp b) with
        | none => M.bind (tr3M a data) fun _ => M.pure 3
        | some n => M.pure n
    else M.pure 0) w = x := by
    intro x
    rw [stepM, bind_apply, trailertyp_rep h]
  simp only [h0]
  have t0 : ∃ cs' m' w', m.tr0.map (fun m => (2, m)) = some (cs', m') ∧ (M.bind (tr0M (call NB (n + 2)) a) fun _ => M.pure 2) w = some (.ok cs' w') ∧ RepN MR lo w' a mi em pre m' ∧ StepN MR a mi w w' ∧ Same m m' ∧
      m'.candidate.length ≤ m.candidate.length + if b = m.trailer then data.length else 0 := by
    obtain ⟨m', w', q1, q2, q3, q4, q5, q6⟩ := tr0_sim (extra := extra) (order := order) hP n h hc1
    exact ⟨2, m', w', by rw [q1]; rfl, by simp only [bind_apply, q2, pure_apply], q3, q4, q5, by rw [q6]; exact Nat.zero_le _⟩
  have same : ∀ k : Nat, ∃ cs' m' w', some (k, m) = some (cs', m') ∧ (M.pure k : M EN Nat) w = some (.ok cs' w') ∧ RepN MR lo w' a mi em pre m' ∧ StepN MR a mi w w' ∧ Same m m' ∧
      m'.candidate.length ≤ m.candidate.length + if b = m.trailer then data.length else 0 := fun k => ⟨k, m, w, rfl, rfl, h, .refl, ⟨rfl, rfl⟩, Nat.le_add_right _ _⟩
  have t3 : ∃ cs' m' w', (match NonTransparent.next23 (NonTransparent.widec m.trailertyp b) with
      | none => some (3, { m with candidate := m.candidate ++ data })
      | some n => some (n, m)) = some (cs', m') ∧ (match NonTransparent.next23 (NonTransparent.widec m.trailertyp b) with
      | none => M.bind (tr3M a data) fun _ => M.pure 3
      | some n => M.pure n) w = some (.ok cs' w') ∧ RepN MR lo w' a mi em pre m' ∧ StepN MR a mi w w' ∧ Same m m' ∧
      m'.candidate.length ≤ m.candidate.length + if b = m.trailer then data.length else 0 := by
    cases hn : NonTransparent.next23 (NonTransparent.widec m.trailertyp b) with
    | some k => exact same k
    | none =>
      obtain ⟨w', q1, q2, q3⟩ := tr3_sim h data
      exact ⟨3, _, w', rfl, by simp only [bind_apply, q1, pure_apply], q2, q3, ⟨rfl, rfl⟩, by rw [if_pos (next23_trailer hag hn)]; simp⟩
  simp only [NonTransparent.stepByte]
  by_cases c1 : cs = 1
  · simp only [if_pos c1]
    by_cases c2 : b = 60
    · simp only [if_pos c2]; exact t0
    · simp only [if_neg c2]; exact same 0
  · simp only [if_neg c1]
    by_cases c2 : cs = 2
    · simp only [if_pos c2]; exact t3
    · simp only [if_neg c2]
      by_cases c3 : cs = 3
      · simp only [if_pos c3]
        by_cases c4 : NonTransparent.widec m.trailertyp b = 60
        · simp only [if_pos c4]; exact t0
        · simp only [if_neg c4]; exact t3
      · simp only [if_neg c3]; exact same 0

include hP in
/-- `Exec` on a chunk -/
theorem exec_sim (n : Nat) (data : Bytes) : ∀ (rest : Bytes) (cs : Nat) {w : W EN} {m : Machine}, RepN MR lo w a mi em pre m → Agrees m → m.candidate.length + rest.count m.trailer * data.length < 2 ^ 63 →
    ∃ cs' ok m' w', NonTransparent.execLoop data rest cs m = some (cs', ok, m') ∧ execM (call NB (n + 2)) a data rest cs w = some (.ok (cs', ok) w') ∧ RepN MR lo w' a mi em pre m' ∧ StepN MR a mi w w' ∧ Same m m' ∧
      m'.candidate.length ≤ m.candidate.length + rest.count m.trailer * data.length
  | [], cs, w, m, h, _, _ => ⟨cs, true, m, w, rfl, rfl, h, .refl, ⟨rfl, rfl⟩, Nat.le_add_right _ _⟩
  | b :: rest, cs, w, m, h, hag, hb => by
    have hcount : (b :: rest).count m.trailer * data.length = rest.count m.trailer * data.length + if b = m.trailer then data.length else 0 := by
      rw [List.count_cons]
      by_cases e : b = m.trailer
      · simp [e, Nat.add_mul]
      · simp [e]
    obtain ⟨cs1, m1, w1, q1, q2, q3, q4, q5, q6⟩ := step_sim (extra := extra) (order := order) hP n data cs b h hag (by omega)
    rw [hcount] at hb ⊢
    by_cases c0 : cs1 = 0
    · refine ⟨0, false, m1, w1, by simp only [NonTransparent.execLoop, q1, if_pos c0], by simp only [execM, bind_apply, q2, if_pos c0, pure_apply], q3, q4, q5, by omega⟩
    · obtain ⟨cs2, ok, m2, w2, r1, r2, r3, r4, r5, r6⟩ := exec_sim n data rest cs1 q3 (q5.agrees hag) (by rw [q5.2]; omega)
      rw [q5.2] at r6
      exact ⟨cs2, ok, m2, w2, by simp only [NonTransparent.execLoop, q1, if_neg c0, r1], by simp only [execM, bind_apply, q2, if_neg c0, r2], r3, q4.trans r4, q5.trans r5, by omega⟩

/-! ### The program of `Exec` -/

/-- the variables during the run: `rest` is what has not been read -/
structure At (data rest : Bytes) (g : Go.GS VM) : Prop where
  dat : g.data = data
  p : g.p = (data.length - rest.length : Nat)
  len : rest.length ≤ data.length
  drop : data.drop (data.length - rest.length) = rest
  pe : g.pe = data.length

theorem At.byte {data rest : Bytes} {b : UInt8} {g : Go.GS VM} (h : At data (b :: rest) g) : g.byte = some b := by
  have hp := h.p
  have hl := h.len
  have hd := h.drop
  have hlt : data.length - (b :: rest).length < data.length := by simp only [List.length_cons] at hl ⊢; omega
  unfold Go.GS.byte
  rw [if_pos (by rw [hp]; exact Int.natCast_nonneg _), hp, h.dat, Int.toNat_natCast]
  rw [List.drop_eq_getElem_cons hlt] at hd
  rw [List.getElem?_eq_getElem hlt]
  simp only [List.cons.injEq] at hd
  exact congrArg some hd.1

theorem At.tail {data rest : Bytes} {b : UInt8} {g : Go.GS VM} (h : At data (b :: rest) g) (g' : Go.GS VM) (hd : g'.data = g.data)
    (hp : g'.p = g.p + 1) (hpe : g'.pe = g.pe) : At data rest g' := by
  have hl := h.len
  simp only [List.length_cons] at hl
  have e : data.length - (b :: rest).length + 1 = data.length - rest.length := by simp only [List.length_cons]; omega
  refine ⟨by rw [hd, h.dat], ?_, by omega, ?_, by rw [hpe, h.pe]⟩
  · rw [hp, h.p, ← e]; rfl
  · rw [← e, ← List.drop_drop, h.drop]; rfl

/-- how a run ends -/
def EndsM (calls : Nm → List Val → M EN Val) (a bound : Nat) (l : Go.Lbl) (g : Go.GS VM) (cs : Nat) (ok : Bool) (w : W EN) : Prop :=
  ∃ k g', k ≤ bound ∧ (memSem calls a).Goes Gen.GoLines.prog k l g .out g' ∧ g'.cs = cs ∧ decide (g'.p = g'.pe) = ok ∧ g'.x.w = w

theorem EndsM.after {calls : Nm → List Val → M EN Val} {a : Nat} {l l' : Go.Lbl} {g g' : Go.GS VM} {cs : Nat} {ok : Bool} {w : W EN} {n bound b' : Nat} (h : EndsM calls a bound l' g' cs ok w)
    (hg : (memSem calls a).Goes Gen.GoLines.prog n l g l' g') (hb : n + bound ≤ b') : EndsM calls a b' l g cs ok w := by
  obtain ⟨k, g'', hk, h1, h2⟩ := h
  exact ⟨n + k, g'', by omega, Go.Goes.trans hg h1, h2⟩

section
variable {calls : Nm → List Val → M EN Val}

/-- one block, from `stCaseN` to where the dispatch goes -/
theorem dispatchesM {data rest : Bytes} {b : UInt8} {g : Go.GS VM} {cs : Nat} (h1 : 1 ≤ cs) (h3 : cs ≤ 3) (h : At data (b :: rest) g) (hr : RepN MR lo g.x.w a mi em pre m) :
    ∃ x, (memSem calls a).Goes Gen.GoLines.prog 1 (.stCase cs) g (Go.RL.target (decide (m.trailertyp = NonTransparent.LF)) (decide (m.trailertyp = NonTransparent.NUL)) cs b.toNat) { g with widec := x } := by
  have hp := Go.RL.pick_ok (decide (m.trailertyp = NonTransparent.LF)) (decide (m.trailertyp = NonTransparent.NUL)) b.toNat (by have := b.toNat_lt; omega) (cs - 1) (by omega)
  rw [Nat.sub_add_cancel h1] at hp
  have ht := trailertyp_rep hr
  obtain ⟨x, hx⟩ := (Go.exec_pick (S := memSem calls a) (b := b) (Go.RL.dispatch cs) g none h.byte (fun c v w' hc => by
    cases c with
    | hasCandidate => cases hc
    | isLF => simp only [Go.RL.env] at hc; simp only [memSem, memCond, ht]; exact hc
    | isNUL => simp only [Go.RL.env] at hc; simp only [memSem, memCond, ht]; exact hc) (fun n hn => by cases hn)).1 _ hp
  refine ⟨x, ?_⟩
  rcases (by omega : cs = 1 ∨ cs = 2 ∨ cs = 3) with rfl | rfl | rfl
  · exact Go.Goes.goto' (cn := Gen.GoLines.stCase1) rfl hx
  · exact Go.Goes.goto' (cn := Gen.GoLines.stCase2) rfl hx
  · exact Go.Goes.goto' (cn := Gen.GoLines.stCase3) rfl hx

theorem bind_ok {α β : Type} {x : M EN α} {f : α → M EN β} {w w' : W EN} {v : β} (h : M.bind x f w = some (.ok v w')) : ∃ u w1, x w = some (.ok u w1) ∧ f u w1 = some (.ok v w') := by
  rw [bind_apply] at h
  cases hx : x w with
  | none => rw [hx] at h; cases h
  | some o =>
    rw [hx] at h
    cases o with
    | panic w1 => cases h
    | ok u w1 => exact ⟨u, w1, rfl, h⟩

/-- `tr0:` -/
theorem tr0_execM {g : Go.GS VM} {w' : W EN} (h : RepN MR lo g.x.w a mi em pre m) (ht : tr0M calls a g.x.w = some (.ok () w')) :
    (memSem calls a).exec Gen.GoLines.tr0.1 g = .goto (.st 2) { g with x := { g.x with w := w' } } := by
  have hc := candidate_rep h
  obtain ⟨s, w1, e1, ht⟩ := bind_ok ht
  rw [hc] at e1
  cases e1
  obtain ⟨u, w2, e2, ht⟩ := bind_ok ht
  simp only [Gen.GoLines.tr0, Go.Sem.exec, Go.Sem.simple, Go.Sem.test, memSem, memCond, hc]
  by_cases hp : m.candidate.length > 0
  · have hp' : decide (0 < m.candidate.length) = true := by simpa using hp
    rw [if_pos hp] at e2
    simp only [hp', memStmt, effect, e2, ht]
  · have hp' : decide (0 < m.candidate.length) = false := by simpa using hp
    rw [if_neg hp] at e2
    cases e2
    simp only [hp', memStmt, effect, ht]

/-- the end of the input in state `cs` -/
theorem at_endM {data : Bytes} {b : UInt8} {g g' : Go.GS VM} {cs : Nat} (h : cs = 2 ∨ cs = 3) (hr : At data [b] g)
    (hp : g'.p = g.p) (hpe : g'.pe = g.pe) : EndsM calls a 3 (.st cs) g' cs true g'.x.w := by
  have hpp : g'.p + 1 = g'.pe := by
    have := hr.p; have := hr.pe; have := hr.len
    simp only [List.length_cons, List.length_nil] at *
    rw [hp, hpe]; omega
  have hdec : decide (g'.p + 1 = g'.pe) = true := by simpa using hpp
  rcases h with rfl | rfl
  · exact ⟨3, { g' with p := g'.p + 1, cs := 2 }, by omega,
      Go.Goes.trans (n := 2) (n' := 1) (Go.Goes.trans (n := 1) (n' := 1) (Go.Goes.goto' (cn := Gen.GoLines.st2) (l' := .testEofN 2) (g' := { g' with p := g'.p + 1 }) rfl
        (by simp only [Gen.GoLines.st2, Go.Sem.exec, Go.Sem.simple, Go.Sem.test, hdec]))
        (Go.Goes.goto' (cn := Gen.GoLines.testEof2) (l' := .testEof) rfl rfl)) (Go.Goes.fall rfl rfl), rfl, hdec, rfl⟩
  · exact ⟨3, { g' with p := g'.p + 1, cs := 3 }, by omega,
      Go.Goes.trans (n := 2) (n' := 1) (Go.Goes.trans (n := 1) (n' := 1) (Go.Goes.goto' (cn := Gen.GoLines.st3) (l' := .testEofN 3) (g' := { g' with p := g'.p + 1 }) rfl
        (by simp only [Gen.GoLines.st3, Go.Sem.exec, Go.Sem.simple, Go.Sem.test, hdec]))
        (Go.Goes.goto' (cn := Gen.GoLines.testEof3) (l' := .testEof) rfl rfl)) (Go.Goes.fall rfl rfl), rfl, hdec, rfl⟩

/-- on to the next byte in state `cs` -/
theorem at_nextM {data rest : Bytes} {b b' : UInt8} {g g' : Go.GS VM} {cs : Nat} (h : cs = 2 ∨ cs = 3) (hr : At data (b :: b' :: rest) g)
    (hd : g'.data = g.data) (hp : g'.p = g.p) (hpe : g'.pe = g.pe) :
    ∃ g'', (memSem calls a).Goes Gen.GoLines.prog 1 (.st cs) g' (.stCase cs) g'' ∧ At data (b' :: rest) g'' ∧ g''.x = g'.x := by
  have hpp : ¬ g'.p + 1 = g'.pe := by
    have := hr.p; have := hr.pe; have := hr.len
    simp only [List.length_cons] at *
    rw [hp, hpe]; omega
  have hdec : decide (g'.p + 1 = g'.pe) = false := by simpa using hpp
  refine ⟨{ g' with p := g'.p + 1 }, ?_, hr.tail { g' with p := g'.p + 1 } hd (by rw [← hp]) hpe, rfl⟩
  rcases h with rfl | rfl
  · exact Go.Goes.fall (c := Gen.GoLines.st2.1) rfl (by simp only [Gen.GoLines.st2, Go.Sem.exec, Go.Sem.simple, Go.Sem.test, hdec])
  · exact Go.Goes.fall (c := Gen.GoLines.st3.1) rfl (by simp only [Gen.GoLines.st3, Go.Sem.exec, Go.Sem.simple, Go.Sem.test, hdec])

/-- the error state -/
theorem at_errorM {data rest : Bytes} {b : UInt8} {g g' : Go.GS VM} (hr : At data (b :: rest) g) (hp : g'.p = g.p) (hpe : g'.pe = g.pe) :
    EndsM calls a 1 (.st 0) g' 0 false g'.x.w := by
  have hpp : ¬ g'.p = g'.pe := by
    have := hr.p; have := hr.pe; have := hr.len
    simp only [List.length_cons] at *
    rw [hp, hpe]; omega
  exact ⟨1, { g' with cs := 0 }, by omega, Go.Goes.goto' (cn := Gen.GoLines.st0) rfl rfl, rfl, by simpa using hpp, rfl⟩

theorem next23_states {w n : Nat} (hn : NonTransparent.next23 w = some n) : n = 0 ∨ n = 2 ∨ n = 3 := by
  unfold NonTransparent.next23 at hn
  split at hn
  · cases hn; omega
  split at hn
  · cases hn
  split at hn
  · cases hn; omega
  split at hn
  · cases hn
  split at hn
  · split at hn <;> cases hn <;> omega
  split at hn <;> cases hn <;> omega

/-- what follows `stCaseN` on byte `b`: the label of the next state after at most two blocks -/
theorem one_byteM {data rest : Bytes} {b : UInt8} {g : Go.GS VM} {cs cs' : Nat} {w' : W EN} (h1 : 1 ≤ cs) (h3 : cs ≤ 3) (h : At data (b :: rest) g) (hr : RepN MR lo g.x.w a mi em pre m)
    (hs : stepM calls a data cs b g.x.w = some (.ok cs' w')) :
    (cs' = 0 ∨ cs' = 2 ∨ cs' = 3) ∧ ∃ k g', k ≤ 2 ∧ (memSem calls a).Goes Gen.GoLines.prog k (.stCase cs) g (.st cs') g' ∧ g'.data = g.data ∧ g'.p = g.p ∧ g'.pe = g.pe ∧ g'.x.w = w' := by
  obtain ⟨x, hx⟩ := dispatchesM (calls := calls) h1 h3 h hr
  have hdat := h.dat
  rw [stepM, bind_apply, trailertyp_rep hr] at hs
  simp only at hs
  have via0 : (memSem calls a).Goes Gen.GoLines.prog 1 (.stCase cs) g (.tr 0) { g with widec := x } → (M.bind (tr0M calls a) fun _ => M.pure 2) g.x.w = some (.ok cs' w') →
      (cs' = 0 ∨ cs' = 2 ∨ cs' = 3) ∧ ∃ k g', k ≤ 2 ∧ (memSem calls a).Goes Gen.GoLines.prog k (.stCase cs) g (.st cs') g' ∧ g'.data = g.data ∧ g'.p = g.p ∧ g'.pe = g.pe ∧ g'.x.w = w' := by
    intro hgo hs
    obtain ⟨u, w1, e1, e2⟩ := bind_ok hs
    cases e2
    have ht := tr0_execM (g := { g with widec := x }) hr e1
    exact ⟨.inr (.inl rfl), 2, _, by omega, Go.Goes.trans (n := 1) (n' := 1) hgo (Go.Goes.goto' (cn := Gen.GoLines.tr0) rfl ht), rfl, rfl, rfl, rfl⟩
  have stay : ∀ k : Nat, (k = 0 ∨ k = 2 ∨ k = 3) → (memSem calls a).Goes Gen.GoLines.prog 1 (.stCase cs) g (.st k) { g with widec := x } → (M.pure k : M EN Nat) g.x.w = some (.ok cs' w') →
      (cs' = 0 ∨ cs' = 2 ∨ cs' = 3) ∧ ∃ k g', k ≤ 2 ∧ (memSem calls a).Goes Gen.GoLines.prog k (.stCase cs) g (.st cs') g' ∧ g'.data = g.data ∧ g'.p = g.p ∧ g'.pe = g.pe ∧ g'.x.w = w' := by
    intro k hk hgo hs
    cases hs
    exact ⟨hk, 1, _, by omega, hgo, rfl, rfl, rfl, rfl⟩
  have via23 : (memSem calls a).Goes Gen.GoLines.prog 1 (.stCase cs) g (Go.RL.lbl (NonTransparent.next23 (NonTransparent.widec m.trailertyp b))) { g with widec := x } →
      (match NonTransparent.next23 (NonTransparent.widec m.trailertyp b) with
      | none => M.bind (tr3M a data) fun _ => M.pure 3
      | some n => M.pure n) g.x.w = some (.ok cs' w') →
      (cs' = 0 ∨ cs' = 2 ∨ cs' = 3) ∧ ∃ k g', k ≤ 2 ∧ (memSem calls a).Goes Gen.GoLines.prog k (.stCase cs) g (.st cs') g' ∧ g'.data = g.data ∧ g'.p = g.p ∧ g'.pe = g.pe ∧ g'.x.w = w' := by
    intro hgo hs
    cases hn : NonTransparent.next23 (NonTransparent.widec m.trailertyp b) with
    | none =>
      rw [hn] at hgo hs
      obtain ⟨u, w1, e1, e2⟩ := bind_ok hs
      cases e2
      refine ⟨.inr (.inr rfl), 2, { g with widec := x, x := { g.x with w := w' } }, by omega,
        Go.Goes.trans (n := 1) (n' := 1) hgo (Go.Goes.goto' (cn := Gen.GoLines.tr3) rfl ?_), rfl, rfl, rfl, rfl⟩
      rw [← hdat] at e1
      simp only [Gen.GoLines.tr3, Go.Sem.exec, Go.Sem.simple, memSem, memStmt, effect, e1]
    | some k =>
      rw [hn] at hgo hs
      exact stay k (next23_states hn) hgo hs
  unfold Go.RL.target at hx
  by_cases c1 : cs = 1
  · rw [if_pos c1] at hx hs
    by_cases hb : b = 60
    · rw [if_pos (by rw [hb]; rfl)] at hx
      rw [if_pos hb] at hs
      exact via0 hx hs
    · rw [if_neg (show ¬ b.toNat = 60 from fun h => hb (UInt8.toNat_inj.mp h))] at hx
      rw [if_neg hb] at hs
      exact stay 0 (.inl rfl) hx hs
  · rw [if_neg c1] at hx hs
    by_cases c2 : cs = 2
    · rw [if_pos c2] at hx hs
      rw [← Go.RL.widec_eq] at hx
      exact via23 hx hs
    · rw [if_neg c2] at hx hs
      rw [if_pos (by omega)] at hs
      rw [← Go.RL.widec_eq] at hx
      by_cases c60 : NonTransparent.widec m.trailertyp b = 60
      · rw [if_pos c60] at hx hs
        exact via0 hx hs
      · rw [if_neg c60] at hx hs
        exact via23 hx hs
end

include hP in
/-- all bytes -/
theorem simM (n : Nat) {data : Bytes} : ∀ (rest : Bytes) (b : UInt8) (cs : Nat) {m : Machine} (g : Go.GS VM) {cs' : Nat} {ok : Bool} {w' : W EN}, 1 ≤ cs → cs ≤ 3 → At data (b :: rest) g → RepN MR lo g.x.w a mi em pre m → Agrees m →
    m.candidate.length + (b :: rest).count m.trailer * data.length < 2 ^ 63 → execM (call NB (n + 2)) a data (b :: rest) cs g.x.w = some (.ok (cs', ok) w') →
    EndsM (call NB (n + 2)) a (3 * (b :: rest).length + 2) (.stCase cs) g cs' ok w' := by
  intro rest
  induction rest with
  | nil =>
    intro b cs m g cs' ok w' h1 h3 h hr hag hb he
    have hcount : [b].count m.trailer * data.length = if b = m.trailer then data.length else 0 := by
      by_cases e : b = m.trailer <;> simp [e]
    obtain ⟨cs1, m1, w1, q1, q2, q3, q4, q5, q6⟩ := step_sim (extra := extra) (order := order) hP n data cs b hr hag (by omega)
    obtain ⟨hcs, k, g', hk, hgo, hd, hp, hpe, hw⟩ := one_byteM h1 h3 h hr q2
    simp only [execM, bind_apply, q2] at he
    by_cases h0 : cs1 = 0
    · subst h0
      rw [if_pos rfl] at he
      cases he
      exact hw ▸ (at_errorM h hp hpe).after hgo (by simp only [List.length_cons]; omega)
    · rw [if_neg h0] at he
      cases he
      exact hw ▸ (at_endM (by omega) h hp hpe).after hgo (by simp only [List.length_cons, List.length_nil]; omega)
  | cons b' rest ih =>
    intro b cs m g cs' ok w' h1 h3 h hr hag hb he
    have hcount : (b :: b' :: rest).count m.trailer * data.length = (b' :: rest).count m.trailer * data.length + if b = m.trailer then data.length else 0 := by
      rw [List.count_cons]
      by_cases e : b = m.trailer
      · simp [e, Nat.add_mul]
      · simp [e]
    obtain ⟨cs1, m1, w1, q1, q2, q3, q4, q5, q6⟩ := step_sim (extra := extra) (order := order) hP n data cs b hr hag (by omega)
    obtain ⟨hcs, k, g', hk, hgo, hd, hp, hpe, hw⟩ := one_byteM h1 h3 h hr q2
    rw [execM, bind_apply, q2] at he
    simp only at he
    by_cases h0 : cs1 = 0
    · subst h0
      rw [if_pos rfl] at he
      cases he
      exact hw ▸ (at_errorM h hp hpe).after hgo (by simp only [List.length_cons]; omega)
    · rw [if_neg h0] at he
      obtain ⟨g'', hgo', hr', hx⟩ := at_nextM (calls := call NB (n + 2)) (a := a) (cs := cs1) (by omega) h hd hp hpe
      have hw2 : g''.x.w = w1 := by rw [hx, hw]
      exact (ih b' cs1 g'' (by omega) (by omega) hr' (hw2 ▸ q3) (q5.agrees hag) (by rw [q5.2]; omega) (hw2 ▸ he)).after (Go.Goes.trans hgo hgo') (by simp only [List.length_cons]; omega)

include hP in
/-- `Exec` on a chunk, as it is written -/
theorem execGo_sim (n : Nat) (data : Bytes) (cs : Nat) (hcs : cs ≤ 3) {w : W EN} {m : Machine} (h : RepN MR lo w a mi em pre m) (hag : Agrees m) (hb : m.candidate.length + data.count m.trailer * data.length < 2 ^ 63) :
    ∃ cs' ok m' w', NonTransparent.execLoop data data cs m = some (cs', ok, m') ∧ execGo (call NB (n + 2)) a data cs w = some (.ok (cs', ok) w') ∧ RepN MR lo w' a mi em pre m' ∧ StepN MR a mi w w' ∧ Same m m' ∧
      m'.candidate.length ≤ m.candidate.length + data.count m.trailer * data.length := by
  obtain ⟨cs', ok, m', w', r1, r2, r3, r4, r5, r6⟩ := exec_sim (extra := extra) (order := order) hP n data data cs h hag hb
  refine ⟨cs', ok, m', w', r1, ?_, r3, r4, r5, r6⟩
  obtain ⟨g, hg⟩ : ∃ g : Go.GS VM, g = { input := data, x := { w := w, scs := cs, sp := 0, spe := data.length } } := ⟨_, rfl⟩
  obtain ⟨g0, hg0⟩ : ∃ g0 : Go.GS VM, g0 = { g with cs := cs, p := 0, pe := data.length, eof := 0, data := data, widec := 0 } := ⟨_, rfl⟩
  have key : EndsM (call NB (n + 2)) a (3 * data.length + 4) .entry g cs' ok w' := by
    cases data with
    | nil =>
      cases r2
      refine ⟨2, g0, by simp, Go.Goes.trans (n := 1) (n' := 1) (Go.Goes.goto' (cn := Gen.GoLines.entry) (l' := .testEof) (g' := g0) rfl ?_) (Go.Goes.fall rfl rfl), ?_, ?_, ?_⟩
      · rw [hg0, hg]; rfl
      · rw [hg0]
      · rw [hg0]; rfl
      · rw [hg0, hg]
    | cons b rest =>
      have hne : decide ((0 : Int) = ((b :: rest).length : Int)) = false := by simp only [List.length_cons, decide_eq_false_iff_not]; omega
      have hat : At (b :: rest) (b :: rest) g0 := by
        refine ⟨by rw [hg0], ?_, Nat.le_refl _, by rw [Nat.sub_self]; rfl, by rw [hg0]⟩
        rw [hg0, Nat.sub_self]; rfl
      have hgo : (memSem (call NB (n + 2)) a).Goes Gen.GoLines.prog 1 .entry g (.stCase cs) g0 := by
        refine Go.Goes.goto' (cn := Gen.GoLines.entry) rfl ?_
        rw [hg0, hg]
        simp only [Gen.GoLines.entry, Go.Sem.exec, Go.Sem.simple, Go.Sem.test, memSem, memStmt, hne]
        rcases (by omega : cs = 0 ∨ cs = 1 ∨ cs = 2 ∨ cs = 3) with rfl | rfl | rfl | rfl <;> rfl
      have hw0 : g0.x.w = w := by rw [hg0, hg]
      by_cases h0 : cs = 0
      · subst h0
        have hst : execM (call NB (n + 2)) a (b :: rest) (b :: rest) 0 w = some (.ok (0, false) w) := by
          rw [execM, bind_apply, stepM, bind_apply, trailertyp_rep h]; rfl
        rw [hst] at r2
        cases r2
        exact hw0 ▸ (((at_errorM (g' := g0) hat rfl rfl).after (Go.Goes.fall (l := .stCase 0) (c := Gen.GoLines.stCase0.1) rfl rfl) (Nat.le_refl _)).after hgo (by simp only [List.length_cons]; omega))
      · exact (simM (extra := extra) (order := order) hP n rest b cs g0 (by omega) hcs hat (hw0 ▸ h) hag hb (hw0 ▸ r2)).after hgo (by simp only [List.length_cons]; omega)
  obtain ⟨k, g', hk, h1, h2, h3, h4⟩ := key
  obtain ⟨f, hf⟩ : ∃ f, 3 * data.length + 5 = k + (f + 1) := ⟨3 * data.length + 5 - k - 1, by omega⟩
  have hrun : (memSem (call NB (n + 2)) a).run Gen.GoLines.prog (3 * data.length + 5) .entry g = .returned .pPe { g' with x := { g'.x with scs := g'.cs, sp := g'.p, spe := g'.pe, seof := g'.eof } } := by
    rw [hf, h1 (f + 1)]
    exact Go.run_ret (cn := Gen.GoLines.out) rfl rfl f
  rw [hg] at hrun
  simp only [execGo, hrun, h2, h3, h4]

theorem line_count {t : UInt8} {l : Bytes} (h : NonTransparent.IsLine t l) : l.count t = 1 := by
  obtain ⟨body, rfl, hb⟩ := h
  simp [List.count_eq_zero.mpr hb]

include hP in
/-- the loop over the chunks -/
theorem drive_sim (n : Nat) (d : Driver) (stop : ReadErr) (last : Bytes) : ∀ (cs : List Bytes) (st : Nat) {w : W EN} {m : Machine}, st ≤ 3 → RepN MR lo w a mi em pre m → Agrees m → (∀ l ∈ cs, NonTransparent.IsLine m.trailer l) →
    m.trailer ∉ last → m.candidate.length + cs.flatten.length < 2 ^ 63 →
    ∃ m' w', NonTransparent.drive d stop last cs st m = some m' ∧ driveM (call NB (n + 2)) d a stop last cs st w = some (.ok () w') ∧ RepN MR lo w' a mi em pre m' ∧ StepN MR a mi w w' ∧ Same m m' ∧
      m'.candidate.length ≤ m.candidate.length + cs.flatten.length
  | [], st, w, m, hst, h, hag, hl, hlast, hb => by
    by_cases hn : last = []
    · simp only [NonTransparent.drive, driveM, if_pos hn]
      cases he : d.errOnEmpty with
      | true =>
        obtain ⟨w1, q1, q2, q3⟩ := onErr_call (extra := extra) (order := order) (parse5 := parse5) (n + 1) h [] stop
        exact ⟨_, w1, rfl, by simp only [if_true, bind_apply, q1, pure_apply], by simpa using q2, q3, ⟨rfl, rfl⟩, Nat.le_add_right _ _⟩
      | false =>
        have q := onEOF_call (extra := extra) (order := order) (parse5 := parse5) (a := a) (w := w) (n + 1) (.str [])
        exact ⟨_, w, rfl, by simp only [Bool.false_eq_true, if_false, bind_apply, q, pure_apply], by simpa [Machine.onEOF] using h, .refl, ⟨rfl, rfl⟩, Nat.le_add_right _ _⟩
    · simp only [NonTransparent.drive, driveM, if_neg hn]
      cases he : d.execLast with
      | true =>
        have hz : last.count m.trailer = 0 := List.count_eq_zero.mpr hlast
        obtain ⟨cs2, ok, m2, w2, r1, r2, r3, r4, r5, r6⟩ := execGo_sim (extra := extra) (order := order) hP n last st hst h hag (by rw [hz]; simp at hb ⊢; exact hb)
        rw [hz] at r6
        obtain ⟨w3, q1, q2, q3⟩ := onErr_call (extra := extra) (order := order) (parse5 := parse5) (n + 1) r3 last stop
        exact ⟨_, w3, by simp only [if_true, NonTransparent.exec, r1], by simp only [if_true, bind_apply, r2, q1, pure_apply], q2, r4.trans q3, r5, by simpa [Machine.onErr] using r6⟩
      | false =>
        obtain ⟨w3, q1, q2, q3⟩ := onErr_call (extra := extra) (order := order) (parse5 := parse5) (n + 1) h last stop
        exact ⟨_, w3, by simp only [Bool.false_eq_true, if_false], by simp only [Bool.false_eq_true, if_false, bind_apply, q1, pure_apply], q2, q3, ⟨rfl, rfl⟩, Nat.le_add_right _ _⟩
  | c :: rest, st, w, m, hst, h, hag, hl, hlast, hb => by
    have hone := line_count (hl c (by simp))
    simp only [List.flatten_cons, List.length_append] at hb ⊢
    obtain ⟨cs2, ok, m2, w2, r1, r2, r3, r4, r5, r6⟩ := execGo_sim (extra := extra) (order := order) hP n c st hst h hag (by rw [hone]; omega)
    rw [hone] at r6
    simp only [NonTransparent.drive, driveM, NonTransparent.exec, r1, bind_apply, r2]
    by_cases hc : ok = false ∧ d.stopOnFail = true
    · simp only [if_pos hc]
      exact ⟨m2, w2, rfl, rfl, r3, r4, r5, by omega⟩
    · simp only [if_neg hc]
      obtain ⟨m3, w3, s1, s2, s3, s4, s5, s6⟩ := drive_sim n d stop last rest cs2 (Go.RL.loop_state _ hst r1) r3 (r5.agrees hag) (by rw [r5.2]; exact fun l hl' => hl l (by simp [hl'])) (by rw [r5.2]; exact hlast) (by omega)
      exact ⟨m3, w3, s1, s2, s3, r4.trans s4, r5.trans s5, by omega⟩

end

end Verif.Mini
