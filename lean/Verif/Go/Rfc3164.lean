import Verif.Go.Check
import Verif.Gen.GoRfc3164
import Verif.Rfc3164.Machine

/-!
# `machine.Parse` of `rfc3164/machine.go` as it is written

The meaning of the statements of `Verif.Gen.GoRfc3164.prog`, the statements of each action of the tables `Verif.Gen.Rfc3164.table` and
`tableR`, and the proof that the program has the shape that makes it do what the tables say.
-/

namespace Verif.Go.R3
open Verif.Rfc3164 (M Out ErrKind Opts)
open Verif.Gen.Rfc3164 (Act)
open Verif.Gen.GoRfc3164 (A C R K prog)

/-- The variables of `Parse` and the fields of `machine` (rfc3164/machine.go:29-40) that are not in `GS`. `o` are the options
(`bestEffort`, `yyyy`, `rfc3339`, `loc`, `timezone`); `e` is `e != nil`; `tLoc` is the location of `t`. -/
structure V where
  pb : Int := 0
  err : Option (ErrKind × Int) := none
  o : Opts := {}
  output : Out := {}
  t : GoTime.Time := Rfc3164.zeroTime
  tLoc : GoTime.Location := GoTime.utc
  e : Bool := false

/-- `data[a:b]`; `none` is the panic "slice bounds out of range" -/
def sliceInt (data : Bytes) (a b : Int) : Option Bytes :=
  if 0 ≤ a ∧ a ≤ b ∧ b ≤ data.length then some ((data.drop a.toNat).take (b - a).toNat) else none

/-- `m.text()` (rfc3164/machine.go:92-94) -/
def text (g : GS V) : Option Bytes := sliceInt g.data g.x.pb g.p

/-- `m.err = fmt.Errorf(kind, m.p)` -/
def setErr (k : ErrKind) (g : GS V) : Option (GS V) := some { g with x := { g.x with err := some (k, g.p) } }

/-- an assignment to a field of `output` that uses `m.text()` -/
def fromText (g : GS V) (f : Bytes → Out → Out) : Option (GS V) :=
  (text g).map fun t => { g with x := { g.x with output := f t g.x.output } }

/-- The statements (their Go text is at the constructors of `Verif.Gen.GoRfc3164.A`). `time.ParseInLocation` and `In` panic when the
location is nil. The location that `time.Parse(time.RFC3339, _)` gives its result is never used; the model writes UTC. -/
def stmt : A → GS V → Option (GS V)
  | .pbZero, g => some { g with x := { g.x with pb := 0 } }
  | .errNil, g => some { g with x := { g.x with err := none } }
  | .outputNew, g => some { g with x := { g.x with output := {} } }
  | .pbP, g => some { g with x := { g.x with pb := g.p } }
  | .priority, g => fromText g fun t o => { o with priority := Common.toU8 (Common.unsafeDec t) }
  | .prioritySet, g => some { g with x := { g.x with output := { g.x.output with prioritySet := true } } }
  | .stampParse, g => (text g).map fun t => match Rfc3164.parseStamp t with
    | some tm => { g with x := { g.x with t := tm, tLoc := GoTime.utc, e := false } }
    | none => { g with x := { g.x with t := Rfc3164.zeroTime, tLoc := GoTime.utc, e := true } }
  | .rfc3339Parse, g => (text g).map fun t => match GoTime.parseRFC3339Micro t with
    | some tm => { g with x := { g.x with t := tm, tLoc := GoTime.utc, e := false } }
    | none => { g with x := { g.x with t := Rfc3164.zeroTime, tLoc := GoTime.utc, e := true } }
  | .parseInLocation, g => g.x.o.timezone.bind fun l => (text g).map fun t => match Rfc3164.parseStamp t with
    | some tm => { g with x := { g.x with t := Rfc3164.inZone tm l, tLoc := l } }
    | none => { g with x := { g.x with t := Rfc3164.zeroTime, tLoc := GoTime.utc } }
  | .timestampAddDate, g =>
      some { g with x := { g.x with output := { g.x.output with timestamp := g.x.t.addYears g.x.o.yyyy g.x.tLoc } } }
  | .timestampIn, g => g.x.o.loc.map fun l =>
      { g with x := { g.x with output := { g.x.output with timestamp := g.x.output.timestamp.inLoc l } } }
  | .timestamp, g => some { g with x := { g.x with output := { g.x.output with timestamp := g.x.t } } }
  | .timestampSet, g => some { g with x := { g.x with output := { g.x.output with timestampSet := true } } }
  | .errTime, g => setErr .timeParse g
  | .hostname, g => fromText g fun t o => { o with hostname := t }
  | .tag, g => fromText g fun t o => { o with tag := t }
  | .content, g => fromText g fun t o => { o with content := t }
  | .message, g => fromText g fun t o => { o with message := t }
  | .errPrival, g => setErr .prival g
  | .errPri, g => setErr .pri g
  | .errTimestamp, g => setErr .timestamp g
  | .errRFC3339, g => setErr .rfc3339 g
  | .errHostname, g => setErr .hostname g
  | .errTag, g => setErr .tag g

/-- The conditions. -/
def cond : C → GS V → Option Bool
  | .eNotNil, g => some g.x.e
  | .rfc3339, g => some g.x.o.rfc3339
  | .hasTimezone, g => some g.x.o.timezone.isSome
  | .hasLoc, g => some g.x.o.loc.isSome
  | .bestEffortMinimal, g => some (g.x.o.bestEffort && g.x.output.minimal)

/-- The meaning of the statements of the program (rfc3164/machine.go:97-7263). -/
def sem : Sem A C V := ⟨stmt, cond⟩

/-- What the return statements return. -/
def value : R → GS V → Option Base × Option (ErrKind × Int)
  | .partialOutput, g => (some g.x.output.export, g.x.err)
  | .failed, g => (none, g.x.err)
  | .complete, g => (some g.x.output.export, none)

/-! ## Actions -/

/-- `(m.p)--; { goto st373 }` -/
def hold (k : K) : K := .stmt .decP (.goto (.st 373) k)

/-- The statements of each action (the Go text is at the constructors of `Verif.Gen.Rfc3164.Act`). -/
def code : Act → K → K
  | .mark, k => .stmt (.prim .pbP) k
  | .setPrival, k => .stmt (.prim .priority) (.stmt (.prim .prioritySet) k)
  | .setTimestamp, k => .stmt (.prim .stampParse) (.ifElse (.prim .eNotNil) (.stmt (.prim .errTime) (hold .done))
      (.ifElse (.prim .hasTimezone) (.stmt (.prim .parseInLocation) .done) .done (.stmt (.prim .timestampAddDate)
        (.ifElse (.prim .hasLoc) (.stmt (.prim .timestampIn) .done) .done (.stmt (.prim .timestampSet) .done)))) k)
  | .setRfc3339, k => .stmt (.prim .rfc3339Parse) (.ifElse (.prim .eNotNil) (.stmt (.prim .errTime) (hold .done))
      (.stmt (.prim .timestamp) (.stmt (.prim .timestampSet) .done)) k)
  | .setHostname, k => .stmt (.prim .hostname) k
  | .setTag, k => .stmt (.prim .tag) k
  | .setContent, k => .stmt (.prim .content) k
  | .setMessage, k => .stmt (.prim .message) k
  | .errPrival, k => .stmt (.prim .errPrival) (hold k)
  | .errPri, k => .stmt (.prim .errPri) (hold k)
  | .errTimestamp, k => .stmt (.prim .errTimestamp) (hold k)
  | .errRfc3339, k => .stmt (.prim .errRFC3339) (hold k)
  | .errHostname, k => .stmt (.prim .errHostname) (hold k)
  | .errTag, k => .stmt (.prim .errTag) (hold k)

/-- The variables represent the state `m` of the table model with options `o`. -/
structure Rx (o : Opts) (m : M) (x : V) : Prop where
  pb : x.pb = m.pb
  err : x.err = m.err.map fun e => (e.kind, (e.col : Int))
  o : x.o = o
  output : x.output = m.out

/-- the condition in the dispatch code -/
def env (r : Bool) : C → Option Bool
  | .rfc3339 => some r
  | _ => none

def U (o : Opts) : Setup A C R V Act M where
  P := prog
  S := sem
  T := Rfc3164.T o
  act := Rfc3164.act o
  adv := Rfc3164.adv
  code := code
  pos := fun m => m.p
  dat := fun m => m.data
  rx := Rx o
  env := env o.rfc3339
  last := 373

/-! ## The blocks of the program, checked by the kernel -/

set_option maxRecDepth 100000 in
theorem sts_ok0 : (U {}).stsB [1] = true := by decide +kernel

theorem sts_ok (o : Opts) : (U o).stsB [1] = true := sts_ok0

set_option maxRecDepth 100000 in
theorem cases_ok0 : checkRows ((U {}).caseB [1]) 0 Gen.Rfc3164.table = true := by decide +kernel

set_option maxRecDepth 100000 in
theorem cases_ok1 : checkRows ((U { rfc3339 := true }).caseB [1]) 0 Gen.Rfc3164.tableR = true := by decide +kernel

theorem cases_ok (o : Opts) : checkRows ((U o).caseB [1]) 0 (if o.rfc3339 then Gen.Rfc3164.tableR else Gen.Rfc3164.table) = true := by
  have h : (U o).caseB [1] = (U { rfc3339 := o.rfc3339 }).caseB [1] := rfl
  rw [h]
  cases o.rfc3339 with
  | true => exact cases_ok1
  | false => exact cases_ok0

set_option maxRecDepth 100000 in
theorem eof_ok0 : checkRows ((U {}).eofB Gen.GoRfc3164.testEof.1) 0 Gen.Rfc3164.table = true := by decide +kernel

set_option maxRecDepth 100000 in
theorem eof_ok1 : checkRows ((U {}).eofB Gen.GoRfc3164.testEof.1) 0 Gen.Rfc3164.tableR = true := by decide +kernel

theorem eof_ok (o : Opts) :
    checkRows ((U o).eofB Gen.GoRfc3164.testEof.1) 0 (if o.rfc3339 then Gen.Rfc3164.tableR else Gen.Rfc3164.table) = true := by
  have h : (U o).eofB Gen.GoRfc3164.testEof.1 = (U {}).eofB Gen.GoRfc3164.testEof.1 := rfl
  rw [h]
  cases o.rfc3339 with
  | true => exact eof_ok1
  | false => exact eof_ok0

/-! ## The statements of an action do what the action does -/

theorem sliceInt_eq (data : Bytes) (a b : Nat) : sliceInt data a b = Rfc3164.slice data a b := by
  unfold sliceInt Rfc3164.slice
  by_cases h : a ≤ b ∧ b ≤ data.length
  · rw [if_pos h, if_pos ⟨by omega, by omega, by omega⟩]
    have : ((b : Int) - a).toNat = b - a := by omega
    rw [this, Int.toNat_natCast]
  · rw [if_neg h, if_neg (by omega)]

theorem hasSt (o : Opts) : (U o).HasSt 373 :=
  Setup.stsB_sound (sts_ok o) (by decide) (Nat.le_refl 373) rfl

/-- the variables of state `m` -/
def vars (o : Opts) (m : M) (v : V) : V := { v with pb := m.pb, err := m.err.map fun e => (e.kind, (e.col : Int)), o := o, output := m.out }

theorem Rx_vars (o : Opts) (m : M) (v : V) : Rx o m (vars o m v) := ⟨rfl, rfl, rfl, rfl⟩

theorem Rx.eq {o : Opts} {m : M} {x : V} (h : Rx o m x) : x = vars o m x := by
  obtain ⟨h1, h2, h3, h4⟩ := h
  cases x
  simp only at h1 h2 h3 h4
  subst h1 h2 h3 h4
  rfl

/-- the variables of state `m`, with the others as in `g` -/
def gs (o : Opts) (m : M) (g : GS V) : GS V :=
  { g with data := m.data, p := m.p, pe := m.data.length, eof := m.data.length, x := vars o m g.x }

theorem gs_eq {o : Opts} {m : M} {g : GS V} (h : (U o).Rel m g) : g = gs o m g := by
  obtain ⟨h1, h2, h3, h4, h5⟩ := h
  have h5' := Rx.eq h5
  obtain ⟨inp, data, p, pe, eof, cs, w, x⟩ := g
  simp only at h1 h2 h3 h4 h5'
  subst h1 h2 h3 h4
  unfold gs
  rw [← h5']
  rfl

theorem text_gs (o : Opts) (m : M) (g : GS V) : text (gs o m g) = m.text := sliceInt_eq m.data m.pb m.p

/-- what `ActOK` says about one call -/
abbrev Does (o : Opts) (a : Act) (m : M) (g : GS V) (k : K) : Prop :=
  match (U o).act a m with
  | .next m' => ∃ x', (U o).Rel m' { gs o m g with x := x' } ∧ (U o).S.exec ((U o).code a k) (gs o m g) = (U o).S.exec k { gs o m g with x := x' }
  | .jump m' s => (U o).HasSt s ∧ ∃ x', (U o).Rel m' { gs o m g with x := x' } ∧
      (U o).S.exec ((U o).code a k) (gs o m g) = .goto (.st s) { gs o m g with x := x', p := (gs o m g).p - 1 }
  | .panic => (U o).S.exec ((U o).code a k) (gs o m g) = .panic

section
variable {o : Opts} {a : Act} {m : M} {g : GS V} {k : K}

theorem next (m' : M) (x' : V) (ha : Rfc3164.act o a m = .next m') (hp : m'.p = m.p) (hd : m'.data = m.data)
    (hx : Rx o m' x') (he : sem.exec (code a k) (gs o m g) = sem.exec k { gs o m g with x := x' }) : Does o a m g k := by
  have : (U o).act a m = .next m' := ha
  simp only [Does, this]
  exact ⟨x', ⟨congrArg Int.ofNat hp.symm, hd.symm, congrArg (Int.ofNat ∘ List.length) hd.symm, congrArg (Int.ofNat ∘ List.length) hd.symm, hx⟩, he⟩

theorem jump (m' : M) (x' : V) (ha : Rfc3164.act o a m = .jump m' 373) (hp : m'.p = m.p)
    (hd : m'.data = m.data) (hx : Rx o m' x') (he : sem.exec (code a k) (gs o m g) = .goto (.st 373) { gs o m g with x := x', p := (gs o m g).p - 1 }) :
    Does o a m g k := by
  have : (U o).act a m = .jump m' 373 := ha
  simp only [Does, this]
  exact ⟨hasSt o, x', ⟨congrArg Int.ofNat hp.symm, hd.symm, congrArg (Int.ofNat ∘ List.length) hd.symm, congrArg (Int.ofNat ∘ List.length) hd.symm, hx⟩, he⟩

theorem panic (ha : Rfc3164.act o a m = .panic) (he : sem.exec (code a k) (gs o m g) = .panic) : Does o a m g k := by
  have : (U o).act a m = .panic := ha
  simp only [Does, this]
  exact he

end

/-- an action that sets a field of `output` from the text -/
theorem textual {o : Opts} {a : Act} {st : A} {f : Bytes → Out → Out} (hc : ∀ k, code a k = .stmt (.prim st) k)
    (hs : ∀ g, stmt st g = fromText g f) (ha : ∀ m, Rfc3164.act o a m = Rfc3164.withText m fun t => .next { m with out := f t m.out })
    (m : M) (g : GS V) (k : K) : Does o a m g k := by
  cases hT : m.text with
  | none =>
    refine panic (by rw [ha, Rfc3164.withText, hT]) ?_
    rw [hc]
    simp [Sem.exec, Sem.simple, sem, hs, fromText, text_gs, hT]
  | some t =>
    refine next { m with out := f t m.out } { vars o m g.x with output := f t m.out } (by rw [ha, Rfc3164.withText, hT]) rfl rfl
      ⟨rfl, rfl, rfl, rfl⟩ ?_
    rw [hc]
    simp only [Sem.exec, Sem.simple, sem, hs, fromText, text_gs, hT, Option.map_some]
    rfl

/-- an action that only fails -/
theorem failing {o : Opts} {a : Act} {st : A} {kind : ErrKind} (hc : ∀ k, code a k = .stmt (.prim st) (hold k))
    (hs : ∀ g, stmt st g = setErr kind g) (ha : ∀ m, Rfc3164.act o a m = Rfc3164.fail kind m)
    (m : M) (g : GS V) (k : K) : Does o a m g k := by
  refine jump { m with err := some ⟨kind, m.p⟩ } { vars o m g.x with err := some (kind, (m.p : Int)) } (ha m) rfl rfl ⟨rfl, rfl, rfl, rfl⟩ ?_
  rw [hc]
  simp only [Sem.exec, Sem.simple, sem, hs, setErr, hold]
  rfl

theorem does (o : Opts) (a : Act) (m : M) (g : GS V) (k : K) : Does o a m g k := by
  have ht := text_gs o m g
  cases a with
  | mark => exact next { m with pb := m.p } { vars o m g.x with pb := m.p } rfl rfl rfl ⟨rfl, rfl, rfl, rfl⟩ rfl
  | setPrival =>
    cases hT : m.text with
    | none =>
      refine panic (by simp [Rfc3164.act, Rfc3164.withText, hT]) ?_
      simp [code, Sem.exec, Sem.simple, sem, stmt, fromText, ht, hT]
    | some t =>
      refine next { m with out := { m.out with priority := Common.toU8 (Common.unsafeDec t), prioritySet := true } }
        { vars o m g.x with output := { m.out with priority := Common.toU8 (Common.unsafeDec t), prioritySet := true } }
        (by simp [Rfc3164.act, Rfc3164.withText, hT]) rfl rfl ⟨rfl, rfl, rfl, rfl⟩ ?_
      simp only [code, Sem.exec, Sem.simple, sem, stmt, fromText, ht, hT, Option.map_some]
      rfl
  | setHostname => exact textual (f := fun t o => { o with hostname := t }) (fun _ => rfl) (fun _ => rfl) (fun _ => rfl) m g k
  | setTag => exact textual (f := fun t o => { o with tag := t }) (fun _ => rfl) (fun _ => rfl) (fun _ => rfl) m g k
  | setContent => exact textual (f := fun t o => { o with content := t }) (fun _ => rfl) (fun _ => rfl) (fun _ => rfl) m g k
  | setMessage => exact textual (f := fun t o => { o with message := t }) (fun _ => rfl) (fun _ => rfl) (fun _ => rfl) m g k
  | setRfc3339 =>
    cases hT : m.text with
    | none =>
      refine panic (by simp [Rfc3164.act, Rfc3164.withText, hT]) ?_
      simp [code, Sem.exec, Sem.simple, sem, stmt, ht, hT]
    | some t =>
      cases hP : GoTime.parseRFC3339Micro t with
      | none =>
        refine jump { m with err := some ⟨.timeParse, m.p⟩ }
          { vars o m g.x with err := some (.timeParse, (m.p : Int)), t := Rfc3164.zeroTime, tLoc := GoTime.utc, e := true }
          (by simp [Rfc3164.act, Rfc3164.withText, hT, hP, Rfc3164.fail]) rfl rfl ⟨rfl, rfl, rfl, rfl⟩ ?_
        simp only [code, Sem.exec, Sem.simple, Sem.test, sem, stmt, cond, ht, hT, hP, Option.map_some, setErr, hold]
        rfl
      | some tm =>
        refine next { m with out := { m.out with timestamp := tm, timestampSet := true } }
          { vars o m g.x with output := { m.out with timestamp := tm, timestampSet := true }, t := tm, tLoc := GoTime.utc, e := false }
          (by simp [Rfc3164.act, Rfc3164.withText, hT, hP]) rfl rfl ⟨rfl, rfl, rfl, rfl⟩ ?_
        simp only [code, Sem.exec, Sem.simple, Sem.test, sem, stmt, cond, ht, hT, hP, Option.map_some]
        rfl
  | setTimestamp =>
    cases hT : m.text with
    | none =>
      refine panic (by simp [Rfc3164.act, Rfc3164.withText, hT]) ?_
      simp [code, Sem.exec, Sem.simple, sem, stmt, ht, hT]
    | some t =>
      have ht' : sliceInt m.data m.pb m.p = some t := by rw [← hT]; exact ht
      cases hP : Rfc3164.parseStamp t with
      | none =>
        refine jump { m with err := some ⟨.timeParse, m.p⟩ }
          { vars o m g.x with err := some (.timeParse, (m.p : Int)), t := Rfc3164.zeroTime, tLoc := GoTime.utc, e := true }
          (by simp [Rfc3164.act, Rfc3164.withText, hT, hP, Rfc3164.fail]) rfl rfl ⟨rfl, rfl, rfl, rfl⟩ ?_
        simp only [code, Sem.exec, Sem.simple, Sem.test, sem, stmt, cond, ht, hT, hP, Option.map_some, setErr, hold]
        rfl
      | some tm =>
        have ha : Rfc3164.act o .setTimestamp m = .next { m with out := { m.out with timestamp := Rfc3164.adjust o tm, timestampSet := true } } := by
          simp [Rfc3164.act, Rfc3164.withText, hT, hP]
        cases hz : o.timezone with
        | none =>
          refine next _ { vars o m g.x with output := { m.out with timestamp := Rfc3164.adjust o tm, timestampSet := true },
                                            t := tm, tLoc := GoTime.utc, e := false } ha rfl rfl ⟨rfl, rfl, rfl, rfl⟩ ?_
          cases hl : o.loc <;>
            simp [code, Sem.exec, Sem.simple, Sem.test, sem, stmt, cond, text, gs, vars, ht', hP, hz, hl, Rfc3164.adjust]
        | some z =>
          refine next _ { vars o m g.x with output := { m.out with timestamp := Rfc3164.adjust o tm, timestampSet := true },
                                            t := Rfc3164.inZone tm z, tLoc := z, e := false } ha rfl rfl ⟨rfl, rfl, rfl, rfl⟩ ?_
          cases hl : o.loc <;>
            simp [code, Sem.exec, Sem.simple, Sem.test, sem, stmt, cond, text, gs, vars, ht', hP, hz, hl, Rfc3164.adjust]
  | errPrival => exact failing (fun _ => rfl) (fun _ => rfl) (fun _ => rfl) m g k
  | errPri => exact failing (fun _ => rfl) (fun _ => rfl) (fun _ => rfl) m g k
  | errTimestamp => exact failing (fun _ => rfl) (fun _ => rfl) (fun _ => rfl) m g k
  | errRfc3339 => exact failing (fun _ => rfl) (fun _ => rfl) (fun _ => rfl) m g k
  | errHostname => exact failing (fun _ => rfl) (fun _ => rfl) (fun _ => rfl) m g k
  | errTag => exact failing (fun _ => rfl) (fun _ => rfl) (fun _ => rfl) m g k

theorem act_ok (o : Opts) (a : Act) : (U o).ActOK a := by
  intro m g k hr
  rw [gs_eq hr]
  have := does o a m g k
  revert this
  unfold Does
  cases (U o).act a m <;> exact id

theorem shape (o : Opts) : (U o).Shape := by
  refine Setup.shape (noSt := [1]) (rows := if o.rfc3339 then Gen.Rfc3164.tableR else Gen.Rfc3164.table) (ce := Gen.GoRfc3164.testEof.1)
    (fun n h => ?_) (sts_ok o) (cases_ok o) (eof_ok o) rfl rfl
    (fun _ => rfl) (fun _ => rfl) (fun m x h => ⟨h.pb, h.err, h.o, h.output⟩)
    (act_ok o) (fun m g c v hx hv => ?_)
  · have hn : n < (if o.rfc3339 then Gen.Rfc3164.tableR else Gen.Rfc3164.table).length := by
      refine Nat.lt_of_le_of_lt h ?_
      show 373 < _
      cases o.rfc3339 <;> decide +kernel
    rw [List.getElem?_eq_getElem hn]
    show _ = some (Rfc3164.T o n)
    rw [Rfc3164.T, List.getD_eq_getElem?_getD, List.getElem?_eq_getElem hn]
    rfl
  · have hv' : env o.rfc3339 c = some v := hv
    cases c with
    | rfc3339 =>
      have ho : g.x.o = o := hx.o
      show some g.x.o.rfc3339 = some v
      rw [ho]
      exact hv'
    | _ => cases hv'

/-! ## The whole function -/

/-- The variables at the start of a call, whatever the previous call left in them: only the argument and the options matter. -/
structure Starts (o : Opts) (input : Bytes) (g : GS V) : Prop where
  input : g.input = input
  o : g.x.o = o

/-- the variables after the first statements (rfc3164/machine.go:98-112) -/
def begun (g : GS V) : GS V :=
  { g with data := g.input, p := 0, pe := g.input.length, eof := g.input.length, cs := 1, widec := 0,
           x := { g.x with pb := 0, err := none, output := {} } }

theorem entry_exec (g : GS V) : sem.exec Gen.GoRfc3164.entry.1 g =
    .goto (if g.input.length = 0 then .testEof else .stCase 1) (begun g) := by
  by_cases h : g.input.length = 0
  · rw [if_pos h]
    have : decide ((0 : Int) = (g.input.length : Int)) = true := by simp; omega
    simp only [Gen.GoRfc3164.entry, Sem.exec, Sem.simple, Sem.test, sem, stmt, this]
    rfl
  · rw [if_neg h]
    have : decide ((0 : Int) = (g.input.length : Int)) = false := by simp; omega
    simp only [Gen.GoRfc3164.entry, Sem.exec, Sem.simple, Sem.test, sem, stmt, this]
    rfl

theorem begun_rel {o : Opts} {m : M} {input : Bytes} {g : GS V} (h : Starts o input g) : (U o).Rel (Rfc3164.reset m input) (begun g) := by
  obtain ⟨h1, h2⟩ := h
  subst h1
  exact ⟨rfl, rfl, rfl, rfl, ⟨rfl, rfl, h2, rfl⟩⟩

/-- the end of the function (rfc3164/machine.go:7253-7263) -/
theorem out_exec {o : Opts} {m : M} {g : GS V} (h : (U o).Rel m g) : ∃ r, sem.exec Gen.GoRfc3164.out.1 g = .ret r g ∧
    value r g = ((Rfc3164.finish o g.cs m).msg, (Rfc3164.finish o g.cs m).err.map fun e => (e.kind, (e.col : Int))) := by
  have hb := h.x.o
  have ho := h.x.output
  have he := h.x.err
  by_cases hc : g.cs < 333 ∨ g.cs = 373
  · have hc' : (decide (g.cs < 333) || decide (g.cs = 373)) = true := by simpa using hc
    by_cases hm : (o.bestEffort && m.out.minimal) = true
    · refine ⟨.partialOutput, ?_, ?_⟩
      · simp only [Gen.GoRfc3164.out, Sem.exec, Sem.test, sem, cond, hc', hb, ho, hm]
      · simp only [value, Rfc3164.finish, if_pos hc, hm, if_true, ho, he]
    · have hm' : (o.bestEffort && m.out.minimal) = false := by simpa using hm
      refine ⟨.failed, ?_, ?_⟩
      · simp only [Gen.GoRfc3164.out, Sem.exec, Sem.test, sem, cond, hc', hb, ho, hm']
      · simp only [value, Rfc3164.finish, if_pos hc, hm', he]
        rfl
  · have hc' : (decide (g.cs < 333) || decide (g.cs = 373)) = false := by
      rw [← Bool.not_eq_true]
      simpa using hc
    refine ⟨.complete, ?_, ?_⟩
    · simp only [Gen.GoRfc3164.out, Sem.exec, Sem.test, sem, hc']
    · simp only [value, Rfc3164.finish, if_neg hc, ho, Option.map_none]

/-- A call of `Parse`: what the table model says, within a linear number of blocks. -/
theorem run_parse {o : Opts} {m m' : M} {input : Bytes} {res : Rfc3164.Result} {g : GS V} (hg : Starts o input g)
    (h : Rfc3164.parse o m input = some (res, m')) (fuel : Nat) (hf : 13 * input.length + 17 ≤ fuel) :
    ∃ r g', sem.run prog fuel .entry g = .returned r g' ∧ value r g' = (res.msg, res.err.map fun e => (e.kind, (e.col : Int))) ∧
      (U o).Rel m' g' := by
  unfold Rfc3164.parse at h
  cases hrun : Fsm.run (Rfc3164.T o) (Rfc3164.act o) Rfc3164.adv input 1 (Rfc3164.reset m input) with
  | panic => rw [hrun] at h; cases h
  | loop => rw [hrun] at h; cases h
  | done cs m1 =>
    rw [hrun] at h
    simp only [Option.some.injEq, Prod.mk.injEq] at h
    obtain ⟨rfl, rfl⟩ := h
    have hgo : (U o).S.Goes (U o).P 1 .entry g (if input.length = 0 then .testEof else .stCase 1) (begun g) :=
      Goes.goto' (cn := Gen.GoRfc3164.entry) rfl (by
        show sem.exec Gen.GoRfc3164.entry.1 g = _
        rw [entry_exec, hg.input])
    have mid := (shape o).whole (res := .done cs m1) (Nat.le_refl 1) (by show 1 ≤ 373; omega) (begun_rel hg) rfl (Nat.zero_le _) rfl hgo hrun
    exact mid.returns (cn := Gen.GoRfc3164.out) rfl
      (fun r g' => value r g' = ((Rfc3164.finish o cs m1).msg, (Rfc3164.finish o cs m1).err.map fun e => (e.kind, (e.col : Int))) ∧ (U o).Rel m1 g')
      (fun g' hr' hcs => by
        obtain ⟨r, i1, i2⟩ := out_exec hr'
        exact ⟨r, g', i1, by rw [i2, hcs], hr'⟩) fuel hf

end Verif.Go.R3
