import Verif.Go.Check
import Verif.Gen.GoRfc5424
import Verif.Rfc5424.Machine

/-!
# `machine.Parse` of `rfc5424/machine.go` as it is written

The meaning of the statements of `Verif.Gen.GoRfc5424.prog`, the statements of each action of the table `Verif.Gen.Rfc5424.table`, and the
proof that the program has the shape that makes it do what the table says.
-/

namespace Verif.Go.R5
open Verif.Rfc5424 (M Out ErrKind SD SyslogMessage)
open Verif.Gen.Rfc5424 (Act)
open Verif.Gen.GoRfc5424 (A C R K prog)

/-- The variables of `Parse` and the fields of `machine` (rfc5424/machine.go:60-72) that are not in `GS`. `e` is `e != nil`. -/
structure V where
  pb : Int := 0
  err : Option (ErrKind × Int) := none
  currentelem : Bytes := []
  currentparam : Bytes := []
  msgat : Int := 0
  backslashat : List Int := []
  bestEffort : Bool := false
  compliantMsg : Bool := false
  output : Out := {}
  t : GoTime.Time := Rfc5424.zeroTime
  e : Bool := false
  ok : Bool := false
  id : Bytes := []
  text : Bytes := []

/-- `data[a:b]`; `none` is the panic "slice bounds out of range" -/
def sliceInt (data : Bytes) (a b : Int) : Option Bytes :=
  if 0 ≤ a ∧ a ≤ b ∧ b ≤ data.length then some ((data.drop a.toNat).take (b - a).toNat) else none

/-- `m.text()` (rfc5424/machine.go:102-104) -/
def text (g : GS V) : Option Bytes := sliceInt g.data g.x.pb g.p

/-- `m.err = fmt.Errorf(kind+ColumnPositionTemplate, m.p)` -/
def setErr (k : ErrKind) (g : GS V) : Option (GS V) := some { g with x := { g.x with err := some (k, g.p) } }

/-- an assignment to a field of `output` that uses `m.text()` -/
def fromText (g : GS V) (f : Bytes → Out → Out) : Option (GS V) :=
  (text g).map fun t => { g with x := { g.x with output := f t g.x.output } }

/-- The statements (their Go text is at the constructors of `Verif.Gen.GoRfc5424.A`). A nil map reads as an empty one; an assignment to
it panics, `delete` does nothing. -/
def stmt : A → GS V → Option (GS V)
  | .pbZero, g => some { g with x := { g.x with pb := 0 } }
  | .msgatZero, g => some { g with x := { g.x with msgat := 0 } }
  | .backslashatNew, g => some { g with x := { g.x with backslashat := [] } }
  | .errNil, g => some { g with x := { g.x with err := none } }
  | .outputNew, g => some { g with x := { g.x with output := {} } }
  | .pbP, g => some { g with x := { g.x with pb := g.p } }
  | .msgatP, g => some { g with x := { g.x with msgat := g.p } }
  | .backslashatAppend, g => some { g with x := { g.x with backslashat := g.x.backslashat ++ [g.p] } }
  | .priority, g => fromText g fun t o => { o with priority := Common.toU8 (Common.unsafeDec t) }
  | .prioritySet, g => some { g with x := { g.x with output := { g.x.output with prioritySet := true } } }
  | .version, g => fromText g fun t o => { o with version := Common.toU16 (Common.unsafeDec t) }
  | .timeParse, g => (text g).map fun t => match GoTime.parseRFC3339Micro t with
    | some tm => { g with x := { g.x with t := tm, e := false } }
    | none => { g with x := { g.x with t := Rfc5424.zeroTime, e := true } }
  | .timestamp, g => some { g with x := { g.x with output := { g.x.output with timestamp := g.x.t } } }
  | .timestampSet, g => some { g with x := { g.x with output := { g.x.output with timestampSet := true } } }
  | .errTime, g => setErr .timeParse g
  | .hostname, g => fromText g fun t o => { o with hostname := t }
  | .appname, g => fromText g fun t o => { o with appname := t }
  | .procID, g => fromText g fun t o => { o with procID := t }
  | .msgID, g => fromText g fun t o => { o with msgID := t }
  | .message, g => fromText g fun t o => { o with message := t }
  | .messagePartial, g => (sliceInt g.data g.x.msgat g.p).map fun t =>
      { g with x := { g.x with output := { g.x.output with message := t } } }
  | .sdNew, g => some { g with x := { g.x with output := { g.x.output with structuredData := some [] } } }
  | .sdLookup, g => (text g).map fun t =>
      { g with x := { g.x with ok := ((g.x.output.structuredData.getD []).find t).isSome } }
  | .idText, g => (text g).map fun t => { g with x := { g.x with id := t } }
  | .sdAdd, g => g.x.output.structuredData.map fun sd =>
      { g with x := { g.x with output := { g.x.output with structuredData := some (sd.insert g.x.id []) } } }
  | .hasElements, g => some { g with x := { g.x with output := { g.x.output with hasElements := true } } }
  | .hasNoElements, g => some { g with x := { g.x with output := { g.x.output with hasElements := false } } }
  | .currentelem, g => some { g with x := { g.x with currentelem := g.x.id } }
  | .currentparam, g => (text g).map fun t => { g with x := { g.x with currentparam := t } }
  | .textNew, g => (text g).map fun t => { g with x := { g.x with text := t } }
  | .removeBytes, g => (Common.removeBytes g.x.text g.x.backslashat g.x.pb).map fun t => { g with x := { g.x with text := t } }
  | .sdSet, g => g.x.output.structuredData.bind fun sd => (sd.find g.x.currentelem).map fun ps =>
      { g with x := { g.x with output := { g.x.output with
        structuredData := some (sd.insert g.x.currentelem (ps.insert g.x.currentparam g.x.text)) } } }
  | .sdDelete, g => some { g with x := { g.x with output := { g.x.output with
      structuredData := g.x.output.structuredData.map fun sd => sd.erase g.x.currentelem } } }
  | .paramDelete, g => some { g with x := { g.x with output := { g.x.output with
      structuredData := g.x.output.structuredData.map fun sd => match sd.find g.x.currentelem with
        | none => sd
        | some ps => sd.insert g.x.currentelem (ps.erase g.x.currentparam) } } }
  | .errPrival, g => setErr .prival g
  | .errPri, g => setErr .pri g
  | .errVersion, g => setErr .version g
  | .errTimestamp, g => setErr .timestamp g
  | .errHostname, g => setErr .hostname g
  | .errAppname, g => setErr .appname g
  | .errProcID, g => setErr .procid g
  | .errMsgID, g => setErr .msgid g
  | .errStructuredData, g => setErr .structuredData g
  | .errSdID, g => setErr .sdId g
  | .errSdIDDuplicated, g => setErr .sdIdDup g
  | .errSdParam, g => setErr .sdParam g
  | .errMsg, g => setErr .msg g
  | .errMsgNotCompliant, g => setErr .msgNotCompliant g
  | .errEscape, g => setErr .escape g
  | .errParse, g => setErr .parse g

/-- The conditions. -/
def cond : C → GS V → Option Bool
  | .eNotNil, g => some g.x.e
  | .ok, g => some g.x.ok
  | .hasElements, g => some g.x.output.hasElements
  | .hasBackslashes, g => some (0 < g.x.backslashat.length)
  | .sdEmpty, g => some ((g.x.output.structuredData.getD []).length = 0)
  | .sdNotEmpty, g => some (0 < (g.x.output.structuredData.getD []).length)
  | .msgatPositive, g => some (0 < g.x.msgat)
  | .compliantMsg, g => some g.x.compliantMsg
  | .bestEffortMinimal, g => some (g.x.bestEffort && g.x.output.minimal)

/-- The meaning of the statements of the program (rfc5424/machine.go:113-12046). -/
def sem : Sem A C V := ⟨stmt, cond⟩

/-- What the return statements return. -/
def value : R → GS V → Option SyslogMessage × Option (ErrKind × Int)
  | .partialOutput, g => (some g.x.output.export, g.x.err)
  | .failed, g => (none, g.x.err)
  | .complete, g => (some g.x.output.export, none)

/-! ## Actions -/

/-- `(m.p)--; { goto st614 }` -/
def hold (k : K) : K := .stmt .decP (.goto (.st 614) k)

/-- The statements of each action (the Go text is at the constructors of `Verif.Gen.Rfc5424.Act`). -/
def code : Act → K → K
  | .mark, k => .stmt (.prim .pbP) k
  | .markmsg, k => .stmt (.prim .msgatP) k
  | .selectMsgMode, k => .stmt .decP (.ifElse (.prim .compliantMsg) (.goto (.st 609) .done) .done (.goto (.st 607) k))
  | .setPrival, k => .stmt (.prim .priority) (.stmt (.prim .prioritySet) k)
  | .setVersion, k => .stmt (.prim .version) k
  | .setTimestamp, k => .stmt (.prim .timeParse) (.ifElse (.prim .eNotNil) (.stmt (.prim .errTime) (hold .done))
      (.stmt (.prim .timestamp) (.stmt (.prim .timestampSet) .done)) k)
  | .setHostname, k => .stmt (.prim .hostname) k
  | .setAppname, k => .stmt (.prim .appname) k
  | .setProcid, k => .stmt (.prim .procID) k
  | .setMsgid, k => .stmt (.prim .msgID) k
  | .iniElements, k => .stmt (.prim .sdNew) k
  | .setId, k => .stmt (.prim .sdLookup) (.ifElse (.prim .ok) (.stmt (.prim .errSdIDDuplicated) (hold .done))
      (.stmt (.prim .idText) (.stmt (.prim .sdAdd) (.stmt (.prim .hasElements) (.stmt (.prim .currentelem) .done)))) k)
  | .iniSdparam, k => .stmt (.prim .backslashatNew) k
  | .addSlash, k => .stmt (.prim .backslashatAppend) k
  | .setParamname, k => .stmt (.prim .currentparam) k
  | .setParamvalue, k => .ifElse (.prim .hasElements) (.stmt (.prim .textNew)
      (.ifElse (.prim .hasBackslashes) (.stmt (.prim .removeBytes) .done) .done (.stmt (.prim .sdSet) .done))) .done k
  | .setMsg, k => .stmt (.prim .message) k
  | .errPrival, k => .stmt (.prim .errPrival) (hold k)
  | .errPri, k => .stmt (.prim .errPri) (hold k)
  | .errVersion, k => .stmt (.prim .errVersion) (hold k)
  | .errTimestamp, k => .stmt (.prim .errTimestamp) (hold k)
  | .errHostname, k => .stmt (.prim .errHostname) (hold k)
  | .errAppname, k => .stmt (.prim .errAppname) (hold k)
  | .errProcid, k => .stmt (.prim .errProcID) (hold k)
  | .errMsgid, k => .stmt (.prim .errMsgID) (hold k)
  | .errStructureddata, k => .stmt (.prim .errStructuredData) (hold k)
  | .errSdid, k => .stmt (.prim .sdDelete) (.ifElse (.prim .sdEmpty) (.stmt (.prim .hasNoElements) .done) .done
      (.stmt (.prim .errSdID) (hold k)))
  | .errSdparam, k => .ifElse (.prim .sdNotEmpty) (.stmt (.prim .paramDelete) .done) .done (.stmt (.prim .errSdParam) (hold k))
  | .errMsg, k => .ifElse (.prim .msgatPositive) (.stmt (.prim .messagePartial) .done) .done
      (.ifElse (.prim .compliantMsg) (.stmt (.prim .errMsgNotCompliant) .done) (.stmt (.prim .errMsg) .done) (hold k))
  | .errEscape, k => .stmt (.prim .errEscape) (hold k)
  | .errParse, k => .stmt (.prim .errParse) (hold k)

/-- The variables represent the state `m` of the table model. -/
structure Rx (m : M) (x : V) : Prop where
  pb : x.pb = m.pb
  err : x.err = m.err.map fun e => (e.kind, (e.col : Int))
  currentelem : x.currentelem = m.currentelem
  currentparam : x.currentparam = m.currentparam
  msgat : x.msgat = m.msgat
  backslashat : x.backslashat = m.backslashat.map Int.ofNat
  bestEffort : x.bestEffort = m.bestEffort
  compliantMsg : x.compliantMsg = m.compliantMsg
  output : x.output = m.out

def U : Setup A C R V Act M where
  P := prog
  S := sem
  T := Rfc5424.T
  act := Rfc5424.act
  adv := Rfc5424.adv
  code := code
  pos := fun m => m.p
  dat := fun m => m.data
  rx := Rx
  env := fun _ => none
  last := 614

/-! ## The blocks of the program, checked by the kernel -/

set_option maxRecDepth 100000 in
theorem sts_ok : U.stsB [1] = true := by decide +kernel

set_option maxRecDepth 100000 in
theorem cases_ok : checkRows (U.caseB [1]) 0 Gen.Rfc5424.table = true := by decide +kernel

set_option maxRecDepth 100000 in
theorem eof_ok : checkRows (U.eofB Gen.GoRfc5424.testEof.1) 0 Gen.Rfc5424.table = true := by decide +kernel


/-! ## The statements of an action do what the action does -/

theorem sliceInt_eq (data : Bytes) (a b : Nat) : sliceInt data a b = Rfc5424.slice data a b := by
  unfold sliceInt Rfc5424.slice
  by_cases h : a ≤ b ∧ b ≤ data.length
  · rw [if_pos h, if_pos ⟨by omega, by omega, by omega⟩]
    have : ((b : Int) - a).toNat = b - a := by omega
    rw [this, Int.toNat_natCast]
  · rw [if_neg h, if_neg (by omega)]

theorem hasSt {n : Nat} (h1 : 2 ≤ n) (h2 : n ≤ 614) : U.HasSt n := by
  refine Setup.stsB_sound sts_ok (by omega) h2 ?_
  rw [← Bool.not_eq_true, List.contains_iff_mem]
  simp
  omega

/-- the variables of state `m` -/
def vars (m : M) (v : V) : V :=
  { v with pb := m.pb, err := m.err.map fun e => (e.kind, (e.col : Int)), currentelem := m.currentelem, currentparam := m.currentparam,
           msgat := m.msgat, backslashat := m.backslashat.map Int.ofNat, bestEffort := m.bestEffort, compliantMsg := m.compliantMsg, output := m.out }

theorem Rx_vars (m : M) (v : V) : Rx m (vars m v) := ⟨rfl, rfl, rfl, rfl, rfl, rfl, rfl, rfl, rfl⟩

theorem Rx.eq {m : M} {x : V} (h : Rx m x) : x = vars m x := by
  obtain ⟨h1, h2, h3, h4, h5, h6, h7, h8, h9⟩ := h
  cases x
  simp only at h1 h2 h3 h4 h5 h6 h7 h8 h9
  subst h1 h2 h3 h4 h5 h6 h7 h8 h9
  rfl

/-- the variables of state `m`, with the others as in `g` -/
def gs (m : M) (g : GS V) : GS V :=
  { g with data := m.data, p := m.p, pe := m.data.length, eof := m.data.length, x := vars m g.x }

theorem rel_gs (m : M) (g : GS V) : U.Rel m (gs m g) := ⟨rfl, rfl, rfl, rfl, Rx_vars m g.x⟩

theorem gs_eq {m : M} {g : GS V} (h : U.Rel m g) : g = gs m g := by
  obtain ⟨h1, h2, h3, h4, h5⟩ := h
  have h5' := Rx.eq h5
  obtain ⟨inp, data, p, pe, eof, cs, w, x⟩ := g
  simp only at h1 h2 h3 h4 h5'
  subst h1 h2 h3 h4
  unfold gs
  rw [← h5']
  rfl

theorem text_gs (m : M) (g : GS V) : text (gs m g) = m.text := sliceInt_eq m.data m.pb m.p

/-- what `ActOK` says about one call -/
abbrev Does (a : Act) (m : M) (g : GS V) (k : K) : Prop :=
  match U.act a m with
  | .next m' => ∃ x', U.Rel m' { gs m g with x := x' } ∧ U.S.exec (U.code a k) (gs m g) = U.S.exec k { gs m g with x := x' }
  | .jump m' s => U.HasSt s ∧ ∃ x', U.Rel m' { gs m g with x := x' } ∧
      U.S.exec (U.code a k) (gs m g) = .goto (.st s) { gs m g with x := x', p := (gs m g).p - 1 }
  | .panic => U.S.exec (U.code a k) (gs m g) = .panic

theorem next {a : Act} {m : M} {g : GS V} {k : K} (m' : M) (x' : V) (ha : Rfc5424.act a m = .next m') (hp : m'.p = m.p) (hd : m'.data = m.data)
    (hx : Rx m' x') (he : sem.exec (code a k) (gs m g) = sem.exec k { gs m g with x := x' }) : Does a m g k := by
  have : U.act a m = .next m' := ha
  simp only [Does, this]
  exact ⟨x', ⟨congrArg Int.ofNat hp.symm, hd.symm, congrArg (Int.ofNat ∘ List.length) hd.symm, congrArg (Int.ofNat ∘ List.length) hd.symm, hx⟩, he⟩

theorem jump {a : Act} {m : M} {g : GS V} {k : K} (m' : M) (x' : V) (s : Nat) (ha : Rfc5424.act a m = .jump m' s) (hp : m'.p = m.p)
    (hd : m'.data = m.data) (hx : Rx m' x') (he : sem.exec (code a k) (gs m g) = .goto (.st s) { gs m g with x := x', p := (gs m g).p - 1 })
    (h1 : 2 ≤ s := by omega) (h2 : s ≤ 614 := by omega) : Does a m g k := by
  have : U.act a m = .jump m' s := ha
  simp only [Does, this]
  exact ⟨hasSt h1 h2, x', ⟨congrArg Int.ofNat hp.symm, hd.symm, congrArg (Int.ofNat ∘ List.length) hd.symm, congrArg (Int.ofNat ∘ List.length) hd.symm, hx⟩, he⟩

theorem panic {a : Act} {m : M} {g : GS V} {k : K} (ha : Rfc5424.act a m = .panic) (he : sem.exec (code a k) (gs m g) = .panic) : Does a m g k := by
  have : U.act a m = .panic := ha
  simp only [Does, this]
  exact he

/-- an action that sets a field of `output` from the text -/
theorem textual {a : Act} {st : A} {f : Bytes → Out → Out} (hc : ∀ k, code a k = .stmt (.prim st) k)
    (hs : ∀ g, stmt st g = fromText g f) (ha : ∀ m, Rfc5424.act a m = Rfc5424.withText m fun t => .next { m with out := f t m.out })
    (m : M) (g : GS V) (k : K) : Does a m g k := by
  cases hT : m.text with
  | none =>
    refine panic (by rw [ha, Rfc5424.withText, hT]) ?_
    rw [hc]
    simp [Sem.exec, Sem.simple, sem, hs, fromText, text_gs, hT]
  | some t =>
    refine next { m with out := f t m.out } { vars m g.x with output := f t m.out } (by rw [ha, Rfc5424.withText, hT]) rfl rfl
      ⟨rfl, rfl, rfl, rfl, rfl, rfl, rfl, rfl, rfl⟩ ?_
    rw [hc]
    simp only [Sem.exec, Sem.simple, sem, hs, fromText, text_gs, hT, Option.map_some]
    rfl

/-- an action that only fails -/
theorem failing {a : Act} {st : A} {kind : ErrKind} (hc : ∀ k, code a k = .stmt (.prim st) (hold k))
    (hs : ∀ g, stmt st g = setErr kind g) (ha : ∀ m, Rfc5424.act a m = Rfc5424.fail kind m)
    (m : M) (g : GS V) (k : K) : Does a m g k := by
  refine jump { m with err := some ⟨kind, m.p⟩ } { vars m g.x with err := some (kind, (m.p : Int)) } 614 (ha m) rfl rfl
    ⟨rfl, rfl, rfl, rfl, rfl, rfl, rfl, rfl, rfl⟩ ?_
  rw [hc]
  simp only [Sem.exec, Sem.simple, sem, hs, setErr, hold]
  rfl

/-- the rest of `setParamvalue`, with the text -/
def paramStep (m : M) : Option Bytes → Fsm.Step M
  | none => .panic
  | some text => match m.out.structuredData with
    | none => .panic
    | some sd => match sd.find m.currentelem with
      | none => .panic
      | some ps => .next { m with out := { m.out with structuredData := some (sd.insert m.currentelem (ps.insert m.currentparam text)) } }

def paramExec (m : M) (g : GS V) (k : K) : Option Bytes → End R V
  | none => .panic
  | some tx => match stmt .sdSet { gs m g with x := { vars m g.x with text := tx } } with
    | none => .panic
    | some g' => sem.exec k g'

theorem does (a : Act) (m : M) (g : GS V) (k : K) : Does a m g k := by
  have ht := text_gs m g
  cases a with
  | mark => exact next { m with pb := m.p } { vars m g.x with pb := m.p } rfl rfl rfl ⟨rfl, rfl, rfl, rfl, rfl, rfl, rfl, rfl, rfl⟩ rfl
  | markmsg => exact next { m with msgat := m.p } { vars m g.x with msgat := m.p } rfl rfl rfl ⟨rfl, rfl, rfl, rfl, rfl, rfl, rfl, rfl, rfl⟩ rfl
  | iniElements =>
    exact next { m with out := { m.out with structuredData := some [] } } { vars m g.x with output := { m.out with structuredData := some [] } }
      rfl rfl rfl ⟨rfl, rfl, rfl, rfl, rfl, rfl, rfl, rfl, rfl⟩ rfl
  | iniSdparam =>
    exact next { m with backslashat := [] } { vars m g.x with backslashat := [] } rfl rfl rfl ⟨rfl, rfl, rfl, rfl, rfl, rfl, rfl, rfl, rfl⟩ rfl
  | addSlash =>
    exact next { m with backslashat := m.backslashat ++ [m.p] } { vars m g.x with backslashat := m.backslashat.map Int.ofNat ++ [(m.p : Int)] }
      rfl rfl rfl ⟨rfl, rfl, rfl, rfl, rfl, (by simp), rfl, rfl, rfl⟩ rfl
  | selectMsgMode =>
    cases hc : m.compliantMsg with
    | true =>
      refine jump m (vars m g.x) 609 (by simp [Rfc5424.act, hc]) rfl rfl (Rx_vars m g.x) ?_
      simp only [code, Sem.exec, Sem.simple, Sem.test, sem, cond, gs, vars, hc]
    | false =>
      refine jump m (vars m g.x) 607 (by simp [Rfc5424.act, hc]) rfl rfl (Rx_vars m g.x) ?_
      simp only [code, Sem.exec, Sem.simple, Sem.test, sem, cond, gs, vars, hc]
  | setPrival =>
    cases hT : m.text with
    | none =>
      refine panic (by simp [Rfc5424.act, Rfc5424.withText, hT]) ?_
      simp [code, Sem.exec, Sem.simple, sem, stmt, fromText, ht, hT]
    | some t =>
      refine next { m with out := { m.out with priority := Common.toU8 (Common.unsafeDec t), prioritySet := true } }
        { vars m g.x with output := { m.out with priority := Common.toU8 (Common.unsafeDec t), prioritySet := true } }
        (by simp [Rfc5424.act, Rfc5424.withText, hT]) rfl rfl ⟨rfl, rfl, rfl, rfl, rfl, rfl, rfl, rfl, rfl⟩ ?_
      simp only [code, Sem.exec, Sem.simple, sem, stmt, fromText, ht, hT, Option.map_some]
      rfl
  | setVersion => exact textual (f := fun t o => { o with version := Common.toU16 (Common.unsafeDec t) }) (fun _ => rfl) (fun _ => rfl) (fun _ => rfl) m g k
  | setHostname => exact textual (f := fun t o => { o with hostname := t }) (fun _ => rfl) (fun _ => rfl) (fun _ => rfl) m g k
  | setAppname => exact textual (f := fun t o => { o with appname := t }) (fun _ => rfl) (fun _ => rfl) (fun _ => rfl) m g k
  | setProcid => exact textual (f := fun t o => { o with procID := t }) (fun _ => rfl) (fun _ => rfl) (fun _ => rfl) m g k
  | setMsgid => exact textual (f := fun t o => { o with msgID := t }) (fun _ => rfl) (fun _ => rfl) (fun _ => rfl) m g k
  | setMsg => exact textual (f := fun t o => { o with message := t }) (fun _ => rfl) (fun _ => rfl) (fun _ => rfl) m g k
  | setTimestamp =>
    cases hT : m.text with
    | none =>
      refine panic (by simp [Rfc5424.act, Rfc5424.withText, hT]) ?_
      simp [code, Sem.exec, Sem.simple, sem, stmt, ht, hT]
    | some t =>
      cases hP : GoTime.parseRFC3339Micro t with
      | none =>
        refine jump { m with err := some ⟨.timeParse, m.p⟩ }
          { vars m g.x with err := some (.timeParse, (m.p : Int)), t := Rfc5424.zeroTime, e := true } 614
          (by simp [Rfc5424.act, Rfc5424.withText, hT, hP, Rfc5424.fail]) rfl rfl ⟨rfl, rfl, rfl, rfl, rfl, rfl, rfl, rfl, rfl⟩ ?_
        simp only [code, Sem.exec, Sem.simple, Sem.test, sem, stmt, cond, ht, hT, hP, Option.map_some, setErr, hold]
        rfl
      | some tm =>
        refine next { m with out := { m.out with timestamp := tm, timestampSet := true } }
          { vars m g.x with output := { m.out with timestamp := tm, timestampSet := true }, t := tm, e := false }
          (by simp [Rfc5424.act, Rfc5424.withText, hT, hP]) rfl rfl ⟨rfl, rfl, rfl, rfl, rfl, rfl, rfl, rfl, rfl⟩ ?_
        simp only [code, Sem.exec, Sem.simple, Sem.test, sem, stmt, cond, ht, hT, hP, Option.map_some]
        rfl
  | setParamname =>
    cases hT : m.text with
    | none =>
      refine panic (by simp [Rfc5424.act, Rfc5424.withText, hT]) ?_
      simp [code, Sem.exec, Sem.simple, sem, stmt, ht, hT]
    | some t =>
      refine next { m with currentparam := t } { vars m g.x with currentparam := t }
        (by simp [Rfc5424.act, Rfc5424.withText, hT]) rfl rfl ⟨rfl, rfl, rfl, rfl, rfl, rfl, rfl, rfl, rfl⟩ ?_
      simp only [code, Sem.exec, Sem.simple, sem, stmt, ht, hT, Option.map_some]
      rfl
  | setId =>
    cases hT : m.text with
    | none =>
      refine panic (by simp [Rfc5424.act, Rfc5424.withText, hT]) ?_
      simp [code, Sem.exec, Sem.simple, sem, stmt, ht, hT]
    | some t =>
      have ht' : sliceInt m.data m.pb m.p = some t := by rw [← hT]; exact ht
      cases hS : m.out.structuredData with
      | none =>
        refine panic (by simp [Rfc5424.act, Rfc5424.withText, hT, hS]) ?_
        simp [code, Sem.exec, Sem.simple, Sem.test, sem, stmt, cond, text, gs, vars, ht', hS, SMap.find]
      | some sd =>
        cases hF : sd.find t with
        | none =>
          refine next { m with out := { m.out with structuredData := some (sd.insert t []), hasElements := true }, currentelem := t }
            { vars m g.x with output := { m.out with structuredData := some (sd.insert t []), hasElements := true }, currentelem := t,
                              ok := false, id := t }
            (by simp [Rfc5424.act, Rfc5424.withText, hT, hS, hF]) rfl rfl ⟨rfl, rfl, rfl, rfl, rfl, rfl, rfl, rfl, rfl⟩ ?_
          simp [code, Sem.exec, Sem.simple, Sem.test, sem, stmt, cond, text, gs, vars, ht', hS, hF]
        | some ps =>
          refine jump { m with err := some ⟨.sdIdDup, m.p⟩ } { vars m g.x with err := some (.sdIdDup, (m.p : Int)), ok := true } 614
            (by simp [Rfc5424.act, Rfc5424.withText, hT, hS, hF, Rfc5424.fail]) rfl rfl ⟨rfl, rfl, rfl, rfl, rfl, rfl, rfl, rfl, rfl⟩ ?_
          simp [code, Sem.exec, Sem.simple, Sem.test, sem, stmt, cond, text, gs, vars, ht', hS, hF, setErr, hold]
  | setParamvalue =>
    cases hE : m.out.hasElements with
    | false =>
      refine next m (vars m g.x) (by simp [Rfc5424.act, hE]) rfl rfl (Rx_vars m g.x) ?_
      simp [code, Sem.exec, Sem.test, sem, cond, gs, vars, hE]
    | true =>
      cases hT : m.text with
      | none =>
        have ht' : sliceInt m.data m.pb m.p = none := by rw [← hT]; exact ht
        refine panic (by simp [Rfc5424.act, Rfc5424.withText, hT, hE]) ?_
        simp [code, Sem.exec, Sem.simple, Sem.test, sem, stmt, cond, text, gs, vars, ht', hE]
      | some t =>
        have ht' : sliceInt m.data m.pb m.p = some t := by rw [← hT]; exact ht
        have hlen : (m.backslashat.map Int.ofNat).length = m.backslashat.length := List.length_map ..
        -- the text without backslashes
        obtain ⟨q, hq⟩ : ∃ q, q = (if m.backslashat.length > 0 then Common.removeBytes t (m.backslashat.map Int.ofNat) m.pb else some t) := ⟨_, rfl⟩
        have hex : sem.exec (code .setParamvalue k) (gs m g) = paramExec m g k q := by
          by_cases hb : m.backslashat.length > 0
          · rw [if_pos hb] at hq
            have hb' : decide (0 < m.backslashat.length) = true := by simpa using hb
            cases q with
            | none =>
              simp only [code, Sem.exec, Sem.simple, Sem.test, sem, stmt, cond, text, gs, vars, ht', hE, hlen, hb', Option.map_some, ← hq, Option.map_none, paramExec]
            | some tx =>
              simp only [code, Sem.exec, Sem.simple, Sem.test, sem, stmt, cond, text, gs, vars, ht', hE, hlen, hb', Option.map_some, ← hq]
              cases hS : m.out.structuredData with
              | none => simp [paramExec, stmt, gs, vars, hS]
              | some sd => cases hF : sd.find m.currentelem <;> simp [paramExec, stmt, gs, vars, hS, hF, hE, sem]
          · rw [if_neg hb] at hq
            subst hq
            have hb' : decide (0 < m.backslashat.length) = false := by simpa using hb
            simp only [code, Sem.exec, Sem.simple, Sem.test, sem, stmt, cond, text, gs, vars, ht', hE, hlen, hb', Option.map_some]
            cases hS : m.out.structuredData with
            | none => simp [paramExec, stmt, gs, vars, hS]
            | some sd => cases hF : sd.find m.currentelem <;> simp [paramExec, stmt, gs, vars, hS, hF, hE, sem]
        have hact : Rfc5424.act .setParamvalue m = paramStep m q := by
          simp only [Rfc5424.act, hE, if_true, Rfc5424.withText, hT]
          rw [hq]
          unfold paramStep
          simp only [hE]
          rfl
        cases q with
        | none => exact panic hact hex
        | some tx =>
          simp only [paramStep, paramExec] at hact hex
          cases hS : m.out.structuredData with
          | none => rw [hS] at hact; exact panic hact (by rw [hex]; simp [stmt, gs, vars, hS])
          | some sd =>
            rw [hS] at hact
            simp only at hact
            cases hF : sd.find m.currentelem with
            | none => rw [hF] at hact; exact panic hact (by rw [hex]; simp [stmt, gs, vars, hS, hF])
            | some ps =>
              rw [hF] at hact
              refine next _ { vars m g.x with text := tx, output := { m.out with
                structuredData := some (sd.insert m.currentelem (ps.insert m.currentparam tx)) } } hact rfl rfl
                ⟨rfl, rfl, rfl, rfl, rfl, rfl, rfl, rfl, rfl⟩ ?_
              rw [hex]
              simp [stmt, gs, vars, hS, hF]
  | errSdid =>
    obtain ⟨sd, hsd⟩ : ∃ sd, sd = m.out.structuredData.map fun sd => sd.erase m.currentelem := ⟨_, rfl⟩
    refine jump { m with
        out := { m.out with structuredData := sd, hasElements := if (sd.getD []).length = 0 then false else m.out.hasElements }
        err := some ⟨.sdId, m.p⟩ }
      { vars m g.x with
        output := { m.out with structuredData := sd, hasElements := if (sd.getD []).length = 0 then false else m.out.hasElements }
        err := some (.sdId, (m.p : Int)) } 614 (by subst hsd; rfl) rfl rfl ⟨rfl, rfl, rfl, rfl, rfl, rfl, rfl, rfl, rfl⟩ ?_
    by_cases h0 : (sd.getD []).length = 0
    · simp only [code, Sem.exec, Sem.simple, Sem.test, sem, stmt, cond, gs, vars, ← hsd, h0, decide_true, setErr, hold, if_true]
    · simp only [code, Sem.exec, Sem.simple, Sem.test, sem, stmt, cond, gs, vars, ← hsd, h0, decide_false, setErr, hold, if_false]
  | errSdparam =>
    obtain ⟨sd, hsd⟩ : ∃ sd, sd = m.out.structuredData.map fun sd => match sd.find m.currentelem with
        | none => sd
        | some ps => sd.insert m.currentelem (ps.erase m.currentparam) := ⟨_, rfl⟩
    refine jump { m with out := { m.out with structuredData := sd }, err := some ⟨.sdParam, m.p⟩ }
      { vars m g.x with output := { m.out with structuredData := sd }, err := some (.sdParam, (m.p : Int)) } 614
      (by subst hsd; rfl) rfl rfl ⟨rfl, rfl, rfl, rfl, rfl, rfl, rfl, rfl, rfl⟩ ?_
    by_cases h0 : 0 < (m.out.structuredData.getD []).length
    · simp only [code, Sem.exec, Sem.simple, Sem.test, sem, stmt, cond, gs, vars, h0, decide_true, setErr, hold, hsd]
    · have : sd = m.out.structuredData := by
        subst hsd
        cases hS : m.out.structuredData with
        | none => rfl
        | some sd0 =>
          rw [hS] at h0
          cases sd0 with
          | nil => rfl
          | cons a b => simp at h0
      simp only [code, Sem.exec, Sem.simple, Sem.test, sem, stmt, cond, gs, vars, h0, decide_false, setErr, hold, this]
  | errMsg =>
    have hk : (if m.compliantMsg then ErrKind.msgNotCompliant else .msg) = (if m.compliantMsg then .msgNotCompliant else .msg) := rfl
    by_cases h0 : m.msgat > 0
    · have h0' : decide (0 < (m.msgat : Int)) = true := by simp; omega
      have hs := sliceInt_eq m.data m.msgat m.p
      cases hT : Rfc5424.slice m.data m.msgat m.p with
      | none =>
        refine panic (by simp only [Rfc5424.act, h0, if_true, hT]) ?_
        rw [hT] at hs
        simp only [code, Sem.exec, Sem.simple, Sem.test, sem, stmt, cond, gs, vars, h0', hs, Option.map_none]
      | some t =>
        rw [hT] at hs
        refine jump { m with out := { m.out with message := t }, err := some ⟨if m.compliantMsg then .msgNotCompliant else .msg, m.p⟩ }
          { vars m g.x with output := { m.out with message := t }
                            err := some (if m.compliantMsg then .msgNotCompliant else .msg, (m.p : Int)) } 614
          (by simp only [Rfc5424.act, h0, if_true, hT, Rfc5424.fail]) rfl rfl ⟨rfl, rfl, rfl, rfl, rfl, rfl, rfl, rfl, rfl⟩ ?_
        cases hc : m.compliantMsg with
        | true => simp only [code, Sem.exec, Sem.simple, Sem.test, sem, stmt, cond, gs, vars, h0', hs, hc, setErr, hold, Option.map_some, if_true]
        | false =>
          simp only [code, Sem.exec, Sem.simple, Sem.test, sem, stmt, cond, gs, vars, h0', hs, hc, setErr, hold, Option.map_some]
          rfl
    · have h0' : decide (0 < (m.msgat : Int)) = false := by simp; omega
      refine jump { m with err := some ⟨if m.compliantMsg then .msgNotCompliant else .msg, m.p⟩ }
        { vars m g.x with err := some (if m.compliantMsg then .msgNotCompliant else .msg, (m.p : Int)) } 614
        (by simp only [Rfc5424.act, h0, if_false, Rfc5424.fail]) rfl rfl ⟨rfl, rfl, rfl, rfl, rfl, rfl, rfl, rfl, rfl⟩ ?_
      cases hc : m.compliantMsg with
      | true => simp only [code, Sem.exec, Sem.simple, Sem.test, sem, stmt, cond, gs, vars, h0', hc, setErr, hold, if_true]
      | false =>
        simp only [code, Sem.exec, Sem.simple, Sem.test, sem, stmt, cond, gs, vars, h0', hc, setErr, hold]
        rfl
  | errPrival => exact failing (fun _ => rfl) (fun _ => rfl) (fun _ => rfl) m g k
  | errPri => exact failing (fun _ => rfl) (fun _ => rfl) (fun _ => rfl) m g k
  | errVersion => exact failing (fun _ => rfl) (fun _ => rfl) (fun _ => rfl) m g k
  | errTimestamp => exact failing (fun _ => rfl) (fun _ => rfl) (fun _ => rfl) m g k
  | errHostname => exact failing (fun _ => rfl) (fun _ => rfl) (fun _ => rfl) m g k
  | errAppname => exact failing (fun _ => rfl) (fun _ => rfl) (fun _ => rfl) m g k
  | errProcid => exact failing (fun _ => rfl) (fun _ => rfl) (fun _ => rfl) m g k
  | errMsgid => exact failing (fun _ => rfl) (fun _ => rfl) (fun _ => rfl) m g k
  | errStructureddata => exact failing (fun _ => rfl) (fun _ => rfl) (fun _ => rfl) m g k
  | errEscape => exact failing (fun _ => rfl) (fun _ => rfl) (fun _ => rfl) m g k
  | errParse => exact failing (fun _ => rfl) (fun _ => rfl) (fun _ => rfl) m g k

theorem act_ok (a : Act) : U.ActOK a := by
  intro m g k hr
  rw [gs_eq hr]
  have := does a m g k
  revert this
  unfold Does
  cases U.act a m <;> exact id

theorem shape : U.Shape := by
  refine Setup.shape (noSt := [1]) (rows := Gen.Rfc5424.table) (ce := Gen.GoRfc5424.testEof.1) (fun n h => ?_) sts_ok cases_ok eof_ok rfl rfl
    (fun _ => rfl) (fun _ => rfl) (fun m x h => ⟨h.pb, h.err, h.currentelem, h.currentparam, h.msgat, h.backslashat, h.bestEffort, h.compliantMsg, h.output⟩)
    act_ok (fun _ _ _ _ _ h => by cases h)
  have hn : n < Gen.Rfc5424.table.length := Nat.lt_of_le_of_lt h (by decide +kernel)
  rw [List.getElem?_eq_getElem hn]
  show _ = some (Rfc5424.T n)
  rw [Rfc5424.T, List.getD_eq_getElem?_getD, List.getElem?_eq_getElem hn]
  rfl

/-! ## The whole function -/

/-- The variables at the start of a call, whatever the previous call left in them: only the argument, the options and
`currentelem`/`currentparam` matter. -/
structure Starts (m : M) (input : Bytes) (g : GS V) : Prop where
  input : g.input = input
  currentelem : g.x.currentelem = m.currentelem
  currentparam : g.x.currentparam = m.currentparam
  bestEffort : g.x.bestEffort = m.bestEffort
  compliantMsg : g.x.compliantMsg = m.compliantMsg

/-- the variables after the first ten statements (rfc5424/machine.go:114-124) -/
def begun (g : GS V) : GS V :=
  { g with data := g.input, p := 0, pe := g.input.length, eof := g.input.length, cs := 1,
           x := { g.x with pb := 0, msgat := 0, backslashat := [], err := none, output := {} } }

theorem entry_exec (g : GS V) : sem.exec Gen.GoRfc5424.entry.1 g =
    .goto (if g.input.length = 0 then .testEof else .stCase 1) (begun g) := by
  by_cases h : g.input.length = 0
  · rw [if_pos h]
    have : decide ((0 : Int) = (g.input.length : Int)) = true := by simp; omega
    simp only [Gen.GoRfc5424.entry, Sem.exec, Sem.simple, Sem.test, sem, stmt, this]
    rfl
  · rw [if_neg h]
    have : decide ((0 : Int) = (g.input.length : Int)) = false := by simp; omega
    simp only [Gen.GoRfc5424.entry, Sem.exec, Sem.simple, Sem.test, sem, stmt, this]
    rfl

theorem begun_rel {m : M} {input : Bytes} {g : GS V} (h : Starts m input g) : U.Rel (Rfc5424.reset m input) (begun g) := by
  obtain ⟨h1, h2, h3, h4, h5⟩ := h
  subst h1
  exact ⟨rfl, rfl, rfl, rfl, ⟨rfl, rfl, h2, h3, rfl, rfl, h4, h5, rfl⟩⟩

/-- the end of the function (rfc5424/machine.go:12033-12045) -/
theorem out_exec {m : M} {g : GS V} (h : U.Rel m g) : ∃ r, sem.exec Gen.GoRfc5424.out.1 g = .ret r g ∧
    value r g = ((Rfc5424.finish g.cs m).msg, (Rfc5424.finish g.cs m).err.map fun e => (e.kind, (e.col : Int))) := by
  have hb := h.x.bestEffort
  have ho := h.x.output
  have he := h.x.err
  by_cases hc : g.cs < 603 ∨ g.cs = 614
  · have hc' : (decide (g.cs < 603) || decide (g.cs = 614)) = true := by simpa using hc
    by_cases hm : (m.bestEffort && m.out.minimal) = true
    · refine ⟨.partialOutput, ?_, ?_⟩
      · simp only [Gen.GoRfc5424.out, Sem.exec, Sem.test, sem, cond, hc', hb, ho, hm]
      · simp only [value, Rfc5424.finish, if_pos hc, hm, if_true, ho, he]
    · have hm' : (m.bestEffort && m.out.minimal) = false := by simpa using hm
      refine ⟨.failed, ?_, ?_⟩
      · simp only [Gen.GoRfc5424.out, Sem.exec, Sem.test, sem, cond, hc', hb, ho, hm']
      · simp only [value, Rfc5424.finish, if_pos hc, hm', he]
        rfl
  · have hc' : (decide (g.cs < 603) || decide (g.cs = 614)) = false := by
      rw [← Bool.not_eq_true]
      simpa using hc
    refine ⟨.complete, ?_, ?_⟩
    · simp only [Gen.GoRfc5424.out, Sem.exec, Sem.test, sem, hc']
    · simp only [value, Rfc5424.finish, if_neg hc, ho, Option.map_none]

/-- A call of `Parse`: what the table model says, within a linear number of blocks. -/
theorem run_parse {m m' : M} {input : Bytes} {res : Rfc5424.Result} {g : GS V} (hg : Starts m input g)
    (h : Rfc5424.parse m input = some (res, m')) (fuel : Nat) (hf : 13 * input.length + 17 ≤ fuel) :
    ∃ r g', sem.run prog fuel .entry g = .returned r g' ∧ value r g' = (res.msg, res.err.map fun e => (e.kind, (e.col : Int))) ∧
      U.Rel m' g' := by
  unfold Rfc5424.parse at h
  cases hrun : Fsm.run Rfc5424.T Rfc5424.act Rfc5424.adv input 1 (Rfc5424.reset m input) with
  | panic => rw [hrun] at h; cases h
  | loop => rw [hrun] at h; cases h
  | done cs m1 =>
    rw [hrun] at h
    simp only [Option.some.injEq, Prod.mk.injEq] at h
    obtain ⟨rfl, rfl⟩ := h
    have hgo : U.S.Goes U.P 1 .entry g (if input.length = 0 then .testEof else .stCase 1) (begun g) :=
      Goes.goto' (cn := Gen.GoRfc5424.entry) rfl (by
        show sem.exec Gen.GoRfc5424.entry.1 g = _
        rw [entry_exec, hg.input])
    have mid := shape.whole (res := .done cs m1) (Nat.le_refl 1) (by show 1 ≤ 614; omega) (begun_rel hg) rfl (Nat.zero_le _) rfl hgo hrun
    exact mid.returns (cn := Gen.GoRfc5424.out) rfl
      (fun r g' => value r g' = ((Rfc5424.finish cs m1).msg, (Rfc5424.finish cs m1).err.map fun e => (e.kind, (e.col : Int))) ∧ U.Rel m1 g')
      (fun g' hr' hcs => by
        obtain ⟨r, i1, i2⟩ := out_exec hr'
        exact ⟨r, g', i1, by rw [i2, hcs], hr'⟩) fuel hf

end Verif.Go.R5
