import Verif.Go.Rfc5424
import Verif.Gen.GoBuilder
import Verif.Builder.Model

/-!
# `set` of `rfc5424/builder.go` as it is written

The meaning of the statements of `Verif.Gen.GoBuilder.prog`, the statements of each action of the table `Verif.Gen.Builder.table`, and the
proof that the program does what the table says.
-/

namespace Verif.Go.RB
open Verif.Rfc5424 (SyslogMessage SD)
open Verif.Builder (B Globals Entry)
open Verif.Gen.Builder (Act)
open Verif.Gen.GoBuilder (A C R K prog)

/-- The parameters and the local variables of `set` (rfc5424/builder.go:67-73) that are not in `GS`, and the package variables
(rfc5424/builder.go:64-65). `e` is `e != nil`. `elements` is the same map as `*sm.StructuredData` and has no field of its own. -/
structure V where
  from_ : Entry := .timestamp
  pb : Int := 0
  backslashes : List Int := []
  sm : SyslogMessage := {}
  glob : Globals := {}
  t : GoTime.Time := Rfc5424.zeroTime
  e : Bool := false
  s : Bytes := []
  id : Bytes := []
  text : Bytes := []
  ok : Bool := false

/-- `data[pb:p]` -/
def text (g : GS V) : Option Bytes := R5.sliceInt g.data g.x.pb g.p

/-- an assignment to a field of the message -/
def assign (g : GS V) (f : SyslogMessage → SyslogMessage) : Option (GS V) := some { g with x := { g.x with sm := f g.x.sm } }

/-- The statements (their Go text is at the constructors of `Verif.Gen.GoBuilder.A`). -/
def stmt : A → GS V → Option (GS V)
  | .pbZero, g => some { g with x := { g.x with pb := 0 } }
  | .csFrom, g => some { g with cs := g.x.from_.translate }
  | .backslashesNew, g => some { g with x := { g.x with backslashes := [] } }
  | .pbP, g => some { g with x := { g.x with pb := g.p } }
  | .backslashesAppend, g => some { g with x := { g.x with backslashes := g.x.backslashes ++ [g.p] } }
  | .timeParse, g => (text g).map fun t => match GoTime.parseRFC3339Micro t with
    | some tm => { g with x := { g.x with t := tm, e := false } }
    | none => { g with x := { g.x with t := Rfc5424.zeroTime, e := true } }
  | .timestamp, g => assign g fun sm => { sm with timestamp := some g.x.t }
  | .sText, g => (text g).map fun t => { g with x := { g.x with s := t } }
  | .hostname, g => assign g fun sm => { sm with hostname := some g.x.s }
  | .appname, g => assign g fun sm => { sm with appname := some g.x.s }
  | .procID, g => assign g fun sm => { sm with procID := some g.x.s }
  | .msgID, g => assign g fun sm => { sm with msgID := some g.x.s }
  | .message, g => assign g fun sm => { sm with message := some g.x.s }
  | .sdNew, g => assign g fun sm => { sm with structuredData := some [] }
  | .idText, g => (text g).map fun t => { g with x := { g.x with id := t } }
  -- dereferences the pointer
  | .elements, g => g.x.sm.structuredData.map fun _ => g
  | .elementLookup, g => some { g with x := { g.x with ok := ((g.x.sm.structuredData.getD []).find g.x.id).isSome } }
  | .elementAdd, g => g.x.sm.structuredData.map fun sd =>
      { g with x := { g.x with sm := { g.x.sm with structuredData := some (sd.insert g.x.id []) } } }
  -- `elements[currentid]` of an absent key is a nil map, to which nothing can be assigned
  | .paramAdd, g => g.x.sm.structuredData.bind fun sd => (text g).bind fun t => (sd.find g.x.glob.currentid).map fun ps =>
      { g with x := { g.x with sm := { g.x.sm with structuredData := some (sd.insert g.x.glob.currentid (ps.insert t [])) } } }
  | .textNew, g => (text g).map fun t => { g with x := { g.x with text := t } }
  | .removeBytes, g => (Common.removeBytes g.x.text g.x.backslashes g.x.pb).map fun t => { g with x := { g.x with text := t } }
  | .paramSet, g => g.x.sm.structuredData.bind fun sd => (sd.find g.x.glob.currentid).map fun ps =>
      { g with x := { g.x with sm := { g.x.sm with
        structuredData := some (sd.insert g.x.glob.currentid (ps.insert g.x.glob.currentparamname g.x.text)) } } }

/-- The conditions. -/
def cond : C → GS V → Option Bool
  | .eNil, g => some !g.x.e
  | .sNotDash, g => some (g.x.s ≠ [45])
  | .sNotEmpty, g => some (g.x.s ≠ [])
  | .sdNil, g => some g.x.sm.structuredData.isNone
  | .notOk, g => some !g.x.ok
  | .hasBackslashes, g => some (0 < g.x.backslashes.length)

/-- The meaning of the statements of the program (rfc5424/builder.go:67-9265). -/
def sem : Sem A C V := ⟨stmt, cond⟩

/-! ## Actions -/

/-- `if s := string(data[pb:p]); c { st }` -/
def ifText (c : C) (st : A) (k : K) : K := .stmt (.prim .sText) (.ifElse (.prim c) (.stmt (.prim st) .done) .done k)

/-- The statements of each action (the Go text is at the constructors of `Verif.Gen.Builder.Act`). -/
def code : Act → K → K
  | .mark, k => .stmt (.prim .pbP) k
  | .setTimestamp, k => .stmt (.prim .timeParse) (.ifElse (.prim .eNil) (.stmt (.prim .timestamp) .done) .done k)
  | .setHostname, k => ifText .sNotDash .hostname k
  | .setAppname, k => ifText .sNotDash .appname k
  | .setProcid, k => ifText .sNotDash .procID k
  | .setMsgid, k => ifText .sNotDash .msgID k
  | .setSdid, k => .ifElse (.prim .sdNil) (.stmt (.prim .sdNew) .done) .done (.stmt (.prim .idText) (.stmt (.prim .elements)
      (.stmt (.prim .elementLookup) (.ifElse (.prim .notOk) (.stmt (.prim .elementAdd) .done) .done k))))
  | .setSdpn, k => .stmt (.prim .elements) (.stmt (.prim .paramAdd) k)
  | .markslash, k => .stmt (.prim .backslashesAppend) k
  | .setSdpv, k => .stmt (.prim .textNew) (.ifElse (.prim .hasBackslashes) (.stmt (.prim .removeBytes) .done) .done
      (.stmt (.prim .elements) (.stmt (.prim .paramSet) k)))
  | .setMsg, k => ifText .sNotEmpty .message k

/-- The variables represent the state `m` of the table model. -/
structure Rx (m : B) (x : V) : Prop where
  pb : x.pb = m.pb
  backslashes : x.backslashes = m.backslashes.map Int.ofNat
  sm : x.sm = m.sm
  glob : x.glob = m.g

def U : Setup A C R V Act B where
  P := prog
  S := sem
  T := Builder.T
  act := Builder.act
  adv := Builder.adv
  code := code
  pos := fun m => m.p
  dat := fun m => m.data
  rx := Rx
  env := fun _ => none
  last := 583

/-! ## The blocks of the program, checked by the kernel -/

/-- the states at which `set` can start; there is no `goto` to them -/
def starts : List Nat := [1, 38, 39, 40, 41, 42, 43, 52, 582]

set_option maxRecDepth 100000 in
theorem sts_ok : U.stsB starts = true := by decide +kernel

set_option maxRecDepth 100000 in
theorem cases_ok : checkRows (U.caseB starts) 0 Gen.Builder.table = true := by decide +kernel

set_option maxRecDepth 100000 in
theorem eof_ok : checkRows (U.eofB Gen.GoBuilder.testEof.1) 0 Gen.Builder.table = true := by decide +kernel

/-! ## The statements of an action do what the action does -/

/-- the variables of state `m` -/
def vars (m : B) (v : V) : V := { v with pb := m.pb, backslashes := m.backslashes.map Int.ofNat, sm := m.sm, glob := m.g }

theorem Rx_vars (m : B) (v : V) : Rx m (vars m v) := ⟨rfl, rfl, rfl, rfl⟩

theorem Rx.eq {m : B} {x : V} (h : Rx m x) : x = vars m x := by
  obtain ⟨h1, h2, h3, h4⟩ := h
  cases x
  simp only at h1 h2 h3 h4
  subst h1 h2 h3 h4
  rfl

/-- the variables of state `m`, with the others as in `g` -/
def gs (m : B) (g : GS V) : GS V :=
  { g with data := m.data, p := m.p, pe := m.data.length, eof := m.data.length, x := vars m g.x }

theorem rel_gs (m : B) (g : GS V) : U.Rel m (gs m g) := ⟨rfl, rfl, rfl, rfl, Rx_vars m g.x⟩

theorem gs_eq {m : B} {g : GS V} (h : U.Rel m g) : g = gs m g := by
  obtain ⟨h1, h2, h3, h4, h5⟩ := h
  have h5' := Rx.eq h5
  obtain ⟨inp, data, p, pe, eof, cs, w, x⟩ := g
  simp only at h1 h2 h3 h4 h5'
  subst h1 h2 h3 h4
  unfold gs
  rw [← h5']
  rfl

theorem text_gs (m : B) (g : GS V) : text (gs m g) = Rfc5424.slice m.data m.pb m.p := R5.sliceInt_eq m.data m.pb m.p

/-- what `ActOK` says about one call -/
abbrev Does (a : Act) (m : B) (g : GS V) (k : K) : Prop :=
  match U.act a m with
  | .next m' => ∃ x', U.Rel m' { gs m g with x := x' } ∧ U.S.exec (U.code a k) (gs m g) = U.S.exec k { gs m g with x := x' }
  | .jump m' s => U.HasSt s ∧ ∃ x', U.Rel m' { gs m g with x := x' } ∧
      U.S.exec (U.code a k) (gs m g) = .goto (.st s) { gs m g with x := x', p := (gs m g).p - 1 }
  | .panic => U.S.exec (U.code a k) (gs m g) = .panic

theorem next {a : Act} {m : B} {g : GS V} {k : K} (m' : B) (x' : V) (ha : Builder.act a m = .next m') (hp : m'.p = m.p) (hd : m'.data = m.data)
    (hx : Rx m' x') (he : sem.exec (code a k) (gs m g) = sem.exec k { gs m g with x := x' }) : Does a m g k := by
  have : U.act a m = .next m' := ha
  simp only [Does, this]
  exact ⟨x', ⟨congrArg Int.ofNat hp.symm, hd.symm, congrArg (Int.ofNat ∘ List.length) hd.symm, congrArg (Int.ofNat ∘ List.length) hd.symm, hx⟩, he⟩

theorem panic {a : Act} {m : B} {g : GS V} {k : K} (ha : Builder.act a m = .panic) (he : sem.exec (code a k) (gs m g) = .panic) : Does a m g k := by
  have : U.act a m = .panic := ha
  simp only [Does, this]
  exact he

theorem sText_eq (g : GS V) : stmt .sText g = (text g).map fun t => { g with x := { g.x with s := t } } := rfl

/-- an action that sets a field of the message from the text, if the text is not a certain one -/
theorem textual {a : Act} {c : C} {st : A} {no : Bytes} {f : Bytes → SyslogMessage → SyslogMessage} (hc : ∀ k, code a k = ifText c st k)
    (hs : ∀ g, stmt st g = assign g (f g.x.s)) (ht : ∀ g, cond c g = some (decide (g.x.s ≠ no)))
    (ha : ∀ m, Builder.act a m = Builder.withText m fun t => .next (if t ≠ no then { m with sm := f t m.sm } else m))
    (m : B) (g : GS V) (k : K) : Does a m g k := by
  cases hT : Rfc5424.slice m.data m.pb m.p with
  | none =>
    refine panic (by rw [ha, Builder.withText, hT]) ?_
    rw [hc]
    simp [ifText, Sem.exec, Sem.simple, sem, stmt, text_gs, hT]
  | some t =>
    by_cases h : t = no
    · refine next m { vars m g.x with s := t } (by rw [ha, Builder.withText, hT]; simp [h]) rfl rfl ⟨rfl, rfl, rfl, rfl⟩ ?_
      rw [hc]
      simp only [ifText, Sem.exec, Sem.simple, Sem.test, sem, sText_eq, text_gs, hT, Option.map_some, ht]
      simp [h, gs]
    · refine next { m with sm := f t m.sm } { vars m g.x with s := t, sm := f t m.sm } (by rw [ha, Builder.withText, hT]; simp [h]) rfl rfl
        ⟨rfl, rfl, rfl, rfl⟩ ?_
      rw [hc]
      simp only [ifText, Sem.exec, Sem.simple, Sem.test, sem, sText_eq, text_gs, hT, Option.map_some, ht]
      simp [h, gs, hs, assign, vars]

/-- the rest of `setSdpv` when the text without backslashes is `q` -/
def paramStep (m : B) (q : Option Bytes) : Fsm.Step B :=
  match q with
  | none => .panic
  | some text =>
    match m.sm.structuredData with
    | none => .panic
    | some sd =>
      match sd.find m.g.currentid with
      | none => .panic
      | some ps => .next { m with sm := { m.sm with structuredData := some (sd.insert m.g.currentid (ps.insert m.g.currentparamname text)) } }

def paramExec (m : B) (g : GS V) (k : K) : Option Bytes → End R V
  | none => .panic
  | some tx => sem.exec (.stmt (.prim .elements) (.stmt (.prim .paramSet) k)) { gs m g with x := { vars m g.x with text := tx } }

theorem does (a : Act) (m : B) (g : GS V) (k : K) : Does a m g k := by
  have ht := R5.sliceInt_eq m.data m.pb m.p
  cases a with
  | mark => exact next { m with pb := m.p } { vars m g.x with pb := m.p } rfl rfl rfl ⟨rfl, rfl, rfl, rfl⟩ rfl
  | markslash =>
    refine next { m with backslashes := m.backslashes ++ [m.p] } { vars m g.x with backslashes := m.backslashes.map Int.ofNat ++ [(m.p : Int)] }
      rfl rfl rfl ⟨rfl, ?_, rfl, rfl⟩ rfl
    simp
  | setHostname => exact textual (f := fun t sm => { sm with hostname := some t }) (fun _ => rfl) (fun _ => rfl) (fun _ => rfl) (fun _ => rfl) m g k
  | setAppname => exact textual (f := fun t sm => { sm with appname := some t }) (fun _ => rfl) (fun _ => rfl) (fun _ => rfl) (fun _ => rfl) m g k
  | setProcid => exact textual (f := fun t sm => { sm with procID := some t }) (fun _ => rfl) (fun _ => rfl) (fun _ => rfl) (fun _ => rfl) m g k
  | setMsgid => exact textual (f := fun t sm => { sm with msgID := some t }) (fun _ => rfl) (fun _ => rfl) (fun _ => rfl) (fun _ => rfl) m g k
  | setMsg => exact textual (f := fun t sm => { sm with message := some t }) (fun _ => rfl) (fun _ => rfl) (fun _ => rfl) (fun _ => rfl) m g k
  | setTimestamp =>
    cases hT : Rfc5424.slice m.data m.pb m.p with
    | none =>
      refine panic (by simp [Builder.act, Builder.withText, hT]) ?_
      simp [code, Sem.exec, Sem.simple, sem, stmt, text_gs, hT]
    | some t =>
      cases hP : GoTime.parseRFC3339Micro t with
      | none =>
        refine next m { vars m g.x with t := Rfc5424.zeroTime, e := true } (by simp [Builder.act, Builder.withText, hT, hP]) rfl rfl ⟨rfl, rfl, rfl, rfl⟩ ?_
        simp [code, Sem.exec, Sem.simple, Sem.test, sem, stmt, cond, text_gs, hT, hP]
        rfl
      | some tm =>
        refine next { m with sm := { m.sm with timestamp := some tm } }
          { vars m g.x with t := tm, e := false, sm := { m.sm with timestamp := some tm } }
          (by simp [Builder.act, Builder.withText, hT, hP]) rfl rfl ⟨rfl, rfl, rfl, rfl⟩ ?_
        simp [code, Sem.exec, Sem.simple, Sem.test, sem, stmt, cond, text_gs, hT, hP, assign]
        rfl
  | setSdid =>
    cases hT : Rfc5424.slice m.data m.pb m.p with
    | none =>
      refine panic (by simp [Builder.act, Builder.withText, hT]) ?_
      rw [hT] at ht
      cases hS : m.sm.structuredData <;>
        simp [code, Sem.exec, Sem.simple, Sem.test, sem, stmt, cond, text, gs, vars, ht, hS, assign]
    | some t =>
      rw [hT] at ht
      cases hF : (m.sm.structuredData.getD []).find t with
      | some ps =>
        refine next { m with sm := { m.sm with structuredData := some (m.sm.structuredData.getD []) } }
          { vars m g.x with id := t, ok := true, sm := { m.sm with structuredData := some (m.sm.structuredData.getD []) } }
          (by simp [Builder.act, Builder.withText, hT, hF]) rfl rfl ⟨rfl, rfl, rfl, rfl⟩ ?_
        cases hS : m.sm.structuredData with
        | none => rw [hS] at hF; cases hF
        | some sd =>
          rw [hS] at hF
          simp only [Option.getD_some] at hF
          simp only [code, Sem.exec, Sem.simple, Sem.test, sem, stmt, cond, text, gs, vars, ht, hS, Option.isNone_some, Option.map_some,
            Option.getD_some, hF, Option.isSome_some, Bool.not_true]
          congr 3
          rw [← hS]
      | none =>
        refine next { m with sm := { m.sm with structuredData := some ((m.sm.structuredData.getD []).insert t []) } }
          { vars m g.x with id := t, ok := false, sm := { m.sm with structuredData := some ((m.sm.structuredData.getD []).insert t []) } }
          (by simp [Builder.act, Builder.withText, hT, hF]) rfl rfl ⟨rfl, rfl, rfl, rfl⟩ ?_
        cases hS : m.sm.structuredData with
        | none =>
          simp only [code, Sem.exec, Sem.simple, Sem.test, sem, stmt, cond, text, gs, vars, ht, hS, Option.isNone_none, Option.map_some, assign,
            Option.getD_some, Option.getD_none, SMap.find, Option.isSome_none, Bool.not_false]
        | some sd =>
          rw [hS] at hF
          simp only [Option.getD_some] at hF
          simp only [code, Sem.exec, Sem.simple, Sem.test, sem, stmt, cond, text, gs, vars, ht, hS, Option.isNone_some, Option.map_some,
            Option.getD_some, hF, Option.isSome_none, Bool.not_false]
  | setSdpn =>
    cases hS : m.sm.structuredData with
    | none =>
      refine panic (by simp [Builder.act, hS]) ?_
      simp [code, Sem.exec, Sem.simple, sem, stmt, gs, vars, hS]
    | some sd =>
      cases hT : Rfc5424.slice m.data m.pb m.p with
      | none =>
        rw [hT] at ht
        refine panic (by simp [Builder.act, Builder.withText, hS, hT]) ?_
        simp [code, Sem.exec, Sem.simple, sem, stmt, gs, vars, hS, text, ht]
      | some t =>
        rw [hT] at ht
        cases hF : sd.find m.g.currentid with
        | none =>
          refine panic (by simp [Builder.act, Builder.withText, hS, hT, hF]) ?_
          simp [code, Sem.exec, Sem.simple, sem, stmt, gs, vars, hS, text, ht, hF]
        | some ps =>
          refine next { m with sm := { m.sm with structuredData := some (sd.insert m.g.currentid (ps.insert t [])) } }
            { vars m g.x with sm := { m.sm with structuredData := some (sd.insert m.g.currentid (ps.insert t [])) } }
            (by simp [Builder.act, Builder.withText, hS, hT, hF]) rfl rfl ⟨rfl, rfl, rfl, rfl⟩ ?_
          simp [code, Sem.exec, Sem.simple, sem, stmt, gs, vars, hS, text, ht, hF]
  | setSdpv =>
    cases hT : Rfc5424.slice m.data m.pb m.p with
    | none =>
      rw [hT] at ht
      refine panic (by simp [Builder.act, Builder.withText, hT]) ?_
      simp [code, Sem.exec, Sem.simple, sem, stmt, text, gs, vars, ht]
    | some t =>
      rw [hT] at ht
      have hlen : (m.backslashes.map Int.ofNat).length = m.backslashes.length := List.length_map ..
      obtain ⟨q, hq⟩ : ∃ q, q = (if m.backslashes.length > 0 then Common.removeBytes t (m.backslashes.map Int.ofNat) m.pb else some t) := ⟨_, rfl⟩
      have hex : sem.exec (code .setSdpv k) (gs m g) = paramExec m g k q := by
        by_cases hb : m.backslashes.length > 0
        · rw [if_pos hb] at hq
          have hb' : decide (0 < m.backslashes.length) = true := by simpa using hb
          cases q with
          | none => simp only [code, Sem.exec, Sem.simple, Sem.test, sem, stmt, cond, text, gs, vars, ht, hlen, hb', Option.map_some, ← hq, Option.map_none, paramExec]
          | some tx => simp only [code, Sem.exec, Sem.simple, Sem.test, sem, stmt, cond, text, gs, vars, ht, hlen, hb', Option.map_some, ← hq, paramExec]
        · rw [if_neg hb] at hq
          subst hq
          have hb' : decide (0 < m.backslashes.length) = false := by simpa using hb
          simp only [code, Sem.exec, Sem.simple, Sem.test, sem, stmt, cond, text, gs, vars, ht, hlen, hb', Option.map_some, paramExec]
      have hact : Builder.act .setSdpv m = paramStep m q := by
        simp only [Builder.act, Builder.withText, hT]
        rw [hq]
        rfl
      cases q with
      | none => exact panic hact hex
      | some tx =>
        simp only [paramStep, paramExec] at hact hex
        cases hS : m.sm.structuredData with
        | none =>
          rw [hS] at hact
          exact panic hact (by rw [hex]; simp [Sem.exec, Sem.simple, sem, stmt, vars, hS])
        | some sd =>
          rw [hS] at hact
          simp only at hact
          cases hF : sd.find m.g.currentid with
          | none =>
            rw [hF] at hact
            exact panic hact (by rw [hex]; simp [Sem.exec, Sem.simple, sem, stmt, vars, hS, hF])
          | some ps =>
            rw [hF] at hact
            refine next _ { vars m g.x with text := tx, sm := { m.sm with
              structuredData := some (sd.insert m.g.currentid (ps.insert m.g.currentparamname tx)) } } hact rfl rfl ⟨rfl, rfl, rfl, rfl⟩ ?_
            rw [hex]
            simp [Sem.exec, Sem.simple, sem, stmt, vars, hS, hF, gs]

theorem act_ok (a : Act) : U.ActOK a := by
  intro m g k hr
  rw [gs_eq hr]
  have := does a m g k
  revert this
  unfold Does
  cases U.act a m <;> exact id

theorem shape : U.Shape := by
  refine Setup.shape (noSt := starts) (rows := Gen.Builder.table) (ce := Gen.GoBuilder.testEof.1) (fun n h => ?_) sts_ok cases_ok eof_ok rfl rfl
    (fun _ => rfl) (fun _ => rfl) (fun m x h => ⟨h.pb, h.backslashes, h.sm, h.glob⟩) act_ok (fun _ _ _ _ _ h => by cases h)
  have hn : n < Gen.Builder.table.length := Nat.lt_of_le_of_lt h (by decide +kernel)
  rw [List.getElem?_eq_getElem hn]
  show _ = some (Builder.T n)
  rw [Builder.T, List.getD_eq_getElem?_getD, List.getElem?_eq_getElem hn]
  rfl

/-! ## The whole function -/

/-- the variables at the start of a call of `set(e, value)` on the message `sm` -/
structure Starts (glob : Globals) (e : Entry) (value : Bytes) (sm : SyslogMessage) (g : GS V) : Prop where
  input : g.input = value
  from_ : g.x.from_ = e
  sm : g.x.sm = sm
  glob : g.x.glob = glob

/-- the variables after the first seven statements (rfc5424/builder.go:68-74) -/
def begun (g : GS V) : GS V :=
  { g with data := g.input, p := 0, pe := g.input.length, eof := g.input.length, cs := g.x.from_.translate,
           x := { g.x with pb := 0, backslashes := [] } }

set_option maxRecDepth 100000 in
theorem jumps_lookup (e : Entry) : Gen.GoBuilder.jumps.lookup e.translate = some (.stCase e.translate) := by cases e <;> decide +kernel

theorem entry_exec (g : GS V) : sem.exec Gen.GoBuilder.entry.1 g =
    .goto (if g.input.length = 0 then .testEof else .stCase g.x.from_.translate) (begun g) := by
  by_cases h : g.input.length = 0
  · rw [if_pos h]
    have : decide ((0 : Int) = (g.input.length : Int)) = true := by simp; omega
    simp only [Gen.GoBuilder.entry, Sem.exec, Sem.simple, Sem.test, sem, stmt, this]
    rfl
  · rw [if_neg h]
    have : decide ((0 : Int) = (g.input.length : Int)) = false := by simp; omega
    simp only [Gen.GoBuilder.entry, Sem.exec, Sem.simple, Sem.test, sem, stmt, this, jumps_lookup]
    rfl

theorem begun_rel {glob : Globals} {e : Entry} {value : Bytes} {sm : SyslogMessage} {g : GS V} (h : Starts glob e value sm g) :
    U.Rel { data := value, sm := sm, g := glob } (begun g) := by
  obtain ⟨h1, h2, h3, h4⟩ := h
  subst h1
  exact ⟨rfl, rfl, rfl, rfl, ⟨rfl, rfl, h3, h4⟩⟩

theorem translate_range (e : Entry) : 1 ≤ e.translate ∧ e.translate ≤ 583 := by cases e <;> decide

/-- A call of `set`: what the table model says, within a linear number of blocks. -/
theorem run_set {glob : Globals} {e : Entry} {value : Bytes} {sm sm' : SyslogMessage} {g : GS V} (hg : Starts glob e value sm g)
    (h : Builder.set glob e value sm = some sm') (fuel : Nat) (hf : 13 * value.length + 17 ≤ fuel) :
    ∃ g', sem.run prog fuel .entry g = .returned .sm g' ∧ g'.x.sm = sm' := by
  unfold Builder.set at h
  cases hrun : Fsm.run Builder.T Builder.act Builder.adv value e.translate { data := value, sm := sm, g := glob } with
  | panic => rw [hrun] at h; cases h
  | loop => rw [hrun] at h; cases h
  | done cs m1 =>
    rw [hrun] at h
    simp only [Option.some.injEq] at h
    subst h
    have hgo : U.S.Goes U.P 1 .entry g (if value.length = 0 then .testEof else .stCase e.translate) (begun g) :=
      Goes.goto' (cn := Gen.GoBuilder.entry) rfl (by
        show sem.exec Gen.GoBuilder.entry.1 g = _
        rw [entry_exec, hg.input, hg.from_])
    have mid := shape.whole (res := .done cs m1) (translate_range e).1 (translate_range e).2 (begun_rel hg) rfl (Nat.zero_le _)
      (by show g.x.from_.translate = _; rw [hg.from_]) hgo hrun
    obtain ⟨r, g', i1, i2, i3⟩ := mid.returns (cn := Gen.GoBuilder.out) rfl (fun r g' => r = .sm ∧ g'.x.sm = m1.sm)
      (fun g' hr' hcs => ⟨.sm, g', rfl, rfl, hr'.x.sm⟩) fuel hf
    subst i2
    exact ⟨g', i1, i3⟩

/-! ## The actions never jump, so that the automaton does not loop -/

theorem act_no_jump (a : Act) (m m' : B) (s : Nat) : Builder.act a m ≠ .jump m' s := by
  intro h
  cases a <;> simp only [Builder.act, Builder.withText] at h <;> (repeat' split at h) <;> cases h

theorem acts_no_jump (as : List Act) : ∀ (m m' : B) (s : Nat), Fsm.runActs Builder.act as m ≠ .jump m' s := by
  induction as with
  | nil => intro m m' s h; cases h
  | cons a as ih =>
    intro m m' s h
    simp only [Fsm.runActs] at h
    cases ha : Builder.act a m with
    | next m1 => rw [ha] at h; exact ih m1 m' s h
    | jump m1 s1 => exact act_no_jump a m m1 s1 ha
    | panic => rw [ha] at h; cases h

theorem run_no_loop (bs : Bytes) : ∀ (cs : Nat) (m : B), Fsm.run Builder.T Builder.act Builder.adv bs cs m ≠ .loop := by
  induction bs with
  | nil =>
    intro cs m h
    simp only [Fsm.run, show Fsm.jumpFuel = 3 + 1 from rfl, Fsm.runEof] at h
    cases ha : Fsm.runActs Builder.act (Builder.T cs).eof m with
    | next m1 => rw [ha] at h; cases h
    | jump m1 s1 => exact acts_no_jump _ m m1 s1 ha
    | panic => rw [ha] at h; cases h
  | cons b bs ih =>
    intro cs m h
    simp only [Fsm.run] at h
    cases hs : Fsm.stepByte Builder.T Builder.act Builder.adv b Fsm.jumpFuel cs m with
    | loop =>
      simp only [show Fsm.jumpFuel = 3 + 1 from rfl, Fsm.stepByte] at hs
      cases ha : Fsm.runActs Builder.act (Builder.T cs).frm m with
      | jump m1 s1 => exact acts_no_jump _ m m1 s1 ha
      | panic => rw [ha] at hs; cases hs
      | next m1 =>
        rw [ha] at hs
        simp only at hs
        cases hb : Fsm.runActs Builder.act ((Builder.T cs).dispatch b.toNat).acts m1 with
        | jump m2 s2 => exact acts_no_jump _ m1 m2 s2 hb
        | panic => rw [hb] at hs; cases hs
        | next m2 => rw [hb] at hs; simp only at hs; split at hs <;> cases hs
    | panic => rw [hs] at h; cases h
    | done n m1 =>
      rw [hs] at h
      cases n with
      | zero => cases h
      | succ n => exact ih (n + 1) m1 h

/-- When the table model panics, so does the program. -/
theorem run_set_panics {glob : Globals} {e : Entry} {value : Bytes} {sm : SyslogMessage} {g : GS V} (hg : Starts glob e value sm g)
    (h : Builder.set glob e value sm = none) (fuel : Nat) (hf : 13 * value.length + 17 ≤ fuel) : sem.run prog fuel .entry g = .panics := by
  unfold Builder.set at h
  cases hrun : Fsm.run Builder.T Builder.act Builder.adv value e.translate { data := value, sm := sm, g := glob } with
  | loop => exact absurd hrun (run_no_loop _ _ _)
  | done cs m1 => rw [hrun] at h; cases h
  | panic =>
    have hgo : U.S.Goes U.P 1 .entry g (if value.length = 0 then .testEof else .stCase e.translate) (begun g) :=
      Goes.goto' (cn := Gen.GoBuilder.entry) rfl (by
        show sem.exec Gen.GoBuilder.entry.1 g = _
        rw [entry_exec, hg.input, hg.from_])
    have mid := shape.whole (res := .panic) (translate_range e).1 (translate_range e).2 (begun_rel hg) rfl (Nat.zero_le _)
      (by show g.x.from_.translate = _; rw [hg.from_]) hgo hrun
    obtain ⟨k, hk, hp⟩ := mid
    have hk' : k ≤ 13 * value.length + 16 := hk
    obtain ⟨f, rfl⟩ : ∃ f, fuel = k + f := ⟨fuel - k, by omega⟩
    exact hp f

end Verif.Go.RB
