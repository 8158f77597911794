import Verif.Rfc5424.Machine
import Verif.Gen.Builder
import Verif.Spec.Timestamp

/-!
# `rfc5424/builder.go`

The transition table is `Verif.Gen.Builder.table`; this file gives the meaning of the embedded actions and
models the setters and `String`.

A `SyslogMessage` is modelled by its value; `Verif/Messages.lean` has the same functions on a heap, where two copies of a message share their
structured data maps. Not modelled: maps put into the exported field `StructuredData` by hand whose inner maps are nil.
-/

namespace Verif.Builder
open Verif.Fsm Verif.Gen.Builder
open Verif.Rfc5424 (SyslogMessage SD slice)

/-- The package variables (builder.go:64-65). -/
structure Globals where
  currentid : Bytes := []
  currentparamname : Bytes := []
  deriving DecidableEq, Repr

/-- The local variables of `set` (builder.go:67-73), the message and the package variables. -/
structure B where
  data : Bytes := []
  p : Nat := 0
  pb : Nat := 0
  backslashes : List Nat := []
  sm : SyslogMessage := {}
  g : Globals := {}
  deriving DecidableEq, Repr

/-- `data[pb:p]`, or panic -/
def withText (m : B) (f : Bytes → Step B) : Step B :=
  match slice m.data m.pb m.p with
  | none => .panic
  | some t => f t

/-- The action snippets of builder.go; the Go text of each is quoted at its constructor in `Verif.Gen.Builder.Act`
(end-of-input actions: builder.go:9165-9255). -/
def act : Act → B → Step B
  | .mark, m => .next { m with pb := m.p }
  | .setTimestamp, m => withText m fun t =>
      match GoTime.parseRFC3339Micro t with
      | none => .next m
      | some tm => .next { m with sm := { m.sm with timestamp := some tm } }
  | .setHostname, m => withText m fun t => .next (if t ≠ [45] then { m with sm := { m.sm with hostname := some t } } else m)
  | .setAppname, m => withText m fun t => .next (if t ≠ [45] then { m with sm := { m.sm with appname := some t } } else m)
  | .setProcid, m => withText m fun t => .next (if t ≠ [45] then { m with sm := { m.sm with procID := some t } } else m)
  | .setMsgid, m => withText m fun t => .next (if t ≠ [45] then { m with sm := { m.sm with msgID := some t } } else m)
  | .setSdid, m => withText m fun t =>
      match (m.sm.structuredData.getD []).find t with
      | some _ => .next { m with sm := { m.sm with structuredData := some (m.sm.structuredData.getD []) } }
      | none => .next { m with sm := { m.sm with structuredData := some ((m.sm.structuredData.getD []).insert t []) } }
  | .setSdpn, m =>
      match m.sm.structuredData with
      | none => .panic -- nil pointer dereference
      | some sd => withText m fun t =>
        match sd.find m.g.currentid with
        | none => .panic -- assignment to an entry in a nil map
        | some ps => .next { m with sm := { m.sm with structuredData := some (sd.insert m.g.currentid (ps.insert t [])) } }
  | .markslash, m => .next { m with backslashes := m.backslashes ++ [m.p] }
  | .setSdpv, m => withText m fun t =>
      match (if m.backslashes.length > 0 then Common.removeBytes t (m.backslashes.map Int.ofNat) m.pb else some t) with
      | none => .panic
      | some text =>
        match m.sm.structuredData with
        | none => .panic -- nil pointer dereference
        | some sd =>
          match sd.find m.g.currentid with
          | none => .panic -- assignment to an entry in a nil map
          | some ps =>
            .next { m with sm := { m.sm with
              structuredData := some (sd.insert m.g.currentid (ps.insert m.g.currentparamname text)) } }
  | .setMsg, m => withText m fun t => .next (if t ≠ [] then { m with sm := { m.sm with message := some t } } else m)

/-- The row of state `n` (`stCaseN:`). -/
def T (n : Nat) : Row Act := table.getD n ⟨[], [], ⟨[], 0⟩, []⟩

/-- `p++` -/
def adv (m : B) : B := { m with p := m.p + 1 }

/-- `entrypoint` (builder.go:25-37) -/
inductive Entry where
  | timestamp | hostname | appname | procid | msgid | sdid | sdpn | sdpv | msg
  deriving DecidableEq, Repr

/-- `translate` (builder.go:39-62) with the constants builder.go:13-23 -/
def Entry.translate : Entry → Nat
  | .timestamp => 1 | .hostname => 38 | .appname => 39 | .procid => 40 | .msgid => 41 | .sdid => 42 | .sdpn => 43
  | .sdpv => 582 | .msg => 52

/-- `set` (builder.go:67-9265); `none` is a panic -/
def set (g : Globals) (e : Entry) (value : Bytes) (sm : SyslogMessage) : Option SyslogMessage :=
  match run T act adv value e.translate { data := value, sm := sm, g := g } with
  | .done _ b => some b.sm
  | .panic => none
  | .loop => none

/-- `SetPriority` (builder.go:9270-9276) -/
def setPriority (sm : SyslogMessage) (value : UInt8) : SyslogMessage :=
  if Common.validPriority value then { sm with toBase := sm.toBase.computeFromPriority value } else sm

/-- `SetVersion` (builder.go:9281-9287) -/
def setVersion (sm : SyslogMessage) (value : UInt16) : SyslogMessage :=
  if Common.validVersion value then { sm with version := value } else sm

/-- the condition builder.go:9330-9332 -/
def hasElement (id : Bytes) (sm : SyslogMessage) : Bool :=
  match sm.structuredData with
  | none => false
  | some sd => (sd.find id).isSome

/-- the condition builder.go:9336 (a lookup in a missing or nil inner map finds nothing) -/
def hasParam (id name : Bytes) (sm : SyslogMessage) : Bool :=
  match sm.structuredData with
  | none => false
  | some sd =>
    match sd.find id with
    | none => false
    | some ps => (ps.find name).isSome

/-- `SetParameter` (builder.go:9325-9344), without interruption; the package variables are read and written. -/
def setParameter (g : Globals) (id name value : Bytes) (sm : SyslogMessage) : Option (SyslogMessage × Globals) :=
  match set g .sdid id sm with
  | none => none
  | some sm1 =>
    if hasElement id sm1 then
      match set { g with currentid := id } .sdpn name sm1 with
      | none => none
      | some sm2 =>
        if hasParam id name sm2 then
          match set { currentid := id, currentparamname := name } .sdpv value sm2 with
          | none => none
          | some sm3 => some (sm3, { currentid := id, currentparamname := name })
        else some (sm2, { g with currentid := id })
    else some (sm1, g)

/-- The methods of `Builder` (rfc5424/syslog_message.go:62-75). -/
inductive Call where
  | priority (v : UInt8)
  | version (v : UInt16)
  | timestamp (s : Bytes)
  | hostname (s : Bytes)
  | appname (s : Bytes)
  | procID (s : Bytes)
  | msgID (s : Bytes)
  | elementID (s : Bytes)
  | parameter (id name value : Bytes)
  | message (s : Bytes)
  deriving DecidableEq, Repr

/-- One setter call (builder.go:9270-9349); `none` is a panic. -/
def Call.run (c : Call) (s : SyslogMessage × Globals) : Option (SyslogMessage × Globals) :=
  match c with
  | .priority v => some (setPriority s.1 v, s.2)
  | .version v => some (setVersion s.1 v, s.2)
  | .timestamp w => (set s.2 .timestamp w s.1).map (·, s.2)
  | .hostname w => (set s.2 .hostname w s.1).map (·, s.2)
  | .appname w => (set s.2 .appname w s.1).map (·, s.2)
  | .procID w => (set s.2 .procid w s.1).map (·, s.2)
  | .msgID w => (set s.2 .msgid w s.1).map (·, s.2)
  | .elementID w => (set s.2 .sdid w s.1).map (·, s.2)
  | .parameter id name value => setParameter s.2 id name value s.1
  | .message w => (set s.2 .msg w s.1).map (·, s.2)

/-- a chain of setter calls -/
def runCalls : List Call → SyslogMessage × Globals → Option (SyslogMessage × Globals)
  | [], s => some s
  | c :: cs, s =>
    match c.run s with
    | none => none
    | some s' => runCalls cs s'

/-! ## `String` -/

/-- `fmt` verb `%d` of an unsigned integer -/
def printUint (n : Nat) : Bytes := if n < 10 then [UInt8.ofNat (48 + n)] else printUint (n / 10) ++ [UInt8.ofNat (48 + n % 10)]
termination_by n
decreasing_by omega

/-- Go `time.appendInt(b, x, width)`: decimal with at least `width` digits, zero padded -/
def appendInt (x : Int) (width : Nat) : Bytes :=
  let digits := printUint x.natAbs
  (if x < 0 then [45] else []) ++ (List.replicate (width - digits.length) 48 ++ digits)

/-- Go `time.appendNano` for the layout element `.999999`: six digits, trailing zeros removed, nothing if all are zero -/
def appendNano (nsec : Nat) : Bytes :=
  let ds := ((appendInt nsec 9).take 6).reverse.dropWhile (· = 48)
  if ds = [] then [] else 46 :: ds.reverse

/-- Go `time.AppendFormat` for the layout element `Z07:00` -/
def appendZone (off : Int) : Bytes :=
  if off = 0 then [90]
  else
    let zone : Nat := off.natAbs / 60
    (if off.tdiv 60 < 0 then [45] else [43]) ++ (appendInt (zone / 60 : Nat) 2 ++ 58 :: appendInt (zone % 60 : Nat) 2)

/-- `t.Format("2006-01-02T15:04:05.999999Z07:00")` (Go standard library, `time/format.go`; not in the repository) -/
def formatMicro (t : GoTime.Time) : Bytes :=
  appendInt t.year 4 ++ 45 :: (appendInt t.month 2 ++ 45 :: (appendInt t.day 2 ++ 84 :: (appendInt t.hour 2 ++ 58 ::
    (appendInt t.min 2 ++ 58 :: (appendInt t.sec 2 ++ (appendNano t.nsec ++ appendZone t.off))))))

/-- Go's `a <= b` on strings -/
def ble (a b : Bytes) : Bool := !blt b a

/-- insertion into a sorted list -/
def insertSorted (a : Bytes) : List Bytes → List Bytes
  | [] => [a]
  | b :: l => if ble a b then a :: b :: l else b :: insertSorted a l

/-- `sort.Strings` (Go standard library), as insertion sort: every correct sorting algorithm gives this list, since equal
strings are indistinguishable (`sortStrings_unique`) -/
def sortStrings : List Bytes → List Bytes
  | [] => []
  | a :: l => insertSorted a (sortStrings l)

/-- ` NAME="VALUE"` for each name in order (builder.go:9401-9403); `params[name]` of a missing name is `""`. -/
def printParams (params : SMap Bytes) (names : List Bytes) : Bytes :=
  names.flatMap fun name => 32 :: (name ++ 61 :: 34 :: (Common.escapeBytes ((params.find name).getD []) ++ [34]))

/-- the loop over the identifiers (builder.go:9389-9405); `order id` is the order in which `range` yields the names of the
inner map `(*sm.StructuredData)[id]` -/
def printSD (sd : SD) (order : Bytes → List Bytes) (ids : List Bytes) : Bytes :=
  ids.flatMap fun id => 91 :: (id ++ (printParams ((sd.find id).getD []) (sortStrings (order id)) ++ [93]))

/-- `t` (builder.go:9358, 9365-9367) -/
def textTime : Option GoTime.Time → Bytes
  | none => [45]
  | some t => formatMicro t

/-- `sd` (builder.go:9363, 9380-9406) -/
def textSD (outer : List Bytes) (inner : Bytes → List Bytes) : Option SD → Bytes
  | none => [45]
  | some sd => printSD sd inner (sortStrings outer)

/-- `m` (builder.go:9364, 9407-9409) -/
def textMsg : Option Bytes → Bytes
  | none => []
  | some m => 32 :: m

/-- `String` (builder.go:9351-9411). `outer` and `inner` are the orders in which `range` yields the keys of the maps.
`none` is the error. -/
def stringWith (outer : List Bytes) (inner : Bytes → List Bytes) (sm : SyslogMessage) : Option Bytes :=
  if sm.valid = false then none
  else
    match sm.priority with
    | none => none -- not reachable: a valid message has a priority
    | some pri =>
      let t := textTime sm.timestamp
      let hn := sm.hostname.getD [45]
      let an := sm.appname.getD [45]
      let pid := sm.procID.getD [45]
      let mid := sm.msgID.getD [45]
      let sd := textSD outer inner sm.structuredData
      let m := textMsg sm.message
      some (60 :: (printUint pri.toNat ++ 62 :: (printUint sm.version.toNat ++ 32 :: (t ++ 32 :: (hn ++ 32 :: (an ++ 32 ::
        (pid ++ 32 :: (mid ++ 32 :: (sd ++ m)))))))))

/-- keys of a map in the order of the model -/
def keys {V : Type} (m : SMap V) : List Bytes := m.map Prod.fst

/-- `String` (builder.go:9351-9411) with one particular iteration order -/
def string (sm : SyslogMessage) : Option Bytes :=
  stringWith (keys (sm.structuredData.getD [])) (fun id => keys (((sm.structuredData.getD []).find id).getD [])) sm

end Verif.Builder
