import Verif.Builder.Model
import Verif.Rfc5424.Machine

/-!
# RFC 5424 messages in memory

`Verif/Builder/Model.lean` and `Verif/Rfc5424/Machine.lean` model a message by its value. In Go a `SyslogMessage` is a struct of pointers
and its structured data is a map of maps, all of which two messages can share. Here the memory is explicit: the setters write to a heap,
`Parse` allocates what it returns, and `*a = *b` copies pointers.

The cells of each type are a list of their own (Go's pointers are typed); a reference is an index. The structured data field is a pointer to
a variable that holds a map; no code of the package assigns to the variable, so a reference stands for both.
-/

namespace Verif.Messages
open Verif.Fsm Verif.Gen.Builder
open Verif.Builder (Globals Entry Call)
open Verif.Rfc5424 (SyslogMessage SD slice)

/-- the heap -/
structure Mem where
  octets : List UInt8 := []
  times : List GoTime.Time := []
  texts : List Bytes := []
  /-- `map[string]map[string]string`: the values are references into `params` -/
  maps : List (SMap Nat) := []
  /-- `map[string]string` -/
  params : List (SMap Bytes) := []
  deriving DecidableEq, Repr

/-- A `SyslogMessage` struct (rfc5424/syslog_message.go:78-83, syslog.go:67-77) -/
structure Msg where
  facility : Option Nat := none
  severity : Option Nat := none
  priority : Option Nat := none
  timestamp : Option Nat := none
  hostname : Option Nat := none
  appname : Option Nat := none
  procID : Option Nat := none
  msgID : Option Nat := none
  message : Option Nat := none
  version : UInt16 := 0
  structuredData : Option Nat := none
  deriving DecidableEq, Repr

def zeroTime : GoTime.Time := Rfc5424.zeroTime

/-- what `*p` shows, for the map with reference `r` -/
def Mem.sd (h : Mem) (r : Nat) : SD := (h.maps.getD r []).map fun e => (e.1, h.params.getD e.2 [])

/-- what a user sees who follows all pointers of a message -/
def Mem.see (h : Mem) (m : Msg) : SyslogMessage :=
  { facility := m.facility.map (h.octets.getD · 0)
    severity := m.severity.map (h.octets.getD · 0)
    priority := m.priority.map (h.octets.getD · 0)
    timestamp := m.timestamp.map (h.times.getD · zeroTime)
    hostname := m.hostname.map (h.texts.getD · [])
    appname := m.appname.map (h.texts.getD · [])
    procID := m.procID.map (h.texts.getD · [])
    msgID := m.msgID.map (h.texts.getD · [])
    message := m.message.map (h.texts.getD · [])
    version := m.version
    structuredData := m.structuredData.map h.sd }

/-! ## the setters (rfc5424/builder.go) -/

/-- The local variables of `set` (rfc5424/builder.go:67-73), the message, the heap and the package variables. -/
structure B where
  data : Bytes := []
  p : Nat := 0
  pb : Nat := 0
  backslashes : List Nat := []
  mem : Mem := {}
  sm : Msg := {}
  g : Globals := {}

/-- `data[pb:p]`, or panic -/
def withText (m : B) (f : Bytes → Step B) : Step B :=
  match slice m.data m.pb m.p with
  | none => .panic
  | some t => f t

/-- `s := ...`, whose address is taken afterwards: a new variable -/
def newText (h : Mem) (t : Bytes) : Mem := { h with texts := h.texts ++ [t] }

/-- `elements[id]`, where `elements` is the map `r` -/
def inner (h : Mem) (r : Nat) (id : Bytes) : Option Nat := (h.maps.getD r []).find id

/-- The action snippets of builder.go; the Go text of each is quoted at its constructor in `Verif.Gen.Builder.Act`. -/
def act : Act → B → Step B
  | .mark, m => .next { m with pb := m.p }
  | .setTimestamp, m => withText m fun t =>
      match GoTime.parseRFC3339Micro t with
      | none => .next m
      | some tm => .next { m with mem := { m.mem with times := m.mem.times ++ [tm] }, sm := { m.sm with timestamp := some m.mem.times.length } }
  | .setHostname, m => withText m fun t =>
      .next (if t ≠ [45] then { m with mem := newText m.mem t, sm := { m.sm with hostname := some m.mem.texts.length } } else m)
  | .setAppname, m => withText m fun t =>
      .next (if t ≠ [45] then { m with mem := newText m.mem t, sm := { m.sm with appname := some m.mem.texts.length } } else m)
  | .setProcid, m => withText m fun t =>
      .next (if t ≠ [45] then { m with mem := newText m.mem t, sm := { m.sm with procID := some m.mem.texts.length } } else m)
  | .setMsgid, m => withText m fun t =>
      .next (if t ≠ [45] then { m with mem := newText m.mem t, sm := { m.sm with msgID := some m.mem.texts.length } } else m)
  | .setSdid, m => withText m fun t =>
      -- `if sm.StructuredData == nil { sm.StructuredData = &(map[string]map[string]string{}) }`
      let m1 : B := match m.sm.structuredData with
        | some _ => m
        | none => { m with mem := { m.mem with maps := m.mem.maps ++ [[]] }, sm := { m.sm with structuredData := some m.mem.maps.length } }
      let r := m1.sm.structuredData.getD 0
      match inner m1.mem r t with
      | some _ => .next m1
      | none => .next { m1 with mem := { m1.mem with maps := m1.mem.maps.set r ((m1.mem.maps.getD r []).insert t m1.mem.params.length)
                                                     params := m1.mem.params ++ [[]] } }
  | .setSdpn, m =>
      match m.sm.structuredData with
      | none => .panic -- nil pointer dereference
      | some r => withText m fun t =>
        match inner m.mem r m.g.currentid with
        | none => .panic -- assignment to an entry in a nil map
        | some x => .next { m with mem := { m.mem with params := m.mem.params.set x ((m.mem.params.getD x []).insert t []) } }
  | .markslash, m => .next { m with backslashes := m.backslashes ++ [m.p] }
  | .setSdpv, m => withText m fun t =>
      match (if m.backslashes.length > 0 then Common.removeBytes t (m.backslashes.map Int.ofNat) m.pb else some t) with
      | none => .panic
      | some text =>
        match m.sm.structuredData with
        | none => .panic -- nil pointer dereference
        | some r =>
          match inner m.mem r m.g.currentid with
          | none => .panic -- assignment to an entry in a nil map
          | some x => .next { m with mem := { m.mem with params := m.mem.params.set x ((m.mem.params.getD x []).insert m.g.currentparamname text) } }
  | .setMsg, m => withText m fun t =>
      .next (if t ≠ [] then { m with mem := newText m.mem t, sm := { m.sm with message := some m.mem.texts.length } } else m)

/-- `p++` -/
def adv (m : B) : B := { m with p := m.p + 1 }

/-- `set` (rfc5424/builder.go:67-9265) on the struct `sm`, which it may write; `none` is a panic -/
def set (g : Globals) (e : Entry) (value : Bytes) (h : Mem) (sm : Msg) : Option (Mem × Msg) :=
  match run Builder.T act adv value e.translate { data := value, mem := h, sm := sm, g := g } with
  | .done _ b => some (b.mem, b.sm)
  | .panic => none
  | .loop => none

/-- `SetPriority` (rfc5424/builder.go:9270-9276) with `ComputeFromPriority` (syslog.go:91-97): the three pointers are to new variables. -/
def setPriority (h : Mem) (sm : Msg) (value : UInt8) : Mem × Msg :=
  if Common.validPriority value then
    ({ h with octets := h.octets ++ [value, value / 8, value % 8] },
     { sm with priority := some h.octets.length, facility := some (h.octets.length + 1), severity := some (h.octets.length + 2) })
  else (h, sm)

/-- `SetVersion` (rfc5424/builder.go:9281-9287) -/
def setVersion (h : Mem) (sm : Msg) (value : UInt16) : Mem × Msg :=
  if Common.validVersion value then (h, { sm with version := value }) else (h, sm)

/-- the conditions rfc5424/builder.go:9330-9332 -/
def hasElement (id : Bytes) (h : Mem) (sm : Msg) : Bool :=
  match sm.structuredData with
  | none => false
  | some r => (inner h r id).isSome

/-- the condition rfc5424/builder.go:9336 -/
def hasParam (id name : Bytes) (h : Mem) (sm : Msg) : Bool :=
  match sm.structuredData with
  | none => false
  | some r =>
    match inner h r id with
    | none => false
    | some x => ((h.params.getD x []).find name).isSome

/-- `SetParameter` (rfc5424/builder.go:9325-9344), without interruption -/
def setParameter (g : Globals) (id name value : Bytes) (h : Mem) (sm : Msg) : Option ((Mem × Msg) × Globals) :=
  match set g .sdid id h sm with
  | none => none
  | some s1 =>
    if hasElement id s1.1 s1.2 then
      match set { g with currentid := id } .sdpn name s1.1 s1.2 with
      | none => none
      | some s2 =>
        if hasParam id name s2.1 s2.2 then
          match set { currentid := id, currentparamname := name } .sdpv value s2.1 s2.2 with
          | none => none
          | some s3 => some (s3, { currentid := id, currentparamname := name })
        else some (s2, { g with currentid := id })
    else some (s1, g)

/-- One setter call (rfc5424/builder.go:9270-9349); `none` is a panic. -/
def call (c : Call) (g : Globals) (h : Mem) (sm : Msg) : Option ((Mem × Msg) × Globals) :=
  match c with
  | .priority v => some (setPriority h sm v, g)
  | .version v => some (setVersion h sm v, g)
  | .timestamp w => (set g .timestamp w h sm).map (·, g)
  | .hostname w => (set g .hostname w h sm).map (·, g)
  | .appname w => (set g .appname w h sm).map (·, g)
  | .procID w => (set g .procid w h sm).map (·, g)
  | .msgID w => (set g .msgid w h sm).map (·, g)
  | .elementID w => (set g .sdid w h sm).map (·, g)
  | .parameter id name value => setParameter g id name value h sm
  | .message w => (set g .msg w h sm).map (·, g)

/-! ## what `Parse` returns -/

/-- the entries of the map, with references from `n` on -/
def number (n : Nat) : SD → SMap Nat
  | [] => []
  | e :: r => (e.1, n) :: number (n + 1) r

/-- a new variable for an optional field -/
def allocText (h : Mem) : Option Bytes → Mem × Option Nat
  | none => (h, none)
  | some t => (newText h t, some h.texts.length)

/-- The memory that a message returned by `Parse` occupies: `export` (rfc5424/syslog_message.go:31-60) points to the fields of `output`, which
`Parse` allocates anew (rfc5424/machine.go:122), with its own maps. Simplification: the value of the message is computed first (`parse1`), then
written to the heap; the maps of `output` are reachable from nowhere else meanwhile. -/
def alloc (h : Mem) (v : SyslogMessage) : Mem × Msg :=
  let h0 : Mem := { h with
    octets := h.octets ++ [v.facility.getD 0, v.severity.getD 0, v.priority.getD 0]
    times := h.times ++ [v.timestamp.getD zeroTime]
    texts := h.texts ++ [v.hostname.getD [], v.appname.getD [], v.procID.getD [], v.msgID.getD [], v.message.getD []]
    maps := h.maps ++ [number h.params.length (v.structuredData.getD [])]
    params := h.params ++ (v.structuredData.getD []).map Prod.snd }
  (h0, { facility := v.facility.map fun _ => h.octets.length
         severity := v.severity.map fun _ => h.octets.length + 1
         priority := v.priority.map fun _ => h.octets.length + 2
         timestamp := v.timestamp.map fun _ => h.times.length
         hostname := v.hostname.map fun _ => h.texts.length
         appname := v.appname.map fun _ => h.texts.length + 1
         procID := v.procID.map fun _ => h.texts.length + 2
         msgID := v.msgID.map fun _ => h.texts.length + 3
         message := v.message.map fun _ => h.texts.length + 4
         version := v.version
         structuredData := v.structuredData.map fun _ => h.maps.length })

/-! ## a program that uses the package -/

/-- the heap, the messages of the program, its input buffers, the package variables -/
structure World where
  mem : Mem := {}
  msgs : List Msg := []
  buffers : List Bytes := []
  g : Globals := {}

/-- what a program can do with messages -/
inductive Op where
  /-- `m := &SyslogMessage{}` -/
  | new
  /-- `m, err := NewMachine(o...).Parse(buffer k)`: a new message if the result is not nil -/
  | parse (o : Rfc5424.Opts) (k : Nat)
  /-- `*mᵢ = *mⱼ` -/
  | assign (i j : Nat)
  /-- `mᵢ.SetX(...)` -/
  | call (i : Nat) (c : Call)
  /-- `mᵢ.StructuredData = nil` -/
  | detach (i : Nat)
  /-- a new buffer -/
  | buffer (bytes : Bytes)
  /-- buffer `k` is overwritten -/
  | fill (k : Nat) (bytes : Bytes)

/-- One operation; `none` is a panic. Operations on messages or buffers that do not exist do nothing. -/
def step (w : World) : Op → Option World
  | .new => some { w with msgs := w.msgs ++ [{}] }
  | .parse o k =>
    match Rfc5424.parse1 o (w.buffers.getD k []) with
    | none => none
    | some r =>
      match r.msg with
      | none => some w
      | some v => some { w with mem := (alloc w.mem v).1, msgs := w.msgs ++ [(alloc w.mem v).2] }
  | .assign i j =>
    match w.msgs[j]? with
    | none => some w
    | some m => some { w with msgs := w.msgs.set i m }
  | .call i c =>
    match w.msgs[i]? with
    | none => some w
    | some m =>
      match call c w.g w.mem m with
      | none => none
      | some ((h, m'), g) => some { w with mem := h, msgs := w.msgs.set i m', g := g }
  | .detach i =>
    match w.msgs[i]? with
    | none => some w
    | some m => some { w with msgs := w.msgs.set i { m with structuredData := none } }
  | .buffer bytes => some { w with buffers := w.buffers ++ [bytes] }
  | .fill k bytes => some { w with buffers := w.buffers.set k bytes }

/-- a history of operations -/
def steps : List Op → World → Option World
  | [], w => some w
  | o :: os, w =>
    match step w o with
    | none => none
    | some w' => steps os w'

/-- what message `i` shows -/
def World.see (w : World) (i : Nat) : Option SyslogMessage := (w.msgs[i]?).map w.mem.see

/-- `mᵢ.StructuredData != nil && mᵢ.StructuredData == mⱼ.StructuredData` -/
def World.Shares (w : World) (i j : Nat) : Prop :=
  ∃ a b r, w.msgs[i]? = some a ∧ w.msgs[j]? = some b ∧ a.structuredData = some r ∧ b.structuredData = some r

end Verif.Messages
