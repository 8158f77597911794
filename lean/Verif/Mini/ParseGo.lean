import Verif.Mini.SetGo
import Verif.Mini.Msgs
import Verif.Mini.Ctor
import Verif.Go.Rfc5424

/-!
# `machine.Parse` of `rfc5424/machine.go` executed over memory

The program `Verif.Gen.GoRfc5424.prog` with a second meaning: `output` is a pointer to a new struct `syslogMessage`, its structured data are maps in
the heap, the options are read from the struct of the machine, the returned message is made by executing `export`. The proof that it does what the
plain meaning of C100 does: the message that is returned is a new struct, represents the message of the model, and everything it depends on is new.
-/

set_option linter.constructorNameAsVariable false
set_option linter.unusedSimpArgs false

namespace Verif.Mini
open Verif.Gen.Mini
open Verif.Rfc5424 (SyslogMessage ErrKind SD)
open Verif.Gen.GoRfc5424 (A C R)
open Verif.Go (GS Same Flow Corr)

variable {E : Type}

/-- `delete(m, k)` for a map with string keys (language: nothing for a nil map) -/
def mapDelete (m : Val) (k : Bytes) : M E Unit :=
  match m with
  | .map c => fun w => match w.heap c with
    | .entries es => some (.ok () { w with heap := upd w.heap c (.entries (SMap.erase k es)) })
    | _ => none
  | .nil => M.pure ()
  | _ => M.stuck

/-- `len(m)` for a map -/
def mapLen (m : Val) : M E Nat :=
  match m with
  | .map c => fun w => match w.heap c with
    | .entries es => some (.ok es.length w)
    | _ => none
  | .nil => M.pure 0
  | _ => M.stuck

/-- The variables of `Parse` and the fields of `machine` (rfc5424/machine.go:60-72, rfc5424/machine.go:113-12046) besides those of `GS` and the options, and the memory.
`output` is an address. The working fields of the machine are kept here, not in the memory: only `Parse` uses them. `bad` is set when something happens that is not modelled. -/
structure VP (E : Type) where
  w : W E
  pb : Int := 0
  err : Option (ErrKind × Int) := none
  currentelem : Bytes := []
  currentparam : Bytes := []
  msgat : Int := 0
  backslashat : List Int := []
  output : Nat := 0
  t : GoTime.Time := Rfc5424.zeroTime
  e : Bool := false
  ok : Bool := false
  id : Bytes := []
  text : Bytes := []
  bad : Bool := false

/-- what a computation does to the memory, and its result; a panic of it is one of the program -/
def peff {α : Type} (g : GS (VP E)) (act : M E α) (f : α → VP E → VP E) : Option (GS (VP E)) :=
  match act g.x.w with
  | some (.ok x w) => some { g with x := f x { g.x with w := w } }
  | some (.panic _) => none
  | none => some { g with x := { g.x with bad := true } }

/-- `m.text()` (rfc5424/machine.go:102-104) -/
def textP (g : GS (VP E)) : Option Bytes := Go.R5.sliceInt g.data g.x.pb g.p

/-- `output.f = v` -/
def putOut (g : GS (VP E)) (f : Nm) (v : Val) : Option (GS (VP E)) := peff g (storeAt (.ptr g.x.output [f]) v) fun _ x => x

/-- `output.f = v`, where `v` uses `m.text()` -/
def putText (g : GS (VP E)) (f : Nm) (v : Bytes → Val) : Option (GS (VP E)) :=
  match textP g with
  | none => none
  | some t => putOut g f (v t)

/-- `output.structuredData` -/
def sdOf (g : GS (VP E)) : M E Val := load (.ptr g.x.output [.structuredData])

/-- `m.err = fmt.Errorf(kind+ColumnPositionTemplate, m.p)` (rfc5424/machine.go:23-38) -/
def errP (k : ErrKind) (g : GS (VP E)) : Option (GS (VP E)) := some { g with x := { g.x with err := some (k, g.p) } }

/-- the statements of `Parse` (their Go text is at the constructors of `Verif.Gen.GoRfc5424.A`, rfc5424/machine.go:113-12046) -/
def parseStmt : A → GS (VP E) → Option (GS (VP E))
  | .pbZero, g => some { g with x := { g.x with pb := 0 } }
  | .msgatZero, g => some { g with x := { g.x with msgat := 0 } }
  | .backslashatNew, g => some { g with x := { g.x with backslashat := [] } }
  | .errNil, g => some { g with x := { g.x with err := none } }
  | .outputNew, g => peff g (alloc Zero.rfc5424_syslogMessage) fun c x => { x with output := c }
  | .pbP, g => some { g with x := { g.x with pb := g.p } }
  | .msgatP, g => some { g with x := { g.x with msgat := g.p } }
  | .backslashatAppend, g => some { g with x := { g.x with backslashat := g.x.backslashat ++ [g.p] } }
  | .priority, g => putText g .priority fun t => byteVal (Common.toU8 (Common.unsafeDec t))
  | .prioritySet, g => putOut g .prioritySet (.bool true)
  | .version, g => putText g .version fun t => .int .u16 (Common.toU16 (Common.unsafeDec t)).toNat
  | .timeParse, g => match textP g with
    | none => none
    | some t => match GoTime.parseRFC3339Micro t with
      | some tm => some { g with x := { g.x with t := tm, e := false } }
      | none => some { g with x := { g.x with t := Rfc5424.zeroTime, e := true } }
  | .timestamp, g => putOut g .timestamp (timeVal g.x.t)
  | .timestampSet, g => putOut g .timestampSet (.bool true)
  | .errTime, g => errP .timeParse g
  | .hostname, g => putText g .hostname .str
  | .appname, g => putText g .appname .str
  | .procID, g => putText g .procID .str
  | .msgID, g => putText g .msgID .str
  | .message, g => putText g .message .str
  | .messagePartial, g => match Go.R5.sliceInt g.data g.x.msgat g.p with
    | none => none
    | some t => putOut g .message (.str t)
  | .sdNew, g => peff g (M.bind (alloc (.entries [])) fun c => storeAt (.ptr g.x.output [.structuredData]) (.map c)) fun _ x => x
  | .sdLookup, g => match textP g with
    | none => none
    | some t => peff g (M.bind (sdOf g) fun m => indexOkVal m (.str t)) fun v x => { x with ok := match v with | .tuple [_, .bool b] => b | _ => false }
  | .idText, g => match textP g with
    | none => none
    | some t => some { g with x := { g.x with id := t } }
  | .sdAdd, g => peff g (M.bind (alloc (.entries [])) fun c => M.bind (sdOf g) fun m => mapPut m g.x.id (.map c)) fun _ x => x
  | .hasElements, g => putOut g .hasElements (.bool true)
  | .hasNoElements, g => putOut g .hasElements (.bool false)
  | .currentelem, g => some { g with x := { g.x with currentelem := g.x.id } }
  | .currentparam, g => match textP g with
    | none => none
    | some t => some { g with x := { g.x with currentparam := t } }
  | .textNew, g => match textP g with
    | none => none
    | some t => some { g with x := { g.x with text := t } }
  | .removeBytes, g => match Common.removeBytes g.x.text g.x.backslashat g.x.pb with
    | none => none
    | some t => some { g with x := { g.x with text := t } }
  | .sdSet, g => peff g (M.bind (sdOf g) fun m => M.bind (indexVal m (.str g.x.currentelem)) fun ps => mapPut ps g.x.currentparam (.str g.x.text)) fun _ x => x
  | .sdDelete, g => peff g (M.bind (sdOf g) fun m => mapDelete m g.x.currentelem) fun _ x => x
  | .paramDelete, g => peff g (M.bind (sdOf g) fun m => M.bind (indexVal m (.str g.x.currentelem)) fun ps => mapDelete ps g.x.currentparam) fun _ x => x
  | .errPrival, g => errP .prival g
  | .errPri, g => errP .pri g
  | .errVersion, g => errP .version g
  | .errTimestamp, g => errP .timestamp g
  | .errHostname, g => errP .hostname g
  | .errAppname, g => errP .appname g
  | .errProcID, g => errP .procid g
  | .errMsgID, g => errP .msgid g
  | .errStructuredData, g => errP .structuredData g
  | .errSdID, g => errP .sdId g
  | .errSdIDDuplicated, g => errP .sdIdDup g
  | .errSdParam, g => errP .sdParam g
  | .errMsg, g => errP .msg g
  | .errMsgNotCompliant, g => errP .msgNotCompliant g
  | .errEscape, g => errP .escape g
  | .errParse, g => errP .parse g

/-- a boolean that is read from the memory -/
def ask (o : Option (Out E Val)) : Option Bool :=
  match o with
  | some (.ok (.bool b) _) => some b
  | _ => none

/-- the length of the map of structured data -/
def sdLen (g : GS (VP E)) : Option Nat :=
  match (M.bind (sdOf g) mapLen : M E Nat) g.x.w with
  | some (.ok n _) => some n
  | _ => none

/-- the conditions of `Parse` (rfc5424/machine.go:113-12046); `mi` is the machine -/
def parseCond (calls : Nm → List Val → M E Val) (mi : Nat) : C → GS (VP E) → Option Bool
  | .eNotNil, g => some g.x.e
  | .ok, g => some g.x.ok
  | .hasElements, g => ask (load (.ptr g.x.output [.hasElements]) g.x.w)
  | .hasBackslashes, g => some (0 < g.x.backslashat.length)
  | .sdEmpty, g => (sdLen g).map fun n => decide (n = 0)
  | .sdNotEmpty, g => (sdLen g).map fun n => decide (0 < n)
  | .msgatPositive, g => some (0 < g.x.msgat)
  | .compliantMsg, g => ask (load (.ptr mi [.compliantMsg]) g.x.w)
  | .bestEffortMinimal, g => match ask (load (.ptr mi [.bestEffort]) g.x.w) with
    | some true => ask (calls .rfc5424_syslogMessage_minimal [.ptr g.x.output []] g.x.w)
    | o => o

/-- the meaning of the program of `Parse` over memory (rfc5424/machine.go:113-12046) -/
def parseSem (calls : Nm → List Val → M E Val) (mi : Nat) : Go.Sem A C (VP E) := ⟨parseStmt, parseCond calls mi⟩

/-- the return statements (rfc5424/machine.go:12037-12045) -/
def parseRet (calls : Nm → List Val → M E Val) (x : VP E) : R → M E Val
  | .partialOutput => M.bind (calls .rfc5424_syslogMessage_export [.ptr x.output []]) fun v => M.pure (.tuple [v, err5Val (x.err.map fun e => ⟨e.1, e.2.toNat⟩)])
  | .failed => M.pure (.tuple [.nil, err5Val (x.err.map fun e => ⟨e.1, e.2.toNat⟩)])
  | .complete => M.bind (calls .rfc5424_syslogMessage_export [.ptr x.output []]) fun v => M.pure (.tuple [v, .nil])

/-- the variables before the first statement: `left` is what earlier calls left in the machine -/
def parseStart (left : GS Go.R5.V) (w : W E) (input : Bytes) : GS (VP E) :=
  { input := input, data := left.data, p := left.p, pe := left.pe, eof := left.eof, cs := left.cs, widec := left.widec,
    x := { w := w, pb := left.x.pb, err := left.x.err, currentelem := left.x.currentelem, currentparam := left.x.currentparam, msgat := left.x.msgat,
           backslashat := left.x.backslashat, t := left.x.t, e := left.x.e, ok := left.x.ok, id := left.x.id, text := left.x.text } }

/-- `Parse` (rfc5424/machine.go:113-12046), executed as it is written, of at most `13 n + 17` blocks for an input of `n` bytes -/
def parseGo (calls : Nm → List Val → M E Val) (left : W E → GS Go.R5.V) (args : List Val) : M E Val :=
  match args with
  | [.ptr mi [], .str input] => fun w =>
    match (parseSem calls mi).run Gen.GoRfc5424.prog (13 * input.length + 17) .entry (parseStart (left w) w input) with
    | .returned r g => if g.x.bad then none else parseRet calls g.x r g.x.w
    | .panics => some (.panic w)
    | _ => none
  | _ => M.stuck

/-! ## The message under construction in memory -/

/-- the value of the field `structuredData`: nil, or a map in new variables -/
def SdRep (w0 w : W E) (s : Nat) (v : Val) : Option SD → Prop
  | none => v = .nil
  | some l => ∃ c mm, v = .map c ∧ w0.next ≤ c ∧ c < w.next ∧ c ≠ s ∧ w.heap c = .entries mm ∧ ElemEntries w s mm l ∧ (mm.map Prod.snd).Nodup ∧
      (∀ e ∈ mm, ∃ d, e.2 = .map d ∧ w0.next ≤ d) ∧ SMap.Sorted l ∧ ∀ e ∈ l, SMap.Sorted e.2

/-- the new struct in the variable `s` represents `o` -/
structure RepOut (w0 w : W E) (s : Nat) (o : Rfc5424.Out) : Prop where
  new : w0.next ≤ s
  lt : s < w.next
  sd : ∃ v, w.heap s = out5Val o v ∧ SdRep w0 w s v o.structuredData
  el : o.hasElements = true → o.structuredData ≠ none

theorem SdRep.keep {w0 w w' : W E} {s : Nat} {v : Val} {o : Option SD} (h : SdRep w0 w s v o) (hk : KeepsBut s w w') : SdRep w0 w' s v o := by
  cases o with
  | none => exact h
  | some l =>
    obtain ⟨c, mm, h1, h2, h3, h4, h5, h6, h7⟩ := h
    exact ⟨c, mm, h1, h2, by have := hk.2.1; omega, h4, by rw [hk.1 c h3 h4]; exact h5, h6.keep hk, h7⟩

/-- a field (not the structured data) is stored -/
theorem RepOut.put {w0 w : W E} {s : Nat} {o o' : Rfc5424.Out} (hr : RepOut w0 w s o) (hk : Keeps w0 w) (f : Nm) (v : Val)
    (hp : ∀ sd, (out5Val o sd).putPath [f] v = some (out5Val o' sd)) (hsd : o'.structuredData = o.structuredData) (hel : o'.hasElements = true → o'.structuredData ≠ none) :
    ∃ w', (storeAt (.ptr s [f]) v : M E Unit) w = some (.ok () w') ∧ RepOut w0 w' s o' ∧ Keeps w0 w' := by
  obtain ⟨sd, h1, h2⟩ := hr.sd
  refine ⟨{ w with heap := Mini.upd w.heap s (out5Val o' sd) }, ?_, ⟨hr.new, hr.lt, ⟨sd, upd_same _ _ _, ?_⟩, hel⟩, ?_⟩
  · show (match (w.heap s).putPath [f] v with
      | some x => some (Out.ok () { w with heap := Mini.upd w.heap s x })
      | none => none) = _
    rw [h1, hp sd]
  · rw [hsd]; exact h2.keep (KeepsBut.upd w s _)
  · have := hr.new
    exact ⟨fun c hc => (upd_ne _ _ (by omega)).trans (hk.1 c hc), hk.2⟩

/-- the value of the field `structuredData` -/
theorem RepOut.load {w0 w : W E} {s : Nat} {o : Rfc5424.Out} (hr : RepOut w0 w s o) :
    ∃ v, (Mini.load (.ptr s [.structuredData]) : M E Val) w = some (.ok v w) ∧ w.heap s = out5Val o v ∧ SdRep w0 w s v o.structuredData := by
  obtain ⟨v, h1, h2⟩ := hr.sd
  exact ⟨v, load_path (by rw [h1]; rfl), h1, h2⟩

/-- the maps change -/
theorem RepOut.maps {w0 w w' : W E} {s : Nat} {o : Rfc5424.Out} (hr : RepOut w0 w s o) {v : Val} {l : SD} (hv : w'.heap s = out5Val o v) (hn : w.next ≤ w'.next)
    (hs : SdRep w0 w' s v (some l)) : RepOut w0 w' s { o with structuredData := some l } :=
  ⟨hr.new, Nat.lt_of_lt_of_le hr.lt hn, ⟨v, hv, hs⟩, fun _ h => by cases h⟩

theorem entries_erase {w : W E} {own : Nat} {k : Bytes} : ∀ {m : List (Bytes × Val)} {sd : SD}, ElemEntries w own m sd → ElemEntries w own (SMap.erase k m) (SMap.erase k sd)
  | [], [], _ => trivial
  | e :: m, x :: sd, h => by
    obtain ⟨h1, h2, h3⟩ := h
    have ih := entries_erase (k := k) h3
    obtain ⟨k1, v1⟩ := e
    obtain ⟨k2, x2⟩ := x
    simp only at h1
    subst h1
    simp only [SMap.erase]
    split
    · exact h3
    · exact ⟨rfl, h2, ih⟩

theorem str_insert (k s : Bytes) : ∀ ps : SMap Bytes, SMap.insert k (Val.str s) (ps.map fun e => (e.1, .str e.2)) = (SMap.insert k s ps).map fun e => (e.1, .str e.2)
  | [] => rfl
  | (k1, v1) :: ps => by
    simp only [List.map_cons, SMap.insert]
    split
    · rfl
    · split
      · rfl
      · rw [str_insert k s ps]; rfl

theorem str_erase (k : Bytes) : ∀ ps : SMap Bytes, SMap.erase k (ps.map fun e => (e.1, Val.str e.2)) = (SMap.erase k ps).map fun e => (e.1, .str e.2)
  | [] => rfl
  | (k1, v1) :: ps => by
    simp only [List.map_cons, SMap.erase]
    split
    · rfl
    · rw [str_erase k ps]; rfl

/-- the maps of the elements -/
theorem entries_cells {w : W E} {own : Nat} : ∀ {mm : List (Bytes × Val)} {l : SD}, ElemEntries w own mm l → ∀ e ∈ mm, ∀ d, e.2 = .map d →
    d < w.next ∧ ∃ ps : SMap Bytes, w.heap d = .entries (ps.map fun e => (e.1, Val.str e.2))
  | [], _, _, e, he, _, _ => by cases he
  | x :: mm, [], h, _, _, _, _ => h.elim
  | x :: mm, y :: l, h, e, he, d, hd => by
    rcases List.mem_cons.mp he with rfl | he
    · rcases h.2.1 with ⟨h, _⟩ | ⟨c, h, k1, k2, k3⟩
      · rw [hd] at h; cases h
      · rw [hd] at h; injection h with h; subst h; exact ⟨k1, _, k3⟩
    · exact entries_cells h.2.2 e he d hd

/-- the map of an element is not the map of the elements -/
theorem cell_ne {w : W E} {own c d : Nat} {mm : List (Bytes × Val)} {l : SD} {e : Bytes × Val} (hc : w.heap c = .entries mm) (h : ElemEntries w own mm l) (he : e ∈ mm) (hd : e.2 = .map d)
    (hm : ∀ e ∈ mm, ∃ d, e.2 = .map d) : d ≠ c := by
  rintro rfl
  obtain ⟨_, ps, h2⟩ := entries_cells h e he d hd
  rw [hc] at h2
  injection h2 with h2
  rw [h2] at he hm
  obtain ⟨d', hd'⟩ := hm e he
  obtain ⟨x, _, rfl⟩ := List.mem_map.mp he
  cases hd'

/-- the elements are as they were -/
theorem entries_same {w w' : W E} {own : Nat} (hn : w.next ≤ w'.next) : ∀ {mm : List (Bytes × Val)} {l : SD}, (∀ e ∈ mm, ∀ d, e.2 = .map d → d < w.next → w'.heap d = w.heap d) →
    ElemEntries w own mm l → ElemEntries w' own mm l
  | [], [], _, _ => trivial
  | x :: mm, y :: l, hb, h => by
    refine ⟨h.1, ?_, entries_same hn (fun e he => hb e (List.mem_cons_of_mem _ he)) h.2.2⟩
    rcases h.2.1 with h | ⟨c, r1, r2, r3, r4⟩
    · exact Or.inl h
    · exact Or.inr ⟨c, r1, by omega, r3, by rw [hb x (List.mem_cons_self ..) c r1 r2]; exact r4⟩

/-- `output.structuredData = map[string]map[string]string{}` (rfc5424/machine.go:113-12046) -/
theorem RepOut.sdNew {w0 w : W E} {s : Nat} {o : Rfc5424.Out} (hr : RepOut w0 w s o) (hk : Keeps w0 w) :
    ∃ w', (M.bind (Mini.alloc (.entries [])) fun c => storeAt (.ptr s [.structuredData]) (.map c) : M E Unit) w = some (.ok () w') ∧ RepOut w0 w' s { o with structuredData := some [] } ∧ Keeps w0 w' := by
  obtain ⟨v, h1, h2⟩ := hr.sd
  have hlt := hr.lt
  have hnew := hr.new
  obtain ⟨w1, hw1⟩ : ∃ x : W E, x = { w with heap := Mini.upd w.heap w.next (.entries []), next := w.next + 1 } := ⟨_, rfl⟩
  obtain ⟨w', hw'⟩ : ∃ x : W E, x = { w1 with heap := Mini.upd w1.heap s (out5Val { o with structuredData := some [] } (.map w.next)) } := ⟨_, rfl⟩
  have e1 : w1.heap s = out5Val o v := by rw [hw1]; exact (upd_ne _ _ (by omega)).trans h1
  have hst : (storeAt (.ptr s [.structuredData]) (.map w.next) : M E Unit) w1 = some (.ok () w') := by
    show (match (w1.heap s).putPath [.structuredData] (.map w.next) with
      | some x => some (Out.ok () { w1 with heap := Mini.upd w1.heap s x })
      | none => none) = _
    rw [e1, hw']
    cases v <;> rfl
  have hc : w'.heap w.next = .entries [] := by
    rw [hw']
    show Mini.upd w1.heap s _ w.next = _
    rw [upd_ne _ _ (by omega), hw1]
    exact upd_same _ _ _
  have hn : w'.next = w.next + 1 := by rw [hw', hw1]
  refine ⟨w', ?_, ⟨hnew, by omega, ⟨.map w.next, by rw [hw']; exact upd_same _ _ _, w.next, [], rfl, hk.2.1, by omega, by omega, hc, trivial, List.nodup_nil, (fun e he => by cases he), trivial, (fun e he => by cases he)⟩,
    fun _ h => by cases h⟩, ?_⟩
  · rw [hw1] at hst
    exact hst
  · refine ⟨fun x hx => ?_, by have := hk.2.1; omega, ?_, ?_⟩
    · rw [hw']
      show Mini.upd w1.heap s _ x = _
      have := hk.2.1
      rw [upd_ne _ _ (by omega), hw1]
      exact (upd_ne _ _ (by omega)).trans (hk.1 x hx)
    · rw [hw', hw1]; exact hk.2.2.1
    · rw [hw', hw1]; exact hk.2.2.2

/-- `output.structuredData[id] = map[string]string{}` (rfc5424/machine.go:113-12046) -/
theorem RepOut.sdAdd {w0 w : W E} {s : Nat} {o : Rfc5424.Out} (hr : RepOut w0 w s o) (hk : Keeps w0 w) (id : Bytes) :
    match o.structuredData with
    | none => ∃ w', (M.bind (Mini.alloc (.entries [])) fun c => M.bind (Mini.load (.ptr s [.structuredData])) fun m => mapPut m id (.map c) : M E Unit) w = some (.panic w')
    | some l => ∃ w', (M.bind (Mini.alloc (.entries [])) fun c => M.bind (Mini.load (.ptr s [.structuredData])) fun m => mapPut m id (.map c) : M E Unit) w = some (.ok () w') ∧
        RepOut w0 w' s { o with structuredData := some (l.insert id []) } ∧ Keeps w0 w' := by
  obtain ⟨v, h1, h2⟩ := hr.sd
  have hlt := hr.lt
  have hnew := hr.new
  have hkn := hk.2.1
  obtain ⟨w1, hw1⟩ : ∃ x : W E, x = { w with heap := Mini.upd w.heap w.next (.entries []), next := w.next + 1 } := ⟨_, rfl⟩
  have o1 : ∀ x, x ≠ w.next → w1.heap x = w.heap x := fun x hx => by rw [hw1]; exact upd_ne _ _ hx
  have e1 : w1.heap s = out5Val o v := (o1 s (by omega)).trans h1
  have hld : (Mini.load (.ptr s [.structuredData]) : M E Val) w1 = some (.ok v w1) := load_path (by rw [e1]; rfl)
  have hstep : (M.bind (Mini.alloc (.entries [])) fun c => M.bind (Mini.load (.ptr s [.structuredData])) fun m => mapPut m id (.map c) : M E Unit) w = mapPut v id (.map w.next) w1 := by
    show (M.bind (Mini.load (.ptr s [.structuredData])) fun m => mapPut m id (.map w.next) : M E Unit) { w with heap := Mini.upd w.heap w.next (.entries []), next := w.next + 1 } = _
    rw [← hw1, bind_apply, hld]
  rw [hstep]
  cases hsd : o.structuredData with
  | none =>
    rw [hsd] at h2
    obtain rfl : v = .nil := h2
    exact ⟨w1, rfl⟩
  | some l =>
    rw [hsd] at h2
    obtain ⟨c, mm, rfl, c1, c2, c3, c4, c5, c6, c7, c8, c9⟩ := h2
    obtain ⟨w', hw'⟩ : ∃ x : W E, x = { w1 with heap := Mini.upd w1.heap c (.entries (SMap.insert id (.map w.next) mm)) } := ⟨_, rfl⟩
    have o2 : ∀ x, x ≠ c → w'.heap x = w1.heap x := fun x hx => by rw [hw']; exact upd_ne _ _ hx
    have hst : (mapPut (.map c) id (.map w.next) : M E Unit) w1 = some (.ok () w') := by
      rw [hw']
      show (match w1.heap c with
        | .entries es => some (Out.ok () { w1 with heap := Mini.upd w1.heap c (.entries (SMap.insert id (.map w.next) es)) })
        | _ => none) = _
      rw [o1 c (by omega), c4]
    have hn : w'.next = w.next + 1 := by rw [hw', hw1]
    have hmap : ∀ e ∈ mm, ∃ d, e.2 = .map d := fun e he => (c7 e he).imp fun d hd => hd.1
    have hcell : ∀ e ∈ mm, ∀ d, e.2 = .map d → d < w.next ∧ d ≠ c := fun e he d hd => ⟨(entries_cells c5 e he d hd).1, cell_ne c4 c5 he hd hmap⟩
    have hold : ElemEntries w' s mm l := entries_same (by omega) (fun e he d hd hdn => by rw [o2 d (hcell e he d hd).2, o1 d (by omega)]) c5
    have hnewc : w'.heap w.next = .entries [] := by rw [o2 _ (by omega), hw1]; exact upd_same _ _ _
    refine ⟨w', hst, hr.maps (by rw [o2 s (Ne.symm c3)]; exact e1) (by omega) ⟨c, SMap.insert id (.map w.next) mm, rfl, c1, by omega, c3, by rw [hw']; exact upd_same _ _ _,
      entries_insert (Or.inr ⟨w.next, rfl, by omega, by omega, hnewc⟩) hold, nodup_insert c6 ?_, ?_, SMap.sorted_insert c8, ?_⟩, ?_⟩
    · intro hc
      obtain ⟨e, he, he2⟩ := List.mem_map.mp hc
      have := (hcell e he _ he2).1
      omega
    · intro e he
      rcases SMap.mem_insert he with rfl | he
      · exact ⟨_, rfl, hkn⟩
      · exact c7 e he
    · intro e he
      rcases SMap.mem_insert he with rfl | he
      · exact SMap.sorted_nil
      · exact c9 e he
    · refine ⟨fun x hx => ?_, by omega, ?_, ?_⟩
      · rw [o2 x (by omega), o1 x (by omega)]; exact hk.1 x hx
      · rw [hw', hw1]; exact hk.2.2.1
      · rw [hw', hw1]; exact hk.2.2.2

/-- the map of an element changes -/
theorem RepOut.param {w0 w : W E} {s : Nat} {o : Rfc5424.Out} (hr : RepOut w0 w s o) (hk : Keeps w0 w) {l : SD} (hsd : o.structuredData = some l) {id : Bytes} {ps : SMap Bytes} (hf : l.find id = some ps) :
    ∃ c d, (Mini.load (.ptr s [.structuredData]) : M E Val) w = some (.ok (.map c) w) ∧ (indexVal (.map c) (.str id) : M E Val) w = some (.ok (.map d) w) ∧ w.heap d = .entries (ps.map fun e => (e.1, .str e.2)) ∧
      ∀ ps' : SMap Bytes, SMap.Sorted ps' → RepOut w0 { w with heap := Mini.upd w.heap d (.entries (ps'.map fun e => (e.1, .str e.2))) } s { o with structuredData := some (l.insert id ps') } ∧
        Keeps w0 { w with heap := Mini.upd w.heap d (.entries (ps'.map fun e => (e.1, .str e.2))) } := by
  obtain ⟨v, hld, h1, h2⟩ := hr.load
  rw [hsd] at h2
  obtain ⟨c, mm, rfl, c1, c2, c3, c4, c5, c6, c7, c8, c9⟩ := h2
  obtain ⟨u, hu, hpm⟩ := entries_find c5 hf
  have hmem := SMap.mem_of_find hu
  obtain ⟨d, hd, hdn⟩ := c7 _ hmem
  obtain rfl : u = .map d := hd
  have hmap : ∀ e ∈ mm, ∃ d, e.2 = .map d := fun e he => (c7 e he).imp fun d hd => hd.1
  have hne : d ≠ c := cell_ne c4 c5 hmem rfl hmap
  rcases hpm with ⟨hpm, _⟩ | ⟨d', hpm, p1, p2, p3⟩
  · cases hpm
  · injection hpm with hpm
    subst hpm
    refine ⟨c, d, hld, by rw [index_map, c4]; simp only [hu], p3, fun ps' hps' => ?_⟩
    obtain ⟨w', hw'⟩ : ∃ x : W E, x = { w with heap := Mini.upd w.heap d (.entries (ps'.map fun e => (e.1, .str e.2))) } := ⟨_, rfl⟩
    rw [← hw']
    have hh : ∀ x, x ≠ d → w'.heap x = w.heap x := fun x hx => by rw [hw']; exact upd_ne _ _ hx
    have hpn : ParamMap w' s (.map d) ps' := Or.inr ⟨d, rfl, by rw [hw']; exact p1, p2, by rw [hw']; exact upd_same _ _ _⟩
    refine ⟨hr.maps (by rw [hh s (Ne.symm p2)]; exact h1) (by rw [hw']; exact Nat.le_refl _) ⟨c, mm, rfl, c1, by rw [hw']; exact c2, c3, by rw [hh c (Ne.symm hne)]; exact c4,
      entries_change hpn (fun v qs hv hp => ?_) c5 c8 c6 hu, c6, c7, SMap.sorted_insert c8, fun e he => ?_⟩, ?_⟩
    · rcases hp with hp | ⟨c, r1, r2, r3, r4⟩
      · exact Or.inl hp
      · exact Or.inr ⟨c, r1, by rw [hw']; exact r2, r3, by rw [hh c (fun hc => hv (by rw [r1, hc]))]; exact r4⟩
    · rcases SMap.mem_insert he with rfl | he
      · exact hps'
      · exact c9 e he
    · refine ⟨fun x hx => by rw [hh x (by omega)]; exact hk.1 x hx, by rw [hw']; exact hk.2.1, ?_, ?_⟩
      · rw [hw']; exact hk.2.2.1
      · rw [hw']; exact hk.2.2.2

/-- an element is deleted -/
theorem RepOut.sdDelete {w0 w : W E} {s : Nat} {o : Rfc5424.Out} (hr : RepOut w0 w s o) (hk : Keeps w0 w) (id : Bytes) :
    ∃ w', (M.bind (Mini.load (.ptr s [.structuredData])) fun m => mapDelete m id : M E Unit) w = some (.ok () w') ∧
        RepOut w0 w' s { o with structuredData := o.structuredData.map fun sd => sd.erase id } ∧ Keeps w0 w' := by
  obtain ⟨v, hld, h1, h2⟩ := hr.load
  rw [bind_apply, hld]
  cases hsd : o.structuredData with
  | none =>
    rw [hsd] at h2
    obtain rfl : v = .nil := h2
    have : ({ o with structuredData := (none : Option SD).map fun sd => sd.erase id } : Rfc5424.Out) = o := by
      rw [Option.map_none, ← hsd]
    exact ⟨w, rfl, by rw [this]; exact hr, hk⟩
  | some l =>
    rw [hsd] at h2
    obtain ⟨c, mm, rfl, c1, c2, c3, c4, c5, c6, c7, c8, c9⟩ := h2
    obtain ⟨w', hw'⟩ : ∃ x : W E, x = { w with heap := Mini.upd w.heap c (.entries (SMap.erase id mm)) } := ⟨_, rfl⟩
    have hh : ∀ x, x ≠ c → w'.heap x = w.heap x := fun x hx => by rw [hw']; exact upd_ne _ _ hx
    have hn : w'.next = w.next := by rw [hw']
    have hmap : ∀ e ∈ mm, ∃ d, e.2 = .map d := fun e he => (c7 e he).imp fun d hd => hd.1
    refine ⟨w', ?_, hr.maps (by rw [hh s (Ne.symm c3)]; exact h1) (by omega) ⟨c, _, rfl, c1, by omega, c3, by rw [hw']; exact upd_same _ _ _,
      entries_erase (entries_same (by omega) (fun e he d hd _ => hh d (cell_ne c4 c5 he hd hmap)) c5), ?_, fun e he => c7 e (SMap.mem_erase he), SMap.sorted_erase c8, fun e he => c9 e (SMap.mem_erase he)⟩, ?_⟩
    · show (match w.heap c with
        | .entries es => some (Out.ok () { w with heap := Mini.upd w.heap c (.entries (SMap.erase id es)) })
        | _ => none) = _
      rw [c4, hw']
    · have : ∀ m : List (Bytes × Val), (SMap.erase id m).Sublist m := by
        intro m
        induction m with
        | nil => exact List.Sublist.slnil
        | cons x m ih =>
          obtain ⟨k, v⟩ := x
          simp only [SMap.erase]
          split
          · exact List.sublist_cons_self _ _
          · exact ih.cons_cons _
      exact ((this mm).map _).nodup c6
    · refine ⟨fun x hx => by rw [hh x (by omega)]; exact hk.1 x hx, by rw [hn]; exact hk.2.1, ?_, ?_⟩
      · rw [hw']; exact hk.2.2.1
      · rw [hw']; exact hk.2.2.2

/-! ## The two meanings -/

/-- What is known at a statement: `output` points to the new struct; its structured data are not nil. -/
structure PMd where
  out : Bool := false
  some : Bool := false

def pflow : Flow A C PMd where
  start := { out := true }
  ok := fun d => d.out
  stmt := fun d a => match a with
    | .outputNew => .some { out := true }
    | .priority | .prioritySet | .version | .timestamp | .timestampSet | .hostname | .appname | .procID | .msgID | .message | .messagePartial | .sdNew | .sdLookup | .hasNoElements | .sdSet | .sdDelete | .paramDelete => if d.out then .some { out := true } else none
    | .sdAdd => if d.out then .some { out := true, some := true } else none
    | .hasElements => if d.out && d.some then .some { out := true } else none
    | _ => .some d
  cond := fun d c => match c with
    | .hasElements | .sdEmpty | .sdNotEmpty | .bestEffortMinimal => d.out
    | _ => true
  thn := fun d _ => d
  meet := fun d d' => { out := d.out && d'.out, some := d.some && d'.some }

def pflowOk (cn : Go.Code A C R × Go.Lbl) : Bool := pflow.fine pflow.start cn.1

set_option maxRecDepth 100000 in
theorem pflow_sts : Gen.GoRfc5424.sts.all pflowOk = true := by decide +kernel
set_option maxRecDepth 100000 in
theorem pflow_stCases : Gen.GoRfc5424.stCases.all pflowOk = true := by decide +kernel
set_option maxRecDepth 100000 in
theorem pflow_trs : Gen.GoRfc5424.trs.all pflowOk = true := by decide +kernel
set_option maxRecDepth 100000 in
theorem pflow_testEofs : Gen.GoRfc5424.testEofs.all pflowOk = true := by decide +kernel
set_option maxRecDepth 100000 in
theorem pflow_ends : (pflowOk Gen.GoRfc5424.entry && pflowOk Gen.GoRfc5424.stOut && pflowOk Gen.GoRfc5424.testEof && pflowOk Gen.GoRfc5424.out) = true := by decide +kernel
set_option maxRecDepth 100000 in
theorem pflow_entry : pflow.fine {} Gen.GoRfc5424.entry.1 = true := by decide +kernel

theorem pflow_prog (l : Go.Lbl) (cn : Go.Code A C R × Go.Lbl) (h : Gen.GoRfc5424.prog l = some cn) : pflow.fine pflow.start cn.1 = true := by
  have he := pflow_ends
  simp only [Bool.and_eq_true] at he
  cases l with
  | entry => obtain rfl := Option.some.inj h; exact he.1.1.1
  | st n => exact Go.Tree.all_find (f := pflowOk) pflow_sts h
  | stCase n => exact Go.Tree.all_find (f := pflowOk) pflow_stCases h
  | tr n => exact Go.Tree.all_find (f := pflowOk) pflow_trs h
  | testEofN n => exact Go.Tree.all_find (f := pflowOk) pflow_testEofs h
  | stOut => obtain rfl := Option.some.inj h; exact he.1.1.2
  | testEof => obtain rfl := Option.some.inj h; exact he.1.2
  | out => obtain rfl := Option.some.inj h; exact he.2

/-- the memory `y` represents the values `x`; `w0` is the memory before the call -/
structure ParseRel (w0 : W E) (o : Rfc5424.Opts) (d : PMd) (x : Go.R5.V) (y : VP E) : Prop where
  bad : y.bad = false
  pb : y.pb = x.pb
  err : y.err = x.err
  currentelem : y.currentelem = x.currentelem
  currentparam : y.currentparam = x.currentparam
  msgat : y.msgat = x.msgat
  backslashat : y.backslashat = x.backslashat
  t : y.t = x.t
  e : y.e = x.e
  ok : y.ok = x.ok
  id : y.id = x.id
  text : y.text = x.text
  bestEffort : x.bestEffort = o.bestEffort
  compliantMsg : x.compliantMsg = o.compliantMsg
  keeps : Keeps w0 y.w
  rep : d.out = true → RepOut w0 y.w y.output x.output
  some : d.some = true → x.output.structuredData ≠ none

theorem ParseRel.put {w0 : W E} {o : Rfc5424.Opts} {d d' : PMd} {x : Go.R5.V} {y : VP E} (h : ParseRel w0 o d x y) {w' : W E} {out : Rfc5424.Out} (hr : RepOut w0 w' y.output out) (hk : Keeps w0 w')
    (hs : d'.some = true → out.structuredData ≠ none) : ParseRel w0 o d' { x with output := out } { y with w := w' } :=
  { h with rep := fun _ => hr, keeps := hk, some := hs }

theorem same_textP {x : GS Go.R5.V} {y : GS (VP E)} (h : Same x y) (hp : y.x.pb = x.x.pb) : textP y = Go.R5.text x := by
  unfold textP Go.R5.text
  rw [h.data, h.p, hp]

theorem peff_ok {α : Type} {g : GS (VP E)} {act : M E α} {f : α → VP E → VP E} {x : α} {w : W E} (h : act g.x.w = some (.ok x w)) :
    peff g act f = some { g with x := f x { g.x with w := w } } := by
  unfold peff
  rw [h]

theorem peff_panic {α : Type} {g : GS (VP E)} {act : M E α} {f : α → VP E → VP E} {w : W E} (h : act g.x.w = some (.panic w)) : peff g act f = none := by
  unfold peff
  rw [h]

/-- a store to a field that does not use `m.text()` -/
theorem put_step {w0 : W E} {o : Rfc5424.Opts} {d : PMd} {g : GS Go.R5.V} {g' : GS (VP E)} (h : Same g g') (hq : ParseRel w0 o d g.x g'.x) (hd : d.out = true) (f : Nm) (v : Val) (out : Rfc5424.Out)
    (hp : ∀ sd, (out5Val g.x.output sd).putPath [f] v = some (out5Val out sd)) (hsd : out.structuredData = g.x.output.structuredData) (hel : out.hasElements = true → out.structuredData ≠ none) :
    Go.StepRel (ParseRel w0 o { out := true }) (some { g with x := { g.x with output := out } }) (putOut g' f v) := by
  obtain ⟨w', e1, e2, e3⟩ := (hq.rep hd).put hq.keeps f v hp hsd hel
  exact ⟨_, peff_ok e1, Same.x h _ _, hq.put e2 e3 (fun h => by cases h)⟩

/-- a store to a field of something computed from `m.text()` -/
theorem text_step {w0 : W E} {o : Rfc5424.Opts} {d : PMd} {g : GS Go.R5.V} {g' : GS (VP E)} (h : Same g g') (hq : ParseRel w0 o d g.x g'.x) (hd : d.out = true) (f : Nm) (v : Bytes → Val) (out : Bytes → Rfc5424.Out → Rfc5424.Out)
    (hp : ∀ t sd, (out5Val g.x.output sd).putPath [f] (v t) = some (out5Val (out t g.x.output) sd)) (hsd : ∀ t, (out t g.x.output).structuredData = g.x.output.structuredData)
    (hel : ∀ t, (out t g.x.output).hasElements = g.x.output.hasElements) :
    Go.StepRel (ParseRel w0 o { out := true }) (Go.R5.fromText g out) (putText g' f v) := by
  unfold Go.R5.fromText putText
  rw [same_textP h hq.pb]
  cases Go.R5.text g with
  | none => rfl
  | some t => exact put_step h hq hd f (v t) (out t g.x.output) (hp t) (hsd t) (fun hh => by rw [hsd t]; exact (hq.rep hd).el (by rw [← hel t]; exact hh))

theorem need {d' dd : PMd} {b : Bool} (h : (if b then .some dd else none) = Option.some d') : b = true ∧ dd = d' := by
  cases b with
  | true => exact ⟨rfl, Option.some.inj h⟩
  | false => cases h

theorem ask_load {w : W E} {a : Nat} {f : Nm} {b : Bool} (h : (w.heap a).getPath [f] = some (.bool b)) : ask (load (.ptr a [f]) w) = some b := by
  rw [load_path h]
  rfl

/-- the length of the map of the structured data -/
theorem RepOut.len {w0 w : W E} {s : Nat} {o : Rfc5424.Out} (hr : RepOut w0 w s o) :
    (M.bind (Mini.load (.ptr s [.structuredData])) mapLen : M E Nat) w = some (.ok (o.structuredData.getD []).length w) := by
  obtain ⟨v, hld, h1, h2⟩ := hr.load
  rw [bind_apply, hld]
  cases hsd : o.structuredData with
  | none => rw [hsd] at h2; obtain rfl : v = .nil := h2; rfl
  | some l =>
    rw [hsd] at h2
    obtain ⟨c, mm, rfl, c1, c2, c3, c4, c5, _⟩ := h2
    have hlen : ∀ {mm : List (Bytes × Val)} {l : SD}, ElemEntries w s mm l → mm.length = l.length := by
      intro mm
      induction mm with
      | nil => intro l h; cases l with
        | nil => rfl
        | cons => exact h.elim
      | cons x mm ih => intro l h; cases l with
        | nil => exact h.elim
        | cons y l => simp only [List.length_cons, ih h.2.2]
    show (match w.heap c with
      | .entries es => some (Out.ok es.length w)
      | _ => none) = _
    rw [c4]
    simp only [hlen c5, Option.getD_some]

theorem sdLen_eq {w0 : W E} {g : GS (VP E)} {o : Rfc5424.Out} (hr : RepOut w0 g.x.w g.x.output o) : sdLen g = some (o.structuredData.getD []).length := by
  have := hr.len
  unfold sdLen sdOf
  rw [this]

/-- a lookup in the structured data -/
theorem RepOut.look {w0 w : W E} {s : Nat} {o : Rfc5424.Out} (hr : RepOut w0 w s o) (t : Bytes) :
    ∃ u, (M.bind (Mini.load (.ptr s [.structuredData])) fun m => indexOkVal m (.str t) : M E Val) w = some (.ok (.tuple [u, .bool ((o.structuredData.getD []).find t).isSome]) w) := by
  obtain ⟨v, hld, h1, h2⟩ := hr.load
  rw [bind_apply, hld]
  cases hsd : o.structuredData with
  | none => rw [hsd] at h2; obtain rfl : v = .nil := h2; exact ⟨.nil, rfl⟩
  | some l =>
    rw [hsd] at h2
    obtain ⟨c, mm, rfl, c1, c2, c3, c4, c5, _⟩ := h2
    simp only [Option.getD_some]
    cases hf : l.find t with
    | none => exact ⟨.nil, by rw [indexOk_map, c4]; simp [entries_find_none c5 hf]⟩
    | some ps => obtain ⟨u, hu, _⟩ := entries_find c5 hf; exact ⟨u, by rw [indexOk_map, c4]; simp [hu]⟩

/-- `output.structuredData[elem][param] = text` -/
theorem RepOut.sdSet {w0 w : W E} {s : Nat} {o : Rfc5424.Out} (hr : RepOut w0 w s o) (hk : Keeps w0 w) (id k t : Bytes) :
    match o.structuredData.bind fun sd => (sd.find id).map fun ps => sd.insert id (ps.insert k t) with
    | none => (M.bind (Mini.load (.ptr s [.structuredData])) fun m => M.bind (indexVal m (.str id)) fun ps => mapPut ps k (.str t) : M E Unit) w = some (.panic w)
    | some l => ∃ w', (M.bind (Mini.load (.ptr s [.structuredData])) fun m => M.bind (indexVal m (.str id)) fun ps => mapPut ps k (.str t) : M E Unit) w = some (.ok () w') ∧
        RepOut w0 w' s { o with structuredData := some l } ∧ Keeps w0 w' := by
  cases hsd : o.structuredData with
  | none =>
    obtain ⟨v, hld, h1, h2⟩ := hr.load
    rw [hsd] at h2
    obtain rfl : v = .nil := h2
    simp only [Option.bind_none]
    rw [bind_apply, hld]
    rfl
  | some l =>
    cases hf : l.find id with
    | none =>
      obtain ⟨v, hld, h1, h2⟩ := hr.load
      rw [hsd] at h2
      obtain ⟨c, mm, rfl, c1, c2, c3, c4, c5, _⟩ := h2
      simp only [Option.bind_some, hf, Option.map_none]
      rw [bind_apply, hld]
      show (M.bind (indexVal (.map c) (.str id)) fun ps => mapPut ps k (.str t) : M E Unit) w = _
      rw [bind_apply, index_map, c4]
      simp only [entries_find_none c5 hf]
      rfl
    | some ps =>
      obtain ⟨c, d, e1, e2, e3, e4⟩ := hr.param hk hsd hf
      simp only [Option.bind_some, hf, Option.map_some]
      have hso : SMap.Sorted ps := by
        obtain ⟨v, hld, h1, h2⟩ := hr.load
        rw [hsd] at h2
        obtain ⟨_, _, _, _, _, _, _, _, _, _, _, c9⟩ := h2
        exact c9 _ (SMap.mem_of_find hf)
      obtain ⟨q1, q2⟩ := e4 (SMap.insert k t ps) (SMap.sorted_insert hso)
      refine ⟨_, ?_, q1, q2⟩
      rw [bind_apply, e1]
      show (M.bind (indexVal (.map c) (.str id)) fun ps => mapPut ps k (.str t) : M E Unit) w = _
      rw [bind_apply, e2]
      show (match w.heap d with
        | .entries es => some (Out.ok () { w with heap := Mini.upd w.heap d (.entries (SMap.insert k (.str t) es)) })
        | _ => none) = _
      rw [e3, ← str_insert]

/-- `delete(output.structuredData[elem], param)` -/
theorem RepOut.paramDelete {w0 w : W E} {s : Nat} {o : Rfc5424.Out} (hr : RepOut w0 w s o) (hk : Keeps w0 w) (id k : Bytes) :
    ∃ w', (M.bind (Mini.load (.ptr s [.structuredData])) fun m => M.bind (indexVal m (.str id)) fun ps => mapDelete ps k : M E Unit) w = some (.ok () w') ∧
        RepOut w0 w' s { o with structuredData := o.structuredData.map fun sd => match sd.find id with
          | none => sd
          | some ps => sd.insert id (ps.erase k) } ∧ Keeps w0 w' := by
  cases hsd : o.structuredData with
  | none =>
    obtain ⟨v, hld, h1, h2⟩ := hr.load
    rw [hsd] at h2
    obtain rfl : v = .nil := h2
    refine ⟨w, by rw [bind_apply, hld]; rfl, ?_, hk⟩
    simp only [Option.map_none]
    rw [← hsd]
    exact hr
  | some l =>
    cases hf : l.find id with
    | none =>
      obtain ⟨v, hld, h1, h2⟩ := hr.load
      rw [hsd] at h2
      obtain ⟨c, mm, rfl, c1, c2, c3, c4, c5, _⟩ := h2
      refine ⟨w, ?_, ?_, hk⟩
      · rw [bind_apply, hld]
        show (M.bind (indexVal (.map c) (.str id)) fun ps => mapDelete ps k : M E Unit) w = _
        rw [bind_apply, index_map, c4]
        simp only [entries_find_none c5 hf]
        rfl
      · simp only [Option.map_some, hf]
        rw [← hsd]
        exact hr
    | some ps =>
      obtain ⟨c, d, e1, e2, e3, e4⟩ := hr.param hk hsd hf
      simp only [Option.map_some, hf]
      have hso : SMap.Sorted ps := by
        obtain ⟨v, hld, h1, h2⟩ := hr.load
        rw [hsd] at h2
        obtain ⟨_, _, _, _, _, _, _, _, _, _, _, c9⟩ := h2
        exact c9 _ (SMap.mem_of_find hf)
      obtain ⟨q1, q2⟩ := e4 (SMap.erase k ps) (SMap.sorted_erase hso)
      refine ⟨_, ?_, q1, q2⟩
      rw [bind_apply, e1]
      show (M.bind (indexVal (.map c) (.str id)) fun ps => mapDelete ps k : M E Unit) w = _
      rw [bind_apply, e2]
      show (match w.heap d with
        | .entries es => some (Out.ok () { w with heap := Mini.upd w.heap d (.entries (SMap.erase k es)) })
        | _ => none) = _
      rw [e3, ← str_erase]

/-- what `Parse` uses of the other functions of the package: `minimal` -/
def MinimalOk (calls : Nm → List Val → M E Val) : Prop :=
  ∀ (s : Nat) (o : Rfc5424.Out) (sd : Val) (w : W E), w.heap s = out5Val o sd → calls .rfc5424_syslogMessage_minimal [.ptr s []] w = some (.ok (.bool o.minimal) w)

theorem parseCorr {calls : Nm → List Val → M E Val} (hmin : MinimalOk calls) {w0 : W E} {mi : Nat} {o : Rfc5424.Opts} (hm : IsMach kit5 w0 mi o) (hlt : mi < w0.next) :
    Corr pflow Go.R5.sem (parseSem calls mi) (ParseRel w0 o) where
  left := fun d d' x y h => { h with
    rep := fun k => h.rep (by simp only [pflow, Bool.and_eq_true] at k; exact k.1)
    some := fun k => h.some (by simp only [pflow, Bool.and_eq_true] at k; exact k.1) }
  right := fun d d' x y h => { h with
    rep := fun k => h.rep (by simp only [pflow, Bool.and_eq_true] at k; exact k.2)
    some := fun k => h.some (by simp only [pflow, Bool.and_eq_true] at k; exact k.2) }
  start := fun d x y hd h => { h with rep := fun _ => h.rep hd, some := (fun h => by cases h) }
  thn := fun d c g g' hc h hq hb => hq
  cond := by
    intro d c g g' hc h hq
    obtain ⟨fs, hm1, hm2⟩ := hm
    have hmw : g'.x.w.heap mi = .struct .rfc5424_machine fs := (hq.keeps.1 mi hlt).trans hm1
    have hbe : ask (load (.ptr mi [.bestEffort]) g'.x.w) = some o.bestEffort := ask_load (by rw [hmw]; simp [Val.getPath, Val.get, hm2 .bestEffort (.bool o.bestEffort) (by simp [kit5])])
    have hco : ask (load (.ptr mi [.compliantMsg]) g'.x.w) = some o.compliantMsg := ask_load (by rw [hmw]; simp [Val.getPath, Val.get, hm2 .compliantMsg (.bool o.compliantMsg) (by simp [kit5])])
    show parseCond calls mi c g' = Go.R5.cond c g
    cases c with
    | eNotNil => simp only [parseCond, Go.R5.cond, hq.e]
    | ok => simp only [parseCond, Go.R5.cond, hq.ok]
    | hasBackslashes => simp only [parseCond, Go.R5.cond, hq.backslashat]
    | msgatPositive => simp only [parseCond, Go.R5.cond, hq.msgat]
    | compliantMsg => simp only [parseCond, Go.R5.cond, hco, hq.compliantMsg]
    | hasElements =>
      obtain ⟨v, h1, _⟩ := (hq.rep hc).sd
      simp only [parseCond, Go.R5.cond]
      exact ask_load (by rw [h1]; rfl)
    | sdEmpty => simp only [parseCond, Go.R5.cond, sdLen_eq (hq.rep hc), Option.map_some]
    | sdNotEmpty => simp only [parseCond, Go.R5.cond, sdLen_eq (hq.rep hc), Option.map_some]
    | bestEffortMinimal =>
      obtain ⟨v, h1, _⟩ := (hq.rep hc).sd
      simp only [parseCond, Go.R5.cond, hbe, hq.bestEffort]
      cases o.bestEffort with
      | false => rfl
      | true =>
        simp only [hmin _ _ _ _ h1, Bool.true_and]
        rfl
  stmt := by
    intro d d' s g g' hf h hq
    have ht := same_textP h hq.pb
    show Go.StepRel (ParseRel w0 o d') (Go.R5.stmt s g) (parseStmt s g')
    cases s with
    | pbZero => obtain rfl := Option.some.inj hf; exact ⟨_, rfl, Same.x h _ _, { hq with pb := rfl }⟩
    | msgatZero => obtain rfl := Option.some.inj hf; exact ⟨_, rfl, Same.x h _ _, { hq with msgat := rfl }⟩
    | backslashatNew => obtain rfl := Option.some.inj hf; exact ⟨_, rfl, Same.x h _ _, { hq with backslashat := rfl }⟩
    | errNil => obtain rfl := Option.some.inj hf; exact ⟨_, rfl, Same.x h _ _, { hq with err := rfl }⟩
    | pbP => obtain rfl := Option.some.inj hf; exact ⟨_, rfl, Same.x h _ _, { hq with pb := h.p }⟩
    | msgatP => obtain rfl := Option.some.inj hf; exact ⟨_, rfl, Same.x h _ _, { hq with msgat := h.p }⟩
    | backslashatAppend => obtain rfl := Option.some.inj hf; exact ⟨_, rfl, Same.x h _ _, { hq with backslashat := by simp [hq.backslashat, h.p] }⟩
    | currentelem => obtain rfl := Option.some.inj hf; exact ⟨_, rfl, Same.x h _ _, { hq with currentelem := hq.id }⟩
    | outputNew =>
      obtain rfl := Option.some.inj hf
      simp only [parseStmt, Go.R5.stmt]
      refine ⟨_, peff_ok (x := g'.x.w.next) rfl, Same.x h _ _, { hq with keeps := ?_, rep := fun _ => ⟨hq.keeps.2.1, Nat.lt_succ_self _, ⟨.nil, upd_same _ _ _, rfl⟩, fun h => by cases h⟩, some := (fun h => by cases h) }⟩
      have := hq.keeps.2.1
      exact ⟨fun c hc => (upd_ne _ _ (by omega)).trans (hq.keeps.1 c hc), Nat.le_succ_of_le this, hq.keeps.2.2.1, hq.keeps.2.2.2⟩
    | priority => obtain ⟨hd, rfl⟩ := need hf; simp only [parseStmt, Go.R5.stmt]; exact text_step h hq hd _ _ _ (fun t sd => by cases sd <;> rfl) (fun _ => rfl) (fun _ => rfl)
    | version => obtain ⟨hd, rfl⟩ := need hf; simp only [parseStmt, Go.R5.stmt]; exact text_step h hq hd _ _ _ (fun t sd => by cases sd <;> rfl) (fun _ => rfl) (fun _ => rfl)
    | hostname => obtain ⟨hd, rfl⟩ := need hf; simp only [parseStmt, Go.R5.stmt]; exact text_step h hq hd _ _ _ (fun t sd => rfl) (fun _ => rfl) (fun _ => rfl)
    | appname => obtain ⟨hd, rfl⟩ := need hf; simp only [parseStmt, Go.R5.stmt]; exact text_step h hq hd _ _ _ (fun t sd => rfl) (fun _ => rfl) (fun _ => rfl)
    | procID => obtain ⟨hd, rfl⟩ := need hf; simp only [parseStmt, Go.R5.stmt]; exact text_step h hq hd _ _ _ (fun t sd => rfl) (fun _ => rfl) (fun _ => rfl)
    | msgID => obtain ⟨hd, rfl⟩ := need hf; simp only [parseStmt, Go.R5.stmt]; exact text_step h hq hd _ _ _ (fun t sd => rfl) (fun _ => rfl) (fun _ => rfl)
    | message => obtain ⟨hd, rfl⟩ := need hf; simp only [parseStmt, Go.R5.stmt]; exact text_step h hq hd _ _ _ (fun t sd => rfl) (fun _ => rfl) (fun _ => rfl)
    | prioritySet => obtain ⟨hd, rfl⟩ := need hf; simp only [parseStmt, Go.R5.stmt]; exact put_step h hq hd _ _ _ (fun sd => rfl) rfl (hq.rep hd).el
    | timestampSet => obtain ⟨hd, rfl⟩ := need hf; simp only [parseStmt, Go.R5.stmt]; exact put_step h hq hd _ _ _ (fun sd => rfl) rfl (hq.rep hd).el
    | hasNoElements => obtain ⟨hd, rfl⟩ := need hf; simp only [parseStmt, Go.R5.stmt]; exact put_step h hq hd _ _ _ (fun sd => rfl) rfl (fun h => by cases h)
    | hasElements =>
      obtain ⟨hd, rfl⟩ := need hf
      rw [Bool.and_eq_true] at hd
      simp only [parseStmt, Go.R5.stmt]
      exact put_step h hq hd.1 _ _ _ (fun sd => rfl) rfl (fun _ => hq.some hd.2)
    | timestamp =>
      obtain ⟨hd, rfl⟩ := need hf
      simp only [parseStmt, Go.R5.stmt, hq.t]
      exact put_step h hq hd _ _ _ (fun sd => rfl) rfl (hq.rep hd).el
    | messagePartial =>
      obtain ⟨hd, rfl⟩ := need hf
      simp only [parseStmt, Go.R5.stmt, hq.msgat, h.data, h.p]
      cases Go.R5.sliceInt g.data g.x.msgat g.p with
      | none => rfl
      | some t => exact put_step h hq hd _ _ _ (fun sd => rfl) rfl (hq.rep hd).el
    | timeParse =>
      obtain rfl := Option.some.inj hf
      simp only [parseStmt, Go.R5.stmt]
      rw [ht]
      cases Go.R5.text g with
      | none => rfl
      | some t =>
        simp only [Option.map_some]
        cases GoTime.parseRFC3339Micro t with
        | none => exact ⟨_, rfl, Same.x h _ _, { hq with t := rfl, e := rfl }⟩
        | some tm => exact ⟨_, rfl, Same.x h _ _, { hq with t := rfl, e := rfl }⟩
    | sdNew =>
      obtain ⟨hd, rfl⟩ := need hf
      obtain ⟨w', e1, e2, e3⟩ := (hq.rep hd).sdNew hq.keeps
      simp only [parseStmt, Go.R5.stmt]
      exact ⟨_, peff_ok e1, Same.x h _ _, hq.put e2 e3 (fun h => by cases h)⟩
    | sdLookup =>
      obtain ⟨hd, rfl⟩ := need hf
      simp only [parseStmt, Go.R5.stmt]
      rw [ht]
      cases Go.R5.text g with
      | none => rfl
      | some t =>
        obtain ⟨u, hu⟩ := (hq.rep hd).look t
        exact ⟨_, peff_ok hu, Same.x h _ _, { hq with ok := rfl, rep := fun _ => hq.rep hd, some := (fun h => by cases h) }⟩
    | idText =>
      obtain rfl := Option.some.inj hf
      simp only [parseStmt, Go.R5.stmt]
      rw [ht]
      cases Go.R5.text g with
      | none => rfl
      | some t => exact ⟨_, rfl, Same.x h _ _, { hq with id := rfl }⟩
    | currentparam =>
      obtain rfl := Option.some.inj hf
      simp only [parseStmt, Go.R5.stmt]
      rw [ht]
      cases Go.R5.text g with
      | none => rfl
      | some t => exact ⟨_, rfl, Same.x h _ _, { hq with currentparam := rfl }⟩
    | textNew =>
      obtain rfl := Option.some.inj hf
      simp only [parseStmt, Go.R5.stmt]
      rw [ht]
      cases Go.R5.text g with
      | none => rfl
      | some t => exact ⟨_, rfl, Same.x h _ _, { hq with text := rfl }⟩
    | removeBytes =>
      obtain rfl := Option.some.inj hf
      simp only [parseStmt, Go.R5.stmt]
      have he : Common.removeBytes g'.x.text g'.x.backslashat g'.x.pb = Common.removeBytes g.x.text g.x.backslashat g.x.pb := by rw [hq.text, hq.backslashat, hq.pb]
      rw [he]
      cases Common.removeBytes g.x.text g.x.backslashat g.x.pb with
      | none => rfl
      | some t => exact ⟨_, rfl, Same.x h _ _, { hq with text := rfl }⟩
    | sdAdd =>
      obtain ⟨hd, rfl⟩ := need hf
      have ha := (hq.rep hd).sdAdd hq.keeps g.x.id
      simp only [parseStmt, Go.R5.stmt, hq.id, sdOf]
      cases hsd : g.x.output.structuredData with
      | none => rw [hsd] at ha; obtain ⟨w', ha⟩ := ha; exact peff_panic ha
      | some l =>
        rw [hsd] at ha
        obtain ⟨w', e1, e2, e3⟩ := ha
        exact ⟨_, peff_ok e1, Same.x h _ _, hq.put e2 e3 (fun _ h => by cases h)⟩
    | sdSet =>
      obtain ⟨hd, rfl⟩ := need hf
      have ha := (hq.rep hd).sdSet hq.keeps g.x.currentelem g.x.currentparam g.x.text
      simp only [parseStmt, Go.R5.stmt, hq.currentelem, hq.currentparam, hq.text, sdOf]
      cases hsd : g.x.output.structuredData with
      | none => rw [hsd] at ha; exact peff_panic ha
      | some l =>
        rw [hsd] at ha
        simp only [Option.bind_some] at ha ⊢
        cases hfd : l.find g.x.currentelem with
        | none => rw [hfd] at ha; exact peff_panic ha
        | some ps =>
          rw [hfd] at ha
          obtain ⟨w', e1, e2, e3⟩ := ha
          exact ⟨_, peff_ok e1, Same.x h _ _, hq.put e2 e3 (fun h => by cases h)⟩
    | sdDelete =>
      obtain ⟨hd, rfl⟩ := need hf
      obtain ⟨w', e1, e2, e3⟩ := (hq.rep hd).sdDelete hq.keeps g.x.currentelem
      simp only [parseStmt, Go.R5.stmt, hq.currentelem, sdOf]
      exact ⟨_, peff_ok e1, Same.x h _ _, hq.put e2 e3 (fun h => by cases h)⟩
    | paramDelete =>
      obtain ⟨hd, rfl⟩ := need hf
      obtain ⟨w', e1, e2, e3⟩ := (hq.rep hd).paramDelete hq.keeps g.x.currentelem g.x.currentparam
      simp only [parseStmt, Go.R5.stmt, hq.currentelem, hq.currentparam, sdOf]
      exact ⟨_, peff_ok e1, Same.x h _ _, hq.put e2 e3 (fun h => by cases h)⟩
    | _ => obtain rfl := Option.some.inj hf; exact ⟨_, rfl, Same.x h _ _, { hq with err := by rw [h.p] }⟩

/-- what `Parse` uses of the other functions of the package: `minimal` and `export` -/
structure PackageOk (calls : Nm → List Val → M E Val) : Prop where
  minimal : MinimalOk calls
  exports : ∀ (s : Nat) (o : Rfc5424.Out) (sd : Val) (w : W E), w.heap s = out5Val o sd → s < w.next → ElemMap w s sd (o.structuredData.getD []) →
    ∃ w', calls .rfc5424_syslogMessage_export [.ptr s []] w = some (.ok (.ptr w.next []) w') ∧ Keeps w w' ∧ HasMsg5 w' w.next o.export ∧
      ∃ ty fs, w'.heap w.next = .struct ty fs ∧ fs.lookup .StructuredData = some (if o.hasElements then .ptr s [.structuredData] else .nil) ∧
        ∀ f x p, fs.lookup f = some (.ptr x p) → x = s ∨ w.next ≤ x

theorem packageOk {X : Env0 E} (hp : X.prog = prog) (n : Nat) : PackageOk (call X (n + 3)) where
  minimal := fun s o sd w h => minimal5_call hp n s o sd w h
  exports := fun s o sd w h hs hsd => export5_call hp (n + 1) s o sd w h hs hsd

/-- A message that is new since `w0`: it, and everything it depends on, is in variables that did not exist. -/
structure NewMsg (w0 w : W E) (v : Val) (m : SyslogMessage) : Prop where
  keeps : Keeps w0 w
  rep : ∃ a, v = .ptr a [] ∧ RepMsg w a m ∧ ∀ x, Reaches w a x → w0.next ≤ x

/-- `export` of the message under construction -/
theorem RepOut.exported {calls : Nm → List Val → M E Val} (hc : PackageOk calls) {w0 w : W E} {s : Nat} {o : Rfc5424.Out} (hr : RepOut w0 w s o) (hk : Keeps w0 w) :
    ∃ v w', calls .rfc5424_syslogMessage_export [.ptr s []] w = some (.ok v w') ∧ NewMsg w0 w' v o.export := by
  obtain ⟨sd, h1, h2⟩ := hr.sd
  have hnew := hr.new
  have hlt := hr.lt
  have hkn := hk.2.1
  have hem : ElemMap w s sd (o.structuredData.getD []) := by
    cases hsd : o.structuredData with
    | none => rw [hsd] at h2; exact Or.inl ⟨h2, rfl⟩
    | some l =>
      rw [hsd] at h2
      obtain ⟨c, mm, r1, r2, r3, r4, r5, r6, _⟩ := h2
      exact Or.inr ⟨c, mm, r1, r3, r4, r5, r6⟩
  obtain ⟨w', e1, e2, e3, ty, fs, f1, f2, f3⟩ := hc.exports s o sd w h1 hlt hem
  have hs' : w'.heap s = out5Val o sd := (e2.1 s hlt).trans h1
  -- the map of the structured data, if the message has them
  have hmap : ∀ ty2 fs2 c p, w'.heap w.next = .struct ty2 fs2 → fs2.lookup .StructuredData = some (.ptr c p) →
      ∃ c' mm, (w'.heap c).getPath p = some (.map c') ∧ w0.next ≤ c' ∧ w'.heap c' = .entries mm ∧ (mm.map Prod.snd).Nodup ∧ ∀ e ∈ mm, ∃ d, e.2 = .map d ∧ w0.next ≤ d := by
    intro ty2 fs2 c p g1 g2
    obtain ⟨rfl, rfl⟩ : ty = ty2 ∧ fs = fs2 := by rw [f1] at g1; injection g1 with q1 q2; exact ⟨q1, q2⟩
    rw [f2] at g2
    cases hel : o.hasElements with
    | false => rw [hel] at g2; cases g2
    | true =>
      rw [hel] at g2
      have g2 := Option.some.inj g2
      injection g2 with q1 q2
      subst q1; subst q2
      cases hsd : o.structuredData with
      | none => exact absurd hsd (hr.el hel)
      | some l =>
        rw [hsd] at h2
        obtain ⟨c, mm, rfl, r2, r3, r4, r5, r6, r7, r8, r9⟩ := h2
        exact ⟨c, mm, by rw [hs']; rfl, r2, by rw [e2.1 c r3]; exact r5, r7, r8⟩
  refine ⟨.ptr w.next [], w', e1, ⟨fun x hx => (e2.1 x (by omega)).trans (hk.1 x hx), Nat.le_trans hkn e2.2.1, e2.2.2.1.trans hk.2.2.1, e2.2.2.2.trans hk.2.2.2⟩, w.next, rfl, ⟨e3, ?_, ?_⟩, ?_⟩
  · intro ty2 fs2 c p g1 g2
    obtain ⟨c', mm, k1, _, k2, k3, k4⟩ := hmap ty2 fs2 c p g1 g2
    exact ⟨c', mm, k1, k2, k3, fun e he => (k4 e he).imp fun d hd => hd.1⟩
  · intro l hl
    simp only [Rfc5424.Out.export] at hl
    cases hel : o.hasElements with
    | false => rw [hel] at hl; cases hl
    | true =>
      rw [hel] at hl
      obtain rfl : o.structuredData.getD [] = l := by simpa using hl
      cases hsd : o.structuredData with
      | none => exact absurd hsd (hr.el hel)
      | some l =>
        rw [hsd] at h2
        obtain ⟨c, mm, _, _, _, _, _, _, _, _, r9⟩ := h2
        exact r9
  · intro x hx
    rcases hx with (rfl | ⟨ty2, fs2, c, p, c', mm, g1, g2, g3, g4, g5⟩) | ⟨ty2, fs2, f, p, _, g1, g2⟩
    · exact hkn
    · obtain ⟨c2, mm2, k1, k0, k2, k3, k4⟩ := hmap ty2 fs2 c p g1 g2
      rw [g3] at k1
      have k1 := Option.some.inj k1
      injection k1 with k1
      subst k1
      rw [g4] at k2
      injection k2 with k2
      subst k2
      rcases g5 with rfl | ⟨k, g5⟩
      · exact k0
      · obtain ⟨d, hd, hd2⟩ := k4 _ g5
        have hd : Val.map x = .map d := hd
        injection hd with hd
        omega
    · obtain ⟨rfl, rfl⟩ : ty = ty2 ∧ fs = fs2 := by rw [f1] at g1; injection g1 with q1 q2; exact ⟨q1, q2⟩
      rcases f3 f x p g2 with rfl | h
      · exact hnew
      · omega

/-- what is returned: the message of the model in new variables, or nil -/
def Given (w0 w : W E) (v : Val) : Option SyslogMessage → Prop
  | none => v = .nil ∧ Keeps w0 w
  | some m => NewMsg w0 w v m

/-- **`machine.Parse`, executed over memory.** -/
theorem parseGo_ok {calls : Nm → List Val → M E Val} (hc : PackageOk calls) (left : W E → GS Go.R5.V) {w : W E} {mi : Nat} {o : Rfc5424.Opts} (hm : IsMach kit5 w mi o) (hlt : mi < w.next) (input : Bytes) :
    ∃ res v w', Rfc5424.parse1 o input = some res ∧ parseGo calls left [.ptr mi [], .str input] w = some (.ok (.tuple [v, err5Val res.err]) w') ∧ Given w w' v res.msg := by
  obtain ⟨l0, hl0⟩ : ∃ l0 : GS Go.R5.V, l0 = { left w with x := { (left w).x with bestEffort := o.bestEffort, compliantMsg := o.compliantMsg } } := ⟨_, rfl⟩
  obtain ⟨r, g, res, h1, h2, h3, -⟩ := Props.C100_rfc5424 l0 input
  have h2 : Rfc5424.parse1 o input = some res := by rw [hl0] at h2; exact h2
  have hrel : ParseRel w o {} l0.x (parseStart (left w) w input).x := by
    rw [hl0]
    exact ⟨rfl, rfl, rfl, rfl, rfl, rfl, rfl, rfl, rfl, rfl, rfl, rfl, rfl, rfl, ⟨fun _ _ => rfl, Nat.le_refl _, rfl, rfl⟩, (fun h => by cases h), (fun h => by cases h)⟩
  have hsame : Same { l0 with input := input } (parseStart (left w) w input) := by rw [hl0]; exact ⟨rfl, rfl, rfl, rfl, rfl, rfl, rfl⟩
  have hrun := (parseCorr hc.minimal hm hlt).run_from (l := .entry) (cn := Gen.GoRfc5424.entry) rfl pflow_entry pflow_prog (13 * input.length + 17) hsame hrel
  have h1 : Go.R5.sem.run Gen.GoRfc5424.prog (13 * input.length + 17) .entry { l0 with input := input } = .returned r g := h1
  rw [h1] at hrun
  have hgo : parseGo calls left [.ptr mi [], .str input] w =
      match (parseSem calls mi).run Gen.GoRfc5424.prog (13 * input.length + 17) .entry (parseStart (left w) w input) with
      | .returned r g => if g.x.bad then none else parseRet calls g.x r g.x.w
      | .panics => some (.panic w)
      | _ => none := rfl
  rw [hgo]
  cases hr2 : (parseSem calls mi).run Gen.GoRfc5424.prog (13 * input.length + 17) .entry (parseStart (left w) w input) with
  | panics => rw [hr2] at hrun; exact hrun.elim
  | stuck => rw [hr2] at hrun; exact hrun.elim
  | timeout => rw [hr2] at hrun; exact hrun.elim
  | returned r' g' =>
    rw [hr2] at hrun
    obtain ⟨rfl, _, hq⟩ := hrun
    simp only [hq.bad, Bool.false_eq_true, ite_false]
    have hrep := hq.rep rfl
    have herr : (g'.x.err.map fun e => (⟨e.1, e.2.toNat⟩ : Rfc5424.Err)) = g.x.err.map fun e => ⟨e.1, e.2.toNat⟩ := by rw [hq.err]
    have hres : ∀ e : Option (ErrKind × Int), e = (res.err.map fun e => (e.kind, (e.col : Int))) → (e.map fun e => (⟨e.1, e.2.toNat⟩ : Rfc5424.Err)) = res.err := by
      rintro e rfl
      cases res.err <;> simp
    cases r' with
    | failed =>
      simp only [Go.R5.value, Prod.mk.injEq] at h3
      refine ⟨res, .nil, g'.x.w, h2, ?_, ?_⟩
      · simp only [parseRet, pure_apply, herr, hres _ h3.2]
      · rw [← h3.1]; exact ⟨rfl, hq.keeps⟩
    | partialOutput =>
      simp only [Go.R5.value, Prod.mk.injEq] at h3
      obtain ⟨v, w', e1, e2⟩ := hrep.exported hc hq.keeps
      refine ⟨res, v, w', h2, ?_, ?_⟩
      · simp only [parseRet, bind_apply, e1, pure_apply, herr, hres _ h3.2]
      · rw [← h3.1]; exact e2
    | complete =>
      simp only [Go.R5.value, Prod.mk.injEq] at h3
      obtain ⟨v, w', e1, e2⟩ := hrep.exported hc hq.keeps
      refine ⟨res, v, w', h2, ?_, ?_⟩
      · have : res.err = none := by simpa using h3.2.symm
        rw [this]
        simp only [parseRet, bind_apply, e1, pure_apply]
        rfl
      · rw [← h3.1]; exact e2

end Verif.Mini
