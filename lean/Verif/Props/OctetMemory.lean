import Verif.Octet.MemoryRefine
import Verif.Props.OctetStream

/-!
# C98: the buffer is used again and again, and nobody sees it

In `Verif/Octet/Memory.lean` the literal of a message token is a slice of the buffer that the following reads overwrite, and a `Read` may
write what it likes behind the bytes it reports. None of this reaches the listener: the results are those of the model in which every
token is a value of its own, of which C39-C47, C60, C68 and the other properties of octet counting speak.
-/

namespace Verif.Props
open Verif.Spec Verif.Octet

/-- the results of the calls of `Parse` on one parser, one call after the other -/
def onMemory : MParser → List (List MRead) → Option (List (List Result))
  | _, [] => some []
  | p, sched :: rest => (p.parse sched).bind fun x => (onMemory x.2 rest).map (x.1 :: ·)

/-- the deliveries without what the reader left behind them -/
def reported (sched : List MRead) : List Read := sched.map fun x => ⟨x.data, x.err⟩

theorem onMemory_eq {be : Bool} {max : Int} {p : MParser} {q : Parser} (h : SimIdle p q) (hq : Idle be max q) (opts : List Opt)
    (hb : be = isBestEffort opts) (hm : max = maxLength opts) (calls : List (List MRead)) :
    onMemory p calls = calls.mapM fun sched => results opts (reported sched) := by
  induction calls generalizing p q with
  | nil => rfl
  | cons sched rest ih =>
    have ha := h.parse sched
    obtain ⟨q', e, hq'⟩ := parse_idle_cap hq (sched.map MRead.plain)
    rw [e] at ha
    rw [onMemory, List.mapM_cons]
    have hr : results opts (reported sched) = some (prunc be max (bufSize max) (delivered (sched.map MRead.plain))).1 := by
      rw [results_cap, hb, hm]; rfl
    rw [hr]
    cases hp : p.parse sched with
    | none => rw [hp] at ha; exact False.elim ha
    | some x =>
      rw [hp] at ha
      obtain ⟨h1, h2⟩ := ha
      have hi : SimIdle x.2 q' := by
        have hstep : q'.stepback = false := hq'.step
        exact ⟨h2.max, h2.be, h2.internal, hstep, by rw [← h2.step]; exact hstep⟩
      rw [Option.bind_some, ih hi hq', h1]
      cases List.mapM (fun sched => results opts (reported sched)) rest <;> rfl

/-- C98: one parser, any number of streams, any reader: each stream gives exactly the results it gives in the model in which tokens are
values and no buffer is reused. -/
theorem C98_values (opts : List Opt) (calls : List (List MRead)) :
    onMemory (mnewParser opts) calls = calls.mapM fun sched => results opts (reported sched) :=
  onMemory_eq (simIdle_new opts) (idle_new opts) opts rfl rfl calls

/-- C98: what a `Read` leaves in the slice behind the bytes it reports has no effect. -/
theorem C98_scratch (opts : List Opt) (calls calls' : List (List MRead)) (h : calls.map reported = calls'.map reported) :
    onMemory (mnewParser opts) calls = onMemory (mnewParser opts) calls' := by
  have key : ∀ l : List (List MRead), (l.mapM fun sched => results opts (reported sched)) = (l.map reported).mapM (results opts) := by
    intro l; induction l with
    | nil => rfl
    | cons a l ih => rw [List.map_cons, List.mapM_cons, List.mapM_cons, ih]
  rw [C98_values, C98_values, key, key, h]

/-- C98: the complete specification of the results (C60) holds of the program with its buffer. -/
theorem C98_every_stream (opts : List Opt) (hfit : Fits opts) (bytes : Bytes) (sched : List MRead) (hs : Delivers (reported sched) bytes)
    (rs : List Result) : onMemory (mnewParser opts) [sched] = some [rs] ↔ Emits (isBestEffort opts) (maxLength opts) bytes rs := by
  rw [C98_values, ← C60_every_stream opts hfit bytes (reported sched) hs rs, List.mapM_cons]
  cases results opts (reported sched) <;> simp

/-- a reader without its memory: what is waiting in the buffer, the indices, what the reads report -/
def valueOf (rd : MReader) : Reader :=
  ⟨window rd.buf rd.r (rd.w - rd.r), rd.r, rd.buf.length, rd.err, rd.last, reported rd.sched⟩

/-- C98: a caller's own `*bufio.Reader` with a large enough buffer, whatever is in that buffer and at whatever offset: the results, and what
the caller can go on reading from it afterwards, are those of the model of C72. -/
theorem C98_callers_reader (opts : List Opt) (rd : MReader) (hrd : rd.r ≤ rd.w ∧ rd.w ≤ rd.buf.length ∧ 1 ≤ rd.buf.length)
    (hbig : wrapInt (maxLength opts + 20) ≤ rd.buf.length) :
    ((mnewParser opts).parseOn rd).map (fun x => (x.1, valueOf x.2.s.r)) =
      ((newParser opts).parseOn (valueOf rd)).map (fun x => (x.1, x.2.s.r)) := by
  have h := (simIdle_new opts).parseOn rd ⟨hrd.1, hrd.2.1, hrd.2.2⟩ hbig
  rw [show valueOf rd = rd.val from rfl]
  revert h
  cases (mnewParser opts).parseOn rd <;> cases (newParser opts).parseOn rd.val <;> intro h
  · rfl
  · exact False.elim h
  · exact False.elim h
  · obtain ⟨h1, h2⟩ := h
    simp only [Option.map_some, h1, h2.s]
    rfl

/-- C98: numbers, spaces and illegal bytes are tokens that keep their text, whatever happens to the buffer ... -/
theorem C98_token_stays (s : MScanner) (h : s.scan.1.typ ≠ .SYSLOGMSG) (h' : s.scan.1.typ ≠ .EOF) (buf buf' : Bytes) :
    s.scan.1.now buf = s.scan.1.now buf' := by
  revert h h'
  unfold MScanner.scan
  obtain ⟨b, s1⟩ := s.read
  simp only []
  split
  · intros; rfl
  · split
    · intros; rfl
    · split
      · intros; rfl
      · split
        · unfold MScanner.scanSyslogMsg
          obtain ⟨x, ok, rd⟩ := s1.unread.r.peek (toInt s1.unread.msglen)
          cases ok
          · intro _ h; exact absurd rfl h
          · intro h; exact absurd rfl h
        · intros; rfl

/-- the token of the `n`-th `Scan` (from 0), and the scanner after it -/
def nthScan : Nat → MScanner → MToken × MScanner
  | 0, s => s.scan
  | n + 1, s => nthScan n s.scan.2

/-- C98: ... but the token of a message is only good until the next `Scan`: with the exported `Scanner`, on a reader that delivers the frames
`2 <a` and `2 <b` one by one, there is a message token that reads `<a` when it is returned and `<b` after the next `Scan`. (The
parser has parsed it by then.) -/
theorem C98_token_expires :
    let s := mnewScanner [⟨ascii "2 <a", false, []⟩, ⟨ascii "2 <b", false, []⟩] 8192
    let tok := (nthScan 2 s).1
    let s' := (nthScan 2 s).2
    tok.now s'.r.buf = ⟨.SYSLOGMSG, ascii "<a"⟩ ∧ tok.now s'.scan.2.r.buf = ⟨.SYSLOGMSG, ascii "<b"⟩ := by decide +kernel

/-! ## Cases -/

/-- a reader that scribbles over the whole slice it is given, and delivers three messages in four pieces -/
def scribbler : List MRead :=
  [⟨ascii "16 <1>1 - -", false, List.replicate 30 88⟩, ⟨ascii " - - - -16 <2>1 - - -", false, ascii "16 <9>1 - - - - - -"⟩, ⟨[], false, List.replicate 99 60⟩,
   ⟨ascii " - - -16 <3>1 - - - - - -", true, ascii "16"⟩]

/-- priorities of the messages -/
def priosOf (x : Option (List (List Result))) : Option (List (List (Option UInt8))) := x.map (·.map (·.map fun r => r.msg.bind fun m => m.priority))

-- a buffer of 36 bytes, which is moved and refilled while the messages go by; the same parser twice
example : priosOf (onMemory (mnewParser [.maxMessageLength 16]) [scribbler, scribbler]) =
    some [[some 1, some 2, some 3], [some 1, some 2, some 3]] := by decide +kernel

-- the hypothesis of `C98_scratch`
example : reported scribbler = reported (scribbler.map fun x => { x with scratch := [] }) ∧
    scribbler ≠ (scribbler.map fun x => { x with scratch := [] }) := by decide +kernel

-- the hypotheses of `C98_every_stream`
example : Delivers (reported scribbler) (ascii "16 <1>1 - - - - - -16 <2>1 - - - - - -16 <3>1 - - - - - -") ∧ Fits [.maxMessageLength 16] := by
  refine ⟨⟨by decide +kernel, ?_, ?_⟩, by decide +kernel⟩
  · intro a r b h he x hx
    match a with
    | [] => simp [reported, scribbler] at h; rw [← h.1] at he; cases he
    | [_] => simp [reported, scribbler] at h; rw [← h.2.1] at he; cases he
    | [_, _] => simp [reported, scribbler] at h; rw [← h.2.2.1] at he; cases he
    | [_, _, _] => simp [reported, scribbler] at h; rw [h.2.2.2.2] at hx; cases hx
    | _ :: _ :: _ :: _ :: l => simp [reported, scribbler] at h
  · intro a e b h _
    have := congrArg List.length h
    simp [reported, scribbler] at this
    omega

/-- a caller's reader in the middle of its work: 3 bytes read, 19 waiting at offset 3 of an array of 64 -/
def callersReader : MReader :=
  { buf := ascii "xyz16 <7>1 - - - - - -" ++ List.replicate 42 33, r := 3, w := 22, last := some 122, sched := [⟨ascii "16 <8>1 - - - - - -", false, [1, 2]⟩] }

-- the hypotheses of `C98_callers_reader`
example : (callersReader.r ≤ callersReader.w ∧ callersReader.w ≤ callersReader.buf.length ∧ 1 ≤ callersReader.buf.length) ∧
    wrapInt (maxLength [.maxMessageLength 16] + 20) ≤ callersReader.buf.length ∧
    (((mnewParser [.maxMessageLength 16]).parseOn callersReader).map fun x => x.1.map fun r => r.msg.bind fun m => m.priority) =
      some [some 7, some 8] := by decide +kernel

-- the hypotheses of `C98_token_stays`
example : let s := mnewScanner [⟨ascii "2 <a", false, []⟩] 8192
    s.scan.1.typ = .MSGLEN ∧ (s.scan.1.now []).lit = ascii "2" := by decide +kernel

end Verif.Props
