import Verif.Octet.OpenEnd
import Verif.Props.Octet

/-!
# C91: an octet counting parser whose reader or listener panics

`p.parseO panics stop sched` is a call of `Parse` on a reader that makes the calls `sched` and then panics (`panics`) or returns `io.EOF`
for ever, with a listener that panics when `stop` says so. The caller recovers. `seen`: what the listener got, and how the call ended.
A reader that blocks for ever after `sched` is the same as one that panics there, as far as the listener can see.
-/

namespace Verif.Props
open Verif.Spec Verif.Octet
open Verif.Rfc5424 (parse1 SyslogMessage)

/-- a call of `Parse`; `scanner` is whatever is left of the scanner if the reader panics -/
structure CallO where
  sched : List Read
  panics : Bool
  stop : Stop
  scanner : Scanner

/-- calls of `Parse` on one parser, one after the other -/
def outcomes : Parser → List CallO → List (List Result × Ended)
  | _, [] => []
  | p, c :: cs =>
    (p.parseO c.panics c.stop c.sched).seen ::
      match p.parseO c.panics c.stop c.sched with
      | .crash => []
      | .readerPanics _ left => outcomes { left with s := c.scanner } cs
      | .listenerPanics _ left => outcomes left cs
      | .ok _ p => outcomes p cs

/-- a call on a new parser -/
def fresh (opts : List Opt) (panics : Bool) (stop : Stop) (sched : List Read) : List Result × Ended :=
  ((newParser opts).parseO panics stop sched).seen

/-- the listener panics at none of the results -/
def NeverAt (stop : Stop) (rs : List Result) : Prop := ∀ p, p ≠ [] → p <+: rs → stop p = false

theorem start_cfg {be : Bool} {max : Int} {p : Parser} (h : Idle be max p) (sched : List Read) :
    Cfg be max (bufSize max) { p with s := newScanner sched p.maxMessageLength } := by
  refine ⟨h.hbe, h.hmax, h.ibe, h.ico, ⟨?_, by simp [newScanner, newReader]⟩, ?_⟩
  · simp only [newScanner, newReader]; split <;> omega
  · simp only [newScanner, newReader, h.hmax, bufSize]

theorem parseO_sim {be : Bool} {max : Int} {p : Parser} (h : Idle be max p) (panics : Bool) (stop : Stop) (sched more : List Read)
    (hm : panics = true ∨ more = []) :
    Sim panics stop be max (bufSize max) more ((newScanner sched p.maxMessageLength).r.remaining + 1) []
      { p with s := newScanner sched p.maxMessageLength } (p.parseO panics stop sched) :=
  runO_sim hm _ _ _ (start_cfg h sched)

theorem start_thn (p : Parser) (sched more : List Read) :
    ({ p with s := newScanner sched p.maxMessageLength } : Parser).thn more = { p with s := newScanner (sched ++ more) p.maxMessageLength } := rfl

/-- the run with the fuel for the shorter schedule -/
theorem parse_more {be : Bool} {max : Int} {p : Parser} (h : Idle be max p) (sched more : List Read) :
    ∃ rs p', p.parse (sched ++ more) = some (rs, p') ∧
      ∀ x, runLoop ((newScanner sched p.maxMessageLength).r.remaining + 1) { p with s := newScanner (sched ++ more) p.maxMessageLength } = some x →
        x = (rs, p') := by
  obtain ⟨p', e, -⟩ := parse_idle_cap h (sched ++ more)
  refine ⟨_, p', e, ?_⟩
  intro x hx
  have := runLoop_mono_le (fuel' := (newScanner (sched ++ more) p.maxMessageLength).r.remaining + 1) (by
    simp [newScanner, newReader, Reader.remaining]) hx
  rw [Parser.parse] at e
  rw [e] at this
  exact (Option.some.inj this).symm

/-- no call crashes, and what is left of the parser is as new -/
theorem parseO_left {be : Bool} {max : Int} {p : Parser} (h : Idle be max p) (panics : Bool) (stop : Stop) (sched : List Read) :
    match p.parseO panics stop sched with
    | .crash => False
    | .readerPanics _ left => Idle be max left
    | .listenerPanics _ left => Idle be max left
    | .ok _ p' => Idle be max p' := by
  have hs := parseO_sim h panics stop sched [] (Or.inr rfl)
  obtain ⟨p', e, -⟩ := parse_idle_cap h sched
  rw [Parser.parse] at e
  generalize p.parseO panics stop sched = z at hs
  cases z with
  | crash =>
    simp only [Sim, start_thn, List.append_nil] at hs
    rw [hs] at e
    simp at e
  | readerPanics got left => exact hs.2.1
  | listenerPanics got left => exact hs.1
  | ok got left => exact hs.1

theorem parseO_fresh {be : Bool} {max : Int} {p q : Parser} (hp : Idle be max p) (hq : Idle be max q) (panics : Bool) (stop : Stop)
    (sched : List Read) : (p.parseO panics stop sched).seen = (q.parseO panics stop sched).seen := by
  have hcp := start_cfg hp sched
  have hcq := start_cfg hq sched
  simp only [Parser.parseO]
  rw [hp.hmax] at hcp ⊢
  rw [hq.hmax] at hcq ⊢
  exact runO_same _ _ hcp hcq ⟨rfl, by simp only []; rw [hp.step, hq.step], fun h => by simp only [] at h; rw [hp.step] at h; simp at h⟩

/-- C91: every call on a parser gives what it would give on a new parser, whatever panics ended the calls before; none crashes. -/
theorem C91_every_call (opts : List Opt) (calls : List CallO) :
    outcomes (newParser opts) calls = calls.map (fun c => fresh opts c.panics c.stop c.sched) ∧
      ∀ c ∈ calls, (fresh opts c.panics c.stop c.sched).2 ≠ .crashed := by
  have key : ∀ p, Idle (isBestEffort opts) (maxLength opts) p →
      outcomes p calls = calls.map (fun c => fresh opts c.panics c.stop c.sched) := by
    induction calls with
    | nil => intro p _; rfl
    | cons c cs ih =>
      intro p h
      have h1 := parseO_fresh h (idle_new opts) c.panics c.stop c.sched
      have h2 := parseO_left h c.panics c.stop c.sched
      rw [outcomes, List.map_cons, h1]
      congr 1
      generalize p.parseO c.panics c.stop c.sched = z at h2
      cases z with
      | crash => exact h2.elim
      | readerPanics got left => exact ih _ ⟨h2.hbe, h2.hmax, h2.ibe, h2.ico, h2.step⟩
      | listenerPanics got left => exact ih _ h2
      | ok got left => exact ih _ h2
  refine ⟨key _ (idle_new opts), ?_⟩
  intro c _
  have h2 := parseO_left (idle_new opts) c.panics c.stop c.sched
  unfold fresh
  generalize (newParser opts).parseO c.panics c.stop c.sched = z at h2 ⊢
  cases z with
  | crash => exact h2.elim
  | readerPanics got left => simp [Ran.seen]
  | listenerPanics got left => simp [Ran.seen]
  | ok got left => simp [Ran.seen]

/-- C91: and `Parse` without panics gives what it gives on a new parser. -/
theorem C91_then_parse (opts : List Opt) (sched : List Read) :
    ∃ rs, results opts sched = some rs ∧ fresh opts false (fun _ => false) sched = (rs, .returned) := by
  have hs := parseO_sim (idle_new opts) false (fun _ => false) sched [] (Or.inr rfl)
  have hl := parseO_left (idle_new opts) false (fun _ => false) sched
  obtain ⟨rs, p', e1, e2⟩ := parse_more (idle_new opts) sched []
  rw [List.append_nil] at e1
  refine ⟨rs, by rw [results, e1]; rfl, ?_⟩
  unfold fresh
  generalize (newParser opts).parseO false (fun _ => false) sched = z at hs hl
  cases z with
  | crash => exact hl.elim
  | readerPanics got left => exact absurd hs.1 (by simp)
  | listenerPanics got left =>
    obtain ⟨-, -, mid, r, -, -, h, -⟩ := hs
    simp at h
  | ok got left =>
    obtain ⟨-, out, h1, -, h2⟩ := hs
    have := e2 _ h2
    simp only [Prod.mk.injEq] at this
    rw [Ran.seen, h1, this.1]; rfl

/-- C91: a listener that panics has got what it would have got without the panic, up to there; one that does not panic gets everything. -/
theorem C91_listener (opts : List Opt) (stop : Stop) (sched : List Read) :
    ∃ rs, results opts sched = some rs ∧
      ((NeverAt stop rs ∧ fresh opts false stop sched = (rs, .returned)) ∨
       ∃ a r b, rs = a ++ r :: b ∧ NeverAt stop a ∧ stop (a ++ [r]) = true ∧ fresh opts false stop sched = (a ++ [r], .listenerPanicked)) := by
  have hs := parseO_sim (idle_new opts) false stop sched [] (Or.inr rfl)
  have hl := parseO_left (idle_new opts) false stop sched
  obtain ⟨rs, p', e1, e2⟩ := parse_more (idle_new opts) sched []
  have e3 := e1
  rw [List.append_nil] at e1
  refine ⟨rs, by rw [results, e1]; rfl, ?_⟩
  unfold fresh
  generalize (newParser opts).parseO false stop sched = z at hs hl
  cases z with
  | crash => exact hl.elim
  | readerPanics got left => exact absurd hs.1 (by simp)
  | listenerPanics got left =>
    obtain ⟨-, -, mid, r, h1, h2, h3, h4⟩ := hs
    right
    rw [List.nil_append] at h1
    rw [h1] at h3
    rw [Parser.parse] at e1
    obtain ⟨rest, h5, -⟩ := h4 rs p' (by rw [start_thn, List.append_nil]; exact e1)
    exact ⟨mid, r, rest, by rw [h5]; simp, by simpa [NeverAt, Calm] using h2, h3, by rw [Ran.seen, h1]⟩
  | ok got left =>
    obtain ⟨-, out, h1, h2, h3⟩ := hs
    have := e2 _ h3
    simp only [Prod.mk.injEq] at this
    left
    rw [this.1] at h2 h1
    exact ⟨by simpa [NeverAt, Calm] using h2, by rw [Ran.seen, h1]; rfl⟩

/-- C91: what a listener has got when the reader panics (or blocks) is what it gets first, whatever the reader would deliver later. -/
theorem C91_reader_prefix (opts : List Opt) (stop : Stop) (sched more : List Read) :
    ∃ rs, results opts (sched ++ more) = some rs ∧ (fresh opts true stop sched).1 <+: rs := by
  have hl := parseO_left (idle_new opts) true stop sched
  obtain ⟨p', e, -⟩ := parse_idle_cap (idle_new opts) (sched ++ more)
  refine ⟨_, by rw [results, e]; rfl, ?_⟩
  have hne : (newParser opts).parseO true stop sched ≠ .crash := by
    intro h; rw [h] at hl; exact hl
  have hmono := runO_mono_le (fuel' := (newScanner (sched ++ more) (newParser opts).maxMessageLength).r.remaining + 1) (by
    simp [newScanner, newReader, Reader.remaining]) hne
  have hs := runO_sim (panics := true) (stop := stop) (more := more) (Or.inl rfl)
    ((newScanner (sched ++ more) (newParser opts).maxMessageLength).r.remaining + 1) [] _ (start_cfg (idle_new opts) sched)
  rw [hmono] at hs
  rw [Parser.parse] at e
  unfold fresh Parser.parseO at *
  simp only [] at hs hl e ⊢
  generalize runO true stop _ [] _ = z at hs hl
  cases z with
  | crash => exact hl.elim
  | readerPanics got left =>
    obtain ⟨-, -, mid, h1, -, h2⟩ := hs
    rw [Ran.seen, h1]
    exact h2 _ _ e
  | listenerPanics got left =>
    obtain ⟨-, -, mid, r, h1, -, -, h2⟩ := hs
    obtain ⟨rest, h3, -⟩ := h2 _ _ e
    rw [Ran.seen, h1, h3]
    exact List.prefix_append _ _
  | ok got left =>
    obtain ⟨-, out, h1, -, h2⟩ := hs
    rw [start_thn, e] at h2
    cases h2
    rw [Ran.seen, h1]
    exact List.prefix_refl _

/-- C91: nothing waits for the end of the stream: where the reader panics (or blocks), the end of the stream would have added at most one
result, an error. -/
theorem C91_nothing_waits (opts : List Opt) (sched : List Read) :
    ∃ e, results opts sched = some ((fresh opts true (fun _ => false) sched).1 ++ e) ∧ (e = [] ∨ ∃ r, e = [r] ∧ r.err ≠ none) := by
  have hs := parseO_sim (idle_new opts) true (fun _ => false) sched [] (Or.inr rfl)
  have hl := parseO_left (idle_new opts) true (fun _ => false) sched
  obtain ⟨p', e1, -⟩ := parse_idle_cap (idle_new opts) sched
  have e2 := e1
  rw [Parser.parse] at e1
  rw [results, e2]
  unfold fresh
  cases z : (newParser opts).parseO true (fun _ => false) sched with
  | crash => rw [z] at hl; exact hl.elim
  | readerPanics got left =>
    obtain ⟨mid, e, h1, h2, h3⟩ := runO_stuck _ _ _ (start_cfg (idle_new opts) sched) z e1
    refine ⟨e, ?_, h3⟩
    rw [Ran.seen, Option.map_some, h2, h1]; rfl
  | listenerPanics got left =>
    rw [z] at hs
    obtain ⟨-, -, mid, r, -, -, h, -⟩ := hs
    simp at h
  | ok got left =>
    rw [z] at hs
    obtain ⟨-, out, h1, -, h2⟩ := hs
    rw [start_thn, List.append_nil, e1] at h2
    cases h2
    exact ⟨[], by rw [Ran.seen, h1]; simp, Or.inl rfl⟩

/-- C91: when the listener panics and the caller calls `Parse` again with the same `*bufio.Reader` (with a buffer as large as the parser
needs), the next call gives the following results: none is lost, none comes twice. -/
theorem C91_resumes (opts : List Opt) (rd : Reader) (hcap : wrapInt (maxLength opts + 20) ≤ rd.cap) (hpos : 1 ≤ rd.cap) (hq : rd.q.length ≤ rd.cap)
    (stop : Stop) (got : List Result) (left : Parser) (h : (newParser opts).parseOnO false stop rd = .listenerPanics got left) :
    ∃ rest, ((newParser opts).parseOn rd).map Prod.fst = some (got ++ rest) ∧
      (rest ≠ [] → (left.parseOn left.s.r).map Prod.fst = some rest) := by
  have hi := idle_new opts
  have hsc : newScannerOn rd (newParser opts).maxMessageLength = { r := rd } := by
    simp only [newScannerOn, newReaderOn, hi.hmax, if_pos hcap]
  have hc : Cfg (isBestEffort opts) (maxLength opts) rd.cap { newParser opts with s := newScannerOn rd (newParser opts).maxMessageLength } :=
    ⟨hi.hbe, hi.hmax, hi.ibe, hi.ico, by rw [hsc]; exact ⟨hpos, hq⟩, by rw [hsc]⟩
  have hs := runO_sim (panics := false) (stop := stop) (more := []) (Or.inr rfl)
    ((newScannerOn rd (newParser opts).maxMessageLength).r.remaining + 1) [] _ hc
  rw [Parser.parseOnO] at h
  rw [h] at hs
  obtain ⟨p', e1, -⟩ := parseOn_idle hi rd ⟨hpos, hq⟩ hcap
  have e2 := e1
  rw [Parser.parseOn] at e1
  obtain ⟨il, cl, mid, r, h1, -, -, h2⟩ := hs
  rw [thn_nil_p] at h2
  obtain ⟨rest, h3, h4⟩ := h2 _ _ e1
  refine ⟨rest, by rw [e2, Option.map_some, h3, h1]; simp, ?_⟩
  intro hne
  obtain ⟨h5, h6, fuel, h7⟩ := h4 hne
  rw [thn_nil_p] at h7
  have hcl : wrapInt (maxLength opts + 20) ≤ left.s.r.cap := by rw [cl.cap]; exact hcap
  obtain ⟨p2, e3, -⟩ := parseOn_idle il left.s.r cl.ok hcl
  rw [e3]
  have e4 := e3
  rw [Parser.parseOn] at e3
  have hsl : newScannerOn left.s.r left.maxMessageLength = left.s := by
    simp only [newScannerOn, newReaderOn, il.hmax, if_pos hcl]
    rw [← h5, ← h6]
  rw [hsl] at e3
  have hb : left.s.r.remaining + 1 ≤ left.s.r.remaining + 1 + fuel := by omega
  have k1 := runLoop_mono_le hb e3
  have k2 := runLoop_mono_le (show fuel ≤ left.s.r.remaining + 1 + fuel by omega) h7
  have k3 : ({ left with s := left.s } : Parser) = left := rfl
  rw [k3] at k1
  rw [k1] at k2
  simp only [Option.some.injEq, Prod.mk.injEq] at k2
  rw [Option.map_some, k2.1]

/-- the priorities of the messages -/
def prios (x : List Result × Ended) : List (Option UInt8) × Ended := (x.1.map fun r => r.msg.bind fun m => m.priority, x.2)

/-- two frames and the beginning of a third, in three reads -/
def threeReads : List Read := [⟨ascii "16 <1>1 - -", false⟩, ⟨ascii " - - - -16 <2>1 - - -", false⟩, ⟨ascii " - - -16 <3>", false⟩]

-- the reader panics in the middle of the third frame; then the listener panics at the first result; then nothing panics; whatever the
-- scanner was left as
example (s : Scanner) : (outcomes (newParser []) [⟨threeReads, true, fun _ => false, s⟩, ⟨threeReads, false, fun got => got.length == 1, s⟩,
      ⟨threeReads, false, fun _ => false, s⟩]).map prios =
    [([some 1, some 2], .readerPanicked), ([some 1], .listenerPanicked), ([some 1, some 2, none], .returned)] := by
  rw [(C91_every_call [] _).1]
  simp only [List.map_cons, List.map_nil]
  decide +kernel

-- the same `*bufio.Reader` after the panic of the listener
example : (match (newParser []).parseOnO false (fun got => got.length == 1) { cap := 9000, sched := threeReads } with
    | .listenerPanics got left => (left.parseOn left.s.r).map fun x => (prios (got, .listenerPanicked), prios (x.1, .returned))
    | _ => none) = some (([some 1], .listenerPanicked), ([some 2, none], .returned)) := by decide +kernel

end Verif.Props
