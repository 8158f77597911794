import Verif.Octet.Open
import Verif.Octet.Cost

/-! # `run` when the reader or the listener panics, compared with `run` -/

namespace Verif.Octet
open Verif.Rfc5424 (parse_eq)

/-! ## A reader that does not panic -/

theorem readCallO_false (space : Nat) (sched : List Read) : readCallO false space sched = some (readCall space sched) := by
  cases sched <;> rfl

theorem fillLoopO_false (i : Nat) (rd : Reader) : fillLoopO false i rd = some (fillLoop i rd) := by
  induction i generalizing rd with
  | zero => rfl
  | succ i ih =>
    simp only [fillLoopO, fillLoop, readCallO_false]
    split
    · rfl
    · split
      · rfl
      · exact ih _

theorem readByteO_false (rd : Reader) : rd.readByteO false = some rd.readByte := by
  simp only [Reader.readByteO, Reader.readByte, Reader.fillO, fillLoopO_false]
  have : (if rd.q = [] ∧ rd.err = false then some (fillLoop 100 { rd with r := 0 }) else some rd) =
      some (if rd.q = [] ∧ rd.err = false then rd.fill else rd) := by
    split <;> rfl
  rw [this]
  simp only []
  cases (if rd.q = [] ∧ rd.err = false then rd.fill else rd).q <;> rfl

theorem peekFillO_false (n fuel : Nat) (rd : Reader) : peekFillO false n fuel rd = some (peekFill n fuel rd) := by
  induction fuel generalizing rd with
  | zero => rfl
  | succ fuel ih =>
    simp only [peekFillO, peekFill, Reader.fillO, fillLoopO_false]
    split
    · exact ih _
    · rfl

theorem peekO_false (rd : Reader) (n : Int) : rd.peekO false n = some (rd.peek n) := by
  simp only [Reader.peekO, Reader.peek, peekFillO_false]
  split
  · rfl
  · split
    · rfl
    · split <;> rfl

theorem readO_false (s : Scanner) : s.readO false = some s.read := by
  simp only [Scanner.readO, Scanner.read, readByteO_false]
  obtain ⟨b, r⟩ := s.r.readByte
  cases b <;> rfl

theorem scanDigitsO_false (fuel : Nat) (s : Scanner) (buf : Bytes) : scanDigitsO false fuel s buf = some (scanDigits fuel s buf) := by
  induction fuel generalizing s buf with
  | zero => rfl
  | succ fuel ih =>
    simp only [scanDigitsO, scanDigits, readO_false]
    split
    · rfl
    · split
      · rfl
      · exact ih _ _

theorem scannerScanO_false (s : Scanner) : s.scanO false = some s.scan := by
  simp only [Scanner.scanO, Scanner.scan, readO_false, Scanner.scanMsgLenO, Scanner.scanMsgLen, scanDigitsO_false, Scanner.scanSyslogMsgO,
    Scanner.scanSyslogMsg, peekO_false]
  generalize s.read = y
  obtain ⟨b, s1⟩ := y
  simp only []
  split
  · rfl
  · split
    · rfl
    · split
      · rfl
      · split
        · generalize Reader.peek _ _ = z
          obtain ⟨z1, z2, z3⟩ := z
          cases z2 <;> rfl
        · rfl

theorem scanO_false (p : Parser) : p.scanO false = some p.scan := by
  simp only [Parser.scanO, Parser.scan, scannerScanO_false]
  split <;> rfl

/-! ## The parser in between -/

/-- configured so, and the buffer is sound -/
structure Cfg (be : Bool) (max : Int) (cap : Nat) (p : Parser) : Prop where
  hbe : p.bestEffort = be
  hmax : p.maxMessageLength = max
  ibe : p.internal.bestEffort = be
  ico : p.internal.compliantMsg = false
  ok : p.s.r.Ok
  cap : p.s.r.cap = cap

variable {panics : Bool} {be : Bool} {max : Int} {cap : Nat}

theorem Cfg.idle {p : Parser} (h : Cfg be max cap p) (hs : p.stepback = false) : Idle be max p := ⟨h.hbe, h.hmax, h.ibe, h.ico, hs⟩

theorem scanO_some {p p' : Parser} {t : Token} (h : p.scanO panics = some (t, p')) : p.scan = (t, p') := by
  have := scanO_thn h (more := []) (Or.inr rfl)
  rwa [show p.thn [] = p by simp [Parser.thn, thn_nil], show p'.thn [] = p' by simp [Parser.thn, thn_nil]] at this

theorem scan_fields (p : Parser) : p.scan.2.bestEffort = p.bestEffort ∧ p.scan.2.maxMessageLength = p.maxMessageLength ∧
    p.scan.2.internal = p.internal := by
  simp only [Parser.scan]
  split <;> exact ⟨rfl, rfl, rfl⟩

theorem scanO_cfg {p p' : Parser} {t : Token} (h : p.scanO panics = some (t, p')) (hc : Cfg be max cap p) :
    Cfg be max cap p' ∧ p'.stepback = false ∧ p'.last = t := by
  have h1 := scanO_some h
  obtain ⟨used, c1, c2, -, -, c5, c6, -⟩ := pscan_cost p hc.ok
  obtain ⟨f1, f2, f3⟩ := scan_fields p
  rw [h1] at c1 c2 c5 c6 f1 f2 f3
  exact ⟨⟨f1.trans hc.hbe, f2.trans hc.hmax, by rw [f3]; exact hc.ibe, by rw [f3]; exact hc.ico, c1, c2.trans hc.cap⟩, c5, c6⟩

theorem scanO_none {p : Parser} (h : p.scanO panics = none) : panics = true ∧ p.stepback = false := by
  cases panics with
  | false => rw [scanO_false] at h; simp at h
  | true =>
    refine ⟨rfl, ?_⟩
    cases hs : p.stepback with
    | false => rfl
    | true => simp [Parser.scanO, hs] at h

theorem parseMsg_cfg {p : Parser} (hc : Cfg be max cap p) (lit : Bytes) :
    ∃ p', p.parseMsg lit = some (pmsg be lit, p') ∧ p'.s = p.s ∧ p'.stepback = p.stepback ∧ p'.last = p.last ∧ Cfg be max cap p' ∧
      ∀ more, (p.thn more).parseMsg lit = some (pmsg be lit, p'.thn more) := by
  obtain ⟨m', e, e1, e2⟩ := parse_eq p.internal lit
  have key : ∀ q : Parser, q.internal = p.internal → q.parseMsg lit = some (pmsg be lit, { q with internal := m' }) := by
    intro q hq
    simp only [Parser.parseMsg, hq, e, pmsg, Rfc5424.parse1_eq, hc.ibe, hc.ico]
  exact ⟨{ p with internal := m' }, key p rfl, rfl, rfl, rfl, ⟨hc.hbe, hc.hmax, e1.trans hc.ibe, e2.trans hc.ico, hc.ok, hc.cap⟩,
    fun more => key _ rfl⟩

/-- after a message the scanner is as a new one on the reader -/
theorem scan_msg_clears {p p' : Parser} {t : Token} (h : p.scan = (t, p')) (hs : p.stepback = false) (ht : t.typ = .SYSLOGMSG) :
    p'.s.msglen = 0 ∧ p'.s.ready = false := by
  have key : ∀ s : Scanner, s.scan.1.typ = .SYSLOGMSG → s.scan.2.msglen = 0 ∧ s.scan.2.ready = false := by
    intro s
    simp only [Scanner.scan, Scanner.scanMsgLen, Scanner.scanSyslogMsg]
    generalize s.read = y
    obtain ⟨b, s1⟩ := y
    simp only []
    split
    · intro h; simp at h
    · split
      · intro h; simp at h
      · split
        · intro h; simp at h
        · split
          · generalize Reader.peek _ _ = z
            obtain ⟨z1, z2, z3⟩ := z
            cases z2 with
            | true => intro _; exact ⟨rfl, rfl⟩
            | false => intro h; simp at h
          · intro h; simp at h
  simp only [Parser.scan, hs, Bool.false_eq_true, if_false] at h
  have h1 := congrArg Prod.fst h
  have h2 := congrArg Prod.snd h
  simp only [] at h1 h2
  have := key p.s (by rw [h1]; exact ht)
  rw [← h2]
  exact this

/-- a parser that has looked at the next token and put it back goes on as before -/
theorem runLoop_unscan {p p' : Parser} {t : Token} (h : p.scan = (t, p')) (hs : p'.stepback = false) (hl : p'.last = t) (fuel : Nat) :
    runLoop fuel p = runLoop fuel p'.unscan := by
  have h1 : p'.unscan.scan = (t, p') := by
    obtain ⟨a, b, c, d, e, f⟩ := p'
    simp only at hs hl
    subst hs; subst hl
    simp [Parser.scan, Parser.unscan]
  cases fuel with
  | zero => rfl
  | succ fuel => simp only [runLoop, h, h1]

theorem runLoop_mono (fuel : Nat) (p : Parser) (x : List Result × Parser) (h : runLoop fuel p = some x) : runLoop (fuel + 1) p = some x := by
  induction fuel generalizing p x with
  | zero => simp [runLoop] at h
  | succ fuel ih =>
    rw [runLoop] at h ⊢
    generalize p.scan = q1 at *
    obtain ⟨t1, p1⟩ := q1
    simp only [] at h ⊢
    by_cases c1 : t1.typ ≠ .MSGLEN
    · rw [if_pos c1] at h ⊢; exact h
    rw [if_neg c1] at h ⊢
    by_cases c2 : toInt p1.s.msglen > p1.maxMessageLength
    · rw [if_pos c2] at h ⊢; exact h
    rw [if_neg c2] at h ⊢
    generalize p1.scan = q2 at *
    obtain ⟨t2, p2⟩ := q2
    simp only [] at h ⊢
    by_cases c3 : t2.typ ≠ .WS
    · rw [if_pos c3] at h ⊢; exact h
    rw [if_neg c3] at h ⊢
    generalize p2.scan = q3 at *
    obtain ⟨t3, p3⟩ := q3
    simp only [] at h ⊢
    by_cases c4 : t3.typ ≠ .SYSLOGMSG
    · rw [if_pos c4] at h ⊢; exact h
    rw [if_neg c4] at h ⊢
    cases hp : p3.parseMsg t3.lit with
    | none => rw [hp] at h; simp at h
    | some y =>
      obtain ⟨r, p4⟩ := y
      rw [hp] at h
      simp only [] at h ⊢
      by_cases c5 : p4.bestEffort = false ∧ r.err ≠ none
      · rw [if_pos c5] at h ⊢; exact h
      rw [if_neg c5] at h ⊢
      generalize p4.scan = q5 at *
      obtain ⟨t5, p5⟩ := q5
      simp only [] at h ⊢
      by_cases c6 : t5.typ = .EOF
      · rw [if_pos c6] at h ⊢; exact h
      rw [if_neg c6] at h ⊢
      cases hr : runLoop fuel p5.unscan with
      | none => rw [hr] at h; simp at h
      | some z => rw [hr] at h; rw [ih _ _ hr]; exact h

theorem runLoop_mono_le {fuel fuel' : Nat} (hle : fuel ≤ fuel') {p : Parser} {x : List Result × Parser} (h : runLoop fuel p = some x) :
    runLoop fuel' p = some x := by
  induction hle with
  | refl => exact h
  | step _ ih => exact runLoop_mono _ _ _ ih

/-! ## The run -/

/-- the listener that has got `hist` does not panic at `rs` -/
def Calm (stop : Stop) (hist rs : List Result) : Prop := ∀ p, p ≠ [] → p <+: rs → stop (hist ++ p) = false

theorem calm_nil (stop : Stop) (hist : List Result) : Calm stop hist [] := fun p hp hpre => (hp (by simpa using hpre)).elim

theorem calm_cons {stop : Stop} {hist : List Result} {r : Result} {rs : List Result} (h : stop (hist ++ [r]) = false)
    (hc : Calm stop (hist ++ [r]) rs) : Calm stop hist (r :: rs) := by
  intro p hp hpre
  cases p with
  | nil => exact (hp rfl).elim
  | cons q p =>
    obtain ⟨rfl, hpre'⟩ := List.cons_prefix_cons.mp hpre
    cases p with
    | nil => exact h
    | cons x xs => simpa using hc (x :: xs) (by simp) hpre'

/-- what `runO` has to do with `runLoop` on a reader that goes on with `more` -/
def Sim (panics : Bool) (stop : Stop) (be : Bool) (max : Int) (cap : Nat) (more : List Read) (fuel : Nat) (hist : List Result) (p : Parser) :
    Ran → Prop
  | .crash => runLoop fuel (p.thn more) = none
  | .readerPanics got left => panics = true ∧ Idle be max left ∧
      ∃ mid, got = hist ++ mid ∧ Calm stop hist mid ∧ ∀ out p', runLoop fuel (p.thn more) = some (out, p') → mid <+: out
  | .listenerPanics got left => Idle be max left ∧ Cfg be max cap left ∧
      ∃ mid r, got = hist ++ mid ++ [r] ∧ Calm stop hist mid ∧ stop got = true ∧
        ∀ out p', runLoop fuel (p.thn more) = some (out, p') → ∃ rest, out = mid ++ [r] ++ rest ∧
          (rest ≠ [] → left.s.msglen = 0 ∧ left.s.ready = false ∧ ∃ fuel', runLoop fuel' (left.thn more) = some (rest, p'))
  | .ok got p' => Idle be max p' ∧ ∃ out, got = hist ++ out ∧ Calm stop hist out ∧ runLoop fuel (p.thn more) = some (out, p'.thn more)

/-- the last result of a run -/
theorem sim_last {stop : Stop} {more : List Read} {fuel : Nat} {hist : List Result} {p pl : Parser} {r : Result}
    (hc : Cfg be max cap pl) (hs : pl.stepback = false) (h : runLoop fuel (p.thn more) = some ([r], pl.thn more)) :
    Sim panics stop be max cap more fuel hist p (emitP stop r hist pl fun h => .ok h pl) := by
  unfold emitP
  cases hst : stop (hist ++ [r]) with
  | true =>
    rw [if_pos rfl]
    refine ⟨hc.idle hs, hc, [], r, by simp, calm_nil _ _, hst, ?_⟩
    intro out p' ho
    rw [h] at ho
    cases ho
    exact ⟨[], rfl, fun h => (h rfl).elim⟩
  | false =>
    rw [if_neg (by simp)]
    exact ⟨hc.idle hs, [r], rfl, calm_cons hst (calm_nil _ _), h⟩

theorem runO_sim {stop : Stop} {more : List Read} (hm : panics = true ∨ more = []) (fuel : Nat) (hist : List Result) (p : Parser)
    (hc : Cfg be max cap p) : Sim panics stop be max cap more fuel hist p (runO panics stop fuel hist p) := by
  induction fuel generalizing hist p with
  | zero => rfl
  | succ fuel ih =>
    have stuck : ∀ q : Parser, Cfg be max cap q → q.scanO panics = none →
        Sim panics stop be max cap more (fuel + 1) hist p (.readerPanics hist q) := by
      intro q hq hn
      exact ⟨(scanO_none hn).1, hq.idle (scanO_none hn).2, [], by simp, calm_nil _ _, fun _ _ _ => List.nil_prefix⟩
    rw [runO]
    cases q1 : p.scanO panics with
    | none => exact stuck p hc q1
    | some y1 =>
    obtain ⟨t1, p1⟩ := y1
    obtain ⟨i1, s1, l1⟩ := scanO_cfg q1 hc
    have r1 := scanO_thn q1 hm
    simp only []
    by_cases c1 : t1.typ ≠ .MSGLEN
    · rw [if_pos c1]
      refine sim_last i1 s1 ?_
      simp only [runLoop, r1]
      rw [if_pos c1]
    rw [if_neg c1]
    by_cases c2 : toInt p1.s.msglen > p1.maxMessageLength
    · rw [if_pos c2]
      refine sim_last i1 s1 ?_
      simp only [runLoop, r1]
      rw [if_neg c1, if_pos (show toInt (p1.thn more).s.msglen > (p1.thn more).maxMessageLength from c2)]
      rfl
    rw [if_neg c2]
    cases q2 : p1.scanO panics with
    | none => exact stuck p1 i1 q2
    | some y2 =>
    obtain ⟨t2, p2⟩ := y2
    obtain ⟨i2, s2, l2⟩ := scanO_cfg q2 i1
    have r2 := scanO_thn q2 hm
    simp only []
    have c2' : ¬ toInt (p1.thn more).s.msglen > (p1.thn more).maxMessageLength := c2
    by_cases c3 : t2.typ ≠ .WS
    · rw [if_pos c3]
      refine sim_last i2 s2 ?_
      simp only [runLoop, r1]
      rw [if_neg c1, if_neg c2', r2]
      simp only []
      rw [if_pos c3]
    rw [if_neg c3]
    cases q3 : p2.scanO panics with
    | none => exact stuck p2 i2 q3
    | some y3 =>
    obtain ⟨t3, p3⟩ := y3
    obtain ⟨i3, s3, l3⟩ := scanO_cfg q3 i2
    have r3 := scanO_thn q3 hm
    obtain ⟨p4, e1, e2, e3, e4, i4, e5⟩ := parseMsg_cfg i3 t3.lit
    have s4 : p4.stepback = false := e3.trans s3
    have hl : runLoop (fuel + 1) (p.thn more) =
        if t3.typ ≠ .SYSLOGMSG then
          if (t3.lit.length : Int) < toInt p3.s.msglen ∧ p3.bestEffort = true then
            some ([⟨(pmsg be t3.lit).msg, match (pmsg be t3.lit).err with
              | none => some (Error.notMsg t3 p3.s.msglen) | some e' => some e'⟩], p4.thn more)
          else some ([⟨none, some (Error.notMsg t3 p3.s.msglen)⟩], p3.thn more)
        else
          if p4.bestEffort = false ∧ (pmsg be t3.lit).err ≠ none then
            some ((if p4.bestEffort = true ∨ (pmsg be t3.lit).err = none then [pmsg be t3.lit] else []) ++ [⟨none, (pmsg be t3.lit).err⟩], p4.thn more)
          else
            if (p4.thn more).scan.1.typ = .EOF then
              some ((if p4.bestEffort = true ∨ (pmsg be t3.lit).err = none then [pmsg be t3.lit] else []), (p4.thn more).scan.2)
            else
              match runLoop fuel (p4.thn more).scan.2.unscan with
              | none => none
              | some (rest, p) =>
                some ((if p4.bestEffort = true ∨ (pmsg be t3.lit).err = none then [pmsg be t3.lit] else []) ++ rest, p) := by
      simp only [runLoop, r1]
      rw [if_neg c1, if_neg c2', r2]
      simp only []
      rw [if_neg c3, r3]
      simp only [e5]
      rfl
    simp only []
    by_cases c4 : t3.typ ≠ .SYSLOGMSG
    · rw [if_pos c4] at hl ⊢
      by_cases c5 : (t3.lit.length : Int) < toInt p3.s.msglen ∧ p3.bestEffort = true
      · rw [if_pos c5] at hl ⊢
        rw [e1]
        exact sim_last i4 s4 hl
      · rw [if_neg c5] at hl ⊢
        exact sim_last i3 s3 hl
    rw [if_neg c4] at hl ⊢
    have c4 : t3.typ = .SYSLOGMSG := by simpa using c4
    rw [e1]
    simp only []
    by_cases c6 : p4.bestEffort = false ∧ (pmsg be t3.lit).err ≠ none
    · have c7 : ¬ (p4.bestEffort = true ∨ (pmsg be t3.lit).err = none) := by
        rintro (h | h)
        · rw [c6.1] at h; simp at h
        · exact c6.2 h
      rw [if_pos c6, if_neg c7, List.nil_append] at hl
      rw [if_neg c7, if_pos c6]
      exact sim_last i4 s4 hl
    · have c7 : p4.bestEffort = true ∨ (pmsg be t3.lit).err = none := by
        cases hb : p4.bestEffort with
        | true => exact Or.inl rfl
        | false =>
          right
          by_cases he : (pmsg be t3.lit).err = none
          · exact he
          · exact (c6 ⟨hb, he⟩).elim
      rw [if_neg c6, if_pos c7] at hl
      rw [if_pos c7]
      simp only [if_neg c6]
      have hclear := scan_msg_clears (scanO_some q3) s2 c4
      rw [← e2] at hclear
      unfold emitP
      cases hst : stop (hist ++ [pmsg be t3.lit]) with
      | true =>
        rw [if_pos rfl]
        refine ⟨i4.idle s4, i4, [], pmsg be t3.lit, by simp, calm_nil _ _, hst, ?_⟩
        intro out p' ho
        rw [hl] at ho
        by_cases c8 : (p4.thn more).scan.1.typ = .EOF
        · rw [if_pos c8] at ho
          cases ho
          exact ⟨[], rfl, fun h => (h rfl).elim⟩
        · rw [if_neg c8] at ho
          cases hr : runLoop fuel (p4.thn more).scan.2.unscan with
          | none => rw [hr] at ho; simp at ho
          | some z =>
            obtain ⟨rest, pz⟩ := z
            rw [hr] at ho
            simp only [Option.some.injEq, Prod.mk.injEq] at ho
            obtain ⟨rfl, rfl⟩ := ho
            refine ⟨rest, rfl, fun _ => ⟨hclear.1, hclear.2, fuel, ?_⟩⟩
            rw [← hr]
            have hok : (p4.thn more).s.r.Ok := i4.ok
            obtain ⟨used, -, -, -, -, d5, d6, -⟩ := pscan_cost (p4.thn more) hok
            exact runLoop_unscan rfl d5 d6 fuel
      | false =>
        rw [if_neg (by simp)]
        cases q5 : p4.scanO panics with
        | none =>
          refine ⟨(scanO_none q5).1, i4.idle s4, [pmsg be t3.lit], rfl, calm_cons hst (calm_nil _ _), ?_⟩
          intro out p' ho
          rw [hl] at ho
          by_cases c8 : (p4.thn more).scan.1.typ = .EOF
          · rw [if_pos c8] at ho
            cases ho
            exact List.prefix_refl _
          · rw [if_neg c8] at ho
            cases hr : runLoop fuel (p4.thn more).scan.2.unscan with
            | none => rw [hr] at ho; simp at ho
            | some z =>
              obtain ⟨rest, pz⟩ := z
              rw [hr] at ho
              simp only [Option.some.injEq, Prod.mk.injEq] at ho
              rw [← ho.1]
              exact List.prefix_append _ _
        | some y5 =>
          obtain ⟨t5, p5⟩ := y5
          obtain ⟨i5, s5, l5⟩ := scanO_cfg q5 i4
          have r5 := scanO_thn q5 hm
          rw [r5] at hl
          simp only [] at hl ⊢
          by_cases c8 : t5.typ = .EOF
          · rw [if_pos c8] at hl ⊢
            exact ⟨i5.idle s5, [pmsg be t3.lit], rfl, calm_cons hst (calm_nil _ _), hl⟩
          · rw [if_neg c8] at hl ⊢
            have := ih (hist ++ [pmsg be t3.lit]) p5.unscan ⟨i5.hbe, i5.hmax, i5.ibe, i5.ico, i5.ok, i5.cap⟩
            have hu : p5.unscan.thn more = (p5.thn more).unscan := rfl
            generalize runO panics stop fuel (hist ++ [pmsg be t3.lit]) p5.unscan = z at this
            cases z with
            | crash =>
              have this : runLoop fuel (p5.unscan.thn more) = none := this
              rw [hu] at this
              rw [this] at hl
              exact hl
            | readerPanics got left =>
              obtain ⟨h1, h2, mid, h3, h4, h5⟩ := this
              refine ⟨h1, h2, pmsg be t3.lit :: mid, by rw [h3]; simp, calm_cons hst h4, ?_⟩
              intro out p' ho
              rw [hl] at ho
              rw [hu] at h5
              cases hr : runLoop fuel (p5.thn more).unscan with
              | none => rw [hr] at ho; simp at ho
              | some z =>
                obtain ⟨rest, pz⟩ := z
                rw [hr] at ho
                simp only [Option.some.injEq, Prod.mk.injEq] at ho
                rw [← ho.1]
                have := h5 rest pz hr
                exact List.cons_prefix_cons.mpr ⟨rfl, this⟩
            | listenerPanics got left =>
              obtain ⟨h1, h2, mid, r, h3, h4, h5, h6⟩ := this
              refine ⟨h1, h2, pmsg be t3.lit :: mid, r, by rw [h3]; simp, calm_cons hst h4, h5, ?_⟩
              intro out p' ho
              rw [hl] at ho
              rw [hu] at h6
              cases hr : runLoop fuel (p5.thn more).unscan with
              | none => rw [hr] at ho; simp at ho
              | some z =>
                obtain ⟨rest, pz⟩ := z
                rw [hr] at ho
                simp only [Option.some.injEq, Prod.mk.injEq] at ho
                obtain ⟨rest', g1, g2⟩ := h6 rest pz hr
                refine ⟨rest', by rw [← ho.1, g1]; simp, ?_⟩
                rw [← ho.2]
                exact g2
            | ok got p' =>
              obtain ⟨h1, out, h3, h4, h5⟩ := this
              rw [hu] at h5
              rw [h5] at hl
              exact ⟨h1, pmsg be t3.lit :: out, by rw [h3]; simp, calm_cons hst h4, hl⟩

end Verif.Octet
