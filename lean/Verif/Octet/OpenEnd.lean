import Verif.Octet.OpenRun

/-!
# What the end of the stream adds, and what earlier calls do not

`stuck_*`: where a reader would panic, a reader that returns `io.EOF` instead makes the parser emit at most one more result, an error.
`runO_same`: `run` depends on the options and on the scanner only.
-/

namespace Verif.Octet

/-! ## At the end -/

theorem fillLoopO_stuck (i : Nat) {rd : Reader} (h : fillLoopO true i rd = none) :
    (fillLoop i rd).q = rd.q ∧ (fillLoop i rd).sched = [] ∧ (fillLoop i rd).err = true := by
  induction i generalizing rd with
  | zero => simp [fillLoopO] at h
  | succ i ih =>
    obtain ⟨q, r0, cap, err, last, sched⟩ := rd
    cases sched with
    | nil => simp [fillLoop, readCall]
    | cons r rs =>
      simp only [fillLoopO, readCallO] at h
      simp only [fillLoop]
      generalize readCall (cap - q.length) (r :: rs) = y at *
      obtain ⟨d, e, s⟩ := y
      simp only [] at h ⊢
      split
      · rename_i he; rw [if_pos he] at h; simp at h
      · rename_i he
        rw [if_neg he] at h
        split
        · rename_i hd; rw [if_pos hd] at h; simp at h
        · rename_i hd; rw [if_neg hd] at h; exact ih h

theorem readByteO_stuck {rd : Reader} (h : rd.readByteO true = none) :
    ∃ rd', rd.readByte = (none, rd') ∧ rd'.q = [] ∧ rd'.sched = [] := by
  simp only [Reader.readByteO] at h
  by_cases hc : rd.q = [] ∧ rd.err = false
  · rw [if_pos hc] at h
    cases hf : rd.fillO true with
    | none =>
      obtain ⟨h1, h2, -⟩ := fillLoopO_stuck 100 hf
      have h1 : rd.fill.q = rd.q := h1
      have h2 : rd.fill.sched = [] := h2
      refine ⟨{ rd.fill with err := false }, ?_, h1.trans hc.1, h2⟩
      simp only [Reader.readByte, if_pos hc]
      rw [h1, hc.1]
    | some rd1 =>
      rw [hf] at h
      simp only [] at h
      cases hq : rd1.q with
      | nil => rw [hq] at h; simp at h
      | cons c q => rw [hq] at h; simp at h
  · rw [if_neg hc] at h
    simp only [] at h
    cases hq : rd.q with
    | nil => rw [hq] at h; simp at h
    | cons c q => rw [hq] at h; simp at h

theorem readO_stuck {s : Scanner} (h : s.readO true = none) : ∃ r', s.read = (0, { s with r := r' }) ∧ r'.q = [] ∧ r'.sched = [] := by
  simp only [Scanner.readO] at h
  cases hb : s.r.readByteO true with
  | none =>
    obtain ⟨r', h1, h2⟩ := readByteO_stuck hb
    exact ⟨r', by simp only [Scanner.read, h1], h2⟩
  | some y =>
    obtain ⟨b, r⟩ := y
    rw [hb] at h
    cases b <;> simp at h

theorem peekFillO_stuck (n fuel : Nat) {rd : Reader} (h : peekFillO true n fuel rd = none) : (peekFill n fuel rd).q.length < n := by
  induction fuel generalizing rd with
  | zero => simp [peekFillO] at h
  | succ fuel ih =>
    simp only [peekFillO] at h
    simp only [peekFill]
    by_cases hc : rd.q.length < n ∧ rd.q.length < rd.cap ∧ rd.err = false
    · rw [if_pos hc] at h ⊢
      cases hf : rd.fillO true with
      | none =>
        obtain ⟨h1, -, h3⟩ := fillLoopO_stuck 100 hf
        have h1 : rd.fill.q = rd.q := h1
        have h3 : rd.fill.err = true := h3
        have : peekFill n fuel rd.fill = rd.fill := by
          cases fuel with
          | zero => rfl
          | succ fuel =>
            simp only [peekFill]
            rw [if_neg (by rintro ⟨-, -, h⟩; rw [h3] at h; simp at h)]
        rw [this, h1]; exact hc.1
      | some rd1 =>
        rw [hf] at h
        have h1 := fillO_thn hf (more := []) (Or.inr rfl)
        have h2 : ∀ rd : Reader, rd.thn [] = rd := fun rd => by simp [Reader.thn]
        rw [h2, h2] at h1
        rw [h1]
        exact ih h
    · rw [if_neg hc] at h; simp at h

theorem peekO_stuck {rd : Reader} {n : Int} (h : rd.peekO true n = none) : ∃ b r, rd.peek n = (b, false, r) := by
  simp only [Reader.peekO] at h
  simp only [Reader.peek]
  by_cases hn : n < 0
  · rw [if_pos hn] at h; simp at h
  · rw [if_neg hn] at h
    rw [if_neg hn]
    cases hp : peekFillO true n.toNat (n.toNat + 1) { rd with last := none } with
    | none =>
      have := peekFillO_stuck _ _ hp
      split
      · exact ⟨_, _, rfl⟩
      · exact ⟨_, _, rfl⟩
    | some rd1 =>
      rw [hp] at h
      simp only [] at h
      split at h
      · simp at h
      · split at h <;> simp at h

theorem scanDigitsO_stuck (fuel : Nat) {s : Scanner} {buf : Bytes} (h : scanDigitsO true fuel s buf = none) :
    (scanDigits fuel s buf).2.r.q = [] ∧ (scanDigits fuel s buf).2.r.sched = [] := by
  induction fuel generalizing s buf with
  | zero => simp [scanDigitsO] at h
  | succ fuel ih =>
    simp only [scanDigitsO] at h
    simp only [scanDigits]
    cases hr : s.readO true with
    | none =>
      obtain ⟨r', h1, h2, h3⟩ := readO_stuck hr
      rw [h1]
      exact ⟨h2, h3⟩
    | some y =>
      obtain ⟨b, s1⟩ := y
      have h1 := readO_thn hr (more := []) (Or.inr rfl)
      rw [thn_nil, thn_nil] at h1
      rw [hr] at h
      rw [h1]
      simp only [] at h ⊢
      split
      · rename_i c; rw [if_pos c] at h; simp at h
      · rename_i c
        rw [if_neg c] at h
        split
        · rename_i c; rw [if_pos c] at h; simp at h
        · rename_i c; rw [if_neg c] at h; exact ih h

/-- nothing is buffered, nothing will come -/
def Scanner.Dry (s : Scanner) : Prop := s.r.q = [] ∧ s.r.sched = []

theorem read_dry {s : Scanner} (h : s.Dry) : s.read = (0, { s with r := s.read.2.r }) ∧ s.read.2.r.q = [] ∧ s.read.2.r.sched = [] := by
  obtain ⟨⟨q, r0, cap, err, last, sched⟩, n, y⟩ := s
  obtain ⟨hq, hs⟩ := h
  simp only at hq hs
  subst hq; subst hs
  cases err <;> simp [Scanner.read, Reader.readByte, Reader.fill, fillLoop, readCall]

theorem scannerScanO_stuck {s : Scanner} (h : s.scanO true = none) :
    s.scan.1.typ = .EOF ∨ (s.scan.1.typ = .MSGLEN ∧ s.scan.2.Dry) := by
  simp only [Scanner.scanO] at h
  cases hr : s.readO true with
  | none =>
    obtain ⟨r', h1, h2, h3⟩ := readO_stuck hr
    left
    simp only [Scanner.scan, h1]
    rw [if_neg (by decide), if_pos trivial]
  | some y =>
    obtain ⟨b, s1⟩ := y
    have h1 := readO_thn hr (more := []) (Or.inr rfl)
    rw [thn_nil, thn_nil] at h1
    rw [hr] at h
    simp only [] at h
    simp only [Scanner.scan, h1]
    split
    · rename_i c
      rw [if_pos c] at h
      right
      generalize ({ s1.unread with ready := false } : Scanner) = s2 at *
      simp only [Scanner.scanMsgLenO] at h
      simp only [Scanner.scanMsgLen]
      cases hr2 : s2.readO true with
      | none =>
        obtain ⟨r', g1, g2, g3⟩ := readO_stuck hr2
        rw [g1]
        refine ⟨trivial, ?_⟩
        have hdry : ∀ (s : Scanner), s.r.q = [] → s.r.sched = [] → ∀ fuel buf, (scanDigits fuel s buf).2.r.q = [] ∧
            (scanDigits fuel s buf).2.r.sched = [] := by
          intro s hq hs fuel buf
          cases fuel with
          | zero => exact ⟨hq, hs⟩
          | succ fuel =>
            have hrd := read_dry ⟨hq, hs⟩
            simp only [scanDigits]
            rw [hrd.1]
            exact hrd.2
        exact hdry _ g2 g3 _ _
      | some z =>
        obtain ⟨b2, s3⟩ := z
        have h2 := readO_thn hr2 (more := []) (Or.inr rfl)
        rw [thn_nil, thn_nil] at h2
        rw [hr2] at h
        simp only [] at h
        rw [h2]
        refine ⟨trivial, ?_⟩
        cases hd : scanDigitsO true (s3.r.remaining + 1) s3 [b2] with
        | none => exact scanDigitsO_stuck _ hd
        | some w => rw [hd] at h; simp at h
    · rename_i c
      rw [if_neg c] at h
      split
      · rename_i c; rw [if_pos c] at h; simp at h
      · rename_i c; rw [if_neg c] at h
        split
        · rename_i c; rw [if_pos c] at h; simp at h
        · rename_i c; rw [if_neg c] at h
          split
          · rename_i c; rw [if_pos c] at h
            left
            simp only [Scanner.scanSyslogMsgO] at h
            simp only [Scanner.scanSyslogMsg]
            cases hp : s1.unread.r.peekO true (toInt s1.unread.msglen) with
            | none =>
              obtain ⟨b', r', hp'⟩ := peekO_stuck hp
              rw [hp']
            | some z =>
              obtain ⟨z1, z2, z3⟩ := z
              rw [hp] at h
              cases z2 <;> simp at h
          · rename_i c; rw [if_neg c] at h; simp at h

theorem scan_dry {s : Scanner} (h : s.Dry) : s.scan.1.typ = .EOF := by
  obtain ⟨h1, -⟩ := read_dry h
  generalize s.read.2.r = r at h1
  simp only [Scanner.scan, h1]
  rw [if_neg (by decide), if_pos trivial]

/-- the token a parser gets where the reader would panic -/
theorem scanO_stuck {p : Parser} (h : p.scanO true = none) :
    p.scan.1.typ = .EOF ∨ (p.scan.1.typ = .MSGLEN ∧ p.scan.2.scan.1.typ = .EOF) := by
  have hs := (scanO_none h).2
  simp only [Parser.scanO, hs, Bool.false_eq_true, if_false] at h
  have h1 : p.s.scanO true = none := by
    cases hp : p.s.scanO true with
    | none => rfl
    | some y => rw [hp] at h; simp at h
  have e1 : p.scan = (p.s.scan.1, { p with s := p.s.scan.2, last := p.s.scan.1 }) := by
    simp only [Parser.scan, hs, Bool.false_eq_true, if_false]
  have e2 : p.scan.2.scan.1 = p.s.scan.2.scan.1 := by
    rw [e1]; simp only [Parser.scan, hs, Bool.false_eq_true, if_false]
  rw [e2, e1]
  rcases scannerScanO_stuck h1 with h2 | ⟨h2, h3⟩
  · exact Or.inl h2
  · exact Or.inr ⟨h2, scan_dry h3⟩

/-- at most one result, an error -/
def AtMostAnError (rs : List Result) : Prop := rs = [] ∨ ∃ r, rs = [r] ∧ r.err ≠ none

/-- a run that starts where the reader would panic, or that is given a length after which the reader has nothing more -/
theorem run_ends {fuel : Nat} {p : Parser} {out : List Result} {p' : Parser} (h : runLoop fuel p = some (out, p'))
    (ht : p.scan.1.typ = .EOF ∨ (p.scan.1.typ = .MSGLEN ∧ p.scan.2.scan.1.typ = .EOF)) : AtMostAnError out := by
  cases fuel with
  | zero => simp [runLoop] at h
  | succ fuel =>
    simp only [runLoop] at h
    rcases ht with ht | ⟨h1, h2⟩
    · rw [if_pos (by rw [ht]; simp)] at h
      cases h
      exact Or.inr ⟨_, rfl, by simp⟩
    · rw [if_neg (by simp [h1])] at h
      split at h
      · cases h
        exact Or.inr ⟨_, rfl, by simp⟩
      · rw [if_pos (by rw [h2]; simp)] at h
        cases h
        exact Or.inr ⟨_, rfl, by simp⟩

theorem thn_nil_p (p : Parser) : p.thn [] = p := by simp [Parser.thn, thn_nil]

variable {be : Bool} {max : Int} {cap : Nat}

/-- where the reader panics, the end of the stream would add at most an error -/
theorem runO_stuck {stop : Stop} (fuel : Nat) (hist : List Result) (p : Parser) (hc : Cfg be max cap p) {got : List Result} {left : Parser}
    (h : runO true stop fuel hist p = .readerPanics got left) {out : List Result} {p' : Parser} (hr : runLoop fuel p = some (out, p')) :
    ∃ mid e, got = hist ++ mid ∧ out = mid ++ e ∧ AtMostAnError e := by
  induction fuel generalizing hist p out p' with
  | zero => simp [runO] at h
  | succ fuel ih =>
    have hemit : ∀ (r : Result) (hist : List Result) (q : Parser), emitP stop r hist q (fun h => .ok h q) ≠ .readerPanics got left := by
      intro r hist q
      unfold emitP
      split <;> simp
    rw [runO] at h
    cases q1 : p.scanO true with
    | none =>
      rw [q1] at h
      simp only [Ran.readerPanics.injEq] at h
      exact ⟨[], out, by simp [h.1], rfl, run_ends hr (scanO_stuck q1)⟩
    | some y1 =>
    obtain ⟨t1, p1⟩ := y1
    obtain ⟨i1, s1, l1⟩ := scanO_cfg q1 hc
    have r1 := scanO_some q1
    rw [q1] at h
    simp only [runLoop, r1] at h hr
    by_cases c1 : t1.typ ≠ .MSGLEN
    · rw [if_pos c1] at h; exact (hemit _ _ _ h).elim
    rw [if_neg c1] at h hr
    by_cases c2 : toInt p1.s.msglen > p1.maxMessageLength
    · rw [if_pos c2] at h; exact (hemit _ _ _ h).elim
    rw [if_neg c2] at h hr
    cases q2 : p1.scanO true with
    | none =>
      rw [q2] at h
      simp only [Ran.readerPanics.injEq] at h
      have : p1.scan.1.typ ≠ .WS := by rcases scanO_stuck q2 with h | ⟨h, -⟩ <;> rw [h] <;> simp
      rw [if_pos this] at hr
      cases hr
      exact ⟨[], _, by simp [h.1], rfl, Or.inr ⟨_, rfl, by simp⟩⟩
    | some y2 =>
    obtain ⟨t2, p2⟩ := y2
    obtain ⟨i2, s2, l2⟩ := scanO_cfg q2 i1
    have r2 := scanO_some q2
    rw [q2] at h
    simp only [r2] at h hr
    by_cases c3 : t2.typ ≠ .WS
    · rw [if_pos c3] at h; exact (hemit _ _ _ h).elim
    rw [if_neg c3] at h hr
    cases q3 : p2.scanO true with
    | none =>
      rw [q3] at h
      simp only [Ran.readerPanics.injEq] at h
      have : p2.scan.1.typ ≠ .SYSLOGMSG := by rcases scanO_stuck q3 with h | ⟨h, -⟩ <;> rw [h] <;> simp
      rw [if_pos this] at hr
      refine ⟨[], out, by simp [h.1], rfl, ?_⟩
      split at hr
      · split at hr
        · simp at hr
        · cases hr
          refine Or.inr ⟨_, rfl, ?_⟩
          simp only []
          split <;> simp
      · cases hr
        exact Or.inr ⟨_, rfl, by simp⟩
    | some y3 =>
    obtain ⟨t3, p3⟩ := y3
    obtain ⟨i3, s3, l3⟩ := scanO_cfg q3 i2
    have r3 := scanO_some q3
    obtain ⟨p4, e1, e2, e3, e4, i4, -⟩ := parseMsg_cfg i3 t3.lit
    rw [q3] at h
    simp only [r3, e1] at h hr
    by_cases c4 : t3.typ ≠ .SYSLOGMSG
    · rw [if_pos c4] at h
      split at h
      · exact (hemit _ _ _ h).elim
      · exact (hemit _ _ _ h).elim
    rw [if_neg c4] at h hr
    by_cases c6 : p4.bestEffort = false ∧ (pmsg be t3.lit).err ≠ none
    · have c7 : ¬ (p4.bestEffort = true ∨ (pmsg be t3.lit).err = none) := by
        rintro (h | h)
        · rw [c6.1] at h; simp at h
        · exact c6.2 h
      rw [if_neg c7, if_pos c6] at h
      exact (hemit _ _ _ h).elim
    · have c7 : p4.bestEffort = true ∨ (pmsg be t3.lit).err = none := by
        cases hb : p4.bestEffort with
        | true => exact Or.inl rfl
        | false =>
          right
          by_cases he : (pmsg be t3.lit).err = none
          · exact he
          · exact (c6 ⟨hb, he⟩).elim
      rw [if_pos c7] at h
      rw [if_neg c6, if_pos c7] at hr
      unfold emitP at h
      simp only [if_neg c6] at h
      split at h
      · simp at h
      · cases q5 : p4.scanO true with
        | none =>
          rw [q5] at h
          simp only [Ran.readerPanics.injEq] at h
          refine ⟨[pmsg be t3.lit], ?_⟩
          by_cases c8 : p4.scan.1.typ = .EOF
          · rw [if_pos c8] at hr
            cases hr
            exact ⟨[], h.1.symm, rfl, Or.inl rfl⟩
          · rw [if_neg c8] at hr
            have ht := scanO_stuck q5
            obtain ⟨used, -, -, -, -, d5, d6, -⟩ := pscan_cost p4 i4.ok
            have hu := runLoop_unscan (p := p4) (p' := p4.scan.2) (t := p4.scan.1) rfl d5 d6 fuel
            rw [← hu] at hr
            cases hrl : runLoop fuel p4 with
            | none => rw [hrl] at hr; simp at hr
            | some z =>
              obtain ⟨rest, pz⟩ := z
              rw [hrl] at hr
              simp only [Option.some.injEq, Prod.mk.injEq] at hr
              exact ⟨rest, h.1.symm, hr.1.symm, run_ends hrl ht⟩
        | some y5 =>
          obtain ⟨t5, p5⟩ := y5
          obtain ⟨i5, s5, l5⟩ := scanO_cfg q5 i4
          have r5 := scanO_some q5
          rw [q5] at h
          simp only [r5] at h hr
          by_cases c8 : t5.typ = .EOF
          · rw [if_pos c8] at h; simp at h
          · rw [if_neg c8] at h hr
            cases hrl : runLoop fuel p5.unscan with
            | none => rw [hrl] at hr; simp at hr
            | some z =>
              obtain ⟨rest, pz⟩ := z
              rw [hrl] at hr
              simp only [Option.some.injEq, Prod.mk.injEq] at hr
              obtain ⟨mid, e, g1, g2, g3⟩ := ih _ p5.unscan ⟨i5.hbe, i5.hmax, i5.ibe, i5.ico, i5.ok, i5.cap⟩ h hrl
              exact ⟨pmsg be t3.lit :: mid, e, by rw [g1]; simp, by rw [← hr.1, g2]; simp, g3⟩

/-! ## Earlier calls -/

/-- how a run ended, for the caller and the listener -/
inductive Ended where
  | crashed | readerPanicked | listenerPanicked | returned
  deriving DecidableEq, Repr

/-- what the listener has got, and how the run ended -/
def Ran.seen : Ran → List Result × Ended
  | .crash => ([], .crashed)
  | .readerPanics got _ => (got, .readerPanicked)
  | .listenerPanics got _ => (got, .listenerPanicked)
  | .ok got _ => (got, .returned)

/-- the same scanner, and the same token put back -/
structure Same (p q : Parser) : Prop where
  s : p.s = q.s
  step : p.stepback = q.stepback
  last : p.stepback = true → p.last = q.last

theorem scanO_same {panics : Bool} {p q : Parser} (h : Same p q) : (p.scanO panics = none ∧ q.scanO panics = none) ∨
    ∃ t p' q', p.scanO panics = some (t, p') ∧ q.scanO panics = some (t, q') ∧ Same p' q' ∧ p'.last = q'.last := by
  obtain ⟨h1, h2, h3⟩ := h
  cases hs : p.stepback with
  | true =>
    right
    have h3 := h3 hs
    refine ⟨p.last, { p with stepback := false }, { q with stepback := false }, ?_, ?_, ⟨h1, rfl, by simp⟩, h3⟩
    · simp only [Parser.scanO, hs, if_true]
    · simp only [Parser.scanO, ← h2, hs, if_true, h3]
  | false =>
    simp only [Parser.scanO, ← h2, hs, Bool.false_eq_true, if_false, ← h1]
    cases p.s.scanO panics with
    | none => exact Or.inl ⟨rfl, rfl⟩
    | some y => exact Or.inr ⟨y.1, _, _, rfl, rfl, ⟨rfl, rfl, by simp⟩, rfl⟩

theorem runO_same {panics : Bool} {stop : Stop} (fuel : Nat) (hist : List Result) {p q : Parser} (hp : Cfg be max cap p) (hq : Cfg be max cap q)
    (h : Same p q) : (runO panics stop fuel hist p).seen = (runO panics stop fuel hist q).seen := by
  induction fuel generalizing hist p q with
  | zero => rfl
  | succ fuel ih =>
    have hemit : ∀ (r : Result) (hist : List Result) (a b : Parser), (emitP stop r hist a fun h => .ok h a).seen = (emitP stop r hist b fun h => .ok h b).seen := by
      intro r hist a b
      unfold emitP
      split <;> rfl
    rw [runO, runO]
    rcases scanO_same (panics := panics) h with ⟨a, b⟩ | ⟨t1, p1, q1, a1, b1, h1, -⟩
    · rw [a, b]; rfl
    obtain ⟨i1, -, -⟩ := scanO_cfg a1 hp
    obtain ⟨j1, -, -⟩ := scanO_cfg b1 hq
    rw [a1, b1]
    simp only []
    rw [h1.s, i1.hmax, j1.hmax]
    by_cases c1 : t1.typ ≠ .MSGLEN
    · rw [if_pos c1, if_pos c1]; exact hemit _ _ _ _
    rw [if_neg c1, if_neg c1]
    by_cases c2 : toInt q1.s.msglen > max
    · rw [if_pos c2, if_pos c2]; exact hemit _ _ _ _
    rw [if_neg c2, if_neg c2]
    rcases scanO_same (panics := panics) h1 with ⟨a, b⟩ | ⟨t2, p2, q2, a2, b2, h2, -⟩
    · rw [a, b]; rfl
    obtain ⟨i2, -, -⟩ := scanO_cfg a2 i1
    obtain ⟨j2, -, -⟩ := scanO_cfg b2 j1
    rw [a2, b2]
    simp only []
    by_cases c3 : t2.typ ≠ .WS
    · rw [if_pos c3, if_pos c3]; exact hemit _ _ _ _
    rw [if_neg c3, if_neg c3]
    rcases scanO_same (panics := panics) h2 with ⟨a, b⟩ | ⟨t3, p3, q3, a3, b3, h3, -⟩
    · rw [a, b]; rfl
    obtain ⟨i3, -, -⟩ := scanO_cfg a3 i2
    obtain ⟨j3, -, -⟩ := scanO_cfg b3 j2
    obtain ⟨p4, e1, e2, e3, e4, i4, -⟩ := parseMsg_cfg i3 t3.lit
    obtain ⟨q4, f1, f2, f3, f4, j4, -⟩ := parseMsg_cfg j3 t3.lit
    have hs : p3.stepback = false := (scanO_cfg a3 i2).2.1
    have h4 : Same p4 q4 := ⟨by rw [e2, f2]; exact h3.s, by rw [e3, f3]; exact h3.step, fun hh => by rw [e3, hs] at hh; simp at hh⟩
    rw [a3, b3]
    simp only [e1, f1]
    rw [h3.s, i3.hbe, j3.hbe]
    by_cases c4 : t3.typ ≠ .SYSLOGMSG
    · rw [if_pos c4, if_pos c4]
      split
      · exact hemit _ _ _ _
      · exact hemit _ _ _ _
    rw [if_neg c4, if_neg c4]
    rw [i4.hbe, j4.hbe]
    have hcont : ∀ hist, (if be = false ∧ (pmsg be t3.lit).err ≠ none then emitP stop ⟨none, (pmsg be t3.lit).err⟩ hist p4 fun h => .ok h p4
        else match p4.scanO panics with
        | none => .readerPanics hist p4
        | some (tok, p) => if tok.typ = .EOF then .ok hist p else runO panics stop fuel hist p.unscan).seen =
        (if be = false ∧ (pmsg be t3.lit).err ≠ none then emitP stop ⟨none, (pmsg be t3.lit).err⟩ hist q4 fun h => .ok h q4
        else match q4.scanO panics with
        | none => .readerPanics hist q4
        | some (tok, p) => if tok.typ = .EOF then .ok hist p else runO panics stop fuel hist p.unscan).seen := by
      intro hist
      by_cases c6 : be = false ∧ (pmsg be t3.lit).err ≠ none
      · rw [if_pos c6, if_pos c6]; exact hemit _ _ _ _
      · rw [if_neg c6, if_neg c6]
        rcases scanO_same (panics := panics) h4 with ⟨a, b⟩ | ⟨t5, p5, q5, a5, b5, h5, l5⟩
        · rw [a, b]; rfl
        obtain ⟨i5, -, -⟩ := scanO_cfg a5 i4
        obtain ⟨j5, -, -⟩ := scanO_cfg b5 j4
        rw [a5, b5]
        simp only []
        by_cases c8 : t5.typ = .EOF
        · rw [if_pos c8, if_pos c8]; rfl
        · rw [if_neg c8, if_neg c8]
          exact ih hist ⟨i5.hbe, i5.hmax, i5.ibe, i5.ico, i5.ok, i5.cap⟩ ⟨j5.hbe, j5.hmax, j5.ibe, j5.ico, j5.ok, j5.cap⟩
            ⟨h5.s, rfl, fun _ => l5⟩
    split
    · unfold emitP
      split
      · rfl
      · exact hcont _
    · exact hcont _

/-! ## More fuel does not matter -/

theorem runO_mono {panics : Bool} {stop : Stop} (fuel : Nat) (hist : List Result) (p : Parser) (h : runO panics stop fuel hist p ≠ .crash) :
    runO panics stop (fuel + 1) hist p = runO panics stop fuel hist p := by
  induction fuel generalizing hist p with
  | zero => exact (h rfl).elim
  | succ fuel ih =>
    rw [runO.eq_2] at h
    rw [runO.eq_2, runO.eq_2 panics stop hist p fuel]
    cases q1 : p.scanO panics with
    | none => rfl
    | some y1 =>
    obtain ⟨t1, p1⟩ := y1
    rw [q1] at h
    simp only [] at h ⊢
    by_cases c1 : t1.typ ≠ .MSGLEN
    · rw [if_pos c1, if_pos c1]
    rw [if_neg c1] at h
    rw [if_neg c1, if_neg c1]
    by_cases c2 : toInt p1.s.msglen > p1.maxMessageLength
    · rw [if_pos c2, if_pos c2]
    rw [if_neg c2] at h
    rw [if_neg c2, if_neg c2]
    cases q2 : p1.scanO panics with
    | none => rfl
    | some y2 =>
    obtain ⟨t2, p2⟩ := y2
    rw [q2] at h
    simp only [] at h ⊢
    by_cases c3 : t2.typ ≠ .WS
    · rw [if_pos c3, if_pos c3]
    rw [if_neg c3] at h
    rw [if_neg c3, if_neg c3]
    cases q3 : p2.scanO panics with
    | none => rfl
    | some y3 =>
    obtain ⟨t3, p3⟩ := y3
    rw [q3] at h
    simp only [] at h ⊢
    by_cases c4 : t3.typ ≠ .SYSLOGMSG
    · rw [if_pos c4, if_pos c4]
    rw [if_neg c4] at h
    rw [if_neg c4, if_neg c4]
    cases q4 : p3.parseMsg t3.lit with
    | none => rfl
    | some y4 =>
    obtain ⟨r, p4⟩ := y4
    rw [q4] at h
    simp only [] at h ⊢
    have hcont : ∀ hist, (if p4.bestEffort = false ∧ r.err ≠ none then emitP stop ⟨none, r.err⟩ hist p4 fun h => .ok h p4
        else match p4.scanO panics with
        | none => .readerPanics hist p4
        | some (tok, p) => if tok.typ = .EOF then .ok hist p else runO panics stop fuel hist p.unscan) ≠ .crash →
        (if p4.bestEffort = false ∧ r.err ≠ none then emitP stop ⟨none, r.err⟩ hist p4 fun h => .ok h p4
        else match p4.scanO panics with
        | none => .readerPanics hist p4
        | some (tok, p) => if tok.typ = .EOF then .ok hist p else runO panics stop (fuel + 1) hist p.unscan) =
        (if p4.bestEffort = false ∧ r.err ≠ none then emitP stop ⟨none, r.err⟩ hist p4 fun h => .ok h p4
        else match p4.scanO panics with
        | none => .readerPanics hist p4
        | some (tok, p) => if tok.typ = .EOF then .ok hist p else runO panics stop fuel hist p.unscan) := by
      intro hist h
      by_cases c6 : p4.bestEffort = false ∧ r.err ≠ none
      · rw [if_pos c6, if_pos c6]
      rw [if_neg c6] at h
      rw [if_neg c6, if_neg c6]
      cases q5 : p4.scanO panics with
      | none => rfl
      | some y5 =>
      obtain ⟨t5, p5⟩ := y5
      rw [q5] at h
      simp only [] at h ⊢
      by_cases c8 : t5.typ = .EOF
      · rw [if_pos c8, if_pos c8]
      rw [if_neg c8] at h
      rw [if_neg c8, if_neg c8]
      exact ih _ _ h
    by_cases c7 : p4.bestEffort = true ∨ r.err = none
    · rw [if_pos c7] at h
      rw [if_pos c7, if_pos c7]
      unfold emitP at h ⊢
      split
      · rfl
      · rename_i hst
        rw [if_neg hst] at h
        exact hcont _ h
    · rw [if_neg c7] at h
      rw [if_neg c7, if_neg c7]
      exact hcont _ h

theorem runO_mono_le {panics : Bool} {stop : Stop} {fuel fuel' : Nat} (hle : fuel ≤ fuel') {hist : List Result} {p : Parser}
    (h : runO panics stop fuel hist p ≠ .crash) : runO panics stop fuel' hist p = runO panics stop fuel hist p := by
  induction hle with
  | refl => rfl
  | step _ ih => rw [runO_mono _ _ _ (by rw [ih]; exact h), ih]

end Verif.Octet
