import Verif.Octet.Frames

/-!
# When the listener gets the results

`runTimed` is `run` (`Octet.runLoop`) with, for every result, the `Read` calls that had not been made when the listener got it.
-/

namespace Verif.Octet
open Verif.Spec

/-- The loop of `run` (octetcounting/parser.go:77-141) as in `runLoop`; with each call of the listener the schedule that is still unread. -/
def runTimed : Nat → Parser → Option (List (Result × List Read) × Parser)
  | 0, _ => none
  | fuel + 1, p =>
    match p.scan with
    | (tok, p) =>
    if tok.typ ≠ .MSGLEN then some ([(⟨none, some (.notMsgLen tok)⟩, p.s.r.sched)], p)
    else if toInt p.s.msglen > p.maxMessageLength then
      some ([(⟨none, some (.tooLong p.s.msglen p.maxMessageLength)⟩, p.s.r.sched)], p)
    else
    match p.scan with
    | (tok, p) =>
    if tok.typ ≠ .WS then some ([(⟨none, some (.notWS tok)⟩, p.s.r.sched)], p)
    else
    match p.scan with
    | (tok, p) =>
    if tok.typ ≠ .SYSLOGMSG then
      let e := Error.notMsg tok p.s.msglen
      if (tok.lit.length : Int) < toInt p.s.msglen ∧ p.bestEffort = true then
        match p.parseMsg tok.lit with
        | none => none
        | some (result, p) =>
          some ([(⟨result.msg, match result.err with | none => some e | some e' => some e'⟩, p.s.r.sched)], p)
      else some ([(⟨none, some e⟩, p.s.r.sched)], p)
    else
    match p.parseMsg tok.lit with
    | none => none
    | some (result, p) =>
      let out := if p.bestEffort = true ∨ result.err = none then [(result, p.s.r.sched)] else []
      if p.bestEffort = false ∧ result.err ≠ none then some (out ++ [(⟨none, result.err⟩, p.s.r.sched)], p)
      else
      match p.scan with
      | (tok, p) =>
      if tok.typ = .EOF then some (out, p)
      else
        match runTimed fuel p.unscan with
        | none => none
        | some (rest, p) => some (out ++ rest, p)

/-- `Parse` (octetcounting/parser.go:72-75), timed -/
def Parser.parseTimed (p : Parser) (sched : List Read) : Option (List (Result × List Read) × Parser) :=
  let s := newScanner sched p.maxMessageLength
  runTimed (s.r.remaining + 1) { p with s := s }

/-- forgetting the times gives `runLoop` -/
theorem runTimed_erase (fuel : Nat) (p : Parser) :
    (runTimed fuel p).map (fun x => (x.1.map Prod.fst, x.2)) = runLoop fuel p := by
  induction fuel generalizing p with
  | zero => rfl
  | succ fuel ih =>
    simp only [runTimed, runLoop]
    generalize p.scan = q1
    obtain ⟨t1, p1⟩ := q1
    simp only []
    split
    · rfl
    split
    · rfl
    generalize p1.scan = q2
    obtain ⟨t2, p2⟩ := q2
    simp only []
    split
    · rfl
    generalize p2.scan = q3
    obtain ⟨t3, p3⟩ := q3
    simp only []
    generalize p3.parseMsg t3.lit = q4
    split
    · split
      · rcases q4 with _ | ⟨r, p4⟩ <;> rfl
      · rfl
    rcases q4 with _ | ⟨r, p4⟩
    · rfl
    simp only []
    split
    · split <;> rfl
    generalize p4.scan = q5
    obtain ⟨t5, p5⟩ := q5
    simp only []
    split
    · split <;> rfl
    rw [← ih]
    generalize runTimed fuel p5.unscan = q6
    rcases q6 with _ | ⟨rs, p6⟩
    · rfl
    · simp only [Option.map_some]
      split <;> simp

/-! ## what is read before what -/

/-- no error, and fewer than `i` (later 100) calls in a row that return nothing -/
def Steady : Nat → List Read → Prop
  | _, [] => True
  | i, r :: rs => r.err = false ∧ (if r.data = [] then 1 < i ∧ Steady (i - 1) rs else Steady 100 rs)

/-- the reader will deliver `x` without making a `Read` call of `b` -/
def Ahead (x : Bytes) (b : List Read) (rd : Reader) : Prop :=
  ∃ a, rd.sched = a ++ b ∧ x = rd.q ++ a.flatMap Read.data ∧ rd.err = false ∧ Steady 100 a ∧ rd.Ok

theorem fillLoop_ahead (b : List Read) (i : Nat) (q : Bytes) (r0 cap : Nat) (last : Option UInt8) (a : List Read)
    (hs : Steady i a) (hd : a.flatMap Read.data ≠ []) (hc : q.length < cap) (hi : 1 ≤ i) :
    ∃ q' a', fillLoop i ⟨q, r0, cap, false, last, a ++ b⟩ = ⟨q', r0, cap, false, last, a' ++ b⟩ ∧
      q' ++ a'.flatMap Read.data = q ++ a.flatMap Read.data ∧ Steady 100 a' ∧ q.length < q'.length ∧ q'.length ≤ cap := by
  induction i generalizing a with
  | zero => omega
  | succ i ih =>
    cases a with
    | nil => simp at hd
    | cons r rs =>
      obtain ⟨he, hs⟩ := hs
      by_cases hl : r.data.length ≤ cap - q.length
      · by_cases h0 : r.data = []
        · rw [if_pos h0] at hs
          simp only [List.flatMap_cons, h0, List.nil_append] at hd
          obtain ⟨q', a', h1, h2⟩ := ih rs hs.2 hd (by omega)
          refine ⟨q', a', ?_, by simpa [h0] using h2⟩
          rw [← h1, List.cons_append, fillLoop]
          simp [readCall, h0, he]
        · rw [if_neg h0] at hs
          refine ⟨q ++ r.data, rs, ?_, by simp, hs, ?_, ?_⟩
          · rw [List.cons_append, fillLoop]
            simp [readCall, hl, h0, he]
          · have := List.length_pos_iff.mpr h0
            simp; omega
          · simp; omega
      · have h0 : r.data ≠ [] := by intro h; rw [h] at hl; simp at hl
        have hne : r.data.take (cap - q.length) ≠ [] := by
          intro h
          have := congrArg List.length h
          rw [List.length_take, List.length_nil] at this; omega
        have hne2 : r.data.drop (cap - q.length) ≠ [] := by
          intro h
          have := congrArg List.length h
          rw [List.length_drop, List.length_nil] at this; omega
        refine ⟨q ++ r.data.take (cap - q.length), ⟨r.data.drop (cap - q.length), r.err⟩ :: rs, ?_, ?_, ?_, ?_, ?_⟩
        · rw [List.cons_append, fillLoop]
          simp only [readCall, hl, if_false]
          rw [if_pos hne]
          simp
        · simp only [List.flatMap_cons, List.append_assoc]
          rw [← List.append_assoc (r.data.take _), List.take_append_drop]
        · rw [if_neg h0] at hs
          exact ⟨he, by rw [if_neg hne2]; exact hs⟩
        · have := List.length_pos_iff.mpr hne
          simp only [List.length_append]; omega
        · simp only [List.length_append, List.length_take]; omega

theorem fill_ahead {x : Bytes} {b : List Read} {rd : Reader} (h : Ahead x b rd) (hc : rd.q.length < rd.cap) (hx : rd.q.length < x.length) :
    Ahead x b rd.fill ∧ rd.fill.cap = rd.cap ∧ rd.fill.last = rd.last ∧ rd.q.length < rd.fill.q.length := by
  obtain ⟨a, h1, h2, h3, h4, h5⟩ := h
  obtain ⟨q, r0, cap, err, last, sched⟩ := rd
  simp only at h1 h2 h3 hc hx
  subst h1; subst h3
  have hd : a.flatMap Read.data ≠ [] := by
    intro h; rw [h2, h] at hx; simp at hx
  obtain ⟨q', a', g1, g2, g3, g4, g5⟩ := fillLoop_ahead b 100 q 0 cap last a h4 hd hc (by omega)
  have hf : Reader.fill ⟨q, r0, cap, false, last, a ++ b⟩ = ⟨q', 0, cap, false, last, a' ++ b⟩ := g1
  rw [hf]
  exact ⟨⟨a', rfl, by rw [h2, g2], rfl, g3, h5.1, g5⟩, rfl, rfl, g4⟩

theorem readByte_ahead {x : Bytes} {c : UInt8} {b : List Read} {rd : Reader} (h : Ahead (c :: x) b rd) :
    ∃ rd', rd.readByte = (some c, rd') ∧ Ahead x b rd' ∧ rd'.cap = rd.cap ∧ rd'.last = some c ∧ 1 ≤ rd'.r ∧ rd'.q.length < rd'.cap := by
  have hmid : ∃ rd1 : Reader, rd1 = (if rd.q = [] ∧ rd.err = false then rd.fill else rd) ∧ Ahead (c :: x) b rd1 ∧
      rd1.cap = rd.cap ∧ rd1.q ≠ [] := by
    by_cases hq : rd.q = []
    · have herr : rd.err = false := h.choose_spec.2.2.1
      have hok : rd.Ok := h.choose_spec.2.2.2.2
      obtain ⟨f1, f2, -, f4⟩ := fill_ahead h (by rw [hq]; exact hok.1) (by rw [hq]; simp)
      refine ⟨rd.fill, by rw [if_pos ⟨hq, herr⟩], f1, f2, ?_⟩
      intro h0; rw [h0] at f4; simp at f4
    · exact ⟨rd, by rw [if_neg (fun h => hq h.1)], h, rfl, hq⟩
  obtain ⟨rd1, e1, ⟨a, h1, h2, h3, h4, h5⟩, e3, e4⟩ := hmid
  simp only [Reader.readByte, ← e1]
  cases hq : rd1.q with
  | nil => exact absurd hq e4
  | cons d q =>
    rw [hq] at h2
    simp only [List.cons_append, List.cons.injEq] at h2
    obtain ⟨rfl, h2⟩ := h2
    have hlen := h5.2
    rw [hq] at hlen
    simp only [List.length_cons] at hlen
    exact ⟨_, rfl, ⟨a, h1, h2, h3, h4, h5.1, by simp only []; omega⟩, e3, rfl, by simp, by simp only []; omega⟩

theorem read_ahead {x : Bytes} {c : UInt8} {b : List Read} {s : Scanner} (h : Ahead (c :: x) b s.r) :
    ∃ r', s.read = (c, { s with r := r' }) ∧ Ahead x b r' ∧ r'.cap = s.r.cap ∧ r'.last = some c ∧ 1 ≤ r'.r ∧ r'.q.length < r'.cap := by
  obtain ⟨r', h1, h2⟩ := readByte_ahead h
  refine ⟨r', ?_, h2⟩
  simp only [Scanner.read, h1]

theorem unread_ahead {x : Bytes} {c : UInt8} {b : List Read} {s : Scanner} {r' : Reader} (h : Ahead x b r') (hl : r'.last = some c)
    (hr : 1 ≤ r'.r) (hq : r'.q.length < r'.cap) :
    ∃ r'', Scanner.unread { s with r := r' } = { s with r := r'' } ∧ Ahead (c :: x) b r'' ∧ r''.cap = r'.cap := by
  obtain ⟨a, h1, h2, h3, h4, h5⟩ := h
  refine ⟨{ r' with q := c :: r'.q, r := r'.r - 1, last := none }, ?_, ⟨a, h1, by simp [h2], h3, h4, h5.1, by simp only [List.length_cons]; omega⟩, rfl⟩
  simp only [Scanner.unread, Reader.unreadByte, hl]
  rw [if_neg (by omega)]

theorem peekFill_ahead {x : Bytes} {b : List Read} (n fuel : Nat) (rd : Reader) (h : Ahead x b rd) (hn : n ≤ x.length) (hc : n ≤ rd.cap)
    (hf : n < rd.q.length + fuel) :
    Ahead x b (peekFill n fuel rd) ∧ (peekFill n fuel rd).cap = rd.cap ∧ n ≤ (peekFill n fuel rd).q.length := by
  induction fuel generalizing rd with
  | zero => exact ⟨h, rfl, by simp only [peekFill]; omega⟩
  | succ fuel ih =>
    simp only [peekFill]
    by_cases hl : rd.q.length < n
    · have herr : rd.err = false := h.choose_spec.2.2.1
      rw [if_pos ⟨hl, by omega, herr⟩]
      obtain ⟨f1, f2, -, f4⟩ := fill_ahead h (by omega) (by omega)
      obtain ⟨g1, g2, g3⟩ := ih rd.fill f1 (by omega) (by omega)
      exact ⟨g1, g2.trans f2, g3⟩
    · rw [if_neg (fun h => hl h.1)]
      exact ⟨h, rfl, by omega⟩

theorem peek_ahead {x : Bytes} {b : List Read} (n : Nat) (rd : Reader) (h : Ahead x b rd) (hn : n ≤ x.length) (hc : n ≤ rd.cap) :
    ∃ rd', rd.peek n = (x.take n, true, rd') ∧ Ahead x b rd' ∧ rd'.cap = rd.cap ∧ n ≤ rd'.q.length := by
  have h' : Ahead x b { rd with last := none } := h
  obtain ⟨h1, h2, h3⟩ := peekFill_ahead n (n + 1) { rd with last := none } h' hn hc (by simp only []; omega)
  simp only [Reader.peek, Int.toNat_natCast]
  rw [if_neg (show ¬ (n : Int) < 0 by omega)]
  generalize peekFill n (n + 1) { rd with last := none } = rd1 at *
  simp only at h2
  rw [if_neg (by omega), if_neg (by omega)]
  refine ⟨rd1, ?_, h1, h2, h3⟩
  obtain ⟨a, -, hx, -⟩ := h1
  rw [hx, List.take_append_of_le_length h3]

theorem discard_ahead {x : Bytes} {b : List Read} (n : Nat) (rd : Reader) (h : Ahead x b rd) (hn : n ≤ rd.q.length) :
    Ahead (x.drop n) b (rd.discard n) := by
  obtain ⟨a, h1, h2, h3, h4, h5⟩ := h
  refine ⟨a, h1, ?_, h3, h4, h5.1, ?_⟩
  · rw [h2, List.drop_append_of_le_length hn]; rfl
  · have := h5.2
    simp only [Reader.discard, List.length_drop]; omega

/-! ## the scanner -/

theorem scanDigits_ahead {b : List Read} {d : UInt8} (hd : isDigit d = false) (hd0 : d ≠ 0) (ds : Bytes) (hds : IsDigits ds) (y : Bytes) :
    ∀ (fuel : Nat) (s : Scanner) (buf : Bytes), ds.length < fuel → Ahead (ds ++ d :: y) b s.r →
    ∃ r', scanDigits fuel s buf = (buf ++ ds, { s with r := r' }) ∧ Ahead (d :: y) b r' ∧ r'.cap = s.r.cap := by
  induction ds with
  | nil =>
    intro fuel s buf hf h
    obtain ⟨fuel, rfl⟩ : ∃ k, fuel = k + 1 := ⟨fuel - 1, by simp at hf; omega⟩
    obtain ⟨r', h1, h2, h3, h4, h5, h6⟩ := read_ahead h
    obtain ⟨r'', g1, g2, g3⟩ := unread_ahead (s := s) h2 h4 h5 h6
    refine ⟨r'', ?_, g2, g3.trans h3⟩
    simp only [scanDigits, h1, hd0, if_false, hd, Bool.not_false, if_true, g1, List.append_nil]
  | cons c ds ih =>
    intro fuel s buf hf h
    obtain ⟨fuel, rfl⟩ : ∃ k, fuel = k + 1 := ⟨fuel - 1, by simp at hf; omega⟩
    obtain ⟨r', h1, h2, h3, -⟩ := read_ahead h
    obtain ⟨k1, -, k3⟩ := digit_isDigit (hds c (by simp))
    obtain ⟨r'', g1, g2, g3⟩ := ih (fun c hc => hds c (by simp [hc])) fuel { s with r := r' } (buf ++ [c]) (by simp at hf; omega) h2
    refine ⟨r'', ?_, g2, g3.trans h3⟩
    simp only [scanDigits, h1, k3, if_false, k1, Bool.not_true, Bool.false_eq_true]
    rw [g1]; simp

theorem remaining_ahead {x : Bytes} {b : List Read} {rd : Reader} (h : Ahead x b rd) : x.length ≤ rd.remaining := by
  obtain ⟨a, h1, h2, -⟩ := h
  rw [h2, Reader.remaining, h1]
  simp only [List.length_append, List.map_append, List.sum_append, List.length_flatMap]
  omega

theorem scan_len_ahead {b : List Read} (ds : Bytes) (hds : IsDigits ds) (hne : ds ≠ []) (y : Bytes) (s : Scanner)
    (h : Ahead (ds ++ 32 :: y) b s.r) :
    ∃ r', s.scan = (⟨.MSGLEN, ds⟩, ⟨r', parseUint ds 0, false⟩) ∧ Ahead (32 :: y) b r' ∧ r'.cap = s.r.cap := by
  cases ds with
  | nil => exact absurd rfl hne
  | cons c ds =>
    obtain ⟨r', h1, h2, h3, h4, h5, h6⟩ := read_ahead h
    obtain ⟨r2, g1, g2, g3⟩ := unread_ahead (s := s) h2 h4 h5 h6
    obtain ⟨k1, k2, k3⟩ := digit_isDigit (hds c (by simp))
    obtain ⟨r3, e1, e2, e3, -⟩ := read_ahead (s := { s with r := r2, ready := false }) g2
    obtain ⟨r4, f1, f2, f3⟩ := scanDigits_ahead (b := b) (d := 32) (by decide) (by decide) ds (fun c hc => hds c (by simp [hc])) y
      (r3.remaining + 1) { s with r := r3, ready := false } [c]
      (by
        have e2' : Ahead (ds ++ 32 :: y) b r3 := e2
        have := remaining_ahead e2'
        rw [List.length_append] at this; omega) e2
    refine ⟨r4, ?_, f2, ?_⟩
    · simp only [Scanner.scan, h1, k2, if_true, g1, Scanner.scanMsgLen, e1, f1, List.singleton_append]
    · exact f3.trans (e3.trans (g3.trans h3))

theorem scan_ws_ahead {b : List Read} {y : Bytes} {s : Scanner} (h : Ahead (32 :: y) b s.r) :
    ∃ r', s.scan = (⟨.WS, [32]⟩, ⟨r', s.msglen, true⟩) ∧ Ahead y b r' ∧ r'.cap = s.r.cap := by
  obtain ⟨r', h1, h2, h3, -⟩ := read_ahead h
  refine ⟨r', ?_, h2, h3⟩
  simp only [Scanner.scan, h1, show isNonZeroDigit 32 = false by decide]
  simp

theorem scan_msg_ahead {b : List Read} {m y : Bytes} {r : Reader} (hm : m.head? = some 60) (h63 : m.length < 2 ^ 63)
    (hc : m.length ≤ r.cap) (h : Ahead (m ++ y) b r) :
    ∃ r', Scanner.scan ⟨r, m.length, true⟩ = (⟨.SYSLOGMSG, m⟩, ⟨r', 0, false⟩) ∧ Ahead y b r' ∧ r'.cap = r.cap := by
  cases m with
  | nil => simp at hm
  | cons c m =>
    simp only [List.head?_cons, Option.some.injEq] at hm
    subst hm
    obtain ⟨r', h1, h2, h3, h4, h5, h6⟩ := read_ahead (s := ⟨r, ((60 : UInt8) :: m).length, true⟩) h
    obtain ⟨r2, g1, g2, g3⟩ := unread_ahead (s := ⟨r, ((60 : UInt8) :: m).length, true⟩) h2 h4 h5 h6
    obtain ⟨r3, e1, e2, e3, e4⟩ := peek_ahead ((60 : UInt8) :: m).length r2 g2 (by simp) (by rw [g3, h3]; exact hc)
    have e5 := discard_ahead _ _ e2 e4
    refine ⟨r3.discard ((60 : UInt8) :: m).length, ?_, ?_, ?_⟩
    · simp only [Scanner.scan, h1, show isNonZeroDigit 60 = false by decide]
      rw [if_neg (by simp), if_neg (by decide), if_neg (by decide), if_pos (by simp), g1]
      simp only [Scanner.scanSyslogMsg, toInt_nat h63, e1, Int.toNat_natCast]
      simp
    · have hd : ((60 :: m : Bytes) ++ y).drop (60 :: m : Bytes).length = y := List.drop_left
      rw [← hd]
      exact e5
    · show r3.cap = _
      rw [e3, g3, h3]

/-! ## the loop -/

/-- the invariant of the parser without its reader -/
structure TInv (be : Bool) (max : Int) (p : Parser) : Prop where
  hbe : p.bestEffort = be
  hmax : p.maxMessageLength = max
  ibe : p.internal.bestEffort = be
  ico : p.internal.compliantMsg = false
  step : p.stepback = false
  cap : max ≤ p.s.r.cap

theorem scan_of {p : Parser} (hstep : p.stepback = false) {t : Token} {s : Scanner} (h : p.s.scan = (t, s)) :
    p.scan = (t, { p with s := s, last := t }) := by
  simp [Parser.scan, hstep, h]

theorem parseMsg_timed {be : Bool} {max : Int} {p : Parser} (h : TInv be max p) (lit : Bytes) :
    ∃ p', p.parseMsg lit = some (pmsg be lit, p') ∧ p'.s = p.s ∧ TInv be max p' := by
  obtain ⟨m', e, e1, e2⟩ := Rfc5424.parse_eq p.internal lit
  refine ⟨{ p with internal := m' }, ?_, rfl, ⟨h.hbe, h.hmax, e1.trans h.ibe, e2.trans h.ico, h.step, h.cap⟩⟩
  simp only [Parser.parseMsg, e, pmsg, Rfc5424.parse1_eq, h.ibe, h.ico]

/-- the parser is at the start of the frames `ms` (the length of the first one may have been scanned already); all of them can be read
without a `Read` call of `b` -/
def AtFrame (be : Bool) (max : Int) (b : List Read) (m rest : Bytes) (p : Parser) : Prop :=
  ∃ p1, p.scan = (⟨.MSGLEN, dec m.length⟩, p1) ∧ TInv be max p1 ∧ p1.s.msglen = m.length ∧ Ahead (32 :: (m ++ rest)) b p1.s.r

/-- one whole frame: the message is in the hands of the message parser before anything of `b` is read -/
theorem frame_timed {be : Bool} {max : Int} {b : List Read} {m rest : Bytes} {p : Parser} (h : AtFrame be max b m rest p)
    (hm : m.head? = some 60) (h63 : m.length < 2 ^ 63) (hmx : (m.length : Int) ≤ max) (fuel : Nat) :
    ∃ p4, TInv be max p4 ∧ p4.s.msglen = 0 ∧ Ahead rest b p4.s.r ∧
      runTimed (fuel + 1) p =
        (if be = false ∧ (pmsg be m).err ≠ none then some ([(⟨none, (pmsg be m).err⟩, p4.s.r.sched)], p4)
        else
          match p4.scan with
          | (tok, p) =>
          if tok.typ = .EOF then some ([(pmsg be m, p4.s.r.sched)], p)
          else
            match runTimed fuel p.unscan with
            | none => none
            | some (rest, p) => some ((pmsg be m, p4.s.r.sched) :: rest, p)) := by
  obtain ⟨p1, h1, hi1, hml, ha1⟩ := h
  obtain ⟨r2, g1, ha2, g3⟩ := scan_ws_ahead ha1
  have e2 := scan_of hi1.step g1
  rw [hml] at e2
  have hc1 := hi1.cap
  obtain ⟨r3, k1, ha3, k3⟩ := scan_msg_ahead hm h63 (by rw [g3]; omega) ha2
  have e3 : Parser.scan { p1 with s := ⟨r2, m.length, true⟩, last := ⟨.WS, [32]⟩ } =
      (⟨.SYSLOGMSG, m⟩, { p1 with s := ⟨r3, 0, false⟩, last := ⟨.SYSLOGMSG, m⟩ }) :=
    scan_of (p := { p1 with s := ⟨r2, m.length, true⟩, last := ⟨.WS, [32]⟩ }) hi1.step k1
  have hi3 : TInv be max { p1 with s := ⟨r3, 0, false⟩, last := ⟨.SYSLOGMSG, m⟩ } :=
    ⟨hi1.hbe, hi1.hmax, hi1.ibe, hi1.ico, hi1.step, by simp only []; rw [k3, g3]; exact hc1⟩
  obtain ⟨p4, q1, q2, hi4⟩ := parseMsg_timed hi3 m
  refine ⟨p4, hi4, by rw [q2], by rw [q2]; exact ha3, ?_⟩
  simp only [runTimed, h1, hml, hi1.hmax, toInt_nat h63]
  rw [if_neg (by simp), if_neg (by omega), e2]
  simp only []
  rw [if_neg (by simp), e3]
  simp only []
  rw [if_neg (by simp), q1]
  simp only [hi4.hbe]
  by_cases c : be = false ∧ (pmsg be m).err ≠ none
  · rw [if_pos c, if_pos c, if_neg]
    · rfl
    · rintro (h | h)
      · rw [c.1] at h; simp at h
      · exact c.2 h
  · have hor : be = true ∨ (pmsg be m).err = none := by
      cases hb : be with
      | true => exact Or.inl rfl
      | false =>
        right
        rw [hb] at c
        cases he : (pmsg false m).err with
        | none => rfl
        | some e => exact absurd ⟨rfl, by simp [he]⟩ c
    rw [if_neg c, if_neg c, if_pos hor]
    rfl

/-- the start of the stream, or of a frame after a frame -/
theorem atFrame_start {be : Bool} {max : Int} {b : List Read} {m rest : Bytes} {p : Parser} (hi : TInv be max p) (h63 : m.length < 2 ^ 63)
    (h : Ahead (octetFrame m ++ rest) b p.s.r) : AtFrame be max b m rest p := by
  obtain ⟨r', h1, h2, h3⟩ := scan_len_ahead (dec m.length) (dec_digits _) (dec_ne_nil _) (m ++ rest) p.s (by
    rw [octetFrame] at h; simpa using h)
  refine ⟨_, scan_of hi.step h1, ⟨hi.hbe, hi.hmax, hi.ibe, hi.ico, hi.step, by simp only []; rw [h3]; exact hi.cap⟩, ?_, h2⟩
  simp only []
  rw [parseUint_val _ _ (dec_digits _) (by omega), numVal_dec, if_pos (by omega)]
  simp

theorem sched_suffix {x : Bytes} {b : List Read} {rd : Reader} (h : Ahead x b rd) : b <:+ rd.sched := by
  obtain ⟨a, h1, -⟩ := h
  exact ⟨a, h1.symm⟩

/-- whole frames, of which only the last may hold a wrong message: their results come before anything of `b` is read -/
theorem frames_timed {be : Bool} {max : Int} {b : List Read} (ms : List Bytes) : ∀ (m : Bytes) (p : Parser) (fuel : Nat)
    (rs : List (Result × List Read)) (p' : Parser),
    AtFrame be max b m (ms.flatMap octetFrame) p →
    (∀ x ∈ m :: ms, x.head? = some 60 ∧ x.length < 2 ^ 63 ∧ (x.length : Int) ≤ max) →
    (∀ x ∈ (m :: ms).dropLast, be = true ∨ (pmsg be x).err = none) →
    runTimed fuel p = some (rs, p') →
    ∃ first rest, rs = first ++ rest ∧ first.map Prod.fst = (m :: ms).map (pmsg be) ∧ ∀ x ∈ first, b <:+ x.2 := by
  induction ms with
  | nil =>
    intro m p fuel rs p' h hw _ hr
    obtain ⟨h60, h63, hmx⟩ := hw m (by simp)
    cases fuel with
    | zero => simp [runTimed] at hr
    | succ fuel =>
      obtain ⟨p4, hi4, -, ha4, he⟩ := frame_timed h h60 h63 hmx fuel
      rw [he] at hr
      have hsuf := sched_suffix ha4
      have key : ∃ r0 rest, rs = (r0, p4.s.r.sched) :: rest ∧ r0 = pmsg be m := by
        by_cases c : be = false ∧ (pmsg be m).err ≠ none
        · rw [if_pos c] at hr
          simp only [Option.some.injEq, Prod.mk.injEq] at hr
          refine ⟨_, [], hr.1.symm, ?_⟩
          rw [c.1]
          rcases strict_pmsg m with ⟨x, hx⟩ | ⟨e, hx⟩
          · rw [c.1, hx] at c; simp at c
          · rw [hx]
        · rw [if_neg c] at hr
          generalize p4.scan = q at hr
          obtain ⟨t, p5⟩ := q
          simp only at hr
          split at hr
          · simp only [Option.some.injEq, Prod.mk.injEq] at hr
            exact ⟨_, [], hr.1.symm, rfl⟩
          · generalize runTimed fuel p5.unscan = q6 at hr
            rcases q6 with _ | ⟨rs6, p6⟩
            · simp at hr
            · simp only [Option.some.injEq, Prod.mk.injEq] at hr
              exact ⟨_, rs6, hr.1.symm, rfl⟩
      obtain ⟨r0, rest, h1, h2⟩ := key
      exact ⟨[(r0, p4.s.r.sched)], rest, h1, by simp [h2], by simpa using hsuf⟩
  | cons m2 ms ih =>
    intro m p fuel rs p' h hw hok hr
    obtain ⟨h60, h63, hmx⟩ := hw m (by simp)
    have hgood := hok m (by simp)
    cases fuel with
    | zero => simp [runTimed] at hr
    | succ fuel =>
      obtain ⟨p4, hi4, -, ha4, he⟩ := frame_timed h h60 h63 hmx fuel
      rw [he, if_neg (by
        rintro ⟨c1, c2⟩
        rcases hgood with g | g
        · rw [c1] at g; simp at g
        · exact c2 g)] at hr
      have hsuf := sched_suffix ha4
      obtain ⟨-, h63', -⟩ := hw m2 (by simp)
      rw [List.flatMap_cons] at ha4
      obtain ⟨p5, e5, hi5, hml5, ha5⟩ := atFrame_start hi4 h63' ha4
      rw [e5] at hr
      simp only [reduceCtorEq, if_false] at hr
      have hlast : p5.last = ⟨.MSGLEN, dec m2.length⟩ := by
        have := e5
        simp only [Parser.scan, hi4.step, Bool.false_eq_true, if_false, Prod.mk.injEq] at this
        rw [← this.2]; exact this.1
      have hat : AtFrame be max b m2 (ms.flatMap octetFrame) p5.unscan := by
        refine ⟨{ p5 with stepback := false }, ?_, ⟨hi5.hbe, hi5.hmax, hi5.ibe, hi5.ico, rfl, hi5.cap⟩, hml5, ha5⟩
        simp [Parser.scan, Parser.unscan, hlast]
      cases hq : runTimed fuel p5.unscan with
      | none => rw [hq] at hr; simp at hr
      | some q =>
        obtain ⟨rs6, p6⟩ := q
        rw [hq] at hr
        simp only [Option.some.injEq, Prod.mk.injEq] at hr
        obtain ⟨first, rest, g1, g2, g3⟩ := ih m2 p5.unscan fuel rs6 p6 hat (fun x hx => hw x (by simp only [List.mem_cons] at hx ⊢; exact Or.inr hx))
          (fun x hx => hok x (by rw [List.dropLast_cons_cons]; exact List.mem_cons_of_mem _ hx)) hq
        refine ⟨(pmsg be m, p4.s.r.sched) :: first, rest, by rw [← hr.1, g1]; rfl, by simp [g2], ?_⟩
        intro x hx
        rcases List.mem_cons.mp hx with rfl | hx
        · exact hsuf
        · exact g3 x hx

end Verif.Octet
