import Verif.Octet.Run
import Verif.Rfc5424.Cost

/-!
# The work and the memory of octet counting

Counts what the functions of `Verif/Octet/Model.lean` do: 1 for every call and every round of a loop, and the bytes they read or copy.
Each definition follows the function of `Model.lean` it counts. Simplifications: `bytes.Buffer.WriteByte` counts 1 (amortised); the listener's
own work and the formatting of numbers are not counted.
-/

namespace Verif.Octet
open Verif.Spec

/-! ## The work -/

/-- `fillLoop`: each `Read` copies what it returns -/
def costFillLoop : Nat → Reader → Nat
  | 0, _ => 0
  | i + 1, rd =>
    match readCall (rd.cap - rd.q.length) rd.sched with
    | (d, e, s) => 1 + d.length + if e then 0 else if d ≠ [] then 0 else costFillLoop i { rd with sched := s }

/-- `bufio.Reader.fill`: what is in the buffer is moved to its start, if it is not there -/
def Reader.costFill (rd : Reader) : Nat := (if rd.r > 0 then rd.q.length else 0) + costFillLoop 100 { rd with r := 0 }

/-- `bufio.Reader.ReadByte` -/
def Reader.costReadByte (rd : Reader) : Nat := 1 + if rd.q = [] ∧ rd.err = false then rd.costFill else 0

/-- the loop of `bufio.Reader.Peek` -/
def costPeekFill (n : Nat) : Nat → Reader → Nat
  | 0, _ => 0
  | fuel + 1, rd =>
    if rd.q.length < n ∧ rd.q.length < rd.cap ∧ rd.err = false then 1 + rd.costFill + costPeekFill n fuel rd.fill else 0

/-- `bufio.Reader.Peek(n)` -/
def Reader.costPeek (rd : Reader) (n : Int) : Nat :=
  1 + if n < 0 then 0 else costPeekFill n.toNat (n.toNat + 1) { rd with last := none }

/-- the loop of `scanMsgLen` (octetcounting/scanner.go:102-111); 1 for `WriteByte` or `unread` -/
def costScanDigits : Nat → Scanner → Bytes → Nat
  | 0, _, _ => 0
  | fuel + 1, s, buf =>
    1 + s.r.costReadByte +
    match s.read with
    | (b, s1) =>
      if b = 0 then 0
      else if !isDigit b then 0
      else costScanDigits fuel s1 (buf ++ [b])

/-- `Scanner.scanMsgLen` (octetcounting/scanner.go:95-120): the digits are copied by `buf.String()` and read by `ParseUint` -/
def Scanner.costScanMsgLen (s : Scanner) : Nat :=
  s.r.costReadByte +
  match s.read with
  | (b, s1) => costScanDigits (s1.r.remaining + 1) s1 [b] + 2 * (scanDigits (s1.r.remaining + 1) s1 [b]).1.length

/-- `Scanner.scanSyslogMsg` (octetcounting/scanner.go:122-144); 1 for `Discard` -/
def Scanner.costScanSyslogMsg (s : Scanner) : Nat := s.r.costPeek (toInt s.msglen) + 1

/-- `Scanner.Scan` (octetcounting/scanner.go:59-93); 1 for `unread` -/
def Scanner.costScan (s : Scanner) : Nat :=
  1 + s.r.costReadByte +
  match s.read with
  | (b, s1) =>
    if isNonZeroDigit b then 1 + { s1.unread with ready := false }.costScanMsgLen
    else if b = 0 then 0
    else if b = 32 then 0
    else if b = 60 ∧ s1.msglen > 0 ∧ s1.ready = true then 1 + s1.unread.costScanSyslogMsg
    else 0

/-- `parser.scan` (octetcounting/parser.go:154-168) -/
def Parser.costScan (p : Parser) : Nat := 1 + if p.stepback then 0 else p.s.costScan

/-- `parser.parse` (octetcounting/parser.go:143-150) -/
def Parser.costMsg (p : Parser) (input : Bytes) : Nat := Rfc5424.parseCost p.internal input

/-- The loop of `run` (octetcounting/parser.go:77-141). An error text has the literal of the token (once or twice) in it. -/
def costRun : Nat → Parser → Nat
  | 0, _ => 0
  | fuel + 1, p =>
    p.costScan +
    match p.scan with
    | (tok, p) =>
    if tok.typ ≠ .MSGLEN then tok.lit.length
    else if toInt p.s.msglen > p.maxMessageLength then 0
    else
    p.costScan +
    match p.scan with
    | (tok, p) =>
    if tok.typ ≠ .WS then tok.lit.length
    else
    p.costScan +
    match p.scan with
    | (tok, p) =>
    if tok.typ ≠ .SYSLOGMSG then
      2 * tok.lit.length + if (tok.lit.length : Int) < toInt p.s.msglen ∧ p.bestEffort = true then p.costMsg tok.lit else 0
    else
    p.costMsg tok.lit +
    match p.parseMsg tok.lit with
    | none => 0
    | some (result, p) =>
      if p.bestEffort = false ∧ result.err ≠ none then 0
      else
      p.costScan +
      match p.scan with
      | (tok, p) =>
      if tok.typ = .EOF then 0
      else costRun fuel p.unscan

/-- `parser.Parse` (octetcounting/parser.go:72-75): a buffer is allocated, and cleared -/
def Parser.parseCost (p : Parser) (sched : List Read) : Nat :=
  let s := newScanner sched p.maxMessageLength
  s.r.cap + costRun (s.r.remaining + 1) { p with s := s }

/-! ## What is left to read -/

/-- the bytes that can still be read -/
def Reader.left (rd : Reader) : Bytes := rd.q ++ rd.sched.flatMap Read.data

/-- what the reader has yet to deliver: bytes and calls -/
def pending (sched : List Read) : Nat := (sched.map fun r => r.data.length + 1).sum

theorem pending_cons (r : Read) (rs : List Read) : pending (r :: rs) = r.data.length + 1 + pending rs := by simp [pending]

theorem fillLoop_cost (i : Nat) (rd : Reader) (hc : rd.q.length < rd.cap) :
    (fillLoop i rd).left = rd.left ∧ (fillLoop i rd).cap = rd.cap ∧ (fillLoop i rd).r = rd.r ∧ (fillLoop i rd).last = rd.last ∧
    (fillLoop i rd).q.length ≤ rd.cap ∧ pending (fillLoop i rd).sched ≤ pending rd.sched ∧
    costFillLoop i rd + 2 * pending (fillLoop i rd).sched ≤ 2 * pending rd.sched + 1 ∧
    ((fillLoop i rd).err = true ∨ pending (fillLoop i rd).sched < pending rd.sched) := by
  induction i generalizing rd with
  | zero => exact ⟨rfl, rfl, rfl, rfl, by simp only [fillLoop]; omega, Nat.le_refl _, by simp [costFillLoop, fillLoop], Or.inl rfl⟩
  | succ i ih =>
    obtain ⟨q, r0, cap, err, last, sched⟩ := rd
    simp only at hc
    cases sched with
    | nil => simp [fillLoop, costFillLoop, readCall, Reader.left, pending]; omega
    | cons r rs =>
      by_cases hl : r.data.length ≤ cap - q.length
      · cases her : r.err with
        | true => simp [fillLoop, costFillLoop, readCall, hl, her, Reader.left, pending_cons]; omega
        | false =>
          by_cases hd : r.data = []
          · have e : fillLoop (i + 1) ⟨q, r0, cap, err, last, r :: rs⟩ = fillLoop i ⟨q, r0, cap, err, last, rs⟩ := by
              simp [fillLoop, readCall, her, hd]
            have e' : costFillLoop (i + 1) ⟨q, r0, cap, err, last, r :: rs⟩ = 1 + costFillLoop i ⟨q, r0, cap, err, last, rs⟩ := by
              simp [costFillLoop, readCall, her, hd]
            rw [e, e']
            obtain ⟨a, b, c, d, f, g, h, k⟩ := ih ⟨q, r0, cap, err, last, rs⟩ hc
            simp only [pending_cons] at *
            refine ⟨a.trans (by simp [Reader.left, hd]), b, c, d, f, by omega, by omega, Or.inr (by omega)⟩
          · simp [fillLoop, costFillLoop, readCall, hl, her, hd, Reader.left, pending_cons]; omega
      · have hne : r.data.take (cap - q.length) ≠ [] := by
          intro h
          have : (r.data.take (cap - q.length)).length = 0 := by rw [h]; rfl
          rw [List.length_take] at this; omega
        have e : fillLoop (i + 1) ⟨q, r0, cap, err, last, r :: rs⟩ =
            ⟨q ++ r.data.take (cap - q.length), r0, cap, err, last, ⟨r.data.drop (cap - q.length), r.err⟩ :: rs⟩ := by
          rw [fillLoop]
          simp only [readCall, hl, if_false]
          rw [if_pos hne]
          simp
        have e' : costFillLoop (i + 1) ⟨q, r0, cap, err, last, r :: rs⟩ = 1 + (r.data.take (cap - q.length)).length := by
          rw [costFillLoop]
          simp only [readCall, hl, if_false]
          rw [if_pos hne]
          simp
        rw [e, e']
        simp only [Reader.left, pending_cons, List.length_take, List.length_drop, List.length_append, List.flatMap_cons]
        refine ⟨?_, trivial, trivial, trivial, by omega, by omega, by omega, Or.inr (by omega)⟩
        rw [List.append_assoc, ← List.append_assoc (List.take _ _), List.take_append_drop]

theorem fill_cost (rd : Reader) (hc : rd.q.length < rd.cap) :
    rd.fill.left = rd.left ∧ rd.fill.cap = rd.cap ∧ rd.fill.r = 0 ∧ rd.fill.last = rd.last ∧ rd.fill.q.length ≤ rd.cap ∧
    pending rd.fill.sched ≤ pending rd.sched ∧
    rd.costFill + 2 * pending rd.fill.sched ≤ 2 * pending rd.sched + 1 + (if rd.r > 0 then rd.q.length else 0) ∧
    (rd.fill.err = true ∨ pending rd.fill.sched < pending rd.sched) := by
  obtain ⟨a, b, c, d, f, g, h, k⟩ := fillLoop_cost 100 { rd with r := 0 } hc
  refine ⟨a, b, c, d, f, g, ?_, k⟩
  unfold Reader.costFill Reader.fill
  simp only at h
  omega

/-- `ReadByte` -/
theorem readByte_cost (rd : Reader) (hok : rd.Ok) :
    rd.readByte.2.Ok ∧ rd.readByte.2.cap = rd.cap ∧ rd.left = rd.readByte.1.toList ++ rd.readByte.2.left ∧
    pending rd.readByte.2.sched ≤ pending rd.sched ∧ rd.costReadByte + 2 * pending rd.readByte.2.sched ≤ 2 * pending rd.sched + 2 ∧
    (∀ b, rd.readByte.1 = some b → rd.readByte.2.last = some b ∧ 1 ≤ rd.readByte.2.r ∧ rd.readByte.2.q.length < rd.cap) := by
  obtain ⟨-, s2, s3, s4⟩ := readByte_spec rd hok
  refine ⟨s3, s2, ?_⟩
  by_cases h : rd.q = [] ∧ rd.err = false
  · obtain ⟨a, -, -, -, -, g, k, -⟩ := fill_cost rd (by rw [h.1]; exact hok.1)
    have hc : rd.costReadByte = 1 + rd.costFill := by rw [Reader.costReadByte, if_pos h]
    have hslide : (if rd.r > 0 then rd.q.length else 0) = 0 := by rw [h.1]; split <;> rfl
    rw [hslide] at k
    rw [hc]
    simp only [Reader.readByte, if_pos h] at s4 ⊢
    cases hq : rd.fill.q with
    | nil =>
      rw [hq] at s4
      refine ⟨?_, g, by simp only []; omega, s4⟩
      rw [← a]; simp [Reader.left, hq]
    | cons b q =>
      rw [hq] at s4
      refine ⟨?_, g, by simp only []; omega, s4⟩
      rw [← a]; simp [Reader.left, hq]
  · have hc : rd.costReadByte = 1 := by rw [Reader.costReadByte, if_neg h]
    rw [hc]
    simp only [Reader.readByte, if_neg h] at s4 ⊢
    cases hq : rd.q with
    | nil => rw [hq] at s4; exact ⟨by simp [Reader.left, hq], Nat.le_refl _, by simp only []; omega, s4⟩
    | cons b q => rw [hq] at s4; exact ⟨by simp [Reader.left, hq], Nat.le_refl _, by simp only []; omega, s4⟩

/-- the loop of `Peek` -/
theorem peekFill_cost (n fuel : Nat) (rd : Reader) (hok : rd.Ok) :
    (peekFill n fuel rd).left = rd.left ∧ (peekFill n fuel rd).cap = rd.cap ∧ (peekFill n fuel rd).Ok ∧
    pending (peekFill n fuel rd).sched ≤ pending rd.sched ∧
    costPeekFill n fuel rd + 4 * pending (peekFill n fuel rd).sched ≤ 4 * pending rd.sched + 2 +
      (if rd.r > 0 ∧ rd.q.length < n then rd.q.length else 0) := by
  induction fuel generalizing rd with
  | zero => exact ⟨rfl, rfl, hok, Nat.le_refl _, by simp only [costPeekFill, peekFill]; omega⟩
  | succ fuel ih =>
    simp only [peekFill, costPeekFill]
    by_cases hc : rd.q.length < n ∧ rd.q.length < rd.cap ∧ rd.err = false
    · rw [if_pos hc, if_pos hc]
      obtain ⟨a, b, c, d, f, g, k, l⟩ := fill_cost rd hc.2.1
      have hok' : rd.fill.Ok := ⟨by rw [b]; exact hok.1, by rw [b]; exact f⟩
      have hs : (if rd.r > 0 ∧ rd.q.length < n then rd.q.length else 0) = if rd.r > 0 then rd.q.length else 0 := by
        by_cases hr : rd.r > 0
        · rw [if_pos ⟨hr, hc.1⟩, if_pos hr]
        · rw [if_neg (fun h => hr h.1), if_neg hr]
      rw [hs]
      rcases l with l | l
      · have hend : peekFill n fuel rd.fill = rd.fill ∧ costPeekFill n fuel rd.fill = 0 := by
          cases fuel with
          | zero => exact ⟨rfl, rfl⟩
          | succ k => simp [peekFill, costPeekFill, l]
        rw [hend.1, hend.2]
        exact ⟨a, b, hok', g, by omega⟩
      · obtain ⟨a', b', c', d', f'⟩ := ih rd.fill hok'
        refine ⟨a'.trans a, b'.trans b, c', by omega, ?_⟩
        rw [if_neg (by rw [c]; omega)] at f'
        omega
    · rw [if_neg hc, if_neg hc]
      exact ⟨rfl, rfl, hok, Nat.le_refl _, by omega⟩

/-- `Peek(n)` -/
theorem peek_cost (rd : Reader) (n : Int) (hok : rd.Ok) :
    (rd.peek n).2.2.left = rd.left ∧ (rd.peek n).2.2.cap = rd.cap ∧ (rd.peek n).2.2.Ok ∧ pending (rd.peek n).2.2.sched ≤ pending rd.sched ∧
    (rd.peek n).1 <+: rd.left ∧ (rd.peek n).1.length ≤ rd.cap ∧
    ((rd.peek n).2.1 = true → 0 ≤ n ∧ (rd.peek n).1.length = n.toNat ∧ n.toNat ≤ (rd.peek n).2.2.q.length ∧ (rd.peek n).1 = rd.left.take n.toNat) ∧
    rd.costPeek n + 4 * pending (rd.peek n).2.2.sched ≤ 4 * pending rd.sched + 3 + rd.q.length ∧
    ((rd.peek n).2.1 = true → rd.costPeek n + 4 * pending (rd.peek n).2.2.sched ≤ 4 * pending rd.sched + 3 + n.toNat) := by
  unfold Reader.costPeek Reader.peek
  by_cases hn : n < 0
  · rw [if_pos hn, if_pos hn]
    exact ⟨rfl, rfl, hok, Nat.le_refl _, List.nil_prefix, Nat.zero_le _, by simp, by simp only []; omega, by simp⟩
  · rw [if_neg hn, if_neg hn]
    obtain ⟨a, b, c, d, e⟩ := peekFill_cost n.toNat (n.toNat + 1) { rd with last := none } hok
    have a' : (peekFill n.toNat (n.toNat + 1) { rd with last := none }).left = rd.left := a
    have b' : (peekFill n.toNat (n.toNat + 1) { rd with last := none }).cap = rd.cap := b
    have d' : pending (peekFill n.toNat (n.toNat + 1) { rd with last := none }).sched ≤ pending rd.sched := d
    have e' : costPeekFill n.toNat (n.toNat + 1) { rd with last := none } +
      4 * pending (peekFill n.toNat (n.toNat + 1) { rd with last := none }).sched ≤ 4 * pending rd.sched + 2 +
      (if rd.r > 0 ∧ rd.q.length < n.toNat then rd.q.length else 0) := e
    clear a b d e
    generalize peekFill n.toNat (n.toNat + 1) { rd with last := none } = rd1 at *
    have hpre : rd1.q <+: rd.left := ⟨rd1.sched.flatMap Read.data, a'⟩
    have hsl : (if rd.r > 0 ∧ rd.q.length < n.toNat then rd.q.length else 0) ≤ rd.q.length := by split <;> omega
    have hsn : (if rd.r > 0 ∧ rd.q.length < n.toNat then rd.q.length else 0) ≤ n.toNat := by split <;> omega
    by_cases h1 : rd1.cap < n.toNat
    · rw [if_pos h1]
      exact ⟨a', b', c, d', hpre, by have := c.2; simp only []; omega, by simp, by simp only []; omega, by simp⟩
    · rw [if_neg h1]
      by_cases h2 : rd1.q.length < n.toNat
      · rw [if_pos h2]
        exact ⟨a', b', ⟨c.1, c.2⟩, d', hpre, by have := c.2; simp only []; omega, by simp, by simp only []; omega, by simp⟩
      · rw [if_neg h2]
        refine ⟨a', b', c, d', (List.take_prefix _ _).trans hpre, by have := c.2; simp only [List.length_take]; omega,
          fun _ => ⟨by omega, by simp only [List.length_take]; omega, by simp only []; omega, ?_⟩, by simp only []; omega,
          fun _ => by simp only []; omega⟩
        rw [← a', Reader.left]
        simp only []
        rw [List.take_append_of_le_length (by omega)]

theorem discard_left (rd : Reader) (n : Nat) (h : n ≤ rd.q.length) : (rd.discard n).left = rd.left.drop n := by
  simp only [Reader.discard, Reader.left]
  rw [List.drop_append_of_le_length h]

theorem unread_cost (rd : Reader) (b : UInt8) (hl : rd.last = some b) (hr : 1 ≤ rd.r) :
    rd.unreadByte.left = b :: rd.left ∧ rd.unreadByte.cap = rd.cap ∧ rd.unreadByte.q.length = rd.q.length + 1 ∧
    rd.unreadByte.sched = rd.sched := by
  simp only [Reader.unreadByte, hl]
  rw [if_neg (by omega)]
  exact ⟨by simp [Reader.left], rfl, by simp, rfl⟩

/-! ## The scanner -/

theorem read_cost (s : Scanner) (hok : s.r.Ok) :
    s.read.2.r.Ok ∧ s.read.2.r.cap = s.r.cap ∧ s.read.2.msglen = s.msglen ∧ s.read.2.ready = s.ready ∧
    pending s.read.2.r.sched ≤ pending s.r.sched ∧ s.r.costReadByte + 2 * pending s.read.2.r.sched ≤ 2 * pending s.r.sched + 2 ∧
    ((s.read.1 = 0 ∧ s.r.left = s.read.2.r.left) ∨
      (s.r.left = s.read.1 :: s.read.2.r.left ∧ s.read.2.r.last = some s.read.1 ∧ 1 ≤ s.read.2.r.r ∧ s.read.2.r.q.length < s.r.cap)) := by
  obtain ⟨a, b, c, d, e, f⟩ := readByte_cost s.r hok
  unfold Scanner.read
  generalize s.r.readByte = x at *
  obtain ⟨x, r⟩ := x
  cases x with
  | none => exact ⟨a, b, rfl, rfl, d, e, Or.inl ⟨rfl, by simpa using c⟩⟩
  | some y =>
    obtain ⟨f1, f2, f3⟩ := f y rfl
    exact ⟨a, b, rfl, rfl, d, e, Or.inr ⟨by simpa using c, f1, f2, f3⟩⟩

theorem scanDigits_cost (fuel : Nat) (s : Scanner) (buf : Bytes) (hok : s.r.Ok) :
    (scanDigits fuel s buf).2.r.Ok ∧ (scanDigits fuel s buf).2.r.cap = s.r.cap ∧
    pending (scanDigits fuel s buf).2.r.sched ≤ pending s.r.sched ∧
    ∃ digits used, s.r.left = used ++ (scanDigits fuel s buf).2.r.left ∧ (scanDigits fuel s buf).1 = buf ++ digits ∧ digits <+: used ∧
      (∀ b ∈ digits, isDigit b = true) ∧
      costScanDigits fuel s buf + 2 * pending (scanDigits fuel s buf).2.r.sched ≤ 2 * pending s.r.sched + 3 * digits.length + 3 := by
  induction fuel generalizing s buf with
  | zero =>
    exact ⟨hok, rfl, Nat.le_refl _, [], [], by simp [scanDigits], by simp [scanDigits], List.prefix_refl _, by simp, by
      simp only [costScanDigits, scanDigits]; omega⟩
  | succ fuel ih =>
    obtain ⟨a, b, -, -, c, d, e⟩ := read_cost s hok
    simp only [scanDigits, costScanDigits]
    generalize s.read = x at *
    obtain ⟨x, s1⟩ := x
    simp only at a b c d e ⊢
    by_cases h0 : x = 0
    · rw [if_pos h0, if_pos h0]
      refine ⟨a, b, c, [], ?_⟩
      rcases e with ⟨-, e⟩ | ⟨e, -⟩
      · exact ⟨[], by simpa using e, by simp, List.prefix_refl _, by simp, by simp only [List.length_nil]; omega⟩
      · exact ⟨[x], by simpa using e, by simp, List.nil_prefix, by simp, by simp only [List.length_nil]; omega⟩
    · rw [if_neg h0, if_neg h0]
      obtain ⟨e1, e2, e3, e4⟩ : s.r.left = x :: s1.r.left ∧ s1.r.last = some x ∧ 1 ≤ s1.r.r ∧ s1.r.q.length < s.r.cap := by
        rcases e with ⟨e, -⟩ | e
        · exact absurd e h0
        · exact e
      cases hd : isDigit x with
      | false =>
        simp only [Bool.not_false, if_true]
        obtain ⟨u1, u2, u3, u4⟩ := unread_cost s1.r x e2 e3
        have u1' : s1.unread.r.left = x :: s1.r.left := u1
        have u2' : s1.unread.r.cap = s1.r.cap := u2
        have u3' : s1.unread.r.q.length = s1.r.q.length + 1 := u3
        have u4' : s1.unread.r.sched = s1.r.sched := u4
        refine ⟨⟨by rw [u2']; exact a.1, by rw [u2', u3', b]; omega⟩, by rw [u2', b], by rw [u4']; exact c, [], [], ?_, by simp,
          List.prefix_refl _, by simp, ?_⟩
        · rw [u1', e1]; rfl
        · rw [u4']; simp only [List.length_nil]; omega
      | true =>
        simp only [Bool.not_true, Bool.false_eq_true, if_false]
        obtain ⟨i1, i2, i3, digits, used, i4, i5, i6, i7, i8⟩ := ih s1 (buf ++ [x]) a
        refine ⟨i1, i2.trans b, by omega, x :: digits, x :: used, by rw [e1, i4]; rfl, by rw [i5]; simp, ?_, ?_, ?_⟩
        · obtain ⟨z, hz⟩ := i6
          exact ⟨z, by rw [← hz]; rfl⟩
        · intro y hy
          rcases List.mem_cons.mp hy with rfl | hy
          · exact hd
          · exact i7 y hy
        · simp only [List.length_cons]; omega

/-- a byte that was put back is read again -/
theorem read_buffered (s : Scanner) (h : s.r.q ≠ []) : s.r.left = s.read.1 :: s.read.2.r.left := by
  unfold Scanner.read Reader.readByte
  rw [if_neg (fun h' => h h'.1)]
  cases hq : s.r.q with
  | nil => exact absurd hq h
  | cons b q => simp [Reader.left, hq]

/-- what a token is made of, and what it costs: `used` are the bytes the scanner consumes -/
structure Scanned (s : Scanner) (tok : Token) (s' : Scanner) (cost : Nat) (used : Bytes) : Prop where
  ok : s'.r.Ok
  cap : s'.r.cap = s.r.cap
  left : s.r.left = used ++ s'.r.left
  pend : pending s'.r.sched ≤ pending s.r.sched
  lit : (tok.lit.length ≤ s.r.cap ∧ tok.typ ≠ .MSGLEN) ∨ (tok.typ = .MSGLEN ∧ ∀ b ∈ tok.lit, isDigit b = true)
  src : if tok.typ = .EOF then tok.lit <+: s'.r.left else tok.lit <+: used
  some : tok.typ = .EOF ∨ tok.typ = .SYSLOGMSG ∨ used ≠ []
  cost : cost + 4 * pending s'.r.sched ≤ 4 * pending s.r.sched + 5 * used.length + 12 + if tok.typ = .EOF then s'.r.left.length else 0

theorem scan_cost (s : Scanner) (hok : s.r.Ok) : ∃ used, Scanned s s.scan.1 s.scan.2 s.costScan used := by
  obtain ⟨a, b, c1, c2, c, d, e⟩ := read_cost s hok
  unfold Scanner.scan Scanner.costScan
  generalize s.read = x at *
  obtain ⟨x, s1⟩ := x
  simp only at a b c c1 c2 d e ⊢
  by_cases hz : isNonZeroDigit x = true
  · rw [if_pos hz, if_pos hz]
    have h0 : x ≠ 0 := by rintro rfl; simp [isNonZeroDigit] at hz
    obtain ⟨e1, e2, e3, e4⟩ : s.r.left = x :: s1.r.left ∧ s1.r.last = some x ∧ 1 ≤ s1.r.r ∧ s1.r.q.length < s.r.cap := by
      rcases e with ⟨e, -⟩ | e
      · exact absurd e h0
      · exact e
    obtain ⟨u1, u2, u3, u4⟩ := unread_cost s1.r x e2 e3
    have hok2 : ({ s1.unread with ready := false } : Scanner).r.Ok := by
      constructor
      · show 1 ≤ s1.r.unreadByte.cap
        rw [u2, b]; exact hok.1
      · show s1.r.unreadByte.q.length ≤ s1.r.unreadByte.cap
        rw [u2, u3, b]; omega
    have hleft2 : ({ s1.unread with ready := false } : Scanner).r.left = s.r.left := by
      show s1.r.unreadByte.left = _
      rw [u1, e1]
    have hcap2 : ({ s1.unread with ready := false } : Scanner).r.cap = s.r.cap := by
      show s1.r.unreadByte.cap = _
      rw [u2, b]
    have hpend2 : ({ s1.unread with ready := false } : Scanner).r.sched = s1.r.sched := u4
    have hq2 : ({ s1.unread with ready := false } : Scanner).r.q ≠ [] := by
      intro h
      have : s1.r.unreadByte.q.length = 0 := by
        show (({ s1.unread with ready := false } : Scanner).r.q).length = 0
        rw [h]; rfl
      omega
    generalize ({ s1.unread with ready := false } : Scanner) = s2 at *
    obtain ⟨f1, f2, -, -, f3, f4, -⟩ := read_cost s2 hok2
    have f5 := read_buffered s2 hq2
    unfold Scanner.scanMsgLen Scanner.costScanMsgLen
    generalize s2.read = y at *
    obtain ⟨y, s3⟩ := y
    simp only at f1 f2 f3 f4 f5 ⊢
    rw [hleft2, e1] at f5
    simp only [List.cons.injEq] at f5
    obtain ⟨rfl, f6⟩ := f5
    obtain ⟨g1, g2, g3, digits, used, g4, g5, g6, g7, g8⟩ := scanDigits_cost (s3.r.remaining + 1) s3 [x] f1
    generalize scanDigits (s3.r.remaining + 1) s3 [x] = z at *
    obtain ⟨z, s4⟩ := z
    simp only at g1 g2 g3 g4 g5 g8 ⊢
    rw [hpend2] at f3 f4
    have hdu : digits.length ≤ used.length := g6.length_le
    refine ⟨x :: used, g1, by rw [g2, f2, hcap2], by rw [e1, f6, g4]; rfl, by show pending s4.r.sched ≤ _; omega,
      Or.inr ⟨rfl, ?_⟩, ?_, Or.inr (Or.inr (by simp)), ?_⟩
    · intro w hw
      simp only [g5, List.cons_append, List.nil_append] at hw
      rcases List.mem_cons.mp hw with rfl | hw
      · revert hz; simp only [isNonZeroDigit, isDigit, Bool.and_eq_true, decide_eq_true_eq]; omega
      · exact g7 w hw
    · rw [if_neg (by simp)]
      obtain ⟨t, ht⟩ := g6
      exact ⟨t, by rw [g5, ← ht]; rfl⟩
    · rw [if_neg (by simp)]
      simp only [g5, List.length_append, List.length_cons, List.length_nil]
      omega
  · rw [if_neg hz, if_neg hz]
    by_cases h0 : x = 0
    · rw [if_pos h0, if_pos h0]
      have hl : ∃ used, s.r.left = used ++ s1.r.left := by
        rcases e with ⟨-, e⟩ | ⟨e, -⟩
        · exact ⟨[], by simpa using e⟩
        · exact ⟨[x], by simpa using e⟩
      obtain ⟨used, hl⟩ := hl
      exact ⟨used, a, b, hl, c, Or.inl ⟨Nat.zero_le _, by simp⟩, by rw [if_pos rfl]; exact List.nil_prefix, Or.inl rfl, by
        rw [if_pos rfl]; simp only []; omega⟩
    · rw [if_neg h0, if_neg h0]
      obtain ⟨e1, e2, e3, e4⟩ : s.r.left = x :: s1.r.left ∧ s1.r.last = some x ∧ 1 ≤ s1.r.r ∧ s1.r.q.length < s.r.cap := by
        rcases e with ⟨e, -⟩ | e
        · exact absurd e h0
        · exact e
      by_cases h32 : x = 32
      · rw [if_pos h32, if_pos h32]
        subst h32
        exact ⟨[32], a, b, by rw [e1]; rfl, c, Or.inl ⟨hok.1, by simp⟩, by rw [if_neg (by simp)]; exact List.prefix_refl _,
          Or.inr (Or.inr (by simp)), by rw [if_neg (by simp)]; simp only [List.length_cons, List.length_nil]; omega⟩
      · rw [if_neg h32, if_neg h32]
        by_cases h60 : x = 60 ∧ s1.msglen > 0 ∧ s1.ready = true
        · rw [if_pos h60, if_pos h60]
          obtain ⟨u1, u2, u3, u4⟩ := unread_cost s1.r x e2 e3
          have hm : s1.unread.msglen = s1.msglen := rfl
          have hok2 : s1.unread.r.Ok := by
            constructor
            · show 1 ≤ s1.r.unreadByte.cap
              rw [u2, b]; exact hok.1
            · show s1.r.unreadByte.q.length ≤ s1.r.unreadByte.cap
              rw [u2, u3, b]; omega
          have hleft2 : s1.unread.r.left = s.r.left := by
            show s1.r.unreadByte.left = _
            rw [u1, e1]
          have hcap2 : s1.unread.r.cap = s.r.cap := by
            show s1.r.unreadByte.cap = _
            rw [u2, b]
          have hpend2 : s1.unread.r.sched = s1.r.sched := u4
          unfold Scanner.scanSyslogMsg Scanner.costScanSyslogMsg
          generalize s1.unread = s2 at *
          obtain ⟨k1, k2, k3, k4, k5, k6, k7, k8, k9⟩ := peek_cost s2.r (toInt s2.msglen) hok2
          have hql : s2.r.q.length ≤ s2.r.left.length := by simp [Reader.left]
          rw [hpend2] at k4 k8 k9
          rw [hcap2] at k2 k6
          rw [hleft2] at k1 k5 k7 hql
          generalize s2.r.costPeek (toInt s2.msglen) = cp at *
          generalize s2.r.peek (toInt s2.msglen) = pk at *
          obtain ⟨t, fl, r⟩ := pk
          simp only at k1 k2 k3 k4 k5 k6 k7 k8 k9 ⊢
          cases fl with
          | false =>
            refine ⟨[], k3, k2, by simp only [List.nil_append]; exact k1.symm, by show pending r.sched ≤ _; omega, Or.inl ⟨k6, by simp⟩, ?_, Or.inl rfl, ?_⟩
            · rw [if_pos rfl]
              show t <+: r.left
              rw [k1]; exact k5
            · rw [if_pos rfl]
              show _ + 4 * pending r.sched ≤ _ + r.left.length
              rw [k1]
              simp only [List.length_nil]
              omega
          | true =>
            obtain ⟨l1, l2, l3, l4⟩ := k7 rfl
            have l9 := k9 rfl
            have hd := discard_left r (toInt s2.msglen).toNat l3
            have hlen : (s.r.left.take (toInt s2.msglen).toNat).length = (toInt s2.msglen).toNat := by
              rw [← l4, l2]
            refine ⟨s.r.left.take (toInt s2.msglen).toNat, ⟨k3.1, ?_⟩, k2, ?_, by show pending r.sched ≤ _; omega, Or.inl ⟨k6, by simp⟩, ?_,
              Or.inr (Or.inl rfl), ?_⟩
            · show (r.q.drop (toInt s2.msglen).toNat).length ≤ r.cap
              have := k3.2
              rw [List.length_drop]; omega
            · show _ = _ ++ (r.discard (toInt s2.msglen).toNat).left
              rw [hd, k1, List.take_append_drop]
            · rw [if_neg (by simp)]
              show t <+: _
              rw [l4]; exact List.prefix_refl _
            · rw [if_neg (by simp), hlen]
              show _ + 4 * pending r.sched ≤ _
              omega
        · rw [if_neg h60, if_neg h60]
          exact ⟨[x], a, b, by rw [e1]; rfl, c, Or.inl ⟨hok.1, by simp⟩, by rw [if_neg (by simp)]; exact List.prefix_refl _,
            Or.inr (Or.inr (by simp)), by rw [if_neg (by simp)]; simp only [List.length_cons, List.length_nil]; omega⟩

/-! ## The parser -/

/-- `parser.scan` -/
theorem pscan_cost (p : Parser) (hok : p.s.r.Ok) : ∃ used : Bytes,
    p.scan.2.s.r.Ok ∧ p.scan.2.s.r.cap = p.s.r.cap ∧ p.s.r.left = used ++ p.scan.2.s.r.left ∧
    pending p.scan.2.s.r.sched ≤ pending p.s.r.sched ∧ p.scan.2.stepback = false ∧ p.scan.2.last = p.scan.1 ∧
    (p.stepback = true → used = [] ∧ p.scan.1 = p.last) ∧
    (p.stepback = false → ((p.scan.1.typ ≠ .MSGLEN → p.scan.1.lit.length ≤ p.s.r.cap) ∧
        (p.scan.1.typ = .MSGLEN → ∀ b ∈ p.scan.1.lit, isDigit b = true)) ∧
      (p.scan.1.typ = .EOF → p.scan.1.lit <+: p.scan.2.s.r.left) ∧
      (p.scan.1.typ ≠ .EOF → p.scan.1.lit <+: used) ∧
      (p.scan.1.typ = .EOF ∨ p.scan.1.typ = .SYSLOGMSG ∨ 1 ≤ used.length)) ∧
    p.costScan + 4 * pending p.scan.2.s.r.sched ≤
      4 * pending p.s.r.sched + 5 * used.length + 13 + if p.scan.1.typ = .EOF then p.scan.2.s.r.left.length else 0 := by
  unfold Parser.scan Parser.costScan
  cases hs : p.stepback with
  | true =>
    simp only [if_true]
    exact ⟨[], hok, trivial, rfl, Nat.le_refl _, trivial, trivial, fun _ => ⟨rfl, trivial⟩, by simp, by omega⟩
  | false =>
    simp only [Bool.false_eq_true, if_false]
    obtain ⟨used, h⟩ := scan_cost p.s hok
    generalize p.s.scan = x at *
    obtain ⟨tok, s⟩ := x
    have h1 := h.cost
    have h2 := h.lit
    have h3 := h.src
    have h4 := h.some
    simp only at h1 h2 h3 h4 ⊢
    refine ⟨used, h.ok, h.cap, h.left, h.pend, trivial, trivial, by simp, fun _ => ⟨?_, ?_, ?_, ?_⟩, by omega⟩
    · rcases h2 with h2 | h2
      · exact ⟨fun _ => h2.1, fun ht => absurd ht h2.2⟩
      · exact ⟨fun ht => absurd h2.1 ht, fun _ => h2.2⟩
    · intro ht
      rw [if_pos ht] at h3; exact h3
    · intro ht
      rw [if_neg ht] at h3; exact h3
    · rcases h4 with h4 | h4 | h4
      · exact Or.inl h4
      · exact Or.inr (Or.inl h4)
      · exact Or.inr (Or.inr (List.length_pos_iff.mpr h4))

theorem costMsg_le (p : Parser) (lit : Bytes) (cap : Nat) (h : lit.length ≤ cap) :
    p.costMsg lit ≤ 77 * (lit.length + 1) + cap * lit.count 92 := by
  have := Rfc5424.parseCost_le p.internal lit
  have h2 : lit.length * lit.count 92 ≤ cap * lit.count 92 := Nat.mul_le_mul_right _ h
  unfold Parser.costMsg
  omega

/-- the work of the loop: linear in the bytes and the calls of the reader, plus the capacity for every backslash -/
theorem costRun_le (fuel : Nat) (p : Parser) (cap : Nat) (hok : p.s.r.Ok) (hcap : p.s.r.cap = cap) :
    costRun fuel p ≤ 150 * p.s.r.left.length + 4 * pending p.s.r.sched + cap * p.s.r.left.count 92 + 200 +
      if p.stepback then p.last.lit.length else 0 := by
  induction fuel generalizing p with
  | zero => simp [costRun]
  | succ fuel ih =>
    rw [costRun]
    obtain ⟨u1, a1, a2, a3, a4, a5, -, a7, a8, a9⟩ := pscan_cost p hok
    generalize p.scan = x at *
    obtain ⟨t1, p1⟩ := x
    simp only at a1 a2 a3 a4 a5 a7 a8 a9 ⊢
    rw [a3]
    simp only [List.length_append, List.count_append, Nat.mul_add]
    -- the first token
    have hf1 : t1.lit.length ≤ u1.length + p1.s.r.left.length + if p.stepback then p.last.lit.length else 0 := by
      cases hs : p.stepback with
      | true =>
        rw [hs] at a7
        rw [(a7 rfl).2]; simp
      | false =>
        obtain ⟨-, b2, b3, -⟩ := a8 hs
        by_cases ht : t1.typ = .EOF
        · have := (b2 ht).length_le; omega
        · have := (b3 ht).length_le; omega
    have hx1 : (if t1.typ = .EOF then p1.s.r.left.length else 0) ≤ p1.s.r.left.length := by split <;> omega
    by_cases c1 : t1.typ ≠ .MSGLEN
    · rw [if_pos c1]; omega
    rw [if_neg c1]
    rw [if_neg (by rw [Classical.not_not.mp c1]; simp)] at a9
    by_cases c2 : toInt p1.s.msglen > p1.maxMessageLength
    · rw [if_pos c2]; omega
    rw [if_neg c2]
    -- the space
    obtain ⟨u2, b1, b2, b3, b4, b5, -, -, b8, b9⟩ := pscan_cost p1 a1
    generalize p1.scan = x at *
    obtain ⟨t2, p2⟩ := x
    simp only at b1 b2 b3 b4 b5 b8 b9 ⊢
    obtain ⟨-, d2, d3, d4⟩ := b8 a5
    rw [b3]
    simp only [List.length_append, List.count_append, Nat.mul_add]
    have hf2 : t2.lit.length ≤ u2.length + p2.s.r.left.length := by
      by_cases ht : t2.typ = .EOF
      · have := (d2 ht).length_le; omega
      · have := (d3 ht).length_le; omega
    have hx2 : (if t2.typ = .EOF then p2.s.r.left.length else 0) ≤ p2.s.r.left.length := by split <;> omega
    by_cases c3 : t2.typ ≠ .WS
    · rw [if_pos c3]; omega
    rw [if_neg c3]
    have c3' := Classical.not_not.mp c3
    rw [if_neg (by rw [c3']; simp)] at b9
    have hu2 : 1 ≤ u2.length := by
      rcases d4 with h | h | h
      · rw [c3'] at h; simp at h
      · rw [c3'] at h; simp at h
      · exact h
    -- the message
    obtain ⟨u3, e1, e2, e3, e4, e5, -, -, e8, e9⟩ := pscan_cost p2 b1
    generalize p2.scan = x at *
    obtain ⟨t3, p3⟩ := x
    simp only at e1 e2 e3 e4 e5 e8 e9 ⊢
    obtain ⟨f1, f2, f3, f4⟩ := e8 b5
    rw [e3]
    simp only [List.length_append, List.count_append, Nat.mul_add]
    have hx3 : (if t3.typ = .EOF then p3.s.r.left.length else 0) ≤ p3.s.r.left.length := by split <;> omega
    by_cases c4 : t3.typ ≠ .SYSLOGMSG
    · rw [if_pos c4]
      have hf3 : t3.lit.length ≤ u3.length + p3.s.r.left.length ∧
          (t3.typ ≠ .MSGLEN → cap * t3.lit.count 92 ≤ cap * u3.count 92 + cap * p3.s.r.left.count 92) := by
        by_cases ht : t3.typ = .EOF
        · refine ⟨by have := (f2 ht).length_le; omega, fun _ => ?_⟩
          have := Nat.mul_le_mul_left cap ((f2 ht).sublist.count_le 92)
          omega
        · refine ⟨by have := (f3 ht).length_le; omega, fun _ => ?_⟩
          have := Nat.mul_le_mul_left cap ((f3 ht).sublist.count_le 92)
          omega
      by_cases c5 : (t3.lit.length : Int) < toInt p3.s.msglen ∧ p3.bestEffort = true
      · rw [if_pos c5]
        by_cases hm : t3.typ = .MSGLEN
        · -- digits
          have hz : t3.lit.count 92 = 0 := by
            rw [List.count_eq_zero]
            intro h
            have := f1.2 hm 92 h
            revert this; decide
          have hc := Rfc5424.parseCost_le p3.internal t3.lit
          rw [hz] at hc
          have hc' : p3.costMsg t3.lit ≤ 77 * (t3.lit.length + 1) := hc
          omega
        · have hc := costMsg_le p3 t3.lit cap (by have := f1.1 hm; omega)
          have := hf3.2 hm
          omega
      · rw [if_neg c5]; omega
    rw [if_neg c4]
    have c4' := Classical.not_not.mp c4
    rw [if_neg (by rw [c4']; simp)] at e9
    have hc := costMsg_le p3 t3.lit cap (by have := f1.1 (by rw [c4']; simp); omega)
    have hl3 := f3 (by rw [c4']; simp)
    have hl3a := hl3.length_le
    have hl3b := Nat.mul_le_mul_left cap (hl3.sublist.count_le 92)
    cases hpm : p3.parseMsg t3.lit with
    | none => simp only []; omega
    | some y =>
      obtain ⟨res, p4⟩ := y
      simp only []
      have hp4 : p4.s = p3.s ∧ p4.stepback = p3.stepback ∧ p4.last = p3.last := by
        unfold Parser.parseMsg at hpm
        split at hpm
        · simp at hpm
        · simp only [Option.some.injEq, Prod.mk.injEq] at hpm
          rw [← hpm.2]
          exact ⟨rfl, rfl, rfl⟩
      by_cases c6 : p4.bestEffort = false ∧ res.err ≠ none
      · rw [if_pos c6]; omega
      rw [if_neg c6]
      -- one more token
      obtain ⟨u5, g1, g2, g3, g4, g5, g6, -, g8, g9⟩ := pscan_cost p4 (by rw [hp4.1]; exact e1)
      generalize p4.scan = x at *
      obtain ⟨t5, p5⟩ := x
      simp only at g1 g2 g3 g4 g5 g6 g8 g9 ⊢
      obtain ⟨k1, k2, k3, k4⟩ := g8 (by rw [hp4.2.1]; exact e5)
      rw [hp4.1] at g2 g3 g4 g9
      rw [g3]
      simp only [List.length_append, List.count_append, Nat.mul_add]
      have hx5 : (if t5.typ = .EOF then p5.s.r.left.length else 0) ≤ p5.s.r.left.length := by split <;> omega
      by_cases c7 : t5.typ = .EOF
      · rw [if_pos c7]; omega
      rw [if_neg c7]
      rw [if_neg c7] at g9
      have h := ih p5.unscan g1 (by show p5.s.r.cap = cap; omega)
      have h' : costRun fuel p5.unscan ≤ 150 * p5.s.r.left.length + 4 * pending p5.s.r.sched + cap * p5.s.r.left.count 92 + 200 + p5.last.lit.length := h
      rw [g6] at h'
      have := (k3 c7).length_le
      omega

end Verif.Octet
