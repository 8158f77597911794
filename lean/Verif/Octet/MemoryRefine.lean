import Verif.Octet.Memory
import Verif.Octet.Refine

/-! # The scanner on memory does what the scanner on values does -/

namespace Verif.Octet

/-! ## Copies and windows -/

theorem le_of_le_of_eq' {n m k : Nat} (h : n ≤ m) (e : m = k) : n ≤ k := e ▸ h

theorem copyAt_length {buf d : Bytes} {i : Nat} (h : i ≤ buf.length) : (copyAt buf i d).length = buf.length := by
  simp [copyAt]; omega

theorem copyAt_get {buf d : Bytes} {i : Nat} (h : i ≤ buf.length) (k : Nat) :
    (copyAt buf i d)[k]? = if k < i then buf[k]? else if k < i + d.length ∧ k < buf.length then d[k - i]? else buf[k]? := by
  have hl : (buf.take i).length = i := by simp; omega
  simp only [copyAt, List.getElem?_append, List.getElem?_take, List.getElem?_drop, List.length_append, List.length_take, hl]
  by_cases h1 : k < i
  · have : k < i + min (buf.length - i) d.length := by omega
    simp [h1, this]
  · by_cases h2 : k < i + d.length ∧ k < buf.length
    · have h3 : k < i + min (buf.length - i) d.length := by omega
      have h4 : k - i < buf.length - i := by omega
      simp [h1, h2, h3, h4]
    · have h3 : ¬ k < i + min (buf.length - i) d.length := by omega
      simp only [h1, h2, h3, if_false]
      by_cases h5 : k < buf.length
      · have : i + d.length + (k - (i + min (buf.length - i) d.length)) = k := by omega
        rw [this]
      · rw [List.getElem?_eq_none (by omega), List.getElem?_eq_none (by omega)]

theorem window_get (buf : Bytes) (i n k : Nat) : (window buf i n)[k]? = if k < n then buf[i + k]? else none := by
  simp only [window, List.getElem?_take, List.getElem?_drop]

theorem window_length {buf : Bytes} {i n : Nat} (h : i + n ≤ buf.length) : (window buf i n).length = n := by
  simp [window]; omega

theorem window_zero (buf : Bytes) (i : Nat) : window buf i 0 = [] := by simp [window]

theorem window_cons {buf : Bytes} {i n : Nat} (h : i + n ≤ buf.length) (hn : 0 < n) :
    window buf i n = buf.getD i 0 :: window buf (i + 1) (n - 1) := by
  apply List.ext_getElem?
  intro k
  cases k with
  | zero =>
    simp only [window_get, hn, if_true, List.getElem?_cons_zero, Nat.add_zero]
    rw [List.getD_eq_getElem?_getD, List.getElem?_eq_getElem (by omega)]
    rfl
  | succ k =>
    simp only [window_get, List.getElem?_cons_succ]
    by_cases h1 : k + 1 < n
    · rw [if_pos h1, if_pos (by omega)]; congr 1; omega
    · rw [if_neg h1, if_neg (by omega)]

theorem window_take (buf : Bytes) (i n m : Nat) (h : n ≤ m) : (window buf i m).take n = window buf i n := by
  simp [window, List.take_take, Nat.min_eq_left h]

theorem window_drop (buf : Bytes) (i n m : Nat) : (window buf i m).drop n = window buf (i + n) (m - n) := by
  simp [window, List.drop_take, List.drop_drop]

/-- a `Read` leaves what was waiting as it is, and adds its bytes -/
theorem window_read {buf d x : Bytes} {r w : Nat} (h1 : r ≤ w) (h2 : w + d.length ≤ buf.length) :
    window (copyAt (copyAt buf w d) (w + d.length) x) r (w + d.length - r) = window buf r (w - r) ++ d := by
  have hl : (window buf r (w - r)).length = w - r := window_length (by omega)
  apply List.ext_getElem?
  intro k
  rw [window_get, List.getElem?_append, hl]
  by_cases h3 : k < w + d.length - r
  · rw [if_pos h3, copyAt_get (by rw [copyAt_length (by omega)]; omega), if_pos (by omega), copyAt_get (by omega)]
    by_cases h4 : k < w - r
    · rw [if_pos (by omega), if_pos h4, window_get, if_pos h4]
    · rw [if_neg (by omega), if_pos (by omega), if_neg h4]; congr 1; omega
  · rw [if_neg h3, if_neg (by omega), List.getElem?_eq_none (by omega)]

/-- `fill` slides what is waiting to the front -/
theorem window_slide {buf : Bytes} {r w : Nat} (h1 : r ≤ w) (h2 : w ≤ buf.length) :
    window (copyAt buf 0 (window buf r (w - r))) 0 (w - r) = window buf r (w - r) := by
  have hl : (window buf r (w - r)).length = w - r := window_length (by omega)
  apply List.ext_getElem?
  intro k
  rw [window_get, copyAt_get (by omega), hl]
  by_cases h3 : k < w - r
  · rw [if_pos h3, if_neg (by omega), if_pos (by omega)]; congr 1; omega
  · rw [if_neg h3, List.getElem?_eq_none (by omega)]

/-- `UnreadByte` puts the byte in front of what is waiting -/
theorem window_unread {buf : Bytes} {r w : Nat} {b : UInt8} (h0 : 0 < r) (h1 : r ≤ w) (h2 : w ≤ buf.length) :
    window (copyAt buf (r - 1) [b]) (r - 1) (w - (r - 1)) = b :: window buf r (w - r) := by
  apply List.ext_getElem?
  intro k
  cases k with
  | zero =>
    rw [window_get, if_pos (by omega), copyAt_get (by omega), if_neg (by omega), if_pos ⟨by simp, by omega⟩]
    simp
  | succ k =>
    rw [window_get, List.getElem?_cons_succ, window_get]
    by_cases h3 : k < w - r
    · rw [if_pos (by omega), if_pos h3, copyAt_get (by omega), if_neg (by omega), if_neg (by simp only [List.length_singleton]; omega)]; congr 1; omega
    · rw [if_neg (by omega), if_neg h3]

theorem window_unread0 {buf : Bytes} {b : UInt8} (h : 1 ≤ buf.length) : window (copyAt buf 0 [b]) 0 1 = [b] := by
  apply List.ext_getElem?
  intro k
  cases k with
  | zero =>
    rw [window_get, if_pos (by omega), copyAt_get (by omega), if_neg (by omega), if_pos ⟨by simp, by omega⟩]
  | succ k => rw [window_get, if_neg (by omega)]; simp

/-! ## `bufio.Reader` -/

/-- a read without its scratch -/
def MRead.plain (x : MRead) : Read := ⟨x.data, x.err⟩

/-- the value of a reader -/
def MReader.val (rd : MReader) : Reader :=
  { q := window rd.buf rd.r (rd.w - rd.r), r := rd.r, cap := rd.buf.length, err := rd.err, last := rd.last,
    sched := rd.sched.map MRead.plain }

/-- the indices are in order -/
structure MReader.Ok (rd : MReader) : Prop where
  rw : rd.r ≤ rd.w
  wb : rd.w ≤ rd.buf.length
  pos : 1 ≤ rd.buf.length

theorem MReader.Ok.len {rd : MReader} (h : rd.Ok) : rd.val.q.length = rd.w - rd.r :=
  window_length (by have := h.rw; have := h.wb; omega)

theorem mreadCall_plain (space : Nat) (s : List MRead) :
    readCall space (s.map MRead.plain)
      = ((mreadCall space s).1, (mreadCall space s).2.1, ((mreadCall space s).2.2.2).map MRead.plain) ∧
    (mreadCall space s).1.length ≤ space := by
  cases s with
  | nil => exact ⟨rfl, by simp [mreadCall]⟩
  | cons x xs =>
    simp only [List.map_cons, readCall, mreadCall, MRead.plain]
    split
    · next h => exact ⟨rfl, h⟩
    · exact ⟨rfl, by simp; omega⟩

theorem mfillLoop_val (i : Nat) (rd : MReader) (h : rd.Ok) (h0 : rd.r = 0) :
    (mfillLoop i rd).val = fillLoop i rd.val ∧ (mfillLoop i rd).Ok ∧ (mfillLoop i rd).buf.length = rd.buf.length := by
  induction i generalizing rd with
  | zero => exact ⟨rfl, ⟨h.rw, h.wb, h.pos⟩, rfl⟩
  | succ i ih =>
    have hrw := h.rw
    have hwb := h.wb
    have hpos := h.pos
    obtain ⟨hc, hd⟩ := mreadCall_plain (rd.buf.length - rd.w) rd.sched
    have hsp : rd.val.cap - rd.val.q.length = rd.buf.length - rd.w := by
      rw [h.len]; show rd.buf.length - (rd.w - rd.r) = _; omega
    rw [fillLoop, mfillLoop, hsp, show rd.val.sched = rd.sched.map MRead.plain from rfl, hc]
    revert hd
    obtain ⟨d, e, x, s⟩ := mreadCall (rd.buf.length - rd.w) rd.sched
    intro hd
    replace hd : d.length ≤ rd.buf.length - rd.w := hd
    have hq := window_read (buf := rd.buf) (d := d) (x := x) hrw (by omega)
    have hl1 : (copyAt rd.buf rd.w d).length = rd.buf.length := copyAt_length (by omega)
    have hl : (copyAt (copyAt rd.buf rd.w d) (rd.w + d.length) x).length = rd.buf.length := by
      rw [copyAt_length (by omega), hl1]
    clear hc hsp
    by_cases he : e = true
    · simp only [he, if_true]
      refine ⟨?_, ⟨by show rd.r ≤ rd.w + d.length; omega, le_of_le_of_eq' (by show rd.w + d.length ≤ rd.buf.length; omega) hl.symm, le_of_le_of_eq' hpos hl.symm⟩, hl⟩
      simp only [MReader.val, hq, hl]
    · simp only [he, if_false, Bool.false_eq_true]
      by_cases hd0 : d ≠ []
      · simp only [if_pos hd0]
        refine ⟨?_, ⟨by show rd.r ≤ rd.w + d.length; omega, le_of_le_of_eq' (by show rd.w + d.length ≤ rd.buf.length; omega) hl.symm, le_of_le_of_eq' hpos hl.symm⟩, hl⟩
        simp [MReader.val, hq, hl]
      · have hd1 : d = [] := Classical.not_not.mp hd0
        subst hd1
        simp only [List.length_nil, Nat.add_zero, List.append_nil] at hq hl ⊢
        simp only [ne_eq, not_true_eq_false, if_false]
        obtain ⟨h1, h2, h3⟩ := ih { rd with buf := copyAt (copyAt rd.buf rd.w []) rd.w x, sched := s }
          ⟨hrw, le_of_le_of_eq' hwb hl.symm, le_of_le_of_eq' hpos hl.symm⟩ h0
        refine ⟨?_, h2, by rw [← hl]; exact h3⟩
        refine Eq.trans h1 ?_
        simp only [MReader.val, hq, hl]

theorem MReader.fill_val {rd : MReader} (h : rd.Ok) :
    rd.fill.val = rd.val.fill ∧ rd.fill.Ok ∧ rd.fill.buf.length = rd.buf.length := by
  have hrw := h.rw
  have hwb := h.wb
  have hpos := h.pos
  unfold MReader.fill Reader.fill
  by_cases h0 : 0 < rd.r
  · rw [if_pos h0]
    have hl : (copyAt rd.buf 0 (window rd.buf rd.r (rd.w - rd.r))).length = rd.buf.length := copyAt_length (by omega)
    obtain ⟨h1, h2, h3⟩ := mfillLoop_val 100 { rd with buf := copyAt rd.buf 0 (window rd.buf rd.r (rd.w - rd.r)), w := rd.w - rd.r, r := 0 }
      ⟨Nat.zero_le _, le_of_le_of_eq' (m := rd.buf.length) (by show rd.w - rd.r ≤ _; omega) hl.symm, le_of_le_of_eq' hpos hl.symm⟩ rfl
    refine ⟨?_, h2, by rw [← hl]; exact h3⟩
    refine Eq.trans h1 ?_
    simp only [MReader.val, hl, Nat.sub_zero, window_slide hrw hwb]
  · rw [if_neg h0]
    have h0 : rd.r = 0 := by omega
    obtain ⟨h1, h2, h3⟩ := mfillLoop_val 100 rd h h0
    refine ⟨?_, h2, h3⟩
    rw [h1]; congr 1
    simp only [MReader.val, h0]

theorem MReader.empty_iff {rd : MReader} (h : rd.Ok) : rd.val.q = [] ↔ rd.r = rd.w := by
  have hrw := h.rw
  have hl := h.len
  constructor
  · intro hq; rw [hq] at hl; simp at hl; omega
  · intro he; apply List.eq_nil_of_length_eq_zero; omega

theorem MReader.readByte_val {rd : MReader} (h : rd.Ok) :
    rd.val.readByte = (rd.readByte.1, rd.readByte.2.val) ∧ rd.readByte.2.Ok := by
  have key : ∀ rd1 : MReader, rd1.Ok →
      (match rd1.val.q with
        | [] => (none, { rd1.val with err := false })
        | b :: q => (some b, { rd1.val with q := q, r := rd1.val.r + 1, last := some b })) =
      ((if rd1.r = rd1.w then ((none : Option UInt8), { rd1 with err := false })
        else (some (rd1.buf.getD rd1.r 0), { rd1 with r := rd1.r + 1, last := some (rd1.buf.getD rd1.r 0) })).1,
       (if rd1.r = rd1.w then ((none : Option UInt8), { rd1 with err := false })
        else (some (rd1.buf.getD rd1.r 0), { rd1 with r := rd1.r + 1, last := some (rd1.buf.getD rd1.r 0) })).2.val) ∧
      (if rd1.r = rd1.w then ((none : Option UInt8), { rd1 with err := false })
        else (some (rd1.buf.getD rd1.r 0), { rd1 with r := rd1.r + 1, last := some (rd1.buf.getD rd1.r 0) })).2.Ok := by
    intro rd1 h1
    have hrw := h1.rw
    have hwb := h1.wb
    by_cases he : rd1.r = rd1.w
    · rw [if_pos he, (MReader.empty_iff h1).2 he]
      exact ⟨rfl, ⟨hrw, hwb, h1.pos⟩⟩
    · rw [if_neg he]
      have hc : rd1.val.q = rd1.buf.getD rd1.r 0 :: window rd1.buf (rd1.r + 1) (rd1.w - rd1.r - 1) :=
        window_cons (by omega) (by omega)
      rw [hc]
      refine ⟨?_, ⟨by show rd1.r + 1 ≤ rd1.w; omega, hwb, h1.pos⟩⟩
      simp only [MReader.val]
      rw [show rd1.w - (rd1.r + 1) = rd1.w - rd1.r - 1 by omega]
  unfold Reader.readByte MReader.readByte
  by_cases hf : rd.r = rd.w ∧ rd.err = false
  · have hf' : rd.val.q = [] ∧ rd.val.err = false := ⟨(MReader.empty_iff h).2 hf.1, hf.2⟩
    obtain ⟨h1, h2, -⟩ := MReader.fill_val h
    simp only [if_pos hf, if_pos hf', ← h1]
    exact key _ h2
  · have hf' : ¬ (rd.val.q = [] ∧ rd.val.err = false) := fun hx => hf ⟨(MReader.empty_iff h).1 hx.1, hx.2⟩
    simp only [if_neg hf, if_neg hf']
    exact key _ h

theorem MReader.unreadByte_val {rd : MReader} (h : rd.Ok) : rd.val.unreadByte = rd.unreadByte.val ∧ rd.unreadByte.Ok := by
  have hrw := h.rw
  have hwb := h.wb
  have hpos := h.pos
  unfold Reader.unreadByte MReader.unreadByte
  rw [show rd.val.last = rd.last from rfl]
  cases hl : rd.last with
  | none => exact ⟨rfl, h⟩
  | some b =>
    simp only []
    by_cases h0 : rd.r = 0 ∧ 0 < rd.w
    · have h0' : rd.val.r = 0 ∧ rd.val.q ≠ [] := ⟨h0.1, fun hx => by have := (MReader.empty_iff h).1 hx; omega⟩
      rw [if_pos h0, if_pos h0']; exact ⟨rfl, h⟩
    · have h0' : ¬ (rd.val.r = 0 ∧ rd.val.q ≠ []) := fun hx => h0 ⟨hx.1, by
        have h2 : rd.r = 0 := hx.1
        have h3 := mt (MReader.empty_iff h).2 hx.2
        omega⟩
      rw [if_neg h0, if_neg h0']
      by_cases h1 : 0 < rd.r
      · rw [if_pos h1]
        have hcl : (copyAt rd.buf (rd.r - 1) [b]).length = rd.buf.length := copyAt_length (by omega)
        refine ⟨?_, ⟨by show rd.r - 1 ≤ rd.w; omega, le_of_le_of_eq' hwb hcl.symm, le_of_le_of_eq' hpos hcl.symm⟩⟩
        simp only [MReader.val, hcl, window_unread h1 hrw hwb]
      · rw [if_neg h1]
        have hr : rd.r = 0 := by omega
        have hw : rd.w = 0 := by omega
        have hcl : (copyAt rd.buf 0 [b]).length = rd.buf.length := copyAt_length (by omega)
        refine ⟨?_, ⟨by show rd.r ≤ 1; omega, le_of_le_of_eq' hpos hcl.symm, le_of_le_of_eq' hpos hcl.symm⟩⟩
        simp only [MReader.val, hcl, hr, hw, Nat.sub_zero, window_unread0 hpos, window_zero, Nat.zero_sub]

theorem mpeekFill_val (n fuel : Nat) (rd : MReader) (h : rd.Ok) :
    (mpeekFill n fuel rd).val = peekFill n fuel rd.val ∧ (mpeekFill n fuel rd).Ok := by
  induction fuel generalizing rd with
  | zero => exact ⟨rfl, h⟩
  | succ fuel ih =>
    rw [mpeekFill, peekFill, h.len, show rd.val.cap = rd.buf.length from rfl, show rd.val.err = rd.err from rfl]
    split
    · obtain ⟨h1, h2, -⟩ := MReader.fill_val h
      rw [← h1]; exact ih _ h2
    · exact ⟨rfl, h⟩

theorem MReader.peek_val {rd : MReader} (h : rd.Ok) (n : Int) :
    rd.val.peek n = ((rd.peek n).1.bytes (rd.peek n).2.2.buf, (rd.peek n).2.1, (rd.peek n).2.2.val) ∧ (rd.peek n).2.2.Ok ∧
    ((rd.peek n).2.1 = true → (rd.peek n).1 = .view (rd.peek n).2.2.r n.toNat ∧
      n.toNat ≤ (rd.peek n).2.2.w - (rd.peek n).2.2.r) := by
  unfold Reader.peek MReader.peek
  by_cases hn : n < 0
  · simp only [if_pos hn]; exact ⟨rfl, h, by simp⟩
  · simp only [if_neg hn]
    obtain ⟨h1, h2⟩ := mpeekFill_val n.toNat (n.toNat + 1) { rd with last := none } ⟨h.rw, h.wb, h.pos⟩
    rw [show ({ rd.val with last := none } : Reader) = ({ rd with last := none } : MReader).val from rfl, ← h1]
    obtain ⟨rd1, hrd1⟩ : ∃ x, x = mpeekFill n.toNat (n.toNat + 1) { rd with last := none } := ⟨_, rfl⟩
    rw [← hrd1] at h2 ⊢
    rw [h2.len, show rd1.val.cap = rd1.buf.length from rfl]
    by_cases ha : rd1.buf.length < n.toNat
    · simp only [if_pos ha]; exact ⟨rfl, h2, by simp⟩
    · simp only [if_neg ha]
      by_cases hb : rd1.w - rd1.r < n.toNat
      · simp only [if_pos hb]; exact ⟨rfl, ⟨h2.rw, h2.wb, h2.pos⟩, by simp⟩
      · simp only [if_neg hb]
        refine ⟨?_, h2, fun _ => ⟨trivial, by omega⟩⟩
        rw [show rd1.val.q = window rd1.buf rd1.r (rd1.w - rd1.r) from rfl, window_take _ _ _ _ (by omega)]
        rfl

/-- after a successful `Peek` the `Discard` does not touch the buffer -/
theorem MReader.discard_val {rd : MReader} (h : rd.Ok) {n : Nat} (hn : 0 < n) (hb : n ≤ rd.w - rd.r) :
    (rd.discard n).val = rd.val.discard n ∧ (rd.discard n).Ok ∧ (rd.discard n).buf = rd.buf := by
  have hrw := h.rw
  unfold MReader.discard
  rw [if_neg (by omega), mdiscardLoop]
  have h1 : ¬ (rd.w - rd.r = 0) := by omega
  have h2 : min (rd.w - rd.r) n = n := by omega
  simp only [h1, if_false, h2, Nat.sub_self, if_true]
  refine ⟨?_, ⟨by show rd.r + n ≤ rd.w; omega, h.wb, h.pos⟩, trivial⟩
  simp only [MReader.val, Reader.discard, window_drop]
  rw [show rd.w - (rd.r + n) = rd.w - rd.r - n by omega]

theorem MReader.remaining_val {rd : MReader} (h : rd.Ok) : rd.val.remaining = rd.remaining := by
  rw [Reader.remaining, MReader.remaining, h.len]
  congr 2
  show ((rd.sched.map MRead.plain).map _) = _
  rw [List.map_map]; rfl

theorem mnewReader_val (size : Int) (sched : List MRead) :
    (mnewReader size sched).val = newReader size (sched.map MRead.plain) ∧ (mnewReader size sched).Ok := by
  refine ⟨?_, ⟨Nat.le_refl _, Nat.zero_le _, ?_⟩⟩
  · simp only [MReader.val, mnewReader, newReader, List.length_replicate, Nat.sub_self, window_zero]
  · simp only [mnewReader, List.length_replicate]; split <;> omega

/-! ## `Scanner` -/

/-- the value of a scanner -/
def MScanner.val (s : MScanner) : Scanner := ⟨s.r.val, s.msglen, s.ready⟩

theorem MScanner.read_val {s : MScanner} (h : s.r.Ok) : s.val.read = (s.read.1, s.read.2.val) ∧ s.read.2.r.Ok := by
  obtain ⟨h1, h2⟩ := MReader.readByte_val h
  unfold Scanner.read MScanner.read
  rw [show s.val.r = s.r.val from rfl, h1]
  revert h2
  obtain ⟨o, rd⟩ := s.r.readByte
  cases o <;> exact fun h2 => ⟨rfl, h2⟩

theorem MScanner.unread_val {s : MScanner} (h : s.r.Ok) : s.val.unread = s.unread.val ∧ s.unread.r.Ok := by
  obtain ⟨h1, h2⟩ := MReader.unreadByte_val h
  refine ⟨?_, h2⟩
  unfold Scanner.unread MScanner.unread
  rw [show s.val.r = s.r.val from rfl, h1]; rfl

theorem mscanDigits_val (fuel : Nat) (s : MScanner) (buf : Bytes) (h : s.r.Ok) :
    scanDigits fuel s.val buf = ((mscanDigits fuel s buf).1, (mscanDigits fuel s buf).2.val) ∧ (mscanDigits fuel s buf).2.r.Ok := by
  induction fuel generalizing s buf with
  | zero => exact ⟨rfl, h⟩
  | succ fuel ih =>
    obtain ⟨h1, h2⟩ := MScanner.read_val h
    rw [scanDigits, mscanDigits, h1]
    revert h2
    obtain ⟨b, s1⟩ := s.read
    intro h2
    replace h2 : s1.r.Ok := h2
    simp only []
    by_cases hb : b = 0
    · simp only [if_pos hb]; exact ⟨trivial, h2⟩
    · simp only [if_neg hb]
      by_cases hd : (!isDigit b) = true
      · simp only [if_pos hd]
        obtain ⟨h3, h4⟩ := MScanner.unread_val h2
        exact ⟨by rw [h3], h4⟩
      · simp only [if_neg hd]; exact ih _ _ h2

theorem MScanner.scanMsgLen_val {s : MScanner} (h : s.r.Ok) :
    s.val.scanMsgLen = (s.scanMsgLen.1.now s.scanMsgLen.2.r.buf, s.scanMsgLen.2.val) ∧ s.scanMsgLen.2.r.Ok := by
  obtain ⟨h1, h2⟩ := MScanner.read_val h
  unfold Scanner.scanMsgLen MScanner.scanMsgLen
  rw [h1]
  revert h2
  obtain ⟨b, s1⟩ := s.read
  intro h2
  replace h2 : s1.r.Ok := h2
  obtain ⟨h3, h4⟩ := mscanDigits_val (s1.r.remaining + 1) s1 [b] h2
  simp only [show s1.val.r = s1.r.val from rfl, MReader.remaining_val h2, h3]
  exact ⟨rfl, h4⟩

theorem toInt_pos {n : Nat} (h : 0 < n) (hn : n < 2 ^ 64) : 0 < (toInt n).toNat ∨ toInt n < 0 := by
  unfold toInt
  by_cases h1 : n < 2 ^ 63
  · rw [if_pos h1]; omega
  · rw [if_neg h1]; omega

theorem MScanner.scanSyslogMsg_val {s : MScanner} (h : s.r.Ok) (hm : 0 < (toInt s.msglen).toNat ∨ toInt s.msglen < 0) :
    s.val.scanSyslogMsg = (s.scanSyslogMsg.1.now s.scanSyslogMsg.2.r.buf, s.scanSyslogMsg.2.val) ∧ s.scanSyslogMsg.2.r.Ok := by
  obtain ⟨h1, h2, h3⟩ := MReader.peek_val h (toInt s.msglen)
  have h4 : toInt s.msglen < 0 → (s.r.peek (toInt s.msglen)).2.1 = false := by
    intro hn; unfold MReader.peek; rw [if_pos hn]
  unfold Scanner.scanSyslogMsg MScanner.scanSyslogMsg
  rw [show s.val.r = s.r.val from rfl, show s.val.msglen = s.msglen from rfl, h1]
  revert h2 h3 h4
  obtain ⟨b, ok, rd⟩ := s.r.peek (toInt s.msglen)
  intro h2 h3 h4
  cases ok with
  | false => exact ⟨rfl, h2⟩
  | true =>
    obtain ⟨h5, h6⟩ := h3 rfl
    have hm : 0 < (toInt s.msglen).toNat := by
      cases hm with
      | inl hm => exact hm
      | inr hm => exact absurd (h4 hm) (by simp)
    obtain ⟨h7, h8, h9⟩ := MReader.discard_val h2 hm h6
    refine ⟨?_, h8⟩
    simp only [MToken.now, h9, MScanner.val, h7]

theorem MScanner.read_msglen (s : MScanner) : s.read.2.msglen = s.msglen ∧ s.read.2.ready = s.ready := by
  unfold MScanner.read
  obtain ⟨o, rd⟩ := s.r.readByte
  cases o <;> exact ⟨rfl, rfl⟩

theorem MScanner.scanMsgLen_msglen (s : MScanner) : ∃ w, s.scanMsgLen.2.msglen = parseUint w 0 := ⟨_, rfl⟩

theorem MScanner.scan_val {s : MScanner} (h : s.r.Ok) (hm : s.msglen < 2 ^ 64) :
    s.val.scan = (s.scan.1.now s.scan.2.r.buf, s.scan.2.val) ∧ s.scan.2.r.Ok ∧ s.scan.2.msglen < 2 ^ 64 := by
  obtain ⟨h1, h2⟩ := MScanner.read_val h
  have hml := (MScanner.read_msglen s).1
  unfold Scanner.scan MScanner.scan
  rw [h1]
  revert h2 hml
  obtain ⟨b, s1⟩ := s.read
  intro h2 hml
  replace h2 : s1.r.Ok := h2
  replace hml : s1.msglen < 2 ^ 64 := by rw [show s1.msglen = s.msglen from hml]; exact hm
  obtain ⟨h3, h4⟩ := MScanner.unread_val h2
  by_cases hd : isNonZeroDigit b = true
  · simp only [if_pos hd]
    obtain ⟨h5, h6⟩ := MScanner.scanMsgLen_val (s := { s1.unread with ready := false }) h4
    refine ⟨?_, h6, ?_⟩
    · have h7 : ({ s1.val.unread with ready := false } : Scanner) = ({ s1.unread with ready := false } : MScanner).val := by rw [h3]; rfl
      rw [h7, h5]
    · obtain ⟨w, hw⟩ := MScanner.scanMsgLen_msglen { s1.unread with ready := false }
      rw [hw]; exact parseUint_lt _ _ (by omega)
  · simp only [if_neg hd]
    by_cases h0 : b = 0
    · simp only [if_pos h0]; exact ⟨rfl, h2, hml⟩
    · simp only [if_neg h0]
      by_cases hw : b = 32
      · simp only [if_pos hw]; exact ⟨rfl, h2, hml⟩
      · simp only [if_neg hw]
        by_cases hl : b = 60 ∧ s1.msglen > 0 ∧ s1.ready = true
        · have hl' : b = 60 ∧ s1.val.msglen > 0 ∧ s1.val.ready = true := hl
          simp only [if_pos hl, if_pos hl']
          obtain ⟨h5, h6⟩ := MScanner.scanSyslogMsg_val (s := s1.unread) h4 (toInt_pos hl.2.1 hml)
          refine ⟨by rw [h3]; exact h5, h6, ?_⟩
          unfold MScanner.scanSyslogMsg
          obtain ⟨x, ok, rd⟩ := s1.unread.r.peek (toInt s1.unread.msglen)
          cases ok
          · exact hml
          · show (0 : Nat) < 2 ^ 64; omega
        · have hl' : ¬ (b = 60 ∧ s1.val.msglen > 0 ∧ s1.val.ready = true) := hl
          simp only [if_neg hl, if_neg hl']
          exact ⟨rfl, h2, hml⟩

/-! ## `parser` -/

/-- the parser `p` on memory and the parser `q` on values agree. What they have kept of the last token needs to agree only if it was
pushed back. -/
structure MSim (p : MParser) (q : Parser) : Prop where
  max : q.maxMessageLength = p.maxMessageLength
  be : q.bestEffort = p.bestEffort
  s : q.s = p.s.val
  internal : q.internal = p.internal
  step : q.stepback = p.stepback
  last : p.stepback = true → q.last = p.last.now p.mem
  ok : p.s.r.Ok
  len : p.s.msglen < 2 ^ 64

theorem MSim.scan {p : MParser} {q : Parser} (h : MSim p q) :
    q.scan.1 = p.scan.1.now p.scan.2.mem ∧ MSim p.scan.2 q.scan.2 ∧ q.scan.2.last = p.scan.2.last.now p.scan.2.mem := by
  unfold Parser.scan MParser.scan
  rw [h.step]
  by_cases hs : p.stepback = true
  · simp only [if_pos hs]
    exact ⟨h.last hs, ⟨h.max, h.be, h.s, h.internal, rfl, fun _ => h.last hs, h.ok, h.len⟩, h.last hs⟩
  · simp only [if_neg hs]
    obtain ⟨h1, h2, h3⟩ := MScanner.scan_val h.ok h.len
    rw [h.s, h1]
    exact ⟨rfl, ⟨h.max, h.be, rfl, h.internal, rfl, fun hx => absurd hx hs, h2, h3⟩, rfl⟩

theorem MSim.unscan {p : MParser} {q : Parser} (h : MSim p q) (hl : q.last = p.last.now p.mem) : MSim p.unscan q.unscan :=
  ⟨h.max, h.be, h.s, h.internal, rfl, fun _ => hl, h.ok, h.len⟩

/-- the message parser does not look at what it still holds of the message before -/
theorem parse_held (m : Rfc5424.M) (d input : Bytes) : Rfc5424.parse { m with data := d } input = Rfc5424.parse m input := rfl

theorem MSim.parseMsg {p : MParser} {q : Parser} (h : MSim p q) (lit : Lit) :
    match p.parseMsg lit, q.parseMsg (lit.bytes p.mem) with
    | none, none => True
    | some (r, p'), some (r', q') => r = r' ∧ MSim p' q' ∧ p'.mem = p.mem ∧ p'.bestEffort = p.bestEffort
    | _, _ => False := by
  unfold MParser.parseMsg Parser.parseMsg
  rw [parse_held, h.internal]
  cases Rfc5424.parse p.internal (lit.bytes p.mem) with
  | none => trivial
  | some x => exact ⟨rfl, ⟨h.max, h.be, h.s, rfl, h.step, h.last, h.ok, h.len⟩, rfl, rfl⟩

/-- results agree, and so do the parsers left behind -/
def Agree : Option (List Result × MParser) → Option (List Result × Parser) → Prop
  | none, none => True
  | some (rs, p), some (rs', q) => rs = rs' ∧ MSim p q
  | _, _ => False

theorem mrunLoop_sim (fuel : Nat) (p : MParser) (q : Parser) (h : MSim p q) : Agree (mrunLoop fuel p) (runLoop fuel q) := by
  induction fuel generalizing p q with
  | zero => exact trivial
  | succ fuel ih =>
    rw [mrunLoop, runLoop]
    obtain ⟨t1, s1, -⟩ := h.scan
    revert t1 s1
    obtain ⟨tok, p⟩ := p.scan
    obtain ⟨tok', q⟩ := q.scan
    intro t1 s1
    replace t1 : tok' = tok.now p.mem := t1
    replace s1 : MSim p q := s1
    subst t1
    simp only [show (tok.now p.mem).typ = tok.typ from rfl]
    clear h
    by_cases c1 : tok.typ ≠ .MSGLEN
    · simp only [if_pos c1]; exact ⟨rfl, s1⟩
    · simp only [if_neg c1]
      rw [s1.s, s1.max, show p.s.val.msglen = p.s.msglen from rfl]
      by_cases c2 : toInt p.s.msglen > p.maxMessageLength
      · simp only [if_pos c2]; exact ⟨rfl, s1⟩
      · simp only [if_neg c2]
        clear c1 c2
        obtain ⟨t2, s2, -⟩ := s1.scan
        revert t2 s2
        obtain ⟨tok2, p2⟩ := p.scan
        obtain ⟨tok2', q2⟩ := q.scan
        intro t2 s2
        replace t2 : tok2' = tok2.now p2.mem := t2
        replace s2 : MSim p2 q2 := s2
        subst t2
        clear s1
        simp only [show (tok2.now p2.mem).typ = tok2.typ from rfl]
        by_cases c3 : tok2.typ ≠ .WS
        · simp only [if_pos c3]; exact ⟨rfl, s2⟩
        · simp only [if_neg c3]
          clear c3
          obtain ⟨t3, s3, -⟩ := s2.scan
          revert t3 s3
          obtain ⟨tok3, p3⟩ := p2.scan
          obtain ⟨tok3', q3⟩ := q2.scan
          intro t3 s3
          replace t3 : tok3' = tok3.now p3.mem := t3
          replace s3 : MSim p3 q3 := s3
          subst t3
          clear s2
          have hp := s3.parseMsg tok3.lit
          simp only [show (tok3.now p3.mem).typ = tok3.typ from rfl, show (tok3.now p3.mem).lit = tok3.lit.bytes p3.mem from rfl, s3.s,
            s3.be, show p3.s.val.msglen = p3.s.msglen from rfl]
          by_cases c4 : tok3.typ ≠ .SYSLOGMSG
          · simp only [if_pos c4]
            split
            · revert hp
              cases p3.parseMsg tok3.lit <;> cases q3.parseMsg (tok3.lit.bytes p3.mem) <;> intro hp
              · trivial
              · exact False.elim hp
              · exact False.elim hp
              · obtain ⟨h1, h2, -⟩ := hp
                refine ⟨?_, h2⟩
                rw [h1]; rfl
            · exact ⟨rfl, s3⟩
          · simp only [if_neg c4]
            revert hp
            cases p3.parseMsg tok3.lit <;> cases q3.parseMsg (tok3.lit.bytes p3.mem) <;> intro hp
            · trivial
            · exact False.elim hp
            · exact False.elim hp
            · rename_i x y
              obtain ⟨r, p4⟩ := x
              obtain ⟨r', q4⟩ := y
              obtain ⟨h1, s4, -⟩ := hp
              replace h1 : r = r' := h1
              replace s4 : MSim p4 q4 := s4
              subst h1
              simp only [s4.be]
              by_cases c5 : p4.bestEffort = false ∧ r.err ≠ none
              · simp only [if_pos c5]; exact ⟨rfl, s4⟩
              · simp only [if_neg c5]
                clear c5
                obtain ⟨t5, s5, l5⟩ := s4.scan
                revert t5 s5 l5
                obtain ⟨tok5, p5⟩ := p4.scan
                obtain ⟨tok5', q5⟩ := q4.scan
                intro t5 s5 l5
                replace t5 : tok5' = tok5.now p5.mem := t5
                subst t5
                simp only [show (tok5.now p5.mem).typ = tok5.typ from rfl]
                by_cases c6 : tok5.typ = .EOF
                · simp only [if_pos c6]; exact ⟨rfl, s5⟩
                · simp only [if_neg c6]
                  have hi := ih p5.unscan q5.unscan (s5.unscan l5)
                  revert hi
                  cases mrunLoop fuel p5.unscan <;> cases runLoop fuel q5.unscan <;> intro hi
                  · trivial
                  · exact False.elim hi
                  · exact False.elim hi
                  · exact ⟨by rw [hi.1], hi.2⟩

/-- what a parser keeps between calls, and that nothing is pushed back -/
structure SimIdle (p : MParser) (q : Parser) : Prop where
  max : q.maxMessageLength = p.maxMessageLength
  be : q.bestEffort = p.bestEffort
  internal : q.internal = p.internal
  stepq : q.stepback = false
  stepp : p.stepback = false

theorem simIdle_new (opts : List Opt) : SimIdle (mnewParser opts) (newParser opts) := by
  refine ⟨rfl, rfl, rfl, ?_, rfl⟩
  have : ∀ (l : List Opt) (p : Parser), (l.foldl applyOpt p).stepback = p.stepback := by
    intro l
    induction l with
    | nil => intro p; rfl
    | cons o l ih => intro p; rw [List.foldl_cons, ih]; cases o <;> rfl
  exact this opts {}

theorem SimIdle.parse {p : MParser} {q : Parser} (h : SimIdle p q) (sched : List MRead) :
    Agree (p.parse sched) (q.parse (sched.map MRead.plain)) := by
  obtain ⟨h1, h2⟩ := mnewReader_val (wrapInt (p.maxMessageLength + 20)) sched
  unfold MParser.parse Parser.parse
  have hr : (newScanner (sched.map MRead.plain) q.maxMessageLength).r = (mnewScanner sched p.maxMessageLength).r.val := by
    rw [newScanner, mnewScanner, h.max, ← h1]
  have hfuel : (newScanner (sched.map MRead.plain) q.maxMessageLength).r.remaining = (mnewScanner sched p.maxMessageLength).r.remaining := by
    rw [hr]; exact MReader.remaining_val h2
  simp only [hfuel]
  refine mrunLoop_sim _ _ _ ⟨h.max, h.be, ?_, h.internal, by rw [h.stepp, h.stepq], fun hx => absurd (h.stepp.symm.trans hx) (by simp), h2,
    by show (0 : Nat) < 2 ^ 64; omega⟩
  show newScanner _ _ = MScanner.val _
  rw [MScanner.val, ← hr]; rfl

theorem SimIdle.parseOn {p : MParser} {q : Parser} (h : SimIdle p q) (rd : MReader) (hrd : rd.Ok)
    (hbig : wrapInt (p.maxMessageLength + 20) ≤ rd.buf.length) : Agree (p.parseOn rd) (q.parseOn rd.val) := by
  unfold MParser.parseOn Parser.parseOn
  have hr : newScannerOn rd.val q.maxMessageLength = { r := rd.val } := by
    rw [newScannerOn, newReaderOn, h.max, if_pos (by exact hbig)]
  simp only [hr, MReader.remaining_val hrd]
  exact mrunLoop_sim _ _ _ ⟨h.max, h.be, rfl, h.internal, by rw [h.stepp, h.stepq], fun hx => absurd (h.stepp.symm.trans hx) (by simp), hrd,
    by show (0 : Nat) < 2 ^ 64; omega⟩

end Verif.Octet
