import Verif.Octet.Frames

/-! # What a call of `Parse` leaves in the reader -/

namespace Verif.Octet
open Verif.Spec

theorem prunc_frame {be : Bool} {max : Int} {cap : Nat} {f : LooseFrame} (hf : f.WF max) (hc : (f.msg.length : Int) ≤ cap)
    (hok : be = true ∨ (pmsg be f.msg).err = none) (rest : Events) :
    prunc be max cap (f.text.map some ++ rest) =
      if Ends rest then ([pmsg be f.msg], (pscan ⟨rest, 0, false⟩).2.inp)
      else (pmsg be f.msg :: (prunc be max cap rest).1, (prunc be max cap rest).2) := by
  rw [prunc, pscan_frame_len hf rest]
  simp only []
  rw [if_neg (by simp), if_neg (by rw [toInt_nat hf.int]; have := hf.max; omega), pscan_ws]
  simp only []
  rw [if_neg (by simp), if_neg (by rw [toInt_nat hf.int]; omega), pscan_msg _ hf.lt hf.int]
  simp only []
  rw [if_neg (by simp), if_neg (by rintro ⟨h1, h2⟩; rcases hok with h | h; · simp [h] at h1
                                   · exact h2 h)]
  by_cases he : Ends rest
  · rw [if_pos ((pscan_eof_iff rest).mpr he), if_pos he]
  · rw [if_neg (fun h => he ((pscan_eof_iff rest).mp h)), if_neg he, if_pos]
    simp only [LooseFrame.text, List.map_append, List.length_append, List.length_map, List.length_cons]
    omega

theorem prunc_frame_bad {max : Int} {cap : Nat} {f : LooseFrame} (hf : f.WF max) (hc : (f.msg.length : Int) ≤ cap)
    (hbad : (pmsg false f.msg).err ≠ none) (rest : Events) :
    prunc false max cap (f.text.map some ++ rest) = ([⟨none, (pmsg false f.msg).err⟩], rest) := by
  rw [prunc, pscan_frame_len hf rest]
  simp only []
  rw [if_neg (by simp), if_neg (by rw [toInt_nat hf.int]; have := hf.max; omega), pscan_ws]
  simp only []
  rw [if_neg (by simp), if_neg (by rw [toInt_nat hf.int]; omega), pscan_msg _ hf.lt hf.int]
  simp only []
  rw [if_neg (by simp), if_pos ⟨trivial, hbad⟩]

/-- a message that does not fit the buffer -/
theorem prunc_full {be : Bool} {max : Int} {cap : Nat} {f : LooseFrame} (hf : f.WF max) (hc : cap < f.msg.length) (rest : Events) :
    prunc be max cap (f.text.map some ++ rest) =
      (if be = true then [⟨(pmsg be (f.msg.take cap)).msg,
          some ((pmsg be (f.msg.take cap)).err.getD (.notMsg ⟨.EOF, f.msg.take cap⟩ f.msg.length))⟩]
        else [⟨none, some (.notMsg ⟨.EOF, f.msg.take cap⟩ f.msg.length)⟩], f.msg.map some ++ rest) := by
  rw [prunc, pscan_frame_len hf rest]
  simp only []
  rw [if_neg (by simp), if_neg (by rw [toInt_nat hf.int]; have := hf.max; omega), pscan_ws]
  simp only []
  have hfr : front cap (f.msg.map some ++ rest) = f.msg.take cap := by
    rw [front_somes, show cap - f.msg.length = 0 by omega, front_zero, List.append_nil]
  rw [if_neg (by simp), if_pos, hfr]
  refine ⟨by rw [toInt_nat hf.int]; omega, ?_⟩
  have := hf.lt
  cases hm : f.msg with
  | nil => rw [hm] at this; simp at this
  | cons c t => rw [hm] at this; simp at this; simp [pread, this]

theorem prunc_empty (be : Bool) (max : Int) (cap : Nat) : prunc be max cap [] = ([⟨none, some (.notMsgLen ⟨.EOF, []⟩)⟩], []) := by
  rw [prunc]; simp [pscan, pread]

theorem octetFrame_text (m : Bytes) : octetFrame m = (⟨dec m.length, false, m⟩ : LooseFrame).text := by
  simp [octetFrame, LooseFrame.text]

theorem octetFrame_wf {max : Int} {m : Bytes} (h : m.head? = some 60 ∧ (m.length : Int) ≤ max ∧ m.length < 2 ^ 63) :
    (⟨dec m.length, false, m⟩ : LooseFrame).WF max :=
  ⟨dec_ne_nil _, dec_digits _, numVal_dec _, h.1, h.2.1, h.2.2⟩

theorem not_ends_frame (m : Bytes) (rest : Events) : ¬ Ends ((octetFrame m).map some ++ rest) := by
  have h := dec_digits m.length
  have hne := dec_ne_nil m.length
  unfold octetFrame
  cases hd : dec m.length with
  | nil => exact absurd hd hne
  | cons c w =>
    have hc := h c (by rw [hd]; simp)
    have : c ≠ 0 := by rintro rfl; simp at hc
    simp [Ends, this]

/-- good frames, a bad one: strict mode stops right after it -/
theorem prunc_group {max : Int} {cap : Nat} (hc : max ≤ cap) (good : List Bytes) (bad : Bytes) (rest : Events)
    (hg : ∀ m ∈ good, (m.head? = some 60 ∧ (m.length : Int) ≤ max ∧ m.length < 2 ^ 63) ∧ (pmsg false m).err = none)
    (hb : bad.head? = some 60 ∧ (bad.length : Int) ≤ max ∧ bad.length < 2 ^ 63) (hbad : (pmsg false bad).err ≠ none) :
    prunc false max cap ((good.flatMap octetFrame ++ octetFrame bad).map some ++ rest) =
      (good.map (pmsg false) ++ [pmsg false bad], rest) := by
  induction good with
  | nil =>
    simp only [List.flatMap_nil, List.nil_append, List.map_nil]
    rw [octetFrame_text, prunc_frame_bad (octetFrame_wf hb) (by simp only []; omega) hbad]
    rcases strict_pmsg bad with ⟨m, hm⟩ | ⟨e, he⟩
    · rw [hm] at hbad; simp at hbad
    · simp only [he]
  | cons m good ih =>
    have hm := hg m (by simp)
    have hend : ¬ Ends ((good.flatMap octetFrame ++ octetFrame bad).map some ++ rest) := by
      cases good with
      | nil => simpa using not_ends_frame bad rest
      | cons g gs =>
        rw [List.flatMap_cons, List.append_assoc, List.map_append, List.append_assoc]
        exact not_ends_frame _ _
    rw [List.flatMap_cons, List.append_assoc, List.map_append, List.append_assoc, octetFrame_text m,
      prunc_frame (octetFrame_wf hm.1) (by have := hm.1.2.1; simp only []; omega) (Or.inr hm.2), if_neg hend,
      ih (fun x hx => hg x (by simp [hx]))]
    rfl

/-- good frames up to the end -/
theorem prunc_good {max : Int} {cap : Nat} (hc : max ≤ cap) (good : List Bytes) (hne : good ≠ [])
    (hg : ∀ m ∈ good, (m.head? = some 60 ∧ (m.length : Int) ≤ max ∧ m.length < 2 ^ 63) ∧ (pmsg false m).err = none) :
    prunc false max cap ((good.flatMap octetFrame).map some) = (good.map (pmsg false), []) := by
  induction good with
  | nil => exact absurd rfl hne
  | cons m good ih =>
    have hm := hg m (by simp)
    rw [List.flatMap_cons, List.map_append, octetFrame_text m,
      prunc_frame (octetFrame_wf hm.1) (by have := hm.1.2.1; simp only []; omega) (Or.inr hm.2)]
    cases good with
    | nil => simp [Ends, pscan, pread]
    | cons g gs =>
      rw [if_neg (by
        rw [List.flatMap_cons, List.map_append]
        exact not_ends_frame _ _), ih (by simp) (fun x hx => hg x (by simp only [List.mem_cons] at hx ⊢; exact Or.inr hx))]
      rfl

/-! ## what is left in the underlying reader -/

theorem fillLoop_sched_nil (i : Nat) (rd : Reader) (h : rd.sched = []) : (fillLoop i rd).sched = [] := by
  cases i with
  | zero => exact h
  | succ i => simp [fillLoop, h, readCall]

theorem readByte_sched_nil (rd : Reader) (h : rd.sched = []) : rd.readByte.2.sched = [] := by
  have h1 : (if rd.q = [] ∧ rd.err = false then rd.fill else rd).sched = [] := by
    split
    · exact fillLoop_sched_nil 100 { rd with r := 0 } h
    · exact h
  simp only [Reader.readByte]
  generalize (if rd.q = [] ∧ rd.err = false then rd.fill else rd) = rd1 at *
  cases rd1.q <;> exact h1

theorem unread_sched (rd : Reader) : rd.unreadByte.sched = rd.sched := by
  simp only [Reader.unreadByte]
  split
  · rfl
  · split <;> rfl

theorem peekFill_sched_nil (n fuel : Nat) (rd : Reader) (h : rd.sched = []) : (peekFill n fuel rd).sched = [] := by
  induction fuel generalizing rd with
  | zero => exact h
  | succ fuel ih =>
    simp only [peekFill]
    split
    · exact ih _ (fillLoop_sched_nil 100 { rd with r := 0 } h)
    · exact h

theorem peek_sched_nil (rd : Reader) (n : Int) (h : rd.sched = []) : (rd.peek n).2.2.sched = [] := by
  simp only [Reader.peek]
  split
  · exact h
  · have := peekFill_sched_nil n.toNat (n.toNat + 1) { rd with last := none } h
    generalize peekFill n.toNat (n.toNat + 1) { rd with last := none } = rd1 at *
    split
    · exact this
    · split <;> exact this

theorem read_sched_nil (s : Scanner) (h : s.r.sched = []) : s.read.2.r.sched = [] := by
  have := readByte_sched_nil s.r h
  simp only [Scanner.read]
  generalize s.r.readByte = q at *
  obtain ⟨o, r⟩ := q
  cases o <;> exact this

theorem scanDigits_sched_nil (fuel : Nat) (s : Scanner) (buf : Bytes) (h : s.r.sched = []) : (scanDigits fuel s buf).2.r.sched = [] := by
  induction fuel generalizing s buf with
  | zero => exact h
  | succ fuel ih =>
    have h1 := read_sched_nil s h
    simp only [scanDigits]
    generalize s.read = q at *
    obtain ⟨b, s1⟩ := q
    simp only at h1 ⊢
    split
    · exact h1
    · split
      · exact (unread_sched s1.r).trans h1
      · exact ih _ _ h1

theorem scan_sched_nil' (s : Scanner) (h1 : s.read.2.r.sched = []) : s.scan.2.r.sched = [] := by
  simp only [Scanner.scan]
  generalize s.read = q at *
  obtain ⟨b, s1⟩ := q
  simp only at h1 ⊢
  have hu : s1.unread.r.sched = [] := (unread_sched s1.r).trans h1
  split
  · simp only [Scanner.scanMsgLen]
    have h2 := read_sched_nil { s1.unread with ready := false } hu
    generalize Scanner.read { s1.unread with ready := false } = q at *
    obtain ⟨b2, s2⟩ := q
    simp only at h2 ⊢
    have h3 := scanDigits_sched_nil (s2.r.remaining + 1) s2 [b2] h2
    exact h3
  · split
    · exact h1
    · split
      · exact h1
      · split
        · simp only [Scanner.scanSyslogMsg]
          have h2 := peek_sched_nil s1.unread.r (toInt s1.unread.msglen) hu
          generalize s1.unread.r.peek (toInt s1.unread.msglen) = q at *
          obtain ⟨w, ok, r⟩ := q
          cases ok <;> exact h2
        · exact h1

theorem scan_sched_nil (s : Scanner) (h : s.r.sched = []) : s.scan.2.r.sched = [] :=
  scan_sched_nil' s (read_sched_nil s h)

theorem pscan_sched_nil (p : Parser) (h : p.s.r.sched = []) : p.scan.2.s.r.sched = [] := by
  simp only [Parser.scan]
  split
  · exact h
  · have := scan_sched_nil p.s h
    generalize p.s.scan = q at *
    exact this

theorem parseMsg_s {p p' : Parser} {lit : Bytes} {r : Result} (h : p.parseMsg lit = some (r, p')) : p'.s = p.s := by
  simp only [Parser.parseMsg] at h
  split at h
  · simp at h
  · simp only [Option.some.injEq, Prod.mk.injEq] at h
    rw [← h.2]

/-- once the underlying reader is exhausted it stays so -/
theorem runLoop_sched_nil (fuel : Nat) (p : Parser) (rs : List Result) (p' : Parser) (h : p.scan.2.s.r.sched = [])
    (hr : runLoop fuel p = some (rs, p')) : p'.s.r.sched = [] := by
  induction fuel generalizing p rs p' with
  | zero => simp [runLoop] at hr
  | succ fuel ih =>
    simp only [runLoop] at hr
    generalize p.scan = q1 at *
    obtain ⟨t1, p1⟩ := q1
    simp only at h hr
    split at hr
    · simp only [Option.some.injEq, Prod.mk.injEq] at hr; rw [← hr.2]; exact h
    split at hr
    · simp only [Option.some.injEq, Prod.mk.injEq] at hr; rw [← hr.2]; exact h
    have h2 := pscan_sched_nil p1 h
    generalize p1.scan = q2 at *
    obtain ⟨t2, p2⟩ := q2
    simp only at h2 hr
    split at hr
    · simp only [Option.some.injEq, Prod.mk.injEq] at hr; rw [← hr.2]; exact h2
    have h3 := pscan_sched_nil p2 h2
    generalize p2.scan = q3 at *
    obtain ⟨t3, p3⟩ := q3
    simp only at h3 hr
    have h4 : ∀ r p4, p3.parseMsg t3.lit = some (r, p4) → p4.s.r.sched = [] := fun r p4 he => by rw [parseMsg_s he]; exact h3
    generalize p3.parseMsg t3.lit = q4 at *
    split at hr
    · split at hr
      · rcases q4 with _ | ⟨r, p4⟩
        · simp at hr
        · simp only [Option.some.injEq, Prod.mk.injEq] at hr; rw [← hr.2]; exact h4 r p4 rfl
      · simp only [Option.some.injEq, Prod.mk.injEq] at hr; rw [← hr.2]; exact h3
    rcases q4 with _ | ⟨r, p4⟩
    · simp at hr
    have h4 := h4 r p4 rfl
    simp only at hr
    split at hr
    · simp only [Option.some.injEq, Prod.mk.injEq] at hr; rw [← hr.2]; exact h4
    have h5 := pscan_sched_nil p4 h4
    generalize p4.scan = q5 at *
    obtain ⟨t5, p5⟩ := q5
    simp only at h5 hr
    split at hr
    · simp only [Option.some.injEq, Prod.mk.injEq] at hr; rw [← hr.2]; exact h5
    have h6 : p5.unscan.scan.2.s.r.sched = [] := h5
    have ih := ih p5.unscan
    generalize runLoop fuel p5.unscan = q6 at *
    rcases q6 with _ | ⟨rs6, p6⟩
    · simp at hr
    · simp only [Option.some.injEq, Prod.mk.injEq] at hr
      rw [← hr.2]; exact ih rs6 p6 h6 rfl

theorem fillLoop_once (i : Nat) (rd : Reader) (bytes : Bytes) (e : Bool) (hs : rd.sched = [⟨bytes, e⟩])
    (hc : bytes.length ≤ rd.cap - rd.q.length) : (fillLoop (i + 1) rd).sched = [] := by
  rw [fillLoop, hs, readCall, if_pos hc]
  simp only []
  split
  · rfl
  · split
    · rfl
    · exact fillLoop_sched_nil _ _ rfl

/-- the first byte is taken together with all that the reader delivers in one `Read`, if it fits the buffer -/
theorem read_once (rd : Reader) (bytes : Bytes) (e : Bool) (hq : rd.q = []) (he : rd.err = false) (hs : rd.sched = [⟨bytes, e⟩])
    (hc : bytes.length ≤ rd.cap) : rd.readByte.2.sched = [] := by
  have h1 : (if rd.q = [] ∧ rd.err = false then rd.fill else rd).sched = [] := by
    rw [if_pos ⟨hq, he⟩]
    exact fillLoop_once 99 { rd with r := 0 } bytes e hs (by simpa [hq] using hc)
  simp only [Reader.readByte]
  generalize (if rd.q = [] ∧ rd.err = false then rd.fill else rd) = rd1 at *
  cases rd1.q <;> exact h1

theorem parse_sched_nil {be : Bool} {max : Int} {p : Parser} (h : Idle be max p) (bytes : Bytes) (e : Bool)
    (hc : bytes.length ≤ bufSize max) {rs : List Result} {p' : Parser} (hr : p.parse [⟨bytes, e⟩] = some (rs, p')) : p'.s.r.sched = [] := by
  refine runLoop_sched_nil _ _ rs p' ?_ hr
  have hn := h.step
  simp only [Parser.scan, hn, Bool.false_eq_true, if_false]
  have h2 : (newScanner [⟨bytes, e⟩] p.maxMessageLength).scan.2.r.sched = [] := by
    apply scan_sched_nil'
    have := read_once (newScanner [⟨bytes, e⟩] p.maxMessageLength).r bytes e rfl rfl rfl
      (by simpa only [newScanner, newReader, h.hmax, bufSize] using hc)
    simp only [Scanner.read]
    generalize (newScanner [⟨bytes, e⟩] p.maxMessageLength).r.readByte = q at *
    obtain ⟨o, r⟩ := q
    cases o <;> exact this
  exact h2

end Verif.Octet
