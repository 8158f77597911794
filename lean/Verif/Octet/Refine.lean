import Verif.Octet.Stream

/-! # The scanner and the parser on events; equality with the model over `bufio` -/

namespace Verif.Octet

/-- the scanner's state as a function of what is still to come -/
structure PS where
  inp : Events
  msglen : Nat := 0
  ready : Bool := false

/-- rest of the digits of MSGLEN; an error or a NUL after them is swallowed -/
def pdigits : Events → Bytes × Events
  | [] => ([], [])
  | none :: r => ([], r)
  | some b :: r =>
    if b = 0 then ([], r)
    else if isDigit b then (b :: (pdigits r).1, (pdigits r).2)
    else ([], some b :: r)

/-- `Scan` -/
def pscan (s : PS) : Token × PS :=
  match pread s.inp with
  | (none, r) => (⟨.EOF, []⟩, ⟨r, s.msglen, false⟩)
  | (some b, r) =>
    if isNonZeroDigit b then (⟨.MSGLEN, b :: (pdigits r).1⟩, ⟨(pdigits r).2, parseUint (b :: (pdigits r).1) 0, false⟩)
    else if b = 0 then (⟨.EOF, []⟩, ⟨r, s.msglen, false⟩)
    else if b = 32 then (⟨.WS, [32]⟩, ⟨r, s.msglen, true⟩)
    else if b = 60 ∧ s.msglen > 0 ∧ s.ready = true then
      if s.msglen < 2 ^ 63 then
        match ppeek s.msglen (some 60 :: r) with
        | (w, false, r') => (⟨.EOF, w⟩, ⟨r', s.msglen, s.ready⟩)
        | (w, true, r') => (⟨.SYSLOGMSG, w⟩, ⟨r'.drop s.msglen, 0, false⟩)
      else (⟨.EOF, []⟩, ⟨some 60 :: r, s.msglen, s.ready⟩)
    else (⟨.ILLEGAL, [b]⟩, ⟨r, s.msglen, s.ready⟩)

def Scanner.abs (s : Scanner) : PS := ⟨s.r.abs, s.msglen, s.ready⟩

/-- number of bytes -/
def nb (l : Events) : Nat := (l.filter Option.isSome).length

theorem nb_somes (q : Bytes) : nb (q.map some) = q.length := by
  induction q with
  | nil => rfl
  | cons b q ih => simp [nb] at ih ⊢; exact ih

theorem nb_append (a b : Events) : nb (a ++ b) = nb a + nb b := by simp [nb]

theorem nb_trim (l : Events) : nb (trim l) = nb l := by
  induction l with
  | nil => rfl
  | cons x l ih =>
    cases x with
    | none =>
      simp only [trim]
      split
      · rename_i h; rw [h] at ih; simp [nb] at ih ⊢; exact ih
      · simp [nb] at ih ⊢; exact ih
    | some b => simp [trim, nb] at ih ⊢; exact ih

theorem nb_ev (i : Nat) (l : List Read) : nb (ev i l) = (l.map fun x => x.data.length).sum := by
  induction l generalizing i with
  | nil => rfl
  | cons r rs ih =>
    simp only [ev, List.map_cons, List.sum_cons]
    have h1 : ∀ x : Events, nb (none :: x) = nb x := fun x => rfl
    split
    · rw [nb_append, nb_somes, h1, ih]
    · split
      · rw [nb_append, nb_somes, ih]
      · rename_i h
        have h : r.data = [] := by simpa using h
        rw [h]
        split
        · rw [h1, ih]; simp
        · rw [ih]; simp

theorem nb_abs (rd : Reader) : nb rd.abs = rd.remaining := by
  rw [Reader.abs, nb_trim, nb_append, nb_append, nb_somes, nb_ev, Reader.remaining]
  have : nb (if rd.err = true then [none] else []) = 0 := by split <;> rfl
  omega

theorem read_spec (s : Scanner) (hok : s.r.Ok) :
    ∃ r', s.read.2 = { s with r := r' } ∧ r'.Ok ∧ r'.cap = s.r.cap ∧
      ((pread s.r.abs = (none, r'.abs) ∧ s.read.1 = 0) ∨
       ∃ b, pread s.r.abs = (some b, r'.abs) ∧ s.read.1 = b ∧ r'.last = some b ∧ 1 ≤ r'.r ∧ r'.q.length < s.r.cap) := by
  obtain ⟨h1, h2, h3, h4⟩ := readByte_spec s.r hok
  simp only [Scanner.read]
  cases hr : s.r.readByte with
  | mk o r' =>
    rw [hr] at h1 h2 h3 h4
    simp only at h1 h2 h3 h4
    cases o with
    | none => exact ⟨r', rfl, h3, h2, Or.inl ⟨h1, rfl⟩⟩
    | some b => exact ⟨r', rfl, h3, h2, Or.inr ⟨b, h1, rfl, h4 b rfl⟩⟩

theorem unread_ok {s : Scanner} {r' : Reader} {b : UInt8} {cap : Nat} (hcap : r'.cap = cap) (hok : r'.Ok)
    (hl : r'.last = some b) (hr : 1 ≤ r'.r) (hq : r'.q.length < cap) :
    ∃ r'', Scanner.unread { s with r := r' } = { s with r := r'' } ∧ r''.abs = some b :: r'.abs ∧ r''.cap = cap ∧ r''.Ok := by
  obtain ⟨h1, h2, h3⟩ := unread_spec r' b hl hr
  exact ⟨_, rfl, h1, h2.trans hcap, by rw [h2]; exact hok.1, by rw [h3, h2]; omega⟩

theorem scanDigits_spec (fuel : Nat) (s : Scanner) (buf : Bytes) (hok : s.r.Ok) (hf : nb s.r.abs < fuel) :
    ∃ r', scanDigits fuel s buf = (buf ++ (pdigits s.r.abs).1, { s with r := r' }) ∧ r'.abs = (pdigits s.r.abs).2 ∧
      r'.Ok ∧ r'.cap = s.r.cap := by
  induction fuel generalizing s buf with
  | zero => omega
  | succ fuel ih =>
    obtain ⟨r', h1, h2, h3, h4⟩ := read_spec s hok
    simp only [scanDigits]
    rw [h1]
    rcases h4 with ⟨h4, h5⟩ | ⟨b, h4, h5, h6, h7, h8⟩
    · rw [h5, if_pos rfl]
      refine ⟨r', ?_, ?_, h2, h3⟩
      · congr 1
        cases ha : s.r.abs with
        | nil => simp [pdigits]
        | cons x l => cases x with
          | none => simp [pdigits]
          | some c => rw [ha] at h4; simp [pread] at h4
      · cases ha : s.r.abs with
        | nil => rw [ha] at h4; simp [pread] at h4; simp [pdigits, ← h4]
        | cons x l => cases x with
          | none => rw [ha] at h4; simp [pread] at h4; simp [pdigits, ← h4]
          | some c => rw [ha] at h4; simp [pread] at h4
    · have ha : s.r.abs = some b :: r'.abs := by
        cases ha : s.r.abs with
        | nil => rw [ha] at h4; simp [pread] at h4
        | cons x l => cases x with
          | none => rw [ha] at h4; simp [pread] at h4
          | some c => rw [ha] at h4; simp [pread] at h4; rw [h4.1, h4.2]
      rw [h5, ha]
      simp only [pdigits]
      by_cases hb : b = 0
      · simp only [hb, if_true]
        exact ⟨r', by simp, rfl, h2, h3⟩
      · simp only [hb, if_false]
        cases hd : isDigit b with
        | false =>
          simp only [Bool.not_false, if_true, Bool.false_eq_true, if_false]
          obtain ⟨r'', g1, g2, g3, g4⟩ := unread_ok (s := s) h3 h2 h6 h7 h8
          exact ⟨r'', by rw [g1]; simp, g2, g4, g3⟩
        | true =>
          simp only [Bool.not_true, Bool.false_eq_true, if_false, if_true]
          have hn : nb r'.abs < fuel := by rw [ha] at hf; simp [nb] at hf ⊢; omega
          obtain ⟨r'', g1, g2, g3, g4⟩ := ih { s with r := r' } (buf ++ [b]) h2 hn
          exact ⟨r'', by rw [g1]; simp, g2, g3, g4.trans h3⟩

theorem pread_some {l r : Events} {b : UInt8} (h : pread l = (some b, r)) : l = some b :: r := by
  cases l with
  | nil => simp [pread] at h
  | cons x l => cases x with
    | none => simp [pread] at h
    | some c => simp [pread] at h; rw [h.1, h.2]

theorem nz_ne_zero {b : UInt8} (h : isNonZeroDigit b = true) : b ≠ 0 := by
  rintro rfl; simp [isNonZeroDigit] at h

theorem parseUint_lt (w : Bytes) (n : Nat) (h : n < 2 ^ 64) : parseUint w n < 2 ^ 64 := by
  induction w generalizing n with
  | nil => exact h
  | cons c w ih =>
    simp only [parseUint]
    split
    · omega
    · split
      · omega
      · split
        · omega
        · exact ih _ (by omega)

theorem pscan_msglen (s : PS) (h : s.msglen < 2 ^ 64) : (pscan s).2.msglen < 2 ^ 64 := by
  unfold pscan
  split
  · exact h
  · split
    · exact parseUint_lt _ _ (by omega)
    · split
      · exact h
      · split
        · exact h
        · split
          · split
            · split
              · exact h
              · exact Nat.two_pow_pos 64
            · exact h
          · exact h

theorem scan_spec (s : Scanner) (hok : s.r.Ok) (hcap : toInt s.msglen ≤ s.r.cap ∨ (pread s.r.abs).1 ≠ some 60 ∨ s.ready = false) (h64 : s.msglen < 2 ^ 64) :
    pscan s.abs = (s.scan.1, s.scan.2.abs) ∧ s.scan.2.r.Ok ∧ s.scan.2.r.cap = s.r.cap := by
  obtain ⟨r', h1, h2, h3, h4⟩ := read_spec s hok
  show pscan ⟨s.r.abs, s.msglen, s.ready⟩ = (s.scan.1, ⟨s.scan.2.r.abs, s.scan.2.msglen, s.scan.2.ready⟩) ∧ _
  simp only [Scanner.scan, h1, pscan]
  rcases h4 with ⟨h4, h5⟩ | ⟨b, h4, h5, h6, h7, h8⟩
  · rw [h4, h5]
    simp only [show isNonZeroDigit 0 = false by decide, Bool.false_eq_true, if_false, if_true]
    exact ⟨trivial, h2, h3⟩
  · rw [h4, h5]
    simp only []
    cases hz : isNonZeroDigit b with
    | true =>
      simp only [if_true]
      obtain ⟨r2, g1, g2, g3, g4⟩ := unread_ok (s := s) h3 h2 h6 h7 h8
      rw [g1]
      obtain ⟨r3, k1, k2, k3, k4⟩ := read_spec { s with r := r2, ready := false } g4
      simp only [Scanner.scanMsgLen, k1]
      have hp : pread r2.abs = (some b, r'.abs) := by rw [g2]; rfl
      rcases k4 with ⟨k4, -⟩ | ⟨c, k4, k5, -⟩
      · simp only [hp] at k4; simp at k4
      · simp only [hp] at k4
        simp only [Prod.mk.injEq, Option.some.injEq] at k4
        obtain ⟨k4, k6⟩ := k4
        rw [k5, ← k4]
        obtain ⟨r4, e1, e2, e3, e4⟩ := scanDigits_spec (r3.remaining + 1) { s with r := r3, ready := false } [b] k2
          (by rw [nb_abs]; exact Nat.lt_succ_self _)
        simp only [] at e1 e2 e4
        rw [e1]
        simp only [← k6] at e1 e2 ⊢
        refine ⟨?_, e3, ?_⟩
        · simp only [List.singleton_append, e2]
        · rw [e4, k3, g3]
    | false =>
      simp only [Bool.false_eq_true, if_false]
      by_cases hb : b = 0
      · simp only [hb, if_true]; exact ⟨trivial, h2, h3⟩
      · simp only [hb, if_false]
        by_cases hw : b = 32
        · simp only [hw, if_true]; exact ⟨trivial, h2, h3⟩
        · simp only [hw, if_false]
          by_cases hlt : b = 60 ∧ s.msglen > 0 ∧ s.ready = true
          · simp only [if_pos hlt]
            obtain ⟨r2, g1, g2, g3, g4⟩ := unread_ok (s := s) h3 h2 h6 h7 h8
            rw [g1]
            simp only [Scanner.scanSyslogMsg]
            by_cases hm : s.msglen < 2 ^ 63
            · rw [if_pos hm]
              have ht : toInt s.msglen = (s.msglen : Int) := by rw [toInt, if_pos hm]
              have hcap : toInt s.msglen ≤ s.r.cap := by
                rcases hcap with h | h | h
                · exact h
                · rw [h4, hlt.1] at h; exact absurd rfl h
                · rw [hlt.2.2] at h; simp at h
              rw [ht] at hcap ⊢
              obtain ⟨p1, p2, p3, p4⟩ := peek_spec r2 s.msglen g4 (by rw [g3]; omega)
              rw [show (some (60 : UInt8) :: r'.abs) = r2.abs by rw [g2, hlt.1], p1]
              cases hpk : r2.peek (s.msglen : Int) with
              | mk w rest =>
                obtain ⟨ok, r3⟩ := rest
                rw [hpk] at p1 p2 p3 p4
                simp only at p1 p2 p3 p4
                cases ok with
                | false => exact ⟨rfl, p3, p2.trans g3⟩
                | true =>
                  obtain ⟨q1, q2⟩ := p4 rfl
                  simp only [Int.toNat_natCast]
                  refine ⟨?_, ⟨by rw [show (r3.discard s.msglen).cap = r3.cap from rfl, p2, g3]; exact hok.1, ?_⟩, p2.trans g3⟩
                  · congr 2
                    rw [Reader.abs, trim_somes, List.drop_append, List.length_map, show s.msglen - r3.q.length = 0 by omega,
                      List.drop_zero, Reader.abs, Reader.discard, trim_somes, List.map_drop]
                  · have := p3.2
                    simp only [Reader.discard, List.length_drop]; omega
            · rw [if_neg hm]
              have ht : toInt s.msglen < 0 := by rw [toInt, if_neg hm]; omega
              simp only [Reader.peek, ht, if_true]
              exact ⟨by rw [g2, hlt.1], g4, g3⟩
          · simp only [if_neg hlt]; exact ⟨trivial, h2, h3⟩

/-- `Peek` of more than the buffer can hold -/
theorem peek_full (rd : Reader) (n : Nat) (hok : rd.Ok) (hn : rd.cap < n) :
    (rd.peek n).1 = front rd.cap rd.abs ∧ (rd.peek n).2.1 = false ∧ (rd.peek n).2.2.abs = rd.abs ∧ (rd.peek n).2.2.cap = rd.cap ∧
      (rd.peek n).2.2.Ok := by
  obtain ⟨h1, h2, h3, h4, -, h6⟩ := peekFill_spec n (n + 1) { rd with last := none } hok (by simp only []; omega)
  have h1' : (peekFill n (n + 1) { rd with last := none }).abs = rd.abs := h1
  have h2' : (peekFill n (n + 1) { rd with last := none }).cap = rd.cap := h2
  simp only [Reader.peek, Int.toNat_natCast]
  rw [if_neg (show ¬ (n : Int) < 0 by omega)]
  generalize peekFill n (n + 1) { rd with last := none } = rd1 at *
  have hlen := h4.2
  have hcap : rd1.cap < n := by omega
  simp only [hcap, if_true]
  refine ⟨?_, trivial, h1', h2', h4⟩
  rw [← h1', ← h2', Reader.abs, trim_somes, front_somes]
  rw [List.take_of_length_le hlen]
  rcases h6 with h | h | h
  · omega
  · rw [show rd1.cap - rd1.q.length = 0 by omega, front_zero]; simp
  · rw [h]
    simp only [if_true, List.singleton_append, trim]
    split
    · cases (rd1.cap - rd1.q.length) <;> simp [front]
    · rw [front_none]; simp

/-- a message that does not fit the buffer -/
theorem scan_full (s : Scanner) (hok : s.r.Ok) (h64 : s.msglen < 2 ^ 64) (hcap : (s.r.cap : Int) < toInt s.msglen)
    (h60 : (pread s.r.abs).1 = some 60) (hr : s.ready = true) :
    s.scan.1 = ⟨.EOF, front s.r.cap s.r.abs⟩ ∧ s.scan.2.abs = s.abs ∧ s.scan.2.r.Ok ∧ s.scan.2.r.cap = s.r.cap := by
  obtain ⟨r', h1, h2, h3, h4⟩ := read_spec s hok
  rcases h4 with ⟨h4, h5⟩ | ⟨b, h4, h5, h6, h7, h8⟩
  · rw [h4] at h60; simp at h60
  · have hb : b = 60 := by rw [h4] at h60; simpa using h60
    subst hb
    obtain ⟨r2, g1, g2, g3, g4⟩ := unread_ok (s := s) h3 h2 h6 h7 h8
    have hm : s.msglen < 2 ^ 63 := by
      by_cases h : s.msglen < 2 ^ 63
      · exact h
      · have := hok.1
        rw [toInt, if_neg h] at hcap
        omega
    have ht : toInt s.msglen = (s.msglen : Int) := by rw [toInt, if_pos hm]
    have habs : r2.abs = s.r.abs := by rw [g2]; exact (pread_some h4).symm
    rw [ht] at hcap
    have hpos : 0 < s.msglen := by omega
    obtain ⟨p1, p2, p3, p4, p5⟩ := peek_full r2 s.msglen g4 (by omega)
    cases hpk : r2.peek (s.msglen : Int) with
    | mk w rest =>
      obtain ⟨ok, r3⟩ := rest
      rw [hpk] at p1 p2 p3 p4 p5
      simp only at p1 p2 p3 p4 p5
      subst p2
      have hs : s.scan = (⟨.EOF, w⟩, { s with r := r3 }) := by
        simp only [Scanner.scan, h1, h5, show isNonZeroDigit 60 = false by decide]
        rw [if_neg (by simp), if_neg (by decide), if_neg (by decide), if_pos (by simp [hpos, hr]), g1]
        simp only [Scanner.scanSyslogMsg, ht, hpk]
      rw [hs]
      refine ⟨by rw [p1, g3, habs], ?_, p5, p4.trans g3⟩
      show (⟨r3.abs, s.msglen, s.ready⟩ : PS) = ⟨s.r.abs, s.msglen, s.ready⟩
      rw [p3, habs]

end Verif.Octet
