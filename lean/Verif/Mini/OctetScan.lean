import Verif.Mini.OctetEnv

/-!
# `octetcounting/scanner.go`, run symbolically
-/

set_option linter.constructorNameAsVariable false
set_option linter.unusedSimpArgs false

namespace Verif.Mini
open Verif.Gen.Mini
open Verif.Octet (Scanner Parser Token TokenType)

variable {extra : Nat → Nat} {order : List Bytes → List Bytes} {parse emit : List Val → M EO Val}

local notation "OX" => octXE extra order parse emit

/-- what was there is as before, except the variable `a`; the reader and the listener are used -/
def Step (a : Nat) (w w' : W EO) : Prop :=
  (∀ c, c < w.next → c ≠ a → w'.heap c = w.heap c) ∧ w.next ≤ w'.next ∧ w'.glob = w.glob ∧ w'.ext.src = w.ext.src

theorem Step.refl (a : Nat) (w : W EO) : Step a w w := ⟨fun _ _ _ => rfl, Nat.le_refl _, rfl, rfl⟩

theorem Step.trans {a : Nat} {w1 w2 w3 : W EO} (h : Step a w1 w2) (h' : Step a w2 w3) : Step a w1 w3 :=
  ⟨fun c hc hn => (h'.1 c (by have := h.2.1; omega) hn).trans (h.1 c hc hn), Nat.le_trans h.2.1 h'.2.1, h'.2.2.1.trans h.2.2.1, h'.2.2.2.trans h.2.2.2⟩

theorem Rep.step {w w' : W EO} {a mi : Nat} {p p' : Parser} {out out' : List (Val × Val)} (h : Rep L w a mi p out) (hs : Step a w w')
    (hh : ∃ last, w'.heap a = parserVal mi last (octEmitVal L) p' ∧ TokRep last p'.last)
    (h1 : p'.internal.bestEffort = p.internal.bestEffort) (h2 : p'.internal.compliantMsg = p.internal.compliantMsg)
    (h3 : w'.ext.rd = p'.s.r) (h4 : w'.ext.out = L.getD out') (h5 : p'.s.msglen < 2 ^ 64) : Rep L w' a mi p' out' :=
  ⟨hh, by have := h.lt; have := hs.2.1; omega, by have := h.mlt; have := hs.2.1; omega, h.ne, by rw [hs.1 mi h.mlt h.ne, h1]; exact h.mbe,
    by rw [hs.1 mi h.mlt h.ne, h2]; exact h.mco, by rw [hs.1 mi h.mlt h.ne]; exact h.mty, h3, h4, h5⟩

/-- the world after the reader was used -/
def W.rd (w : W EO) (rd : Octet.Reader) : W EO := { w with ext := { w.ext with rd := rd } }

@[simp] theorem W.rd_heap (w : W EO) (rd : Octet.Reader) : (w.rd rd).heap = w.heap := rfl
@[simp] theorem W.rd_next (w : W EO) (rd : Octet.Reader) : (w.rd rd).next = w.next := rfl
@[simp] theorem W.rd_ext (w : W EO) (rd : Octet.Reader) : (w.rd rd).ext = { w.ext with rd := rd } := rfl

@[simp] theorem W.rd_glob (w : W EO) (rd : Octet.Reader) : (w.rd rd).glob = w.glob := rfl

/-- how a scanner is part of the value of a variable: at the path `pth`, in the value that `K` makes of it -/
structure Slot (pth : List Nm) (K : Scanner → Val) : Prop where
  get : ∀ s, (K s).getPath pth = some (scanVal s)
  ready : ∀ s b, (K s).putPath (pth ++ [.ready]) (.bool b) = some (K { s with ready := b })
  msglen : ∀ s (k : Nat), (K s).putPath (pth ++ [.msglen]) (.int .u64 k) = some (K { s with msglen := k })
  msglen0 : ∀ s, (K s).putPath (pth ++ [.msglen]) (.int .const 0) = some (K { s with msglen := 0 })
  same : ∀ s s', s.msglen = s'.msglen → s.ready = s'.ready → K s = K s'

/-- a scanner by itself -/
theorem slot_scanner : Slot [] scanVal := by
  refine ⟨fun _ => rfl, fun s b => ?_, fun s k => ?_, fun s => ?_, fun s s' h1 h2 => ?_⟩
  · simp [scanVal, Val.putPath, setField]
  · simp [scanVal, Val.putPath, setField]
  · simp [scanVal, Val.putPath, setField, Val.coerce, Kind.wrap]
  · simp only [scanVal, h1, h2]

/-- the scanner of a parser -/
theorem slot_parser (mi : Nat) (last em : Val) (p : Parser) : Slot [.s] (fun s => parserVal mi last em { p with s := s }) := by
  refine ⟨fun s => ?_, fun s b => ?_, fun s k => ?_, fun s => ?_, fun s s' h1 h2 => ?_⟩
  · simp [parserVal, Val.getPath]
  · simp [parserVal, scanVal, Val.putPath, setField]
  · simp [parserVal, scanVal, Val.putPath, setField]
  · simp [parserVal, scanVal, Val.putPath, setField, Val.coerce, Kind.wrap]
  · simp only [parserVal, scanVal, h1, h2]

theorem load_scan {w : W EO} {a : Nat} {pth : List Nm} {K : Scanner → Val} (hK : Slot pth K) {s0 : Scanner} (h : w.heap a = K s0) :
    (load (.ptr a pth) : M EO Val) w = some (.ok (scanVal s0) w) := load_path (by rw [h]; exact hK.get s0)

theorem store_ready {w : W EO} {a : Nat} {pth : List Nm} {K : Scanner → Val} (hK : Slot pth K) {s0 : Scanner} (h : w.heap a = K s0) (b : Bool) :
    (storeAt (.ptr a (pth ++ [.ready])) (.bool b) : M EO Unit) w =
      some (.ok () { w with heap := upd w.heap a (K ({ s0 with ready := b })) }) := by
  show (match (w.heap a).putPath (pth ++ [.ready]) (.bool b) with
    | some x => some (Out.ok () { w with heap := upd w.heap a x })
    | none => none) = _
  rw [h, hK.ready]

theorem store_msglen {w : W EO} {a : Nat} {pth : List Nm} {K : Scanner → Val} (hK : Slot pth K) {s0 : Scanner} (h : w.heap a = K s0) (k : Nat) :
    (storeAt (.ptr a (pth ++ [.msglen])) (.int .u64 k) : M EO Unit) w =
      some (.ok () { w with heap := upd w.heap a (K ({ s0 with msglen := k })) }) := by
  show (match (w.heap a).putPath (pth ++ [.msglen]) (.int .u64 k) with
    | some x => some (Out.ok () { w with heap := upd w.heap a x })
    | none => none) = _
  rw [h, hK.msglen]

theorem store_msglen0 {w : W EO} {a : Nat} {pth : List Nm} {K : Scanner → Val} (hK : Slot pth K) {s0 : Scanner} (h : w.heap a = K s0) :
    (storeAt (.ptr a (pth ++ [.msglen])) (.int .const 0) : M EO Unit) w =
      some (.ok () { w with heap := upd w.heap a (K ({ s0 with msglen := 0 })) }) := by
  show (match (w.heap a).putPath (pth ++ [.msglen]) (.int .const 0) with
    | some x => some (Out.ok () { w with heap := upd w.heap a x })
    | none => none) = _
  rw [h, hK.msglen0]

/-- `Scanner.read` (octetcounting/scanner.go:45-51) -/
theorem read_call (n : Nat) {w : W EO} {a : Nat} {pth : List Nm} {K : Scanner → Val} (hK : Slot pth K) {s0 : Scanner} (h : w.heap a = K s0) (s : Scanner) (hr : w.ext.rd = s.r) :
    call OX (n + 2) .octetcounting_Scanner_read [.ptr a pth] w = some (.ok (byteVal s.read.1) (w.rd s.read.2.r)) := by
  rw [call_fn (oct_prog _ _ _ _) prog_octetcounting_Scanner_read]
  have hl := load_scan hK h
  simp only [scanVal] at hl
  simp only [Scanner.read]
  cases hb : s.r.readByte with
  | mk o rd =>
    cases o <;>
    simp [octetcounting_Scanner_read, hl, hr, hb, byteVal, W.rd]

/-- `Scanner.unread` (octetcounting/scanner.go:54-56) -/
theorem unread_call (n : Nat) {w : W EO} {a : Nat} {pth : List Nm} {K : Scanner → Val} (hK : Slot pth K) {s0 : Scanner} (h : w.heap a = K s0) (s : Scanner) (hr : w.ext.rd = s.r) :
    call OX (n + 2) .octetcounting_Scanner_unread [.ptr a pth] w = some (.ok (.tuple []) (w.rd s.unread.r)) := by
  rw [call_fn (oct_prog _ _ _ _) prog_octetcounting_Scanner_unread]
  have hl := load_scan hK h
  simp only [scanVal] at hl
  simp [octetcounting_Scanner_unread, hl, hr, W.rd, Scanner.unread]

/-- `isDigit` (octetcounting/scanner.go:20-22) -/
theorem isDigit_call (n : Nat) (b : UInt8) (w : W EO) : call OX (n + 1) .octetcounting_isDigit [byteVal b] w = some (.ok (.bool (Octet.isDigit b)) w) := by
  rw [call_fn (oct_prog _ _ _ _) prog_octetcounting_isDigit]
  by_cases h : 47 ≤ b.toNat
  · have h' : (47 : Int) ≤ b.toNat := by omega
    have e : decide ((b.toNat : Int) ≤ 57) = decide (b.toNat ≤ 57) := by congr 1; apply propext; omega
    simp [octetcounting_isDigit, byteVal, Octet.isDigit, h, h', e]
  · have h' : ¬ (47 : Int) ≤ b.toNat := by omega
    simp [octetcounting_isDigit, byteVal, Octet.isDigit, h, h']

/-- `isNonZeroDigit` (octetcounting/scanner.go:25-27) -/
theorem isNonZeroDigit_call (n : Nat) (b : UInt8) (w : W EO) :
    call OX (n + 1) .octetcounting_isNonZeroDigit [byteVal b] w = some (.ok (.bool (Octet.isNonZeroDigit b)) w) := by
  rw [call_fn (oct_prog _ _ _ _) prog_octetcounting_isNonZeroDigit]
  by_cases h : 48 ≤ b.toNat
  · have h' : (48 : Int) ≤ b.toNat := by omega
    have e : decide ((b.toNat : Int) ≤ 57) = decide (b.toNat ≤ 57) := by congr 1; apply propext; omega
    simp [octetcounting_isNonZeroDigit, byteVal, Octet.isNonZeroDigit, h, h', e]
  · have h' : ¬ (48 : Int) ≤ b.toNat := by omega
    simp [octetcounting_isNonZeroDigit, byteVal, Octet.isNonZeroDigit, h, h']

/-! ## `scanMsgLen` -/

/-- the loop (octetcounting/scanner.go:102-111) -/
def digLoop : Stmt := match octetcounting_Scanner_scanMsgLen.body with
  | .seq _ (.seq _ (.seq b _)) => b
  | _ => .skip

theorem byteVal_eq0 (b : UInt8) : (b.toNat : Int) = 0 ↔ b = 0 := by
  constructor
  · intro h; apply UInt8.toNat_inj.mp; show b.toNat = 0; omega
  · rintro rfl; rfl

theorem dig_loop (n : Nat) (a bf : Nat) {pth : List Nm} {K : Scanner → Val} (hK : Slot pth K) (s0 : Scanner) (hne : bf ≠ a) : ∀ (fuel : Nat) (s : Scanner) (buf : Bytes) (l : Loc) (w : W EO),
    s.r.remaining < fuel → w.heap a = K s0 → w.ext.rd = s.r → w.heap bf = .str buf → l .s = .ptr a pth → l .buf = .ptr bf [] →
    ∃ l', exec OX (call OX (n + 2)) digLoop l w = some (.ok (.next, l')
        { w with heap := upd w.heap bf (.str (Octet.scanDigits fuel s buf).1), ext := { w.ext with rd := (Octet.scanDigits fuel s buf).2.r } }) ∧
      l' .s = .ptr a pth ∧ l' .buf = .ptr bf [] ∧ (Octet.scanDigits fuel s buf).2.msglen = s.msglen ∧ (Octet.scanDigits fuel s buf).2.ready = s.ready := by
  intro fuel
  induction fuel with
  | zero => intro s buf l w hf; omega
  | succ fuel ih =>
    intro s buf l w hf h hr hb hl1 hl2
    have hread := read_call (extra := extra) (order := order) (parse := parse) (emit := emit) n hK h s hr
    have hms : s.read.2.msglen = s.msglen ∧ s.read.2.ready = s.ready := by
      unfold Scanner.read; split <;> exact ⟨rfl, rfl⟩
    obtain ⟨l1, hl1'⟩ : ∃ l1 : Loc, l1 = l.set .b (byteVal s.read.1) := ⟨_, rfl⟩
    have k1 : l1 .s = .ptr a pth := by rw [hl1']; simp [hl1]
    have k2 : l1 .buf = .ptr bf [] := by rw [hl1']; simp [hl2]
    have hsd : Octet.scanDigits (fuel + 1) s buf = if s.read.1 = 0 then (buf, s.read.2) else if !Octet.isDigit s.read.1 then (buf, s.read.2.unread)
        else Octet.scanDigits fuel s.read.2 (buf ++ [s.read.1]) := rfl
    rw [hsd]
    by_cases h0 : s.read.1 = 0
    · refine ⟨l1, ?_, k1, k2, ?_⟩
      · rw [if_pos h0, hl1']
        simp only [digLoop, octetcounting_Scanner_scanMsgLen]
        rw [exec_forc]
        have e0 : upd w.heap bf (.str buf) = w.heap := by rw [← hb, upd_self]
        simp [hl1, hread, h0, byteVal, e0, W.rd]
      · rw [if_pos h0]; exact hms
    · have h0' : ¬ (s.read.1.toNat : Int) = 0 := fun e => h0 ((byteVal_eq0 _).mp e)
      have h0n : ¬ s.read.1.toNat = 0 := by omega
      by_cases hd : Octet.isDigit s.read.1
      · obtain ⟨l', e, r1, r2, r3, r4⟩ := ih s.read.2 (buf ++ [s.read.1]) l1 { w with heap := upd w.heap bf (.str (buf ++ [s.read.1])), ext := { w.ext with rd := s.read.2.r } }
          (by have := Octet.read_remaining (s := s) (b := s.read.1) (s' := s.read.2) rfl h0; omega) (by simp [upd_apply, Ne.symm hne, h]) rfl (by simp) k1 k2
        refine ⟨l', ?_, r1, r2, ?_⟩
        · rw [if_neg h0, if_neg (by simp [hd])]
          simp only [upd_upd] at e
          rw [← e]
          simp only [digLoop, octetcounting_Scanner_scanMsgLen]
          rw [exec_forc]
          have hwb := xWriteByte_apply (w.rd s.read.2.r) (a := bf) (s := buf) hb (s.read.1.toNat : Int)
          rw [byte_ofInt] at hwb
          have hdc := isDigit_call (extra := extra) (order := order) (parse := parse) (emit := emit) (n + 1) s.read.1 (w.rd s.read.2.r)
          simp only [byteVal] at hdc hread
          simp [hl1, hl2, hread, byteVal, h0n, hdc, hd, hwb, hl1']
        · rw [if_neg h0, if_neg (by simp [hd])]; exact ⟨r3.trans hms.1, r4.trans hms.2⟩
      · refine ⟨l1, ?_, k1, k2, ?_⟩
        · rw [if_neg h0, if_pos (by simp [hd])]
          simp only [digLoop, octetcounting_Scanner_scanMsgLen]
          rw [exec_forc]
          have hdc := isDigit_call (extra := extra) (order := order) (parse := parse) (emit := emit) (n + 1) s.read.1 (w.rd s.read.2.r)
          have hun := unread_call (extra := extra) (order := order) (parse := parse) (emit := emit) n (w := w.rd s.read.2.r) hK h s.read.2 rfl
          have e0 : upd w.heap bf (.str buf) = w.heap := by rw [← hb, upd_self]
          simp only [byteVal] at hdc hread
          simp [hl1, hl2, hread, byteVal, h0n, hdc, hd, hun, e0, hl1']
          rfl
        · rw [if_neg h0, if_pos (by simp [hd])]; exact hms

/-- the parser in the variable `a` is `p` afterwards, with the token and listener it had -/
structure After (K : Scanner → Val) (w w' : W EO) (a : Nat) (s0 : Scanner) : Prop where
  heap : w'.heap a = K s0
  rd : w'.ext.rd = s0.r
  step : Step a w w'
  out : w'.ext.out = w.ext.out

theorem tokRep_str (t : Token) : TokRep (.struct .octetcounting_Token [(.typ, .int .int (typNum t.typ)), (.lit, .str t.lit)]) t := ⟨_, rfl, Or.inl rfl⟩

/-- `Scanner.scanMsgLen` (octetcounting/scanner.go:95-120) -/
theorem scanMsgLen_call (n : Nat) {w : W EO} {a : Nat} {pth : List Nm} {K : Scanner → Val} (hK : Slot pth K) {s0 : Scanner} (h : w.heap a = K s0) (ha : a < w.next) (hr : w.ext.rd = s0.r) :
    ∃ tok w', call OX (n + 3) .octetcounting_Scanner_scanMsgLen [.ptr a pth] w = some (.ok tok w') ∧ TokRep tok s0.scanMsgLen.1 ∧
      After K w w' a (s0.scanMsgLen.2) := by
  rw [call_fn (oct_prog _ _ _ _) prog_octetcounting_Scanner_scanMsgLen]
  have hbf : w.next ≠ a := by omega
  obtain ⟨w1, hw1⟩ : ∃ w1 : W EO, w1 = { w with heap := upd w.heap w.next (.str []), next := w.next + 1 } := ⟨_, rfl⟩
  have h1 : w1.heap a = K s0 := by rw [hw1]; simp [upd_apply, Ne.symm hbf, h]
  have hr1 : w1.ext.rd = s0.r := by rw [hw1]; exact hr
  have hread := read_call (extra := extra) (order := order) (parse := parse) (emit := emit) n hK h1 s0 hr1
  obtain ⟨w2, hw2⟩ : ∃ w2 : W EO, w2 = { w1 with heap := upd w1.heap w.next (.str [s0.read.1]), ext := { w1.ext with rd := s0.read.2.r } } := ⟨_, rfl⟩
  obtain ⟨l, hl⟩ : ∃ l : Loc, l = (Loc.empty.set .s (.ptr a pth)).set .buf (.ptr w.next []) := ⟨_, rfl⟩
  have hwb := xWriteByte_apply (w1.rd s0.read.2.r) (a := w.next) (s := []) (by rw [hw1]; simp) (s0.read.1.toNat : Int)
  rw [byte_ofInt] at hwb
  obtain ⟨l', e, r1, r2, r3, r4⟩ := dig_loop (extra := extra) (order := order) (parse := parse) (emit := emit) n a w.next hK s0 hbf (s0.read.2.r.remaining + 1) s0.read.2 [s0.read.1] l w2
    (by omega) (by rw [hw2]; simp [upd_apply, Ne.symm hbf, h1]) (by rw [hw2]) (by rw [hw2]; simp) (by rw [hl]; simp) (by rw [hl]; simp)
  have hsc : s0.scanMsgLen = (⟨.MSGLEN, (Octet.scanDigits (s0.read.2.r.remaining + 1) s0.read.2 [s0.read.1]).1⟩,
      { (Octet.scanDigits (s0.read.2.r.remaining + 1) s0.read.2 [s0.read.1]).2 with msglen := Octet.parseUint (Octet.scanDigits (s0.read.2.r.remaining + 1) s0.read.2 [s0.read.1]).1 0 }) := rfl
  have hms : s0.read.2.msglen = s0.msglen ∧ s0.read.2.ready = s0.ready := by
    unfold Scanner.read; split <;> exact ⟨rfl, rfl⟩
  obtain ⟨d, hd⟩ : ∃ d, d = Octet.scanDigits (s0.read.2.r.remaining + 1) s0.read.2 [s0.read.1] := ⟨_, rfl⟩
  rw [← hd] at e r3 r4 hsc
  obtain ⟨w3, hw3⟩ : ∃ w3 : W EO, w3 = { w2 with heap := upd w2.heap w.next (.str d.1), ext := { w2.ext with rd := d.2.r } } := ⟨_, rfl⟩
  rw [← hw3] at e
  have hb3 : w3.heap w.next = .str d.1 := by rw [hw3]; simp
  have hbf3 := xBuffer_apply w3 hb3
  have h3 : w3.heap a = K s0 := by rw [hw3, hw2]; simp [upd_apply, Ne.symm hbf, h1]
  have hst := store_msglen hK h3 (Octet.parseUint d.1 0)
  obtain ⟨w4, hw4⟩ : ∃ w4 : W EO, w4 = { w3 with heap := upd w3.heap a (K ({ s0 with msglen := Octet.parseUint d.1 0 })) } := ⟨_, rfl⟩
  rw [← hw4] at hst
  have hbf4 := xBuffer_apply w4 (a := w.next) (s := d.1) (by rw [hw4]; simp [upd_apply, hbf, hb3])
  refine ⟨.struct .octetcounting_Token [(.typ, .int .int 3), (.lit, .str d.1)], w4, ?_, ?_, ?_⟩
  · have hbody : octetcounting_Scanner_scanMsgLen.body = .seq (.assign .buf (.new (.lit (.str []))))
        (.seq (.expr (.call .bytes_WriteByte (.cons (.var .buf) (.cons (.call .octetcounting_Scanner_read (.cons (.var .s) .unit)) .unit)))) (.seq digLoop
        (.seq (.assign .msglen (.call .bytes_String (.cons (.var .buf) .unit)))
        (.seq (.multi [some .tmp1, none] (.call .strconv_ParseUint (.cons (.var .msglen) (.cons (.lit (.int .const 10)) (.cons (.lit (.int .const 64)) .unit)))))
        (.seq (.store (.addr (.var .s) .msglen) (.var .tmp1))
        (.ret (.mk Zero.octetcounting_Token [.typ, .lit] (.cons (.lit (.int .int 3)) (.cons (.call .bytes_Bytes (.cons (.var .buf) .unit)) .unit))))))))) := rfl
    have hpar : params octetcounting_Scanner_scanMsgLen.params [.ptr a pth] = some (Loc.empty.set .s (.ptr a pth)) := rfl
    rw [hbody, hpar]
    have e1 : exec OX (call OX (n + 2)) (.assign .buf (.new (.lit (.str [])))) (Loc.empty.set .s (.ptr a pth)) w = some (.ok (.next, l) w1) := by
      rw [hl, hw1]; simp
    have e2 : exec OX (call OX (n + 2)) (.expr (.call .bytes_WriteByte (.cons (.var .buf) (.cons (.call .octetcounting_Scanner_read (.cons (.var .s) .unit)) .unit)))) l w1 =
        some (.ok (.next, l) w2) := by
      have k1 : l .s = .ptr a pth := by rw [hl]; simp
      have k2 : l .buf = .ptr w.next [] := by rw [hl]; simp
      simp only [byteVal] at hread
      simp [k1, k2, hread, hwb, hw2]
    have e4 : exec OX (call OX (n + 2)) (.seq (.assign .msglen (.call .bytes_String (.cons (.var .buf) .unit)))
        (.seq (.multi [some .tmp1, none] (.call .strconv_ParseUint (.cons (.var .msglen) (.cons (.lit (.int .const 10)) (.cons (.lit (.int .const 64)) .unit)))))
        (.seq (.store (.addr (.var .s) .msglen) (.var .tmp1))
        (.ret (.mk Zero.octetcounting_Token [.typ, .lit] (.cons (.lit (.int .int 3)) (.cons (.call .bytes_Bytes (.cons (.var .buf) .unit)) .unit))))))) l' w3 =
        some (.ok (.ret (.struct .octetcounting_Token [(.typ, .int .int 3), (.lit, .str d.1)]),
          ((l'.set .msglen (.str d.1)).set .tmp1 (.int .u64 (Octet.parseUint d.1 0)))) w4) := by
      simp [r1, r2, hbf3, hst, hbf4, assignAll, bindOpt, Zero.octetcounting_Token, putAll, Val.put, setField, Val.coerce]
      done
    simp only [M.bind, M.of, M.pure]
    rw [seq_next e1, seq_next e2, seq_next e, e4]
    rfl
  · rw [hsc]; exact tokRep_str ⟨.MSGLEN, d.1⟩
  · refine ⟨?_, ?_, ?_, ?_⟩
    · rw [hw4, hsc]
      have : K ({ s0 with msglen := Octet.parseUint d.1 0 }) = K ({ d.2 with msglen := Octet.parseUint d.1 0 }) :=
        hK.same _ _ rfl (by simp only [r4, hms.2])
      simp [this]
    · rw [hw4, hsc, hw3]
    · rw [hw4, hw3, hw2, hw1]
      refine ⟨fun c hc hn => ?_, Nat.le_succ _, rfl, rfl⟩
      have : c ≠ w.next := by omega
      simp [upd_apply, this, hn]
    · rw [hw4, hw3, hw2, hw1]

/-! ## `scanSyslogMsg` -/

theorem wrap_toInt (n : Nat) (h : n < 2 ^ 64) : Kind.wrap .int n = Octet.toInt n := by
  simp only [Kind.wrap, Octet.toInt]; split <;> omega

/-- `Scanner.scanSyslogMsg` (octetcounting/scanner.go:122-144) -/
theorem scanSyslogMsg_call (n : Nat) {w : W EO} {a : Nat} {pth : List Nm} {K : Scanner → Val} (hK : Slot pth K) {s0 : Scanner} (h : w.heap a = K s0) (s : Scanner)
    (hr : w.ext.rd = s.r) (hm : s0.msglen = s.msglen) (hy : s0.ready = s.ready) (hlen : s.msglen < 2 ^ 64) :
    ∃ tok w', call OX (n + 2) .octetcounting_Scanner_scanSyslogMsg [.ptr a pth] w = some (.ok tok w') ∧ TokRep tok s.scanSyslogMsg.1 ∧
      After K w w' a (s.scanSyslogMsg.2) := by
  rw [call_fn (oct_prog _ _ _ _) prog_octetcounting_Scanner_scanSyslogMsg]
  have hw := wrap_toInt s.msglen hlen
  have hl := load_scan hK h
  simp only [scanVal, hm] at hl
  cases hpk : s.r.peek (Octet.toInt s.msglen) with
  | mk b r2 =>
    obtain ⟨ok, r⟩ := r2
    have hl2 : (load (.ptr a pth) : M EO Val) (w.rd r) = some (.ok (scanVal s0) (w.rd r)) := load_scan hK h
    simp only [scanVal, hm] at hl2
    cases ok with
    | false =>
      have hs : s.scanSyslogMsg = (⟨.EOF, b⟩, { s with r := r }) := by simp [Scanner.scanSyslogMsg, hpk]
      refine ⟨.struct .octetcounting_Token [(.typ, .int .int 1), (.lit, .str b)], w.rd r, ?_, ?_, ?_⟩
      · simp [octetcounting_Scanner_scanSyslogMsg, hl, hw, hr, hpk, W.rd, Zero.octetcounting_Token, putAll, Val.put, setField, Val.coerce]
      · rw [hs]; exact tokRep_str ⟨.EOF, b⟩
      · rw [hs]
        refine ⟨?_, rfl, ⟨fun _ _ _ => rfl, Nat.le_refl _, rfl, rfl⟩, rfl⟩
        rw [W.rd_heap, h]; exact hK.same _ _ hm hy
    | true =>
      have hs : s.scanSyslogMsg = (⟨.SYSLOGMSG, b⟩, { s with r := r.discard (Octet.toInt s.msglen).toNat, ready := false, msglen := 0 }) := by simp [Scanner.scanSyslogMsg, hpk]
      obtain ⟨w1, hw1⟩ : ∃ w1 : W EO, w1 = w.rd (r.discard (Octet.toInt s.msglen).toNat) := ⟨_, rfl⟩
      have h1 : w1.heap a = K s0 := by rw [hw1]; exact h
      have st1 := store_ready hK h1 false
      obtain ⟨w2, hw2⟩ : ∃ w2 : W EO, w2 = { w1 with heap := upd w1.heap a (K ({ s0 with ready := false })) } := ⟨_, rfl⟩
      rw [← hw2] at st1
      have h2 : w2.heap a = K ({ s0 with ready := false }) := by rw [hw2]; simp
      have st2 := store_msglen0 hK h2
      obtain ⟨w3, hw3⟩ : ∃ w3 : W EO, w3 = { w2 with heap := upd w2.heap a (K ({ s0 with ready := false, msglen := 0 })) } := ⟨_, rfl⟩
      rw [← hw3] at st2
      rw [hw1] at st1
      refine ⟨.struct .octetcounting_Token [(.typ, .int .int 4), (.lit, .str b)], w3, ?_, ?_, ?_⟩
      · simp only [W.rd] at st1 hl2
        simp [octetcounting_Scanner_scanSyslogMsg, hl, hl2, hw, hr, hpk, st1, st2, Zero.octetcounting_Token, putAll, Val.put, setField, Val.coerce]
      · rw [hs]; exact tokRep_str ⟨.SYSLOGMSG, b⟩
      · rw [hs, hw3, hw2, hw1]
        refine ⟨?_, rfl, ⟨fun c _ hn => ?_, Nat.le_refl _, rfl, rfl⟩, rfl⟩
        · refine (if_pos rfl : upd _ _ _ _ = _).trans ?_; exact hK.same _ _ rfl rfl
        · simp [upd_apply, hn]

/-! ## `Scan` -/

/-- `Scanner.Scan` (octetcounting/scanner.go:59-93) -/
theorem scan_call (n : Nat) {w : W EO} {a : Nat} {pth : List Nm} {K : Scanner → Val} (hK : Slot pth K) {s0 : Scanner} (h : w.heap a = K s0) (ha : a < w.next) (hr : w.ext.rd = s0.r)
    (hlen : s0.msglen < 2 ^ 64) :
    ∃ tok w', call OX (n + 4) .octetcounting_Scanner_Scan [.ptr a pth] w = some (.ok tok w') ∧ TokRep tok s0.scan.1 ∧
      After K w w' a (s0.scan.2) := by
  rw [call_fn (oct_prog _ _ _ _) prog_octetcounting_Scanner_Scan]
  have hread := read_call (extra := extra) (order := order) (parse := parse) (emit := emit) (n + 1) hK h s0 hr
  have hms : s0.read.2.msglen = s0.msglen ∧ s0.read.2.ready = s0.ready := by
    unfold Scanner.read; split <;> exact ⟨rfl, rfl⟩
  have h1 : (w.rd s0.read.2.r).heap a = K s0 := h
  have hnz := isNonZeroDigit_call (extra := extra) (order := order) (parse := parse) (emit := emit) (n + 2) s0.read.1 (w.rd s0.read.2.r)
  have hun := unread_call (extra := extra) (order := order) (parse := parse) (emit := emit) (n + 1) hK h1 s0.read.2 rfl
  have hl := load_scan hK h1
  simp only [scanVal] at hl
  have hsc : s0.scan = if Octet.isNonZeroDigit s0.read.1 then { s0.read.2.unread with ready := false }.scanMsgLen
    else if s0.read.1 = 0 then (⟨.EOF, []⟩, { s0.read.2 with ready := false })
    else if s0.read.1 = 32 then (⟨.WS, [32]⟩, { s0.read.2 with ready := true })
    else if s0.read.1 = 60 ∧ s0.read.2.msglen > 0 ∧ s0.read.2.ready = true then s0.read.2.unread.scanSyslogMsg
    else (⟨.ILLEGAL, [s0.read.1]⟩, s0.read.2) := rfl
  obtain ⟨b, hb⟩ : ∃ b, b = s0.read.1 := ⟨_, rfl⟩
  rw [← hb] at hread hnz hsc
  obtain ⟨s1, hs1⟩ : ∃ s1, s1 = s0.read.2 := ⟨_, rfl⟩
  rw [← hs1] at hread hnz hsc hms h1 hun hl
  have hbn : ∀ k : UInt8, b.toNat = k.toNat ↔ b = k := fun k => UInt8.toNat_inj
  have hb0 := hbn 0; have hb32 := hbn 32; have hb60 := hbn 60
  simp only [show (0 : UInt8).toNat = 0 from rfl, show (32 : UInt8).toNat = 32 from rfl, show (60 : UInt8).toNat = 60 from rfl] at hb0 hb32 hb60
  have hi0 : ((b.toNat : Int) = 0) ↔ b = 0 := by rw [← hb0]; omega
  have hi32 : ((b.toNat : Int) = 32) ↔ b = 32 := by rw [← hb32]; omega
  have hi60 : ((b.toNat : Int) = 60) ↔ b = 60 := by rw [← hb60]; omega
  rw [hsc]
  by_cases c1 : Octet.isNonZeroDigit b
  · rw [if_pos c1]
    have h2 : ((w.rd s1.r).rd s1.unread.r).heap a = K s0 := h
    have st := store_ready hK h2 false
    obtain ⟨w2, hw2⟩ : ∃ w2 : W EO, w2 = { (w.rd s1.r).rd s1.unread.r with heap := upd ((w.rd s1.r).rd s1.unread.r).heap a (K ({ s0 with ready := false })) } := ⟨_, rfl⟩
    rw [← hw2] at st
    have h3 : w2.heap a = K ({ s1.unread with ready := false }) := by
      rw [hw2]; refine (if_pos rfl : upd _ _ _ _ = _).trans ?_; exact hK.same _ _ hms.1.symm rfl
    obtain ⟨tok, w', e, t, af⟩ := scanMsgLen_call (extra := extra) (order := order) (parse := parse) (emit := emit) n hK h3 (by rw [hw2]; exact ha) (by rw [hw2]; rfl)
    refine ⟨tok, w', ?_, t, ?_⟩
    · simp only [byteVal] at hread hnz
      simp [octetcounting_Scanner_Scan, hread, hnz, c1, hun, st, e, byteVal]
    · refine ⟨af.heap, af.rd, ?_, ?_⟩
      · refine Step.trans ?_ af.step
        rw [hw2]
        exact ⟨fun c _ hn => by simp [upd_apply, hn], Nat.le_refl _, rfl, rfl⟩
      · rw [af.out, hw2]; rfl
  · rw [if_neg c1]
    simp only [byteVal] at hread hnz
    by_cases c2 : b = 0
    · rw [if_pos c2]
      have st := store_ready hK h1 false
      obtain ⟨w2, hw2⟩ : ∃ w2 : W EO, w2 = { w.rd s1.r with heap := upd (w.rd s1.r).heap a (K ({ s0 with ready := false })) } := ⟨_, rfl⟩
      rw [← hw2] at st
      refine ⟨.struct .octetcounting_Token [(.typ, .int .int 1), (.lit, .nil)], w2, ?_, ⟨_, rfl, Or.inr ⟨rfl, rfl⟩⟩, ?_⟩
      · rw [hi0.mpr c2] at hread hnz
        simp [octetcounting_Scanner_Scan, hread, hnz, c1, st, byteVal, Zero.octetcounting_Token, putAll, Val.put, setField, Val.coerce]
      · rw [hw2]
        refine ⟨?_, rfl, ⟨fun c _ hn => ?_, Nat.le_refl _, rfl, rfl⟩, rfl⟩
        · refine (if_pos rfl : upd _ _ _ _ = _).trans ?_; exact hK.same _ _ hms.1.symm rfl
        · simp [upd_apply, hn]
    · rw [if_neg c2]
      by_cases c3 : b = 32
      · rw [if_pos c3]
        have st := store_ready hK h1 true
        obtain ⟨w2, hw2⟩ : ∃ w2 : W EO, w2 = { w.rd s1.r with heap := upd (w.rd s1.r).heap a (K ({ s0 with ready := true })) } := ⟨_, rfl⟩
        rw [← hw2] at st
        refine ⟨.struct .octetcounting_Token [(.typ, .int .int 2), (.lit, .str [32])], w2, ?_, tokRep_str ⟨.WS, [32]⟩, ?_⟩
        · have hby : ([Val.int Kind.u8 32].mapM Val.byte?) = some [(32 : UInt8)] := rfl
          rw [hi32.mpr c3] at hread hnz
          simp [octetcounting_Scanner_Scan, hread, hnz, c1, st, byteVal, Zero.octetcounting_Token, putAll, Val.put, setField, Val.coerce, hby]
        · rw [hw2]
          refine ⟨?_, rfl, ⟨fun c _ hn => ?_, Nat.le_refl _, rfl, rfl⟩, rfl⟩
          · refine (if_pos rfl : upd _ _ _ _ = _).trans ?_; exact hK.same _ _ hms.1.symm rfl
          · simp [upd_apply, hn]
      · rw [if_neg c3]
        have hby : ([Val.int Kind.u8 (b.toNat : Int)].mapM Val.byte?) = some [b] := by
          show (some [UInt8.ofInt (b.toNat : Int)]) = _
          rw [byte_ofInt]
        by_cases c4 : b = 60 ∧ s1.msglen > 0 ∧ s1.ready = true
        · rw [if_pos c4]
          have h2 : ((w.rd s1.r).rd s1.unread.r).heap a = K s0 := h
          obtain ⟨tok, w', e, t, af⟩ := scanSyslogMsg_call (extra := extra) (order := order) (parse := parse) (emit := emit) (n + 1) hK h2 s1.unread rfl (by simp [Scanner.unread, hms.1]) (by simp [Scanner.unread, hms.2])
            (by simp only [Scanner.unread, hms.1]; exact hlen)
          refine ⟨tok, w', ?_, t, ⟨af.heap, af.rd, ⟨af.step.1, af.step.2⟩, af.out⟩⟩
          have hm : (0 : Int) < s0.msglen := by have := c4.2.1; rw [hms.1] at this; omega
          have hm' : 0 < s0.msglen := by omega
          have hy : s0.ready = true := by rw [← hms.2]; exact c4.2.2
          rw [hi60.mpr c4.1] at hread hnz
          simp [octetcounting_Scanner_Scan, hread, hnz, c1, hl, hm, hm', hy, hun, e, byteVal]
        · rw [if_neg c4]
          refine ⟨.struct .octetcounting_Token [(.typ, .int .int 0), (.lit, .str [b])], w.rd s1.r, ?_, tokRep_str ⟨.ILLEGAL, [b]⟩, ?_⟩
          · by_cases c5 : b = 60
            · rw [hi60.mpr c5] at hread hnz hby
              by_cases c6 : 0 < s0.msglen
              · have hy : s0.ready = false := by
                  rw [← hms.2]; rw [hms.1] at c4
                  cases hh : s1.ready
                  · rfl
                  · exact absurd ⟨c5, c6, hh⟩ c4
                simp [octetcounting_Scanner_Scan, hread, hnz, c1, hl, c6, hy, byteVal,
                  Zero.octetcounting_Token, putAll, Val.put, setField, Val.coerce, hby]
              · have hm0 : s0.msglen = 0 := by omega
                simp [octetcounting_Scanner_Scan, hread, hnz, c1, hl, hm0, byteVal,
                  Zero.octetcounting_Token, putAll, Val.put, setField, Val.coerce, hby]
            · simp [octetcounting_Scanner_Scan, hread, hnz, c1, mt hb0.mp c2, mt hi0.mp c2, mt hb32.mp c3, mt hi32.mp c3, mt hb60.mp c5, mt hi60.mp c5, byteVal,
                  Zero.octetcounting_Token, putAll, Val.put, setField, Val.coerce, hby]
          · refine ⟨?_, rfl, ⟨fun c _ hn => rfl, Nat.le_refl _, rfl, rfl⟩, rfl⟩
            rw [h1]; exact hK.same _ _ hms.1.symm hms.2.symm

/-- `Scan`, of the scanner of a parser -/
theorem scan_call_parser (n : Nat) {w : W EO} {a mi : Nat} {last em : Val} {p : Parser} (h : w.heap a = parserVal mi last em p) (ha : a < w.next) (hr : w.ext.rd = p.s.r)
    (hlen : p.s.msglen < 2 ^ 64) :
    ∃ tok w', call OX (n + 4) .octetcounting_Scanner_Scan [.ptr a [.s]] w = some (.ok tok w') ∧ TokRep tok p.s.scan.1 ∧
      After (fun s => parserVal mi last em { p with s := s }) w w' a p.s.scan.2 :=
  scan_call (K := fun s => parserVal mi last em { p with s := s }) n (slot_parser mi last em p) h ha hr hlen

end Verif.Mini
