import Verif.Mini.OctetScan
import Verif.Octet.Platform
import Verif.Rfc5424.Wrap

/-!
# `octetcounting/parser.go`, run symbolically
-/

set_option linter.constructorNameAsVariable false
set_option linter.unusedSimpArgs false

namespace Verif.Mini
open Verif.Gen.Mini
open Verif.Octet (Scanner Parser Token TokenType Result)

variable {extra : Nat → Nat} {order : List Bytes → List Bytes} {parse emit : List Val → M EO Val}

local notation "OX" => octXE extra order parse emit

theorem store_stepback {w : W EO} {a mi : Nat} {last em : Val} {p : Parser} (h : w.heap a = parserVal mi last em p) (b : Bool) :
    (storeAt (.ptr a [.stepback]) (.bool b) : M EO Unit) w = some (.ok () { w with heap := upd w.heap a (parserVal mi last em { p with stepback := b }) }) := by
  show (match (w.heap a).putPath [.stepback] (.bool b) with
    | some x => some (Out.ok () { w with heap := upd w.heap a x })
    | none => none) = _
  simp [h, parserVal, Val.putPath, setField]

theorem store_last {w : W EO} {a mi : Nat} {last em : Val} {p : Parser} (h : w.heap a = parserVal mi last em p) {tok : Val} {t : Token} (ht : TokRep tok t) (t0 : Token) (ht0 : TokRep last t0) :
    (storeAt (.ptr a [.last]) tok : M EO Unit) w = some (.ok () { w with heap := upd w.heap a (parserVal mi tok em p) }) := by
  obtain ⟨lit, rfl, _⟩ := ht
  obtain ⟨lit0, rfl, _⟩ := ht0
  show (match (w.heap a).putPath [.last] _ with
    | some x => some (Out.ok () { w with heap := upd w.heap a x })
    | none => none) = _
  simp [h, parserVal, Val.putPath, setField, Val.coerce]

theorem load_parser {w : W EO} {a mi : Nat} {last em : Val} {p : Parser} (h : w.heap a = parserVal mi last em p) :
    (load (.ptr a []) : M EO Val) w = some (.ok (parserVal mi last em p) w) := load_path (by simp [h, Val.getPath])

/-- `parser.scan` (octetcounting/parser.go:154-168) -/
theorem pscan_call (n : Nat) {w : W EO} {a mi : Nat} {p : Parser} {out : List (Val × Val)} (h : Rep L w a mi p out) :
    ∃ tok w', call OX (n + 5) .octetcounting_parser_scan [.ptr a []] w = some (.ok tok w') ∧ TokRep tok p.scan.1 ∧ Rep L w' a mi p.scan.2 out ∧ Step a w w' := by
  rw [call_fn (oct_prog _ _ _ _) prog_octetcounting_parser_scan]
  obtain ⟨last, h1, h2⟩ := h.heap
  have hl := load_parser h1
  simp only [parserVal] at hl
  cases hs : p.stepback with
  | true =>
    have hps : p.scan = (p.last, { p with stepback := false }) := by simp [Parser.scan, hs]
    have st := store_stepback h1 false
    obtain ⟨w1, hw1⟩ : ∃ w1 : W EO, w1 = { w with heap := upd w.heap a (parserVal mi last (octEmitVal L) { p with stepback := false }) } := ⟨_, rfl⟩
    rw [← hw1] at st
    have h3 : w1.heap a = parserVal mi last (octEmitVal L) { p with stepback := false } := by rw [hw1]; simp
    have hl3 := load_parser h3
    simp only [parserVal] at hl3
    have stp : Step a w w1 := by rw [hw1]; exact ⟨fun c _ hn => by simp [upd_apply, hn], Nat.le_refl _, rfl, rfl⟩
    refine ⟨last, w1, ?_, by rw [hps]; exact h2, ?_, stp⟩
    · simp only [hs] at hl
      simp [octetcounting_parser_scan, hl, hs, st, hl3]
    · rw [hps]
      exact h.step stp ⟨last, h3, h2⟩ rfl rfl (by rw [hw1]; exact h.rd) (by rw [hw1]; exact h.out) h.len
  | false =>
    have hps : p.scan = (p.s.scan.1, { p with s := p.s.scan.2, last := p.s.scan.1 }) := by simp [Parser.scan, hs]
    obtain ⟨tok, w1, e, t, af⟩ := scan_call_parser (extra := extra) (order := order) (parse := parse) (emit := emit) n h1 h.lt h.rd h.len
    have st := store_last af.heap t p.last h2
    obtain ⟨w2, hw2⟩ : ∃ w2 : W EO, w2 = { w1 with heap := upd w1.heap a (parserVal mi tok (octEmitVal L) { p with s := p.s.scan.2 }) } := ⟨_, rfl⟩
    rw [← hw2] at st
    have stp : Step a w w2 := af.step.trans (by rw [hw2]; exact ⟨fun c _ hn => by simp [upd_apply, hn], Nat.le_refl _, rfl, rfl⟩)
    refine ⟨tok, w2, ?_, by rw [hps]; exact t, ?_, stp⟩
    · simp only [hs] at hl
      simp [octetcounting_parser_scan, hl, hs, e, st]
    · rw [hps]
      refine h.step stp ⟨tok, ?_, t⟩ rfl rfl (by rw [hw2]; exact af.rd) (by rw [hw2]; exact af.out.trans h.out) (Octet.scan_len _ rfl p.s h.len)
      rw [hw2]; simp [parserVal]

/-- `parser.unscan` (octetcounting/parser.go:171-173) -/
theorem unscan_call (n : Nat) {w : W EO} {a mi : Nat} {p : Parser} {out : List (Val × Val)} (h : Rep L w a mi p out) :
    ∃ w', call OX (n + 1) .octetcounting_parser_unscan [.ptr a []] w = some (.ok (.tuple []) w') ∧ Rep L w' a mi p.unscan out ∧ Step a w w' := by
  rw [call_fn (oct_prog _ _ _ _) prog_octetcounting_parser_unscan]
  obtain ⟨last, h1, h2⟩ := h.heap
  have st := store_stepback h1 true
  obtain ⟨w1, hw1⟩ : ∃ w1 : W EO, w1 = { w with heap := upd w.heap a (parserVal mi last (octEmitVal L) { p with stepback := true }) } := ⟨_, rfl⟩
  rw [← hw1] at st
  have stp : Step a w w1 := by rw [hw1]; exact ⟨fun c _ hn => by simp [upd_apply, hn], Nat.le_refl _, rfl, rfl⟩
  refine ⟨w1, ?_, ?_, stp⟩
  · simp [octetcounting_parser_unscan, st]
  · refine h.step stp ⟨last, ?_, h2⟩ rfl rfl (by rw [hw1]; exact h.rd) (by rw [hw1]; exact h.out) h.len
    rw [hw1]; simp [Parser.unscan]

def resVal (m e : Val) : Val := .struct .syslog_Result [(.Message, m), (.Error, e)]

theorem Rep.more {w w' : W EO} {a mi : Nat} {p p' : Parser} {out : List (Val × Val)} (h : Rep L w a mi p out) (hs : Step a w w') (hh : w'.heap a = w.heap a)
    (h0 : ∀ last em, parserVal mi last em p' = parserVal mi last em p) (hl : p'.last = p.last) (hps : p'.s = p.s)
    (h1 : p'.internal.bestEffort = p.internal.bestEffort) (h2 : p'.internal.compliantMsg = p.internal.compliantMsg)
    (h3 : w'.ext.rd = w.ext.rd) (out' : List (Val × Val)) (h4 : w'.ext.out = L.getD out') : Rep L w' a mi p' out' := by
  obtain ⟨last, e1, e2⟩ := h.heap
  exact h.step hs ⟨last, by rw [hh, e1, h0], by rw [hl]; exact e2⟩ h1 h2 (by rw [h3, h.rd, hps]) h4 (by rw [hps]; exact h.len)

/-- A relation between the value that `Parse` of the message parser returns and the message, where everything that the value refers to is in variables `lo ≤ x < hi`. -/
abbrev MsgRel := Nat → Nat → W EO → Val → Option Rfc5424.SyslogMessage → Prop

/-- `parse` returns the message of the model, as `MR` says, in variables that are new, and its error; it changes nothing that was there. -/
structure Parses (parse : List Val → M EO Val) (MR : MsgRel) : Prop where
  ok : ∀ {w : W EO} {mi : Nat} {be co : Bool} {input : Val} {bs : Bytes}, (w.heap mi).get .bestEffort = some (.bool be) → (w.heap mi).get .compliantMsg = some (.bool co) →
    (∃ fs, w.heap mi = .struct .rfc5424_machine fs) → mi < w.next → LitRep input bs →
    ∃ res v w', Rfc5424.parse1 ⟨be, co⟩ bs = some res ∧ parse [.ptr mi [], input] w = some (.ok (.tuple [v, err5Val res.err]) w') ∧ Keeps w w' ∧ MR w.next w'.next w' v res.msg
  keep : ∀ {lo hi : Nat} {w w' : W EO} {v : Val} {m : Option Rfc5424.SyslogMessage}, MR lo hi w v m → hi ≤ w.next → w.next ≤ w'.next →
    (∀ x, lo ≤ x → x < hi → w'.heap x = w.heap x) → MR lo hi w' v m
  widen : ∀ {lo hi lo' hi' : Nat} {w : W EO} {v : Val} {m : Option Rfc5424.SyslogMessage}, MR lo hi w v m → lo' ≤ lo → hi ≤ hi' → MR lo' hi' w v m
  none : ∀ (lo hi : Nat) (w : W EO), MR lo hi w .nil none

/-- `parser.parse` (octetcounting/parser.go:143-150) -/
theorem pparse_call {MR : MsgRel} (hP : Parses parse MR) (n : Nat) {w : W EO} {a mi : Nat} {p : Parser} {out : List (Val × Val)} (h : Rep L w a mi p out) {input : Val} {bs : Bytes} (hi : LitRep input bs) :
    ∃ (res : Rfc5424.Result) (m : Rfc5424.M) (v : Val) (c : Nat) (w' : W EO), p.parseMsg bs = some (⟨res.msg, res.err.map .message⟩, { p with internal := m }) ∧
      call OX (n + 2) .octetcounting_parser_parse [.ptr a [], input] w = some (.ok (.ptr c []) w') ∧
      w'.heap c = resVal v (err5Val res.err) ∧ (w.next ≤ c ∧ c < w'.next) ∧ MR w.next c w' v res.msg ∧ Rep L w' a mi { p with internal := m } out ∧ Step a w w' := by
  rw [call_fn (oct_prog _ _ _ _) prog_octetcounting_parser_parse]
  obtain ⟨m, e1, e2, e3⟩ := Rfc5424.parse_eq p.internal bs
  obtain ⟨res, hres⟩ : ∃ res, res = Rfc5424.resultOf p.internal.bestEffort (Rfc5424.descend p.internal.compliantMsg bs) := ⟨_, rfl⟩
  rw [← hres] at e1
  have hp1 : Rfc5424.parse1 ⟨p.internal.bestEffort, p.internal.compliantMsg⟩ bs = some res := by
    obtain ⟨m1, f1, _⟩ := Rfc5424.parse_eq (Rfc5424.newMachine ⟨p.internal.bestEffort, p.internal.compliantMsg⟩) bs
    have : Rfc5424.parse1 ⟨p.internal.bestEffort, p.internal.compliantMsg⟩ bs = (Rfc5424.parse (Rfc5424.newMachine ⟨p.internal.bestEffort, p.internal.compliantMsg⟩) bs).map Prod.fst := rfl
    rw [this, f1, hres]; rfl
  obtain ⟨last, h1, h2⟩ := h.heap
  have hl := load_parser h1
  simp only [parserVal] at hl
  obtain ⟨res', v, w0, hr', hx, hk, hmr⟩ := hP.ok h.mbe h.mco h.mty h.mlt hi
  obtain rfl : res = res' := Option.some.inj (hp1.symm.trans hr')
  obtain ⟨w1, hw1⟩ : ∃ w1 : W EO, w1 = { w0 with heap := upd w0.heap w0.next (resVal v (err5Val res.err)), next := w0.next + 1 } := ⟨_, rfl⟩
  have hkn := hk.2.1
  have hne : a ≠ w0.next := by have := h.lt; omega
  have stp : Step a w w1 := by
    rw [hw1]; exact ⟨fun c hc hn => by have : c ≠ w0.next := by omega
                                       simp [upd_apply, this, hk.1 c hc], Nat.le_succ_of_le hkn, hk.2.2.1, by show w0.ext.src = _; rw [hk.2.2.2]⟩
  refine ⟨res, m, v, w0.next, w1, by simp [Parser.parseMsg, e1], ?_, by rw [hw1]; simp, ⟨hkn, by rw [hw1]; simp⟩, ?_, ?_, stp⟩
  · have hm : ∀ v : Val, setField [(Nm.Message, Val.nil), (Nm.Error, Val.nil)] .Message v = [(Nm.Message, v), (Nm.Error, Val.nil)] := fun v => by simp [setField, Val.coerce]
    have hm2 : ∀ v u : Val, setField [(Nm.Message, v), (Nm.Error, Val.nil)] .Error u = [(Nm.Message, v), (Nm.Error, u)] := fun v u => by simp [setField, Val.coerce]
    simp [octetcounting_parser_parse, hl, hx, Zero.syslog_Result, putAll, Val.put, hm, hm2, hw1, resVal, assignAll, bindOpt]
  · exact hP.keep hmr (Nat.le_refl _) (by rw [hw1]; exact Nat.le_succ _) fun x _ hx => by rw [hw1]; simp [upd_apply, show x ≠ w0.next by omega]
  · exact h.more (p' := { p with internal := m }) stp (by rw [hw1]; simp [upd_apply, hne, hk.1 a h.lt]) (fun _ _ => rfl) rfl rfl e2 e3 (by rw [hw1]; show w0.ext.rd = _; rw [hk.2.2.2]) out
      (by rw [hw1]; show w0.ext.out = _; rw [hk.2.2.2]; exact h.out)

/-! ## What the listener gets -/

/-- the `error` that the model's one stands for: the one of the message parser, or `fmt.Errorf(...)` (octetcounting/parser.go:83-85, 90-92,
98-100, 106) -/
def ErrRep (v : Val) : Option Octet.Error → Prop
  | none => v = .nil
  | some (.message e) => v = .ext (.err5 e)
  | some (.notMsgLen t) => ∃ tok, TokRep tok t ∧ v = .err (ascii "found %s, expecting a %s") [tok, .int .int 3]
  | some (.tooLong n max) => v = .err (ascii "message too long to parse. was size %d, max length %d") [.int .u64 n, .int .int max]
  | some (.notWS t) => ∃ tok, TokRep tok t ∧ v = .err (ascii "found %s, expecting a %s") [tok, .int .int 2]
  | some (.notMsg t n) => ∃ tok lit, TokRep tok t ∧ LitRep lit t.lit ∧
      v = .err (ascii "found %s after \"%s\", expecting a %s containing %d octets") [tok, lit, .int .int 4, .int .u64 n]

/-- what the listener got is this result -/
def ResRep (v : Val × Val) (r : Result) : Prop := v.1 = msgVal r.msg ∧ ErrRep v.2 r.err

/-- what the listener got are these results, in this order -/
def OutRep : List (Val × Val) → List Result → Prop
  | [], [] => True
  | v :: vs, r :: rs => ResRep v r ∧ OutRep vs rs
  | _, _ => False

theorem OutRep.append {v1 v2 : List (Val × Val)} {r1 r2 : List Result} (h1 : OutRep v1 r1) (h2 : OutRep v2 r2) : OutRep (v1 ++ v2) (r1 ++ r2) := by
  induction v1 generalizing r1 with
  | nil => cases r1 with
    | nil => exact h2
    | cons => exact h1.elim
  | cons v vs ih => cases r1 with
    | nil => exact h1.elim
    | cons r rs => exact ⟨h1.1, ih h1.2⟩

theorem OutRep.one {v : Val × Val} {r : Result} (h : ResRep v r) : OutRep [v] [r] := ⟨h, trivial⟩

/-- what the listener got is this result; the message is in variables `lo ≤ x < hi` -/
def ResRepP (MR : MsgRel) (lo hi : Nat) (w : W EO) (v : Val × Val) (r : Result) : Prop := lo ≤ hi ∧ MR lo hi w v.1 r.msg ∧ ErrRep v.2 r.err

/-- what the listener got are these results, in this order; each message is in variables of its own, in that order -/
def OutRepP (MR : MsgRel) (lo hi : Nat) (w : W EO) : List (Val × Val) → List Result → Prop
  | [], [] => lo ≤ hi
  | v :: vs, r :: rs => ∃ mid, ResRepP MR lo mid w v r ∧ OutRepP MR mid hi w vs rs
  | _, _ => False

section
variable {MR : MsgRel} (hP : Parses parse MR) {lo mid hi : Nat} {w w' : W EO}
include hP

theorem ResRepP.keep {v : Val × Val} {r : Result} (h : ResRepP MR lo hi w v r) (hn : hi ≤ w.next) (hn' : w.next ≤ w'.next) (hh : ∀ x, lo ≤ x → x < hi → w'.heap x = w.heap x) : ResRepP MR lo hi w' v r :=
  ⟨h.1, hP.keep h.2.1 hn hn' hh, h.2.2⟩

theorem ResRepP.step {v : Val × Val} {r : Result} (h : ResRepP MR lo hi w v r) {a : Nat} (ha : a < lo) (hn : hi ≤ w.next) (hs : Step a w w') {hi' : Nat} (hh : hi ≤ hi') : ResRepP MR lo hi' w' v r :=
  ⟨Nat.le_trans h.1 hh, hP.widen (hP.keep h.2.1 hn hs.2.1 fun x hx hx' => hs.1 x (by omega) (by omega)) (Nat.le_refl _) hh, h.2.2⟩

theorem ResRepP.lower {v : Val × Val} {r : Result} (h : ResRepP MR lo hi w v r) {lo' : Nat} (hl : lo' ≤ lo) : ResRepP MR lo' hi w v r := ⟨Nat.le_trans hl h.1, hP.widen h.2.1 hl (Nat.le_refl _), h.2.2⟩

theorem ResRepP.err {e : Val} {er : Option Octet.Error} (h : lo ≤ hi) (he : ErrRep e er) : ResRepP MR lo hi w (.nil, e) ⟨none, er⟩ := ⟨h, hP.none _ _ _, he⟩

omit hP in
theorem OutRepP.le : ∀ {vs : List (Val × Val)} {rs : List Result} {lo : Nat}, OutRepP MR lo hi w vs rs → lo ≤ hi
  | [], [], _, h => h
  | _ :: _, _ :: _, _, ⟨_, h1, h2⟩ => Nat.le_trans h1.1 h2.le
  | [], _ :: _, _, h => h.elim
  | _ :: _, [], _, h => h.elim

theorem OutRepP.keep : ∀ {vs : List (Val × Val)} {rs : List Result} {lo : Nat}, OutRepP MR lo hi w vs rs → hi ≤ w.next → w.next ≤ w'.next → (∀ x, lo ≤ x → x < hi → w'.heap x = w.heap x) →
    OutRepP MR lo hi w' vs rs
  | [], [], _, h, _, _, _ => h
  | _ :: _, _ :: _, _, ⟨mid, h1, h2⟩, hn, hn', hh =>
    ⟨mid, h1.keep hP (Nat.le_trans h2.le hn) hn' fun x hx hx' => hh x hx (Nat.lt_of_lt_of_le hx' h2.le), OutRepP.keep h2 hn hn' fun x hx hx' => hh x (Nat.le_trans h1.1 hx) hx'⟩
  | [], _ :: _, _, h, _, _, _ => h.elim
  | _ :: _, [], _, h, _, _, _ => h.elim

theorem OutRepP.step {vs : List (Val × Val)} {rs : List Result} (h : OutRepP MR lo hi w vs rs) {a : Nat} (ha : a < lo) (hn : hi ≤ w.next) (hs : Step a w w') : OutRepP MR lo hi w' vs rs :=
  h.keep hP hn hs.2.1 fun x hx hx' => hs.1 x (by omega) (by omega)

theorem OutRepP.lower : ∀ {vs : List (Val × Val)} {rs : List Result} {lo lo' : Nat}, OutRepP MR lo hi w vs rs → lo' ≤ lo → OutRepP MR lo' hi w vs rs
  | [], [], _, _, h, hl => Nat.le_trans hl h
  | _ :: _, _ :: _, _, _, ⟨mid, h1, h2⟩, hl => ⟨mid, ⟨Nat.le_trans hl h1.1, hP.widen h1.2.1 hl (Nat.le_refl _), h1.2.2⟩, h2⟩
  | [], _ :: _, _, _, h, _ => h.elim
  | _ :: _, [], _, _, h, _ => h.elim

theorem OutRepP.append : ∀ {v1 v2 : List (Val × Val)} {r1 r2 : List Result} {lo : Nat}, OutRepP MR lo mid w v1 r1 → OutRepP MR mid hi w v2 r2 → OutRepP MR lo hi w (v1 ++ v2) (r1 ++ r2)
  | [], _, [], _, _, h1, h2 => h2.lower hP h1
  | _ :: _, _, _ :: _, _, _, ⟨m, h1, h1'⟩, h2 => ⟨m, h1, OutRepP.append h1' h2⟩
  | [], _, _ :: _, _, _, h1, _ => h1.elim
  | _ :: _, _, [], _, _, h1, _ => h1.elim

omit hP in
theorem OutRepP.one {v : Val × Val} {r : Result} (h : ResRepP MR lo hi w v r) : OutRepP MR lo hi w [v] [r] := ⟨hi, h, Nat.le_refl _⟩

end

/-- the function in the field `emit` -/
def octEmitFn : Option (List (Val × Val)) → Nm
  | none => .emit
  | some _ => .octetcounting_NewParser_fn

/-- What the listener does when it is called: it records, at least in the states `I` of the parser and the world. Between the calls of `scan` the parser is in a state `I0`. -/
structure Guard (emit : List Val → M EO Val) (L : Option (List (Val × Val))) (a mi : Nat) (I0 I : Parser → W EO → Prop) : Prop where
  step : ∀ {p w w'}, I p w → Step a w w' → I p w'
  step0 : ∀ {p w w'}, I0 p w → Step a w w' → I0 p w'
  weaken : ∀ {p w}, I p w → I0 p w
  scan : ∀ {p w}, I0 p w → I p.scan.2 w
  unscan : ∀ {p w}, I p w → I0 p.unscan w
  parsed : ∀ {p w lit r p'}, I p w → p.parseMsg lit = some (r, p') → I p' w
  start : ∀ {p w s}, I0 p w → I0 { p with s := s } w
  emit : L = none → ∀ {p w out c m e}, I p w → Rep none w a mi p out → w.heap c = resVal m e →
    emit [.ptr c []] w = some (.ok (.tuple []) { w with ext := { w.ext with out := w.ext.out ++ [(m, e)] } })

/-- the listener that only records -/
theorem Guard.plain {a mi : Nat} : Guard xEmit L a mi (fun _ _ => True) (fun _ _ => True) where
  step _ _ := trivial
  step0 _ _ := trivial
  weaken _ := trivial
  scan _ := trivial
  unscan _ := trivial
  parsed _ _ := trivial
  start _ := trivial
  emit := by
    intro _ p w out c m e _ _ hc
    exact xEmit_apply w (a := c) (m := m) (e := e) (by simp [hc, resVal]) (by simp [hc, resVal])

variable {I0 I : Parser → W EO → Prop}

/-- the listener is called (or the function literal that does nothing, octetcounting/parser.go:28) -/
theorem emit_call (n : Nat) {w : W EO} {a mi c : Nat} {p : Parser} {out : List (Val × Val)} {m e : Val} (h : Rep L w a mi p out) (hG : Guard emit L a mi I0 I) (hI : I p w) (hc : w.heap c = resVal m e) :
    ∃ w', call OX (n + 1) (octEmitFn L) [.ptr c []] w = some (.ok (.tuple []) w') ∧ Rep L w' a mi p (out ++ [(m, e)]) ∧ Step a w w' ∧ w'.heap = w.heap ∧ w'.next = w.next := by
  cases L with
  | none =>
    refine ⟨{ w with ext := { w.ext with out := w.ext.out ++ [(m, e)] } }, ?_, ?_, ⟨fun _ _ _ => rfl, Nat.le_refl _, rfl, rfl⟩, rfl, rfl⟩
    · rw [octEmitFn, oct_emit, hG.emit rfl hI h hc]
    · exact h.more (w' := { w with ext := { w.ext with out := w.ext.out ++ [(m, e)] } }) ⟨fun _ _ _ => rfl, Nat.le_refl _, rfl, rfl⟩ rfl (fun _ _ => rfl) rfl rfl rfl rfl rfl (out ++ [(m, e)]) (by simp [h.out])
  | some base =>
    refine ⟨w, ?_, ?_, Step.refl _ _, rfl, rfl⟩
    · rw [octEmitFn, call_fn (oct_prog _ _ _ _) prog_octetcounting_NewParser_fn]
      simp [octetcounting_NewParser_fn]
    · exact h.more (Step.refl _ _) rfl (fun _ _ => rfl) rfl rfl rfl rfl rfl (out ++ [(m, e)]) h.out

/-- `p.emit(&syslog.Result{Error: e})` -/
theorem emitErr_exec (n : Nat) {w : W EO} {a mi : Nat} {p : Parser} {out : List (Val × Val)} {l : Loc} {e : Expr} {ev : Val} (h : Rep L w a mi p out) (hG : Guard emit L a mi I0 I) (hI : I p w) (hl : l .p = .ptr a [])
    (he : eval OX (call OX (n + 1)) l e w = some (.ok ev w)) :
    ∃ w', exec OX (call OX (n + 1)) (.expr (.callVal (.field (.var .p) .emit) (.cons (.new (.mk Zero.syslog_Result [.Error] (.cons e .unit))) .unit))) l w = some (.ok (.next, l) w') ∧
      Rep L w' a mi p (out ++ [(.nil, ev)]) ∧ Step a w w' := by
  obtain ⟨last, h1, h2⟩ := h.heap
  have hlo := load_parser h1
  simp only [parserVal] at hlo
  obtain ⟨w1, hw1⟩ : ∃ w1 : W EO, w1 = { w with heap := upd w.heap w.next (resVal .nil ev), next := w.next + 1 } := ⟨_, rfl⟩
  have hne : a ≠ w.next := by have := h.lt; omega
  have stp : Step a w w1 := by
    rw [hw1]; exact ⟨fun c hc hn => by have : c ≠ w.next := by omega
                                       simp [upd_apply, this], Nat.le_succ _, rfl, rfl⟩
  have h3 : Rep L w1 a mi p out := h.more stp (by rw [hw1]; simp [upd_apply, hne]) (fun _ _ => rfl) rfl rfl rfl rfl (by rw [hw1]) out (by rw [hw1]; exact h.out)
  obtain ⟨w2, e2, h4, s2, _, _⟩ := emit_call (extra := extra) (order := order) (parse := parse) (emit := emit) n (c := w.next) (m := .nil) (e := ev) h3 hG (hG.step hI stp) (by rw [hw1]; simp)
  refine ⟨w2, ?_, h4, stp.trans s2⟩
  have hm2 : ∀ u : Val, setField [(Nm.Message, Val.nil), (Nm.Error, Val.nil)] .Error u = [(Nm.Message, Val.nil), (Nm.Error, u)] := fun u => by simp [setField, Val.coerce]
  have hw1' := hw1
  simp only [resVal] at hw1'
  rw [hw1'] at e2
  cases L with
  | none =>
    rw [octEmitFn, oct_emit] at e2
    simp [hl, hlo, he, Zero.syslog_Result, putAll, Val.put, hm2, e2, octEmitVal]
  | some base =>
    rw [octEmitFn] at e2
    simp [hl, hlo, he, Zero.syslog_Result, putAll, Val.put, hm2, e2, octEmitVal]

/-! ## `run` -/

/-- the statements of a sequence -/
def nthStmt : Stmt → Nat → Stmt
  | .seq a _, 0 => a
  | .seq _ b, k + 1 => nthStmt b k
  | s, _ => s

/-- the body of the loop (octetcounting/parser.go:78-140) -/
def runBody : Stmt := match octetcounting_parser_run.body with
  | .forc _ _ b => b
  | _ => .skip

def rs (k : Nat) : Stmt := nthStmt runBody k

theorem runBody_eq : runBody = .seq (rs 0) (.seq (rs 1) (.seq (rs 2) (.seq (rs 3) (.seq (rs 4) (.seq (rs 5) (.seq (rs 6) (.seq (rs 7) (.seq (rs 8) (.seq (rs 9) (.seq (rs 10) (.seq (rs 11) (rs 12)))))))))))) := rfl

theorem scan_stmt (n : Nat) {w : W EO} {a mi : Nat} {p : Parser} {out : List (Val × Val)} {l : Loc} (h : Rep L w a mi p out) (hl : l .p = .ptr a []) :
    ∃ tok w', exec OX (call OX (n + 5)) (.assign .tok (.call .octetcounting_parser_scan (.cons (.var .p) .unit))) l w = some (.ok (.next, l.set .tok tok) w') ∧
      TokRep tok p.scan.1 ∧ Rep L w' a mi p.scan.2 out ∧ Step a w w' := by
  obtain ⟨tok, w', e, r⟩ := pscan_call (extra := extra) (order := order) (parse := parse) (emit := emit) n h
  exact ⟨tok, w', by simp [hl, e], r⟩

theorem rs1 : rs 1 = .assign .tok (.call .octetcounting_parser_scan (.cons (.var .p) .unit)) := rfl
theorem rs4 : rs 4 = .assign .tok (.call .octetcounting_parser_scan (.cons (.var .p) .unit)) := rfl
theorem rs6 : rs 6 = .assign .tok (.call .octetcounting_parser_scan (.cons (.var .p) .unit)) := rfl
theorem rs11 : rs 11 = .assign .tok (.call .octetcounting_parser_scan (.cons (.var .p) .unit)) := rfl

theorem typNum_inj {t u : TokenType} : typNum t = typNum u ↔ t = u := by cases t <;> cases u <;> decide

/-- a token that is not of the type that is expected: an error, and the loop ends (octetcounting/parser.go:82-87, 97-102) -/
theorem expect_stmt (n : Nat) {w : W EO} {a mi : Nat} {p : Parser} {out : List (Val × Val)} {l : Loc} (h : Rep L w a mi p out) (hG : Guard emit L a mi I0 I) (hI : I p w) (hl : l .p = .ptr a [])
    {tok : Val} {t : Token} (ht : TokRep tok t) (hl2 : l .tok = tok) (u : TokenType) (s : Stmt)
    (hs : s = .ifs (.bin .ne (.field (.var .tok) .typ) (.lit (.int .int (typNum u)))) (.seq (.expr (.callVal (.field (.var .p) .emit) (.cons (.new (.mk Zero.syslog_Result [.Error]
      (.cons (.call .fmt_Errorf (.cons (.lit (.str (ascii "found %s, expecting a %s"))) (.cons (.var .tok) (.cons (.lit (.int .int (typNum u))) .unit)))) .unit))) .unit))) .brk) .skip) :
    (t.typ = u → exec OX (call OX (n + 1)) s l w = some (.ok (.next, l) w)) ∧
    (t.typ ≠ u → ∃ w', exec OX (call OX (n + 1)) s l w = some (.ok (.brk, l) w') ∧
      Rep L w' a mi p (out ++ [(.nil, .err (ascii "found %s, expecting a %s") [tok, .int .int (typNum u)])]) ∧ Step a w w') := by
  have htf : eval OX (call OX (n + 1)) l (.bin .ne (.field (.var .tok) .typ) (.lit (.int .int (typNum u)))) w = some (.ok (.bool (decide (t.typ ≠ u))) w) := by
    obtain ⟨lit, rfl, _⟩ := ht
    have := typNum_inj (t := t.typ) (u := u)
    have hb : (typNum t.typ == typNum u) = decide (t.typ = u) := by rw [Bool.eq_iff_iff]; simp [this]
    simp [hl2, hb]
  subst hs
  constructor
  · intro hu
    simp only [exec_ifs, M.bind, htf]
    simp [hu]
  · intro hu
    obtain ⟨w', e, r, st⟩ := emitErr_exec (extra := extra) (order := order) (parse := parse) (emit := emit) n (e := .call .fmt_Errorf (.cons (.lit (.str (ascii "found %s, expecting a %s"))) (.cons (.var .tok) (.cons (.lit (.int .int (typNum u))) .unit))))
      (ev := .err (ascii "found %s, expecting a %s") [tok, .int .int (typNum u)]) h hG hI hl (by simp [hl2])
    refine ⟨w', ?_, r, st⟩
    have e2 : exec OX (call OX (n + 1)) (.seq (.expr (.callVal (.field (.var .p) .emit) (.cons (.new (.mk Zero.syslog_Result [.Error]
      (.cons (.call .fmt_Errorf (.cons (.lit (.str (ascii "found %s, expecting a %s"))) (.cons (.var .tok) (.cons (.lit (.int .int (typNum u))) .unit)))) .unit))) .unit))) .brk) l w = some (.ok (.brk, l) w') := by
      rw [seq_next e]; simp
    simp only [exec_ifs, M.bind, htf]
    simp [hu]
    exact e2

theorem seq_brk {E : Type} {X : Env0 E} {calls : Nm → List Val → M E Val} {a b : Stmt} {l l' : Loc} {w w' : W E} (h : exec X calls a l w = some (.ok (.brk, l') w')) :
    exec X calls (.seq a b) l w = some (.ok (.brk, l') w') := by simp [h]

theorem if_true {E : Type} {X : Env0 E} {calls : Nm → List Val → M E Val} {c : Expr} {a b : Stmt} {l : Loc} {w : W E} (h : eval X calls l c w = some (.ok (.bool true) w)) :
    exec X calls (.ifs c a b) l w = exec X calls a l w := by simp [h]

theorem if_false {E : Type} {X : Env0 E} {calls : Nm → List Val → M E Val} {c : Expr} {a b : Stmt} {l : Loc} {w : W E} (h : eval X calls l c w = some (.ok (.bool false) w)) :
    exec X calls (.ifs c a b) l w = exec X calls b l w := by simp [h]

theorem exec_brk' {E : Type} {X : Env0 E} {calls : Nm → List Val → M E Val} {l : Loc} {w : W E} : exec X calls .brk l w = some (.ok (.brk, l) w) := rfl
theorem exec_skip' {E : Type} {X : Env0 E} {calls : Nm → List Val → M E Val} {l : Loc} {w : W E} : exec X calls .skip l w = some (.ok (.next, l) w) := rfl

/-- the length is too large (octetcounting/parser.go:89-94) -/
theorem tooLong_stmt (n : Nat) {w : W EO} {a mi : Nat} {p : Parser} {out : List (Val × Val)} {l : Loc} (h : Rep L w a mi p out) (hG : Guard emit L a mi I0 I) (hI : I p w) (hl : l .p = .ptr a []) :
    (¬ Octet.toInt p.s.msglen > p.maxMessageLength → exec OX (call OX (n + 1)) (rs 3) l w = some (.ok (.next, l) w)) ∧
    (Octet.toInt p.s.msglen > p.maxMessageLength → ∃ w', exec OX (call OX (n + 1)) (rs 3) l w = some (.ok (.brk, l) w') ∧
      Rep L w' a mi p (out ++ [(.nil, .err (ascii "message too long to parse. was size %d, max length %d") [.int .u64 p.s.msglen, .int .int p.maxMessageLength])]) ∧ Step a w w') := by
  obtain ⟨last, h1, h2⟩ := h.heap
  have hlo := load_parser h1
  simp only [parserVal, scanVal] at hlo
  have hw := wrap_toInt _ h.len
  have hrs : rs 3 = .ifs (.bin .gt (.conv .int (.field (.field (.var .p) .s) .msglen)) (.field (.var .p) .maxMessageLength)) (.seq (.expr (.callVal (.field (.var .p) .emit) (.cons (.new (.mk Zero.syslog_Result [.Error] (.cons (.call .fmt_Errorf (.cons (.lit (.str (ascii "message too long to parse. was size %d, max length %d"))) (.cons (.field (.field (.var .p) .s) .msglen) (.cons (.field (.var .p) .maxMessageLength) .unit)))) .unit))) .unit))) .brk) .skip := rfl
  have hc : eval OX (call OX (n + 1)) l (.bin .gt (.conv .int (.field (.field (.var .p) .s) .msglen)) (.field (.var .p) .maxMessageLength)) w =
      some (.ok (.bool (decide (p.maxMessageLength < Octet.toInt p.s.msglen))) w) := by
    simp [hl, hlo, hw]
  rw [hrs]
  constructor
  · intro hu
    rw [decide_eq_false (by omega)] at hc
    rw [if_false hc]; rfl
  · intro hu
    rw [decide_eq_true (by omega)] at hc
    obtain ⟨w', e, r, st⟩ := emitErr_exec (extra := extra) (order := order) (parse := parse) (emit := emit) n (e := .call .fmt_Errorf (.cons (.lit (.str (ascii "message too long to parse. was size %d, max length %d"))) (.cons (.field (.field (.var .p) .s) .msglen) (.cons (.field (.var .p) .maxMessageLength) .unit))))
      (ev := .err (ascii "message too long to parse. was size %d, max length %d") [.int .u64 p.s.msglen, .int .int p.maxMessageLength]) h hG hI hl
      (by simp [hl, hlo])
    exact ⟨w', by rw [if_true hc, seq_next e]; rfl, r, st⟩

/-- the error of an incomplete message (octetcounting/parser.go:106) -/
def notMsgE (tok lit : Val) (p : Parser) : Val :=
  .err (ascii "found %s after \"%s\", expecting a %s containing %d octets") [tok, lit, .int .int 4, .int .u64 p.s.msglen]

/-- `e := fmt.Errorf(...)` -/
def rs7a : Stmt := match rs 7 with
  | .ifs _ (.seq a _) _ => a
  | _ => .skip

/-- `if len(tok.lit) < int(p.s.msglen) && p.bestEffort {...}` -/
def rs7b : Stmt := match rs 7 with
  | .ifs _ (.seq _ (.seq b _)) _ => b
  | _ => .skip

/-- the condition -/
def rs7c : Expr := match rs7b with
  | .ifs c _ _ => c
  | _ => .unit

/-- `result := p.parse(tok.lit)`, ... -/
def rs7d : Stmt := match rs7b with
  | .ifs _ d _ => d
  | _ => .skip

theorem rs7_eq : rs 7 = .ifs (.bin .ne (.field (.var .tok) .typ) (.lit (.int .int 4))) (.seq rs7a (.seq rs7b
    (.seq (.expr (.callVal (.field (.var .p) .emit) (.cons (.new (.mk Zero.syslog_Result [.Error] (.cons (.var .e) .unit))) .unit))) .brk))) .skip := rfl
theorem rs7b_eq : rs7b = .ifs rs7c rs7d .skip := rfl
theorem rs7d_eq : rs7d = .seq (.assign .result (.call .octetcounting_parser_parse (.cons (.var .p) (.cons (.field (.var .tok) .lit) .unit))))
    (.seq (.ifs (.bin .eq (.field (.var .result) .Error) (.lit .nil)) (.store (.addr (.var .result) .Error) (.var .e)) .skip)
    (.seq (.expr (.callVal (.field (.var .p) .emit) (.cons (.var .result) .unit))) .brk)) := rfl

theorem len_lit {v : Val} {s : Bytes} (h : LitRep v s) (w : W EO) : (lenVal v : M EO Val) w = some (.ok (natVal s.length) w) := by
  rcases h with rfl | ⟨rfl, rfl⟩ <;> rfl

theorem eval_typ (n : Nat) {w : W EO} {l : Loc} {tok : Val} {t : Token} (ht : TokRep tok t) (hl2 : l .tok = tok) (u : TokenType) :
    eval OX (call OX n) l (.bin .ne (.field (.var .tok) .typ) (.lit (.int .int (typNum u)))) w = some (.ok (.bool (decide (t.typ ≠ u))) w) ∧
    eval OX (call OX n) l (.bin .eq (.field (.var .tok) .typ) (.lit (.int .int (typNum u)))) w = some (.ok (.bool (decide (t.typ = u))) w) := by
  obtain ⟨lit, rfl, _⟩ := ht
  have := typNum_inj (t := t.typ) (u := u)
  have hb : (typNum t.typ == typNum u) = decide (t.typ = u) := by rw [Bool.eq_iff_iff]; simp [this]
  constructor <;> simp [hl2, hb]

/-- `p.emit(result)` -/
theorem emitRes_exec (n : Nat) {w : W EO} {a mi c : Nat} {p : Parser} {out : List (Val × Val)} {l : Loc} {x : Nm} {m e : Val} (h : Rep L w a mi p out) (hG : Guard emit L a mi I0 I) (hI : I p w) (hl : l .p = .ptr a [])
    (hx : l x = .ptr c []) (hc : w.heap c = resVal m e) :
    ∃ w', exec OX (call OX (n + 1)) (.expr (.callVal (.field (.var .p) .emit) (.cons (.var x) .unit))) l w = some (.ok (.next, l) w') ∧
      Rep L w' a mi p (out ++ [(m, e)]) ∧ Step a w w' ∧ w'.heap = w.heap ∧ w'.next = w.next := by
  obtain ⟨last, h1, h2⟩ := h.heap
  have hlo := load_parser h1
  simp only [parserVal] at hlo
  obtain ⟨w2, e2, h4, s2, e3, e4⟩ := emit_call (extra := extra) (order := order) (parse := parse) (emit := emit) n (c := c) (m := m) (e := e) h hG hI hc
  refine ⟨w2, ?_, h4, s2, e3, e4⟩
  cases L with
  | none =>
    rw [octEmitFn, oct_emit] at e2
    simp [hl, hlo, hx, e2, octEmitVal]
  | some base =>
    rw [octEmitFn] at e2
    simp [hl, hlo, hx, e2, octEmitVal]

/-- the third token is not a message (octetcounting/parser.go:105-121) -/
theorem notMsg_stmt {MR : MsgRel} (hP : Parses parse MR) (n : Nat) {w : W EO} {a mi : Nat} {p : Parser} {out : List (Val × Val)} {l : Loc} (h : Rep L w a mi p out) (hG : Guard emit L a mi I0 I) (hI : I p w) (hl : l .p = .ptr a [])
    {tok : Val} {t : Token} (ht : TokRep tok t) (hl2 : l .tok = tok) :
    (t.typ = .SYSLOGMSG → exec OX (call OX (n + 2)) (rs 7) l w = some (.ok (.next, l) w)) ∧
    (t.typ ≠ .SYSLOGMSG → ¬ ((t.lit.length : Int) < Octet.toInt p.s.msglen ∧ p.bestEffort = true) →
      ∃ l' w' v, exec OX (call OX (n + 2)) (rs 7) l w = some (.ok (.brk, l') w') ∧ ResRepP MR w.next w'.next w' v ⟨none, some (.notMsg t p.s.msglen)⟩ ∧ Rep L w' a mi p (out ++ [v]) ∧ Step a w w') ∧
    (t.typ ≠ .SYSLOGMSG → ((t.lit.length : Int) < Octet.toInt p.s.msglen ∧ p.bestEffort = true) →
      ∃ l' w' v result p', exec OX (call OX (n + 2)) (rs 7) l w = some (.ok (.brk, l') w') ∧ p.parseMsg t.lit = some (result, p') ∧
        ResRepP MR w.next w'.next w' v ⟨result.msg, match result.err with | none => some (.notMsg t p.s.msglen) | some e' => some e'⟩ ∧ Rep L w' a mi p' (out ++ [v]) ∧ Step a w w') := by
  have htf := (eval_typ (extra := extra) (order := order) (parse := parse) (emit := emit) (n + 2) (w := w) (l := l) ht hl2 .SYSLOGMSG).1
  rw [show typNum .SYSLOGMSG = 4 from rfl] at htf
  have htok := ht
  obtain ⟨lit, rfl, hlit⟩ := ht
  obtain ⟨last, h1, h2⟩ := h.heap
  have hlo := load_parser h1
  simp only [parserVal, scanVal] at hlo
  have hw := wrap_toInt _ h.len
  obtain ⟨l1, hl1⟩ : ∃ l1 : Loc, l1 = l.set .e (notMsgE (.struct .octetcounting_Token [(.typ, .int .int (typNum t.typ)), (.lit, lit)]) lit p) := ⟨_, rfl⟩
  have k1 : l1 .p = .ptr a [] := by rw [hl1]; simp [hl]
  have k2 : l1 .tok = .struct .octetcounting_Token [(.typ, .int .int (typNum t.typ)), (.lit, lit)] := by rw [hl1]; simp [hl2]
  have k3 : l1 .e = notMsgE (.struct .octetcounting_Token [(.typ, .int .int (typNum t.typ)), (.lit, lit)]) lit p := by rw [hl1]; simp
  have e1 : exec OX (call OX (n + 2)) rs7a l w = some (.ok (.next, l1) w) := by
    have : rs7a = .assign .e (.call .fmt_Errorf (.cons (.lit (.str (ascii "found %s after \"%s\", expecting a %s containing %d octets"))) (.cons (.var .tok) (.cons (.field (.var .tok) .lit) (.cons (.lit (.int .int 4)) (.cons (.field (.field (.var .p) .s) .msglen) .unit)))))) := rfl
    rw [this, hl1]
    simp [hl, hl2, hlo, notMsgE]
  have hc : eval OX (call OX (n + 2)) l1 rs7c w = some (.ok (.bool (decide ((t.lit.length : Int) < Octet.toInt p.s.msglen ∧ p.bestEffort = true))) w) := by
    have : rs7c = .and (.bin .lt (.len (.field (.var .tok) .lit)) (.conv .int (.field (.field (.var .p) .s) .msglen))) (.field (.var .p) .bestEffort) := rfl
    rw [this]
    have hle := len_lit hlit w
    by_cases g : (t.lit.length : Int) < Octet.toInt p.s.msglen
    · simp [k1, k2, hlo, hw, hle, natVal, g]
    · simp [k1, k2, hlo, hw, hle, natVal, g]
  have hres : ErrRep (notMsgE (.struct .octetcounting_Token [(.typ, .int .int (typNum t.typ)), (.lit, lit)]) lit p) (some (.notMsg t p.s.msglen)) :=
    ⟨_, lit, htok, hlit, rfl⟩
  rw [rs7_eq]
  refine ⟨fun ht => ?_, fun ht hn => ?_, fun ht hn => ?_⟩
  · rw [decide_eq_false (by simp [ht])] at htf
    rw [if_false htf]; rfl
  · rw [decide_eq_true ht] at htf
    rw [decide_eq_false hn] at hc
    obtain ⟨w', e, r, st⟩ := emitErr_exec (extra := extra) (order := order) (parse := parse) (emit := emit) (n + 1) (l := l1) (e := .var .e) (ev := notMsgE (.struct .octetcounting_Token [(.typ, .int .int (typNum t.typ)), (.lit, lit)]) lit p) h hG hI k1
      (by simp [k3])
    refine ⟨l1, w', _, ?_, .err hP st.2.1 hres, r, st⟩
    have e2 : exec OX (call OX (n + 2)) rs7b l1 w = some (.ok (.next, l1) w) := by rw [rs7b_eq, if_false hc]; rfl
    rw [if_true htf, seq_next e1, seq_next e2, seq_next e]; rfl
  · rw [decide_eq_true ht] at htf
    rw [decide_eq_true hn] at hc
    obtain ⟨res, m, mv, c, w1, f1, f2, f3, ⟨fc, f4⟩, fm, f5, f6⟩ := pparse_call (extra := extra) (order := order) (emit := emit) hP n h hlit
    obtain ⟨l2, hl2'⟩ : ∃ l2 : Loc, l2 = l1.set .result (.ptr c []) := ⟨_, rfl⟩
    have j1 : l2 .p = .ptr a [] := by rw [hl2']; simp [k1]
    have j2 : l2 .result = .ptr c [] := by rw [hl2']; simp
    have j3 : l2 .e = notMsgE (.struct .octetcounting_Token [(.typ, .int .int (typNum t.typ)), (.lit, lit)]) lit p := by rw [hl2']; simp [k3]
    have d1 : exec OX (call OX (n + 2)) (.assign .result (.call .octetcounting_parser_parse (.cons (.var .p) (.cons (.field (.var .tok) .lit) .unit)))) l1 w = some (.ok (.next, l2) w1) := by
      rw [hl2']; simp [k1, k2, f2]
    have hlr : (load (.ptr c []) : M EO Val) w1 = some (.ok (resVal mv (err5Val res.err)) w1) := load_path (by simp [f3, Val.getPath])
    simp only [resVal] at hlr
    have hne : a ≠ c := by have := h.lt; omega
    cases her : res.err with
    | some er =>
      rw [her] at hlr f3
      have d2 : exec OX (call OX (n + 2)) (.ifs (.bin .eq (.field (.var .result) .Error) (.lit .nil)) (.store (.addr (.var .result) .Error) (.var .e)) .skip) l2 w1 = some (.ok (.next, l2) w1) := by
        simp [j2, hlr, err5Val]
      obtain ⟨w2, e3, r, st, _⟩ := emitRes_exec (extra := extra) (order := order) (parse := parse) (emit := emit) (n + 1) (x := .result) f5 hG (hG.step (hG.parsed hI f1) f6) j1 j2 f3
      refine ⟨l2, w2, _, _, _, ?_, f1, ?_, r, f6.trans st⟩
      · have e2 : exec OX (call OX (n + 2)) rs7b l1 w = some (.ok (.brk, l2) w2) := by
          rw [rs7b_eq, if_true hc, rs7d_eq, seq_next d1, seq_next d2, seq_next e3]; rfl
        rw [if_true htf, seq_next e1, seq_brk e2]
      · rw [her]; exact ⟨(f6.trans st).2.1, hP.widen (hP.keep fm (Nat.le_of_lt f4) st.2.1 fun x hx hx' => st.1 x (by omega) (by have := h.lt; omega)) (Nat.le_refl _) (Nat.le_of_lt (Nat.lt_of_lt_of_le f4 st.2.1)), rfl⟩
    | none =>
      rw [her] at hlr f3
      obtain ⟨w2, hw2⟩ : ∃ w2 : W EO, w2 = { w1 with heap := upd w1.heap c (resVal mv (notMsgE (.struct .octetcounting_Token [(.typ, .int .int (typNum t.typ)), (.lit, lit)]) lit p)) } := ⟨_, rfl⟩
      have d2 : exec OX (call OX (n + 2)) (.ifs (.bin .eq (.field (.var .result) .Error) (.lit .nil)) (.store (.addr (.var .result) .Error) (.var .e)) .skip) l2 w1 = some (.ok (.next, l2) w2) := by
        have st : (storeAt (.ptr c [.Error]) (notMsgE (.struct .octetcounting_Token [(.typ, .int .int (typNum t.typ)), (.lit, lit)]) lit p) : M EO Unit) w1 = some (.ok () w2) := by
          show (match (w1.heap c).putPath [.Error] _ with
            | some x => some (Out.ok () { w1 with heap := upd w1.heap c x })
            | none => none) = _
          rw [hw2]
          simp [f3, resVal, err5Val, notMsgE, Val.putPath, setField, Val.coerce]
        simp [j2, j3, hlr, err5Val, st]
      have hnm : mi ≠ c := by have := h.mlt; omega
      have st2 : Step a w w2 := by
        refine ⟨fun x hc hn => ?_, by rw [hw2]; exact f6.2.1, by rw [hw2]; exact f6.2.2.1, by rw [hw2]; exact f6.2.2.2⟩
        have : x ≠ c := by omega
        rw [hw2]
        simp only [upd_apply, if_neg this]
        exact f6.1 x hc hn
      have f5' : Rep L w2 a mi { p with internal := m } out := by
        obtain ⟨last', g1, g2⟩ := f5.heap
        rw [hw2]
        exact ⟨⟨last', by simp only [upd_apply, if_neg hne]; exact g1, g2⟩, f5.lt, f5.mlt, f5.ne, by simp only [upd_apply, if_neg hnm]; exact f5.mbe,
          by simp only [upd_apply, if_neg hnm]; exact f5.mco, by simp only [upd_apply, if_neg hnm]; exact f5.mty, f5.rd, f5.out, f5.len⟩
      obtain ⟨w3, e3, r, st, _⟩ := emitRes_exec (extra := extra) (order := order) (parse := parse) (emit := emit) (n + 1) (x := .result) (m := mv) (e := notMsgE (.struct .octetcounting_Token [(.typ, .int .int (typNum t.typ)), (.lit, lit)]) lit p) f5' hG (hG.step (hG.parsed hI f1) st2) j1 j2 (by rw [hw2]; simp)
      refine ⟨l2, w3, _, _, _, ?_, f1, ?_, r, st2.trans st⟩
      · have e2 : exec OX (call OX (n + 2)) rs7b l1 w = some (.ok (.brk, l2) w3) := by
          rw [rs7b_eq, if_true hc, rs7d_eq, seq_next d1, seq_next d2, seq_next e3]; rfl
        rw [if_true htf, seq_next e1, seq_brk e2]
      · have fm2 : MR w.next c w2 mv res.msg := hP.keep fm (Nat.le_of_lt f4) (by rw [hw2]; exact Nat.le_refl _) fun x _ hx => by rw [hw2]; simp [upd_apply, show x ≠ c by omega]
        have f4' : c < w2.next := by rw [hw2]; exact f4
        rw [her]; exact ⟨(st2.trans st).2.1, hP.widen (hP.keep fm2 (Nat.le_of_lt f4') st.2.1 fun x hx hx' => st.1 x (by omega) (by have := h.lt; omega)) (Nat.le_refl _) (Nat.le_of_lt (Nat.lt_of_lt_of_le f4' st.2.1)), hres⟩

theorem rs2_eq : rs 2 = .ifs (.bin .ne (.field (.var .tok) .typ) (.lit (.int .int (typNum .MSGLEN)))) (.seq (.expr (.callVal (.field (.var .p) .emit) (.cons (.new (.mk Zero.syslog_Result [.Error]
      (.cons (.call .fmt_Errorf (.cons (.lit (.str (ascii "found %s, expecting a %s"))) (.cons (.var .tok) (.cons (.lit (.int .int (typNum .MSGLEN))) .unit)))) .unit))) .unit))) .brk) .skip := rfl
theorem rs5_eq : rs 5 = .ifs (.bin .ne (.field (.var .tok) .typ) (.lit (.int .int (typNum .WS)))) (.seq (.expr (.callVal (.field (.var .p) .emit) (.cons (.new (.mk Zero.syslog_Result [.Error]
      (.cons (.call .fmt_Errorf (.cons (.lit (.str (ascii "found %s, expecting a %s"))) (.cons (.var .tok) (.cons (.lit (.int .int (typNum .WS))) .unit)))) .unit))) .unit))) .brk) .skip := rfl
theorem rs8_eq : rs 8 = .assign .result_2 (.call .octetcounting_parser_parse (.cons (.var .p) (.cons (.field (.var .tok) .lit) .unit))) := rfl
theorem rs9_eq : rs 9 = .ifs (.or (.field (.var .p) .bestEffort) (.bin .eq (.field (.var .result_2) .Error) (.lit .nil))) (.expr (.callVal (.field (.var .p) .emit) (.cons (.var .result_2) .unit))) .skip := rfl
theorem rs10_eq : rs 10 = .ifs (.and (.not (.field (.var .p) .bestEffort)) (.bin .ne (.field (.var .result_2) .Error) (.lit .nil)))
    (.seq (.expr (.callVal (.field (.var .p) .emit) (.cons (.new (.mk Zero.syslog_Result [.Error] (.cons (.field (.var .result_2) .Error) .unit))) .unit))) .brk) .skip := rfl
theorem rs12_eq : rs 12 = .ifs (.bin .eq (.field (.var .tok) .typ) (.lit (.int .int (typNum .EOF)))) .brk (.expr (.call .octetcounting_parser_unscan (.cons (.var .p) .unit))) := rfl

theorem err5_nil (e : Option Rfc5424.Err) : (err5Val e).isNil = decide (e = none) := by cases e <;> rfl

theorem eq_nil_right (v : Val) : v.eq .nil = some v.isNil := by cases v <;> rfl

/-- a complete message: it is parsed, and passed on (octetcounting/parser.go:123-132) -/
theorem msg_stmts {MR : MsgRel} (hP : Parses parse MR) (n : Nat) {w : W EO} {a mi : Nat} {p : Parser} {out : List (Val × Val)} {l : Loc} (h : Rep L w a mi p out) (hG : Guard emit L a mi I0 I) (hI : I p w) (hl : l .p = .ptr a [])
    {tok : Val} {t : Token} (ht : TokRep tok t) (hl2 : l .tok = tok) (rest : Stmt) :
    ∃ result p', p.parseMsg t.lit = some (result, p') ∧ p'.bestEffort = p.bestEffort ∧
      ((p.bestEffort = false ∧ result.err ≠ none) → ∃ l' w' v, exec OX (call OX (n + 2)) (.seq (rs 8) (.seq (rs 9) (.seq (rs 10) rest))) l w = some (.ok (.brk, l') w') ∧
        ResRepP MR w.next w'.next w' v ⟨none, result.err⟩ ∧ Rep L w' a mi p' (out ++ [v]) ∧ Step a w w') ∧
      (¬ (p.bestEffort = false ∧ result.err ≠ none) → ∃ l' w' v, exec OX (call OX (n + 2)) (.seq (rs 8) (.seq (rs 9) (.seq (rs 10) rest))) l w = exec OX (call OX (n + 2)) rest l' w' ∧
        ResRepP MR w.next w'.next w' v result ∧ Rep L w' a mi p' (out ++ [v]) ∧ Step a w w' ∧ l' .p = .ptr a []) := by
  obtain ⟨lit, rfl, hlit⟩ := ht
  obtain ⟨res, m, mv, c, w1, f1, f2, f3, ⟨fc, f4⟩, fm, f5, f6⟩ := pparse_call (extra := extra) (order := order) (emit := emit) hP n h hlit
  refine ⟨_, _, f1, rfl, ?_⟩
  obtain ⟨l1, hl1⟩ : ∃ l1 : Loc, l1 = l.set .result_2 (.ptr c []) := ⟨_, rfl⟩
  have k1 : l1 .p = .ptr a [] := by rw [hl1]; simp [hl]
  have k2 : l1 .result_2 = .ptr c [] := by rw [hl1]; simp
  have e1 : exec OX (call OX (n + 2)) (rs 8) l w = some (.ok (.next, l1) w1) := by
    rw [rs8_eq, hl1]; simp [hl, hl2, f2]
  have hlr : (load (.ptr c []) : M EO Val) w1 = some (.ok (resVal mv (err5Val res.err)) w1) := load_path (by simp [f3, Val.getPath])
  simp only [resVal] at hlr
  obtain ⟨last, h1, h2⟩ := f5.heap
  have hlo := load_parser h1
  simp only [parserVal, scanVal] at hlo
  have c1 : eval OX (call OX (n + 2)) l1 (.or (.field (.var .p) .bestEffort) (.bin .eq (.field (.var .result_2) .Error) (.lit .nil))) w1 =
      some (.ok (.bool (p.bestEffort || decide (res.err = none))) w1) := by
    cases hb : p.bestEffort <;> simp [k1, k2, hlo, hlr, hb, eq_nil_right, err5_nil]
  have c2 : ∀ w2 : W EO, w2.heap = w1.heap → eval OX (call OX (n + 2)) l1 (.and (.not (.field (.var .p) .bestEffort)) (.bin .ne (.field (.var .result_2) .Error) (.lit .nil))) w2 =
      some (.ok (.bool (!p.bestEffort && decide (res.err ≠ none))) w2) := by
    intro w2 hw2
    have h1' : w2.heap a = _ := (congrFun hw2 a).trans h1
    have hlo' := load_parser h1'
    simp only [parserVal, scanVal] at hlo'
    have hlr' : (load (.ptr c []) : M EO Val) w2 = some (.ok (resVal mv (err5Val res.err)) w2) := load_path (by simp [hw2, f3, Val.getPath])
    simp only [resVal] at hlr'
    cases hb : p.bestEffort <;> simp [k1, k2, hlo', hlr', hb, eq_nil_right, err5_nil]
  have hmap : ∀ o : Option Rfc5424.Err, o.map Octet.Error.message = none ↔ o = none := by intro o; cases o <;> simp
  constructor
  · rintro ⟨hb, hn⟩
    have hn' : res.err ≠ none := fun e => hn ((hmap _).mpr e)
    simp only [hb, decide_eq_false hn', Bool.false_or] at c1
    have e2 : exec OX (call OX (n + 2)) (rs 9) l1 w1 = some (.ok (.next, l1) w1) := by rw [rs9_eq, if_false c1]; rfl
    have c3 := c2 w1 rfl
    simp only [hb, decide_eq_true hn', Bool.not_false, Bool.true_and] at c3
    obtain ⟨w', e, r, st⟩ := emitErr_exec (extra := extra) (order := order) (parse := parse) (emit := emit) (n + 1) (l := l1) (e := .field (.var .result_2) .Error) (ev := err5Val res.err) f5 hG (hG.step (hG.parsed hI f1) f6) k1 (by simp [k2, hlr])
    refine ⟨l1, w', _, ?_, .err hP (f6.trans st).2.1 ?_, r, f6.trans st⟩
    · have e3 : exec OX (call OX (n + 2)) (rs 10) l1 w1 = some (.ok (.brk, l1) w') := by rw [rs10_eq, if_true c3, seq_next e]; rfl
      rw [seq_next e1, seq_next e2, seq_brk e3]
    · cases he : res.err with
      | none => exact absurd he hn'
      | some er => rfl
  · intro hn
    have hor : (p.bestEffort || decide (res.err = none)) = true := by
      cases hb : p.bestEffort
      · cases he : res.err with
        | none => rfl
        | some er => exact absurd ⟨hb, by simp [he]⟩ hn
      · rfl
    have hand : (!p.bestEffort && decide (res.err ≠ none)) = false := by
      cases hb : p.bestEffort
      · cases he : res.err with
        | none => rfl
        | some er => exact absurd ⟨hb, by simp [he]⟩ hn
      · rfl
    rw [hor] at c1
    obtain ⟨w2, e, r, st, g1, g2⟩ := emitRes_exec (extra := extra) (order := order) (parse := parse) (emit := emit) (n + 1) (x := .result_2) f5 hG (hG.step (hG.parsed hI f1) f6) k1 k2 f3
    have c3 := c2 w2 g1
    rw [hand] at c3
    refine ⟨l1, w2, _, ?_, ⟨(f6.trans st).2.1, hP.widen (hP.keep fm (Nat.le_of_lt f4) st.2.1 fun x hx hx' => st.1 x (by omega) (by have := h.lt; omega)) (Nat.le_refl _) (Nat.le_of_lt (Nat.lt_of_lt_of_le f4 st.2.1)), ?_⟩, r, f6.trans st, k1⟩
    · have e2 : exec OX (call OX (n + 2)) (rs 9) l1 w1 = some (.ok (.next, l1) w2) := by rw [rs9_eq, if_true c1, e]
      have e3 : exec OX (call OX (n + 2)) (rs 10) l1 w2 = some (.ok (.next, l1) w2) := by rw [rs10_eq, if_false c3]; rfl
      rw [seq_next e1, seq_next e2, seq_next e3]
    · cases he : res.err <;> rfl

/-- a round of the loop: the last one, or one after which the rest follows -/
theorem run_round {MR : MsgRel} (hP : Parses parse MR) (n : Nat) {w : W EO} {a mi : Nat} {p p' : Parser} {out : List (Val × Val)} {l : Loc} {fuel : Nat} {results : List Result}
    (hrun : Octet.runLoop (fuel + 1) p = some (results, p')) (h : Rep L w a mi p out) (hG : Guard emit L a mi I0 I) (hI : I0 p w) (hl : l .p = .ptr a []) :
    (∃ l' w' vs, exec OX (call OX (n + 5)) runBody l w = some (.ok (.brk, l') w') ∧ OutRepP MR w.next w'.next w' vs results ∧ Rep L w' a mi p' (out ++ vs) ∧ Step a w w') ∨
    (∃ l' w' vs r1 r2 p1, exec OX (call OX (n + 5)) runBody l w = some (.ok (.next, l') w') ∧ l' .p = .ptr a [] ∧ results = r1 ++ r2 ∧ OutRepP MR w.next w'.next w' vs r1 ∧
      Rep L w' a mi p1 (out ++ vs) ∧ Step a w w' ∧ Octet.runLoop fuel p1 = some (r2, p') ∧ I0 p1 w') := by
  rw [Octet.runLoop] at hrun
  rw [runBody_eq]
  -- `var tok Token`
  obtain ⟨l0, hl0⟩ : ∃ l0 : Loc, l0 = l.set .tok Zero.octetcounting_Token := ⟨_, rfl⟩
  have e0 : exec OX (call OX (n + 5)) (rs 0) l w = some (.ok (.next, l0) w) := by rw [hl0]; rfl
  have k0 : l0 .p = .ptr a [] := by rw [hl0]; simp [hl]
  rw [seq_next e0]
  -- the length
  obtain ⟨tok1, w1, e1, t1, R1, S1⟩ := scan_stmt (extra := extra) (order := order) (parse := parse) (emit := emit) n (l := l0) h k0
  rw [rs1, seq_next e1]
  have k1 : (l0.set .tok tok1) .p = .ptr a [] := by simp [k0]
  have k1' : (l0.set .tok tok1) .tok = tok1 := by simp
  generalize hl1 : l0.set .tok tok1 = l1 at *
  obtain ⟨q1, hq1⟩ : ∃ q1, q1 = p.scan := ⟨_, rfl⟩
  rw [← hq1] at t1 R1 hrun
  obtain ⟨T1, P1⟩ := q1
  have hI1 : I P1 w1 := hG.step (by have := hG.scan hI; rwa [← hq1] at this) S1
  simp only at t1 R1 hrun
  obtain ⟨x1, x2⟩ := expect_stmt (extra := extra) (order := order) (parse := parse) (emit := emit) (n + 4) R1 hG hI1 k1 t1 k1' .MSGLEN (rs 2) rs2_eq
  by_cases d1 : T1.typ = .MSGLEN
  case neg =>
    rw [if_pos d1] at hrun
    injection hrun with hrun; injection hrun with r1 r2
    obtain ⟨w2, e2, R2, S2⟩ := x2 d1
    exact Or.inl ⟨l1, w2, [(.nil, .err (ascii "found %s, expecting a %s") [tok1, .int .int 3])], seq_brk e2, by rw [← r1]; exact .one (.err hP (S1.trans S2).2.1 ⟨tok1, t1, rfl⟩), by rw [← r2]; exact R2, S1.trans S2⟩
  rw [if_neg (by simp [d1])] at hrun
  rw [seq_next (x1 d1)]
  -- not too long
  obtain ⟨y1, y2⟩ := tooLong_stmt (extra := extra) (order := order) (parse := parse) (emit := emit) (n + 4) R1 hG hI1 k1
  by_cases d2 : Octet.toInt P1.s.msglen > P1.maxMessageLength
  · rw [if_pos d2] at hrun
    injection hrun with hrun; injection hrun with r1 r2
    obtain ⟨w2, e2, R2, S2⟩ := y2 d2
    exact Or.inl ⟨l1, w2, [(.nil, .err (ascii "message too long to parse. was size %d, max length %d") [.int .u64 P1.s.msglen, .int .int P1.maxMessageLength])], seq_brk e2, by rw [← r1]; exact .one (.err hP (S1.trans S2).2.1 rfl), by rw [← r2]; exact R2, S1.trans S2⟩
  rw [if_neg d2] at hrun
  rw [seq_next (y1 d2)]
  -- the space
  obtain ⟨tok2, w2, e2, t2, R2, S2⟩ := scan_stmt (extra := extra) (order := order) (parse := parse) (emit := emit) n (l := l1) R1 k1
  rw [rs4, seq_next e2]
  have k2 : (l1.set .tok tok2) .p = .ptr a [] := by simp [k1]
  have k2' : (l1.set .tok tok2) .tok = tok2 := by simp
  generalize hl2 : l1.set .tok tok2 = l2 at *
  obtain ⟨q2, hq2⟩ : ∃ q2, q2 = P1.scan := ⟨_, rfl⟩
  rw [← hq2] at t2 R2 hrun
  obtain ⟨T2, P2⟩ := q2
  have hI2 : I P2 w2 := hG.step (by have := hG.scan (hG.weaken hI1); rwa [← hq2] at this) S2
  simp only at t2 R2 hrun
  obtain ⟨x3, x4⟩ := expect_stmt (extra := extra) (order := order) (parse := parse) (emit := emit) (n + 4) R2 hG hI2 k2 t2 k2' .WS (rs 5) rs5_eq
  by_cases d3 : T2.typ = .WS
  case neg =>
    rw [if_pos d3] at hrun
    injection hrun with hrun; injection hrun with r1 r2
    obtain ⟨w3, e3, R3, S3⟩ := x4 d3
    exact Or.inl ⟨l2, w3, [(.nil, .err (ascii "found %s, expecting a %s") [tok2, .int .int 2])], seq_brk e3, by rw [← r1]; exact .one (.err hP ((S1.trans S2).trans S3).2.1 ⟨tok2, t2, rfl⟩), by rw [← r2]; exact R3, (S1.trans S2).trans S3⟩
  rw [if_neg (by simp [d3])] at hrun
  rw [seq_next (x3 d3)]
  -- the message
  obtain ⟨tok3, w3, e3, t3, R3, S3⟩ := scan_stmt (extra := extra) (order := order) (parse := parse) (emit := emit) n (l := l2) R2 k2
  rw [rs6, seq_next e3]
  have k3 : (l2.set .tok tok3) .p = .ptr a [] := by simp [k2]
  have k3' : (l2.set .tok tok3) .tok = tok3 := by simp
  generalize hl3 : l2.set .tok tok3 = l3 at *
  obtain ⟨q3, hq3⟩ : ∃ q3, q3 = P2.scan := ⟨_, rfl⟩
  rw [← hq3] at t3 R3 hrun
  obtain ⟨T3, P3⟩ := q3
  have hI3 : I P3 w3 := hG.step (by have := hG.scan (hG.weaken hI2); rwa [← hq3] at this) S3
  simp only at t3 R3 hrun
  obtain ⟨z1, z2, z3⟩ := notMsg_stmt (extra := extra) (order := order) (emit := emit) hP (n + 3) R3 hG hI3 k3 t3 k3'
  have S13 := (S1.trans S2).trans S3
  by_cases d4 : T3.typ = .SYSLOGMSG
  case neg =>
    rw [if_pos d4] at hrun
    by_cases d5 : (T3.lit.length : Int) < Octet.toInt P3.s.msglen ∧ P3.bestEffort = true
    · rw [if_pos d5] at hrun
      obtain ⟨l', w', v, result, p'', e4, f1, v1, R4, S4⟩ := z3 d4 d5
      rw [f1] at hrun
      simp only at hrun
      injection hrun with hrun; injection hrun with r1 r2
      exact Or.inl ⟨l', w', _, seq_brk e4, by rw [← r1]; exact .one (v1.lower hP S13.2.1), by rw [← r2]; exact R4, S13.trans S4⟩
    · rw [if_neg d5] at hrun
      injection hrun with hrun; injection hrun with r1 r2
      obtain ⟨l', w', v, e4, v1, R4, S4⟩ := z2 d4 d5
      exact Or.inl ⟨l', w', _, seq_brk e4, by rw [← r1]; exact .one (v1.lower hP S13.2.1), by rw [← r2]; exact R4, S13.trans S4⟩
  rw [if_neg (by simp [d4])] at hrun
  rw [seq_next (z1 d4)]
  obtain ⟨result, P4, f1, f2, f3, f4⟩ := msg_stmts (extra := extra) (order := order) (emit := emit) hP (n + 3) R3 hG hI3 k3 t3 k3' (.seq (rs 11) (rs 12))
  rw [f1] at hrun
  simp only [f2] at hrun
  by_cases d6 : P3.bestEffort = false ∧ result.err ≠ none
  · rw [if_pos d6, if_neg (by rintro (u | u); · simp [d6.1] at u
                              · exact d6.2 u)] at hrun
    injection hrun with hrun; injection hrun with r1 r2
    obtain ⟨l', w', v, e4, v1, R4, S4⟩ := f3 d6
    exact Or.inl ⟨l', w', _, e4, by rw [← r1]; exact .one (v1.lower hP S13.2.1), by rw [← r2]; exact R4, S13.trans S4⟩
  · have d7 : P3.bestEffort = true ∨ result.err = none := by
      by_cases u : P3.bestEffort = true
      · exact Or.inl u
      · by_cases u2 : result.err = none
        · exact Or.inr u2
        · exact absurd ⟨by simpa using u, u2⟩ d6
    rw [if_neg d6, if_pos d7] at hrun
    obtain ⟨l4, w4, v, e4, v1, R4, S4, k4⟩ := f4 d6
    have hI4 : I P4 w4 := hG.step (hG.parsed hI3 f1) S4
    -- the end?
    obtain ⟨tok5, w5, e5, t5, R5, S5⟩ := scan_stmt (extra := extra) (order := order) (parse := parse) (emit := emit) n (l := l4) R4 k4
    have k5 : (l4.set .tok tok5) .p = .ptr a [] := by simp [k4]
    have k5' : (l4.set .tok tok5) .tok = tok5 := by simp
    generalize hl5 : l4.set .tok tok5 = l5 at *
    obtain ⟨q5, hq5⟩ : ∃ q5, q5 = P4.scan := ⟨_, rfl⟩
    rw [← hq5] at t5 R5 hrun
    obtain ⟨T5, P5⟩ := q5
    have hI5 : I P5 w5 := hG.step (by have := hG.scan (hG.weaken hI4); rwa [← hq5] at this) S5
    simp only at t5 R5 hrun
    have c5 := (eval_typ (extra := extra) (order := order) (parse := parse) (emit := emit) (n + 5) (w := w5) (l := l5) t5 k5' .EOF).2
    by_cases d8 : T5.typ = .EOF
    · rw [if_pos d8] at hrun
      injection hrun with hrun; injection hrun with r1 r2
      rw [decide_eq_true d8] at c5
      refine Or.inl ⟨l5, w5, [v], ?_, by rw [← r1]; exact .one ((v1.lower hP S13.2.1).step hP h.lt (Nat.le_refl _) S5 S5.2.1), by rw [← r2]; exact R5, (S13.trans S4).trans S5⟩
      rw [e4, rs11, seq_next e5, rs12_eq, if_true c5]; rfl
    · rw [if_neg d8] at hrun
      rw [decide_eq_false d8] at c5
      obtain ⟨w6, e6, R6, S6⟩ := unscan_call (extra := extra) (order := order) (parse := parse) (emit := emit) (n + 4) R5
      cases hr : Octet.runLoop fuel P5.unscan with
      | none => rw [hr] at hrun; simp at hrun
      | some x =>
        rw [hr] at hrun
        simp only at hrun
        injection hrun with hrun; injection hrun with r1 r2
        refine Or.inr ⟨l5, w6, [v], [result], x.1, P5.unscan, ?_, k5, r1.symm, .one ((v1.lower hP S13.2.1).step hP h.lt (Nat.le_refl _) (S5.trans S6) (S5.trans S6).2.1), R6, ((S13.trans S4).trans S5).trans S6, by rw [hr, ← r2], hG.step0 (hG.unscan hI5) S6⟩
        rw [e4, rs11, seq_next e5, rs12_eq, if_false c5]
        simp [k5, e6]

/-- the loop (octetcounting/parser.go:77-141) -/
theorem run_loop {MR : MsgRel} (hP : Parses parse MR) (n : Nat) {a mi : Nat} {p' : Parser} (hG : Guard emit L a mi I0 I) : ∀ (fuel : Nat) (p : Parser) (results : List Result) (w : W EO) (out : List (Val × Val)) (l : Loc),
    Octet.runLoop fuel p = some (results, p') → Rep L w a mi p out → I0 p w → l .p = .ptr a [] →
    ∃ l' w' vs, exec OX (call OX (n + 5)) (.forc (.lit (.bool true)) .skip runBody) l w = some (.ok (.next, l') w') ∧ OutRepP MR w.next w'.next w' vs results ∧ Rep L w' a mi p' (out ++ vs) ∧ Step a w w' := by
  intro fuel
  induction fuel with
  | zero => intro p results w out l hrun; simp [Octet.runLoop] at hrun
  | succ fuel ih =>
    intro p results w out l hrun h hI hl
    have hc : M.bind (eval OX (call OX (n + 5)) l (.lit (.bool true))) truth w = some (.ok true w) := rfl
    rcases run_round (extra := extra) (order := order) (emit := emit) hP n hrun h hG hI hl with ⟨l', w', vs, e, r⟩ | ⟨l', w', vs, r1, r2, p1, e, k, hr, v1, R, S, hrun', hI'⟩
    · refine ⟨l', w', vs, ?_, r⟩
      rw [exec_forc, hc]
      simp only [e]
    · obtain ⟨l2, w2, vs2, e2, v2, R2, S2⟩ := ih p1 r2 w' (out ++ vs) l' hrun' R hI' k
      refine ⟨l2, w2, vs ++ vs2, ?_, by rw [hr]; exact (v1.step hP h.lt (Nat.le_refl _) S2).append hP v2, by rw [← List.append_assoc]; exact R2, S.trans S2⟩
      rw [exec_forc, hc]
      simp only [e]
      rw [exec_skip']
      exact e2

end Verif.Mini
