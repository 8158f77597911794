import Verif.Mini.OctetRun
import Verif.Mini.Opts

/-!
# `octetcounting/parser.go`: `Parse`, the constructor and the options
-/

set_option linter.constructorNameAsVariable false
set_option linter.unusedSimpArgs false

namespace Verif.Mini
open Verif.Gen.Mini
open Verif.Octet (Scanner Parser Token TokenType Result)

variable {extra : Nat → Nat} {order : List Bytes → List Bytes} {parse emit : List Val → M EO Val}

local notation "OX" => octXE extra order parse emit
variable {other : Nm → List Val → M EO Val}
local notation "OC" => octXC extra order other

/-- `parser` (octetcounting/parser.go:14-23) with any value in the place of the scanner -/
def parserVal0 (mi : Val) (sv last emit : Val) (p : Parser) : Val :=
  .struct .octetcounting_parser [(.msglen, .int .int 0), (.maxMessageLength, .int .int p.maxMessageLength), (.s, sv), (.internal, mi),
    (.last, last), (.stepback, .bool p.stepback), (.bestEffort, .bool p.bestEffort), (.emit, emit)]

/-- between the calls of `Parse`: the scanner does not matter -/
structure Rep0 (L : Option (List (Val × Val))) (w : W EO) (a mi : Nat) (p : Parser) (out : List (Val × Val)) : Prop where
  heap : ∃ last sv, w.heap a = parserVal0 (.ptr mi []) sv last (octEmitVal L) p ∧ TokRep last p.last
  lt : a < w.next
  mlt : mi < w.next
  ne : mi ≠ a
  mbe : (w.heap mi).get .bestEffort = some (.bool p.internal.bestEffort)
  mco : (w.heap mi).get .compliantMsg = some (.bool p.internal.compliantMsg)
  mty : ∃ fs, w.heap mi = .struct .rfc5424_machine fs
  out : w.ext.out = L.getD out

theorem Rep.idle {w : W EO} {a mi : Nat} {p : Parser} {out : List (Val × Val)} (h : Rep L w a mi p out) : Rep0 L w a mi p out := by
  obtain ⟨last, h1, h2⟩ := h.heap
  exact ⟨⟨last, _, h1, h2⟩, h.lt, h.mlt, h.ne, h.mbe, h.mco, h.mty, h.out⟩

theorem run_prog : octetcounting_parser_run = ⟨[.p], .forc (.lit (.bool true)) .skip runBody⟩ := rfl

theorem run_call {MR : MsgRel} (hP : Parses parse MR) (n : Nat) {w : W EO} {a mi : Nat} {p p' : Parser} {out : List (Val × Val)} {fuel : Nat} {results : List Result}
    (hrun : Octet.runLoop fuel p = some (results, p')) (h : Rep L w a mi p out) (hG : Guard emit L a mi I0 I) (hI : I0 p w) :
    ∃ w' vs, call OX (n + 6) .octetcounting_parser_run [.ptr a []] w = some (.ok (.tuple []) w') ∧ OutRepP MR w.next w'.next w' vs results ∧ Rep L w' a mi p' (out ++ vs) ∧ Step a w w' := by
  rw [call_fn (oct_prog _ _ _ _) prog_octetcounting_parser_run, run_prog]
  obtain ⟨l', w', vs, e, r⟩ := run_loop (extra := extra) (order := order) (emit := emit) hP n hG fuel p results w out (Loc.empty.set .p (.ptr a [])) hrun h hI (by simp)
  refine ⟨w', vs, ?_, r⟩
  simp only [params_cons, params_nil, Option.map_some, of_some, bind_apply, pure_apply, e]

/-- `NewScanner` (octetcounting/scanner.go:37-41) -/
theorem newScanner_call (n : Nat) (w : W EO) (max : Int) :
    call OX (n + 2) .octetcounting_NewScanner [.ext (.obj 0), .int .int max] w =
      some (.ok (.ptr w.next []) { w with heap := upd w.heap w.next (scanVal (Octet.newScanner w.ext.src max)), next := w.next + 1, ext := { w.ext with rd := (Octet.newScanner w.ext.src max).r } }) := by
  rw [call_fn (oct_prog _ _ _ _) prog_octetcounting_NewScanner]
  simp [octetcounting_NewScanner, Zero.octetcounting_Scanner, putAll, setField, Val.coerce, scanVal, Octet.newScanner, Octet.wrapInt, Kind.wrap]

theorem parse_call {MR : MsgRel} (hP : Parses parse MR) (n : Nat) {w : W EO} {a mi : Nat} {p p' : Parser} {out : List (Val × Val)} {results : List Result}
    (hrun : p.parse w.ext.src = some (results, p')) (h : Rep0 L w a mi p out) (hG : Guard emit L a mi I0 I) (hI : I0 p w) :
    ∃ w' vs, call OX (n + 7) .octetcounting_parser_Parse [.ptr a [], .ext (.obj 0)] w = some (.ok (.tuple []) w') ∧ OutRepP MR w.next w'.next w' vs results ∧ Rep L w' a mi p' (out ++ vs) ∧ Step a w w' := by
  rw [call_fn (oct_prog _ _ _ _) prog_octetcounting_parser_Parse]
  obtain ⟨last, sv, h1, h2⟩ := h.heap
  have hlt := h.lt
  have hmlt := h.mlt
  have hlo : (load (.ptr a []) : M EO Val) w = some (.ok (parserVal0 (.ptr mi []) sv last (octEmitVal L) p) w) := load_path (by simp [h1, Val.getPath])
  simp only [parserVal0] at hlo
  have e1 := newScanner_call (extra := extra) (order := order) (parse := parse) (emit := emit) (n + 4) w p.maxMessageLength
  obtain ⟨w1, hw1⟩ : ∃ w1 : W EO, w1 = { w with heap := upd w.heap w.next (scanVal (Octet.newScanner w.ext.src p.maxMessageLength)), next := w.next + 1, ext := { w.ext with rd := (Octet.newScanner w.ext.src p.maxMessageLength).r } } := ⟨_, rfl⟩
  rw [← hw1] at e1
  have hn : a ≠ w.next := by omega
  have hmn : mi ≠ w.next := by omega
  have hw1a : w1.heap a = parserVal0 (.ptr mi []) sv last (octEmitVal L) p := by rw [hw1]; simp [upd_apply, hn, h1]
  have hld : (load (.ptr w.next []) : M EO Val) w1 = some (.ok (scanVal (Octet.newScanner w.ext.src p.maxMessageLength)) w1) := load_path (by rw [hw1]; simp [Val.getPath])
  have est : (storeAt (.ptr a [.s]) (scanVal (Octet.newScanner w.ext.src p.maxMessageLength)) : M EO Unit) w1 =
      some (.ok () { w1 with heap := upd w1.heap a (parserVal mi last (octEmitVal L) { p with s := Octet.newScanner w.ext.src p.maxMessageLength }) }) := by
    show (match (w1.heap a).putPath [.s] _ with
      | some x => some (Out.ok () { w1 with heap := upd w1.heap a x })
      | none => none) = _
    rw [hw1a]
    simp [parserVal0, parserVal, Val.putPath, setField, scanVal, coerce_struct]
  obtain ⟨w2, hw2⟩ : ∃ w2 : W EO, w2 = { w1 with heap := upd w1.heap a (parserVal mi last (octEmitVal L) { p with s := Octet.newScanner w.ext.src p.maxMessageLength }) } := ⟨_, rfl⟩
  rw [← hw2] at est
  have stp : Step a w w2 := by
    rw [hw2, hw1]
    exact ⟨fun c hc hn => by have : c ≠ w.next := by omega
                             simp [upd_apply, this, hn], Nat.le_succ _, rfl, rfl⟩
  have R : Rep L w2 a mi { p with s := Octet.newScanner w.ext.src p.maxMessageLength } out := by
    refine ⟨⟨last, by rw [hw2]; simp, h2⟩, ?_, ?_, h.ne, ?_, ?_, ?_, ?_, ?_, by simp [Octet.newScanner]⟩
    · have := stp.2.1; omega
    · have := stp.2.1; omega
    · rw [stp.1 mi hmlt h.ne]; exact h.mbe
    · rw [stp.1 mi hmlt h.ne]; exact h.mco
    · rw [stp.1 mi hmlt h.ne]; exact h.mty
    · rw [hw2, hw1]
    · rw [hw2, hw1]; exact h.out
  obtain ⟨w3, vs, e3, v3, R3, S3⟩ := run_call (extra := extra) (order := order) (emit := emit) hP n hrun R hG (hG.step0 (hG.start hI) stp)
  refine ⟨w3, vs, ?_, v3.lower hP stp.2.1, R3, stp.trans S3⟩
  simp [octetcounting_parser_Parse, hlo, e1, hld, est, e3]

/-! ## The constructor -/

/-- the options of package `syslog` -/
inductive SOpt where
  | listener
  | bestEffort
  | maxLength (n : Int)
deriving DecidableEq

/-- the value that `WithListener(f)`, `WithBestEffort()`, `WithMaxMessageLength(n)` return -/
def SOpt.val : SOpt → Val
  | .listener => .clo .syslog_WithListener_fn [.ext .listener]
  | .bestEffort => .clo .syslog_WithBestEffort_fn []
  | .maxLength n => .clo .syslog_WithMaxMessageLength_fn [.int .int n]

/-- the options that the model has -/
def SOpt.model : List SOpt → List Octet.Opt
  | [] => []
  | .listener :: os => SOpt.model os
  | .bestEffort :: os => .bestEffort :: SOpt.model os
  | .maxLength n :: os => .maxMessageLength n :: SOpt.model os

def noEmit : Val := .clo .octetcounting_NewParser_fn []

theorem store0 {w : W EO} {a : Nat} {mi sv last em : Val} {p : Parser} (h : w.heap a = parserVal0 mi sv last em p) :
    (∀ k, (storeAt (.ptr a [.maxMessageLength]) (.int .int k) : M EO Unit) w = some (.ok () { w with heap := upd w.heap a (parserVal0 mi sv last em { p with maxMessageLength := k }) })) ∧
    (storeAt (.ptr a [.bestEffort]) (.bool true) : M EO Unit) w = some (.ok () { w with heap := upd w.heap a (parserVal0 mi sv last em { p with bestEffort := true }) }) ∧
    (∀ x, (storeAt (.ptr a [.emit]) (.ext x) : M EO Unit) w = some (.ok () { w with heap := upd w.heap a (parserVal0 mi sv last (.ext x) p) })) ∧
    (∀ b, (storeAt (.ptr a [.internal]) (.ptr b []) : M EO Unit) w = some (.ok () { w with heap := upd w.heap a (parserVal0 (.ptr b []) sv last em p) })) := by
  refine ⟨fun k => ?_, ?_, fun x => ?_, fun b => ?_⟩
  · show (match (w.heap a).putPath [.maxMessageLength] (.int .int k) with
      | some x => some (Out.ok () { w with heap := upd w.heap a x })
      | none => none) = _
    simp [h, parserVal0, Val.putPath, setField, Val.coerce]
  · show (match (w.heap a).putPath [.bestEffort] (.bool true) with
      | some x => some (Out.ok () { w with heap := upd w.heap a x })
      | none => none) = _
    simp [h, parserVal0, Val.putPath, setField]
  · show (match (w.heap a).putPath [.emit] (.ext x) with
      | some x => some (Out.ok () { w with heap := upd w.heap a x })
      | none => none) = _
    have : em.coerce (.ext x) = .ext x := by cases em <;> rfl
    simp [h, parserVal0, Val.putPath, setField, this]
  · show (match (w.heap a).putPath [.internal] (.ptr b []) with
      | some x => some (Out.ok () { w with heap := upd w.heap a x })
      | none => none) = _
    simp [h, parserVal0, Val.putPath, setField]

/-- an option -/
def SOpt.em (em : Val) : SOpt → Val
  | .listener => .ext .listener
  | _ => em
def SOpt.ap (p : Parser) : SOpt → Parser
  | .listener => p
  | .bestEffort => Octet.applyOpt p .bestEffort
  | .maxLength n => Octet.applyOpt p (.maxMessageLength n)

theorem SOpt.val_clo (o : SOpt) : ∃ f caps, o.val = .clo f caps := by cases o <;> exact ⟨_, _, rfl⟩

theorem sopt_call (n : Nat) {w : W EO} {a : Nat} {mi sv last em : Val} {p : Parser} (h : w.heap a = parserVal0 mi sv last em p) (o : SOpt) {f : Nm} {caps : List Val} (hc : o.val = .clo f caps) :
    call OC (n + 2) f (caps ++ [.ptr a []]) w = some (.ok (.ptr a []) { w with heap := upd w.heap a (parserVal0 mi sv last (o.em em) (o.ap p)) }) := by
  obtain ⟨s1, s2, s3, _⟩ := store0 h
  have hs := h
  simp only [parserVal0] at hs
  cases o with
  | listener =>
    injection hc with h1 h2; subst h1; subst h2
    refine (opt_call rfl rfl n hs).1 _ .octetcounting_parser_WithListener (.tuple []) rfl ?_
    rw [call_fn (octc_prog _ _ _) prog_octetcounting_parser_WithListener]
    simp [octetcounting_parser_WithListener, s3, SOpt.em, SOpt.ap]
  | bestEffort =>
    injection hc with h1 h2; subst h1; subst h2
    refine (opt_call rfl rfl n hs).2.1 .octetcounting_parser_WithBestEffort (.tuple []) rfl ?_
    rw [call_fn (octc_prog _ _ _) prog_octetcounting_parser_WithBestEffort]
    simp [octetcounting_parser_WithBestEffort, s2, SOpt.em, SOpt.ap, Octet.applyOpt]
  | maxLength k =>
    injection hc with h1 h2; subst h1; subst h2
    refine (opt_call rfl rfl n hs).2.2.1 _ .octetcounting_parser_WithMaxMessageLength (.tuple []) rfl ?_
    rw [call_fn (octc_prog _ _ _) prog_octetcounting_parser_WithMaxMessageLength]
    simp [octetcounting_parser_WithMaxMessageLength, s1, SOpt.em, SOpt.ap, Octet.applyOpt]

theorem SOpt.fold_model (os : List SOpt) (p : Parser) : os.foldl SOpt.ap p = (SOpt.model os).foldl Octet.applyOpt p := by
  induction os generalizing p with
  | nil => rfl
  | cons o os ih => cases o <;> exact ih _

/-- is there a listener among the options? -/
def SOpt.hears : List SOpt → Bool
  | [] => false
  | .listener :: _ => true
  | _ :: os => SOpt.hears os

theorem SOpt.hears_iff (os : List SOpt) : SOpt.hears os = true ↔ SOpt.listener ∈ os := by
  induction os with
  | nil => simp [SOpt.hears]
  | cons o os ih => cases o <;> simp [SOpt.hears, ih]

/-- the parameter `L` of `Rep` for these options, when the listeners have got `base` -/
def SOpt.muted (os : List SOpt) (base : List (Val × Val)) : Option (List (Val × Val)) := if SOpt.hears os then none else some base

theorem SOpt.fold_em (os : List SOpt) (base : List (Val × Val)) : os.foldl SOpt.em noEmit = octEmitVal (SOpt.muted os base) := by
  have h1 : ∀ os : List SOpt, os.foldl SOpt.em (.ext .listener) = .ext .listener := by
    intro os
    induction os with
    | nil => rfl
    | cons o os ih => cases o <;> exact ih
  induction os with
  | nil => rfl
  | cons o os ih =>
    cases o with
    | listener => exact h1 os
    | _ => exact ih

theorem fold_internal (os : List Octet.Opt) (p : Parser) : (os.foldl Octet.applyOpt p).last = p.last ∧ (os.foldl Octet.applyOpt p).stepback = p.stepback := by
  induction os generalizing p with
  | nil => exact ⟨rfl, rfl⟩
  | cons o os ih => cases o <;> exact ih _

/-- `NewParser` (octetcounting/parser.go:26-44) -/
theorem newParser_call (n : Nat) {w : W EO} {s : Val} {os : List SOpt} (hs : IsSlice w s (os.map SOpt.val)) :
    ∃ w', call OC (n + 5) .octetcounting_NewParser [s] w = some (.ok (.ptr w.next []) w') ∧
      (∃ mi, w.next < mi ∧ Rep0 (SOpt.muted os w.ext.out) w' w.next mi (Octet.newParser (SOpt.model os)) w.ext.out) ∧ w'.ext = w.ext ∧ Keeps w w' := by
  rw [call_fn (octc_prog _ _ _) prog_octetcounting_NewParser]
  obtain ⟨pv, hpv⟩ : ∃ pv : Parser → Val → Val, pv = fun p em => parserVal0 .nil Zero.octetcounting_Scanner Zero.octetcounting_Token em p := ⟨_, rfl⟩
  obtain ⟨w1, hw1⟩ : ∃ w1 : W EO, w1 = { w with heap := upd w.heap w.next (pv {} noEmit), next := w.next + 1 } := ⟨_, rfl⟩
  have hs1 : IsSlice w1 s (os.map SOpt.val) := hs.upd (by rw [hw1]; exact Nat.le_succ _) (fun c hc => by rw [hw1]; simp [upd_apply, show c ≠ w.next by omega])
  obtain ⟨l2, w2, e, done, rest, h1, h2, h3, h4⟩ := range_exec (X := OC) (calls := call OC (n + 4)) (x := some .opt) (e := .var .opts) (body := .assign .p (.callVal (.var .opt) (.cons (.var .p) .unit)))
    (l := (Loc.empty.set .opts s).set .p (.ptr w.next [])) (w := w1) (s := s) (vs := os.map SOpt.val)
    (fun vs l w' => ∃ done rest, os = done ++ rest ∧ vs = rest.map SOpt.val ∧ l .p = .ptr w.next [] ∧
      w' = { w with heap := upd w.heap w.next (pv (done.foldl SOpt.ap {}) (done.foldl SOpt.em noEmit)), next := w.next + 1 }) (by simp) hs1
    ⟨[], os, rfl, rfl, by simp, by rw [hw1]; rfl⟩
    (by
      rintro v rest l w' ⟨done, rest', h1, h2, h3, h4⟩
      cases rest' with
      | nil => simp at h2
      | cons o rest' =>
        simp only [List.map_cons, List.cons.injEq] at h2
        obtain ⟨rfl, rfl⟩ := h2
        have hh : w'.heap w.next = pv (done.foldl SOpt.ap {}) (done.foldl SOpt.em noEmit) := by rw [h4]; simp
        obtain ⟨f, caps, hc⟩ := o.val_clo
        rw [hpv] at hh
        have := sopt_call (extra := extra) (order := order) (other := other) (n + 2) hh o hc
        refine ⟨(l.set .opt o.val).set .p (.ptr w.next []), { w with heap := upd w.heap w.next (pv ((done ++ [o]).foldl SOpt.ap {}) ((done ++ [o]).foldl SOpt.em noEmit)), next := w.next + 1 }, ?_, done ++ [o], rest', by simp [h1], rfl, by simp, rfl⟩
        simp [bindOpt, h3, hc, this]
        rw [h4]
        simp [upd_upd, hpv])
  obtain rfl : rest = [] := by cases rest with
    | nil => rfl
    | cons _ _ => simp at h2
  rw [List.append_nil] at h1
  subst h1
  rw [SOpt.fold_em os w.ext.out, SOpt.fold_model] at h4
  obtain ⟨P, hP⟩ : ∃ P : Parser, P = (SOpt.model os).foldl Octet.applyOpt {} := ⟨_, rfl⟩
  rw [← hP] at h4
  have hnew : Octet.newParser (SOpt.model os) = { P with internal := Rfc5424.newMachine { bestEffort := P.bestEffort } } := by rw [hP]; rfl
  obtain ⟨hlast, hstep⟩ := fold_internal (SOpt.model os) {}
  rw [← hP] at hlast hstep
  have hw2 : w2.heap w.next = parserVal0 .nil Zero.octetcounting_Scanner Zero.octetcounting_Token (octEmitVal (SOpt.muted os w.ext.out)) P := by rw [h4, hpv]; simp
  have hlo : (load (.ptr w.next []) : M EO Val) w2 = some (.ok (w2.heap w.next) w2) := rfl
  rw [hw2] at hlo
  simp only [parserVal0] at hlo
  have hnext : w2.next = w.next + 1 := by rw [h4]
  have hext : w2.ext = w.ext := by rw [h4]
  have hglob : w2.glob = w.glob := by rw [h4]
  have hold : ∀ c, c < w.next → w2.heap c = w.heap c := fun c hc => by rw [h4]; simp [upd_apply, show c ≠ w.next by omega]
  -- the end, for a machine in the variable `mi`
  have fin : ∀ (w3 : W EO) (mi : Nat), w3.heap w.next = w2.heap w.next → w3.heap mi = machVal P.bestEffort false → w.next < mi → mi < w3.next → w3.ext = w.ext → w3.glob = w.glob →
      (∀ c, c < w.next → w3.heap c = w.heap c) →
      ∃ w', (storeAt (.ptr w.next [.internal]) (.ptr mi []) : M EO Unit) w3 = some (.ok () w') ∧
        (w.next < mi ∧ Rep0 (SOpt.muted os w.ext.out) w' w.next mi (Octet.newParser (SOpt.model os)) w.ext.out) ∧ w'.ext = w.ext ∧ Keeps w w' := by
    intro w3 mi g1 g2 g3 g4 g5 g6 g7
    rw [hw2] at g1
    refine ⟨_, (store0 g1).2.2.2 mi, ⟨g3, ⟨⟨Zero.octetcounting_Token, Zero.octetcounting_Scanner, ?_, ?_⟩, ?_, g4, by omega, ?_, ?_, ?_, ?_⟩⟩, g5, ?_⟩
    · simp [hnew, parserVal0]
    · rw [hnew]
      show TokRep _ P.last
      rw [hlast]
      exact ⟨.nil, rfl, Or.inr ⟨rfl, rfl⟩⟩
    · show w.next < w3.next; omega
    · simp [upd_apply, show mi ≠ w.next by omega, g2, machVal, hnew, Rfc5424.newMachine, Rfc5424.M]
    · simp [upd_apply, show mi ≠ w.next by omega, g2, machVal, hnew, Rfc5424.newMachine, Rfc5424.M]
    · exact ⟨_, by simp [upd_apply, show mi ≠ w.next by omega, g2, machVal]; rfl⟩
    · show w3.ext.out = _; rw [g5]; unfold SOpt.muted; split <;> rfl
    · exact ⟨fun c hc => by show upd w3.heap _ _ c = _; rw [upd_ne _ _ (by omega)]; exact g7 c hc, by show w.next ≤ w3.next; omega, g6, g5⟩
  obtain ⟨w3, mi, e3, g⟩ : ∃ w3 mi, exec OC (call OC (n + 4)) (.ifs (.field (.var .p) .bestEffort) (.store (.addr (.var .p) .internal) (.call .rfc5424_NewMachine (.cons (.sliceLit (.cons (.call .rfc5424_WithBestEffort .unit) .unit)) .unit))) (.store (.addr (.var .p) .internal) (.call .rfc5424_NewMachine (.cons (.sliceLit .unit) .unit)))) l2 w2 = some (.ok (.next, l2) w3) ∧
      (w.next < mi ∧ Rep0 (SOpt.muted os w.ext.out) w3 w.next mi (Octet.newParser (SOpt.model os)) w.ext.out) ∧ w3.ext = w.ext ∧ Keeps w w3 := by
    cases hb : P.bestEffort with
    | true =>
      have ew : call OC (n + 4) .rfc5424_WithBestEffort [] w2 = some (.ok (.clo .rfc5424_WithBestEffort_fn []) w2) := by
        rw [call_fn (octc_prog _ _ _) prog_rfc5424_WithBestEffort]
        simp [rfc5424_WithBestEffort]
      obtain ⟨w3, hw3⟩ : ∃ w3 : W EO, w3 = { w2 with heap := upd w2.heap w2.next (.arr [.clo .rfc5424_WithBestEffort_fn []]), next := w2.next + 1 } := ⟨_, rfl⟩
      have sl : IsSlice w3 (.slice w2.next 0 1 1) ([true].map opt5Val) := Or.inr ⟨_, 0, 1, 1, [.clo .rfc5424_WithBestEffort_fn []], rfl, by rw [hw3]; simp, by rw [hw3]; exact Nat.lt_succ_self _, by simp, by simp, rfl⟩
      have em := newMachine_call (X := OC) rfl rfl (n + 1) w3 sl
      obtain ⟨w4, hw4⟩ : ∃ w4 : W EO, w4 = { w3 with heap := upd w3.heap w3.next (machVal ([true].contains true) ([true].contains false)), next := w3.next + 1 } := ⟨_, rfl⟩
      rw [← hw4] at em
      have n3 : w3.next = w.next + 2 := by rw [hw3]; simp [hnext]
      obtain ⟨w', e', g⟩ := fin w4 w3.next (by rw [hw4, hw3]; simp [upd_apply, hnext]; intro; omega) (by rw [hw4, hb]; simp) (by omega) (by rw [hw4]; simp) (by rw [hw4, hw3]; exact hext) (by rw [hw4, hw3]; exact hglob)
        (fun c hc => by rw [← hold c hc, hw4, hw3]; simp [upd_apply, hnext, show c ≠ w.next + 1 by omega, show c ≠ w.next + 2 by omega])
      rw [hw3] at em e'
      simp only [hb] at hlo
      exact ⟨w', w3.next, by simp [h3, hlo, ew, em, e'], g⟩
    | false =>
      have sl : IsSlice w2 .nil (([] : List Bool).map opt5Val) := Or.inl ⟨rfl, rfl⟩
      have em := newMachine_call (X := OC) rfl rfl (n + 1) w2 sl
      obtain ⟨w4, hw4⟩ : ∃ w4 : W EO, w4 = { w2 with heap := upd w2.heap w2.next (machVal (([] : List Bool).contains true) (([] : List Bool).contains false)), next := w2.next + 1 } := ⟨_, rfl⟩
      rw [← hw4] at em
      obtain ⟨w', e', g⟩ := fin w4 w2.next (by rw [hw4]; simp [upd_apply, hnext]) (by rw [hw4, hb]; simp) (by omega) (by rw [hw4]; simp) (by rw [hw4]; exact hext) (by rw [hw4]; exact hglob)
        (fun c hc => by rw [← hold c hc, hw4]; simp [upd_apply, hnext, show c ≠ w.next + 1 by omega])
      simp only [hb] at hlo
      exact ⟨w', w2.next, by simp [h3, hlo, em, e'], g⟩
  have h5 : l2 .p = .ptr w.next [] := h3
  refine ⟨w3, ?_, ⟨mi, g.1⟩, g.2⟩
  have ep : putAll Zero.octetcounting_parser [.emit, .maxMessageLength] [noEmit, .int .const 8192] = some (pv {} noEmit) := by rw [hpv]; rfl
  simp only [noEmit] at ep
  rw [hw1] at e
  simp only [noEmit] at e
  simp only [octetcounting_NewParser, params_cons, params_nil, Option.map_some, of_some, bind_apply, pure_apply, exec_seq, exec_assign, eval_new, eval_mk, eval_cons, eval_clo, eval_lit, eval_unit, argsOf_tuple, ep, alloc_apply, e, e3, exec_ret, eval_var, h5]

/-! ## Messages as values -/

/-- what is returned is the message itself -/
def ValRel : MsgRel := fun _ _ _ v m => v = msgVal m

theorem xParse5_ok : Parses xParse5 ValRel where
  ok := by
    intro w mi be co input bs h1 h2 _ _ hi
    have hb : input.bytes = bs := by rcases hi with rfl | ⟨rfl, rfl⟩ <;> rfl
    have hx := xParse5_apply w h1 h2 input
    obtain ⟨m1, f1, _⟩ := Rfc5424.parse_eq (Rfc5424.newMachine ⟨be, co⟩) bs
    have hp : ∃ res, Rfc5424.parse1 ⟨be, co⟩ bs = some res := ⟨_, by rw [Rfc5424.parse1, f1]; rfl⟩
    obtain ⟨res, hr⟩ := hp
    rw [hb, hr] at hx
    exact ⟨res, _, w, hr, hx, ⟨fun _ _ => rfl, Nat.le_refl _, rfl, rfl⟩, rfl⟩
  keep := fun h _ _ _ => h
  widen := fun h _ _ => h
  none := fun _ _ _ => rfl

theorem OutRepP.values {hi : Nat} {w : W EO} : ∀ {vs : List (Val × Val)} {rs : List Result} {lo : Nat}, OutRepP ValRel lo hi w vs rs → OutRep vs rs
  | [], [], _, _ => trivial
  | _ :: _, _ :: _, _, ⟨_, h1, h2⟩ => ⟨h1.2, h2.values⟩
  | [], _ :: _, _, h => h.elim
  | _ :: _, [], _, h => h.elim

end Verif.Mini
