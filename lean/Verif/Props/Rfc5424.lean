import Verif.Spec.Escape
import Verif.Rfc5424.Inv
import Verif.Rfc5424.Prefix
import Verif.Rfc5424.Steps

/-!
# C01-C15: the RFC 5424 parser

All statements are about `parse1 opts input`, the result of `NewMachine(opts...).Parse(input)` computed by the
extracted automaton (`none` = panic), or about `parse m input` for a machine `m` with an arbitrary past.
The specification is `Verif/Spec/Rfc5424.lean` (+ `Timestamp`, `Utf8`, `Escape`).
-/

namespace Verif.Props
open Verif.Spec Verif.Rfc5424

/-- a message used in the examples -/
def sample : Parts :=
  { pri := 165, version := 1
    timestamp := some ⟨2003, 2, 28, 22, 14, 15, [0, 0, 3], .num true 7 0⟩
    hostname := some (ascii "host.example.com"), appname := some (ascii "evntslog"), procID := none
    msgID := some (ascii "ID47")
    sd := [⟨ascii "a@1", [⟨ascii "x", ascii "q\"uote"⟩, ⟨ascii "x", ascii "b\\"⟩]⟩, ⟨ascii "b", []⟩]
    msg := some (ascii "hello") }

instance (w : Bytes) : Decidable (SdNameWF w) := inferInstanceAs (Decidable (_ ∧ _ ∧ _))
instance (n : Nat) (w : Bytes) : Decidable (NameWF n w) := inferInstanceAs (Decidable (_ ∧ _ ∧ _))

theorem sample_wf : sample.WF where
  pri := by decide
  version := by decide
  timestamp := by
    intro s hs
    simp only [sample, Option.some.injEq] at hs
    subst hs
    refine ⟨?_, by decide +kernel⟩
    simp only [Stamp.WF, Zone.WF]
    decide
  hostname := by constructor <;> decide +kernel
  appname := by constructor <;> decide +kernel
  procID := trivial
  msgID := by constructor <;> decide +kernel
  sd := by
    intro e he
    simp only [sample, List.mem_cons, List.not_mem_nil, or_false] at he
    rcases he with rfl | rfl
    · refine ⟨by decide +kernel, ?_⟩
      intro p hp
      simp only [List.mem_cons, List.not_mem_nil, or_false] at hp
      rcases hp with rfl | rfl
      · exact ⟨by decide +kernel, (U8.acc_iff _).mp (show U8.firstBad _ _ = none by decide +kernel)⟩
      · exact ⟨by decide +kernel, (U8.acc_iff _).mp (show U8.firstBad _ _ = none by decide +kernel)⟩
    · exact ⟨by decide +kernel, by simp⟩
  ids := by decide +kernel

theorem resultOf_ok {be : Bool} {f : Fin} {m : SyslogMessage} : resultOf be f = ⟨some m, none⟩ ↔ ∃ o, f = .ok o ∧ o.export = m := by
  cases f <;> simp [resultOf]

theorem resultOf_err {be : Bool} {f : Fin} {msg : Option SyslogMessage} {e : Err} :
    resultOf be f = ⟨msg, some e⟩ ↔ ∃ part, f = .err e part ∧ msg = if be then part.map Out.export else none := by
  cases f with
  | ok o => simp [resultOf]
  | err e' part' =>
    simp only [resultOf, Result.mk.injEq, Option.some.injEq, Fin.err.injEq]
    constructor
    · rintro ⟨h1, h2⟩; exact ⟨part', ⟨h2, rfl⟩, h1.symm⟩
    · rintro ⟨part, ⟨h2, rfl⟩, h1⟩; exact ⟨h1.symm, h2⟩

/-- used in examples: a computed result contains a message with some decidable property -/
def isMsg (r : Option Result) (e : Option Err) (P : SyslogMessage → Prop) [DecidablePred P] : Bool :=
  match r with
  | some ⟨some m, e'⟩ => decide (e' = e) && decide (P m)
  | _ => false

theorem ex_of {r : Option Result} {e : Option Err} {P : SyslogMessage → Prop} [DecidablePred P]
    (h : isMsg r e P = true) : ∃ m, r = some ⟨some m, e⟩ ∧ P m := by
  unfold isMsg at h
  split at h
  · simp at h; exact ⟨_, by rw [h.1], h.2⟩
  · simp at h

theorem ex_of' {r : Option Result} {e : Option Err} (h : isMsg r e (fun _ => True) = true) : ∃ m, r = some ⟨some m, e⟩ :=
  let ⟨m, h, _⟩ := ex_of h; ⟨m, h⟩

/-! ## C01 -/

/-- C01: strict parsing succeeds exactly on the texts of well-formed messages, and returns their parts. -/
theorem C01_strict_accepts_iff_grammar (input : Bytes) (m : SyslogMessage) :
    parse1 {} input = some ⟨some m, none⟩ ↔ ∃ p : Parts, p.WF ∧ p.render = input ∧ p.toMessage = m := by
  rw [parse1_eq, Option.some.injEq, resultOf_ok]
  constructor
  · rintro ⟨o, h, rfl⟩
    obtain ⟨p, h1, -, rfl, rfl⟩ := descend_iff.mp h
    exact ⟨p, h1, rfl, (export_outOf h1).symm⟩
  · rintro ⟨p, h1, rfl, rfl⟩
    exact ⟨outOf p, descend_iff.mpr ⟨p, h1, fun _ _ h => by simp at h, rfl, rfl⟩, export_outOf h1⟩

/-- C01: the decomposition is unique. -/
theorem C01_decomposition_unique {p q : Parts} (hp : p.WF) (hq : q.WF) (h : p.render = q.render) : p = q :=
  render_inj hp hq h

example : parse1 {} sample.render = some ⟨some sample.toMessage, none⟩ :=
  (C01_strict_accepts_iff_grammar _ _).mpr ⟨sample, sample_wf, rfl, rfl⟩

example : sample.render =
    ascii "<165>1 2003-02-28T22:14:15.003-07:00 host.example.com evntslog - ID47 [a@1 x=\"q\\\"uote\" x=\"b\\\\\"][b] hello" := by
  decide +kernel

/-! ## C02 -/

/-- C02: without best effort, exactly one of message and error is returned. -/
theorem C02_exactly_one (co : Bool) (input : Bytes) :
    (∃ m, parse1 ⟨false, co⟩ input = some ⟨some m, none⟩) ∨ (∃ e, parse1 ⟨false, co⟩ input = some ⟨none, some e⟩) := by
  rw [parse1_eq]
  cases descend co input with
  | ok o => exact Or.inl ⟨_, rfl⟩
  | err e part => exact Or.inr ⟨e, rfl⟩

/-- Both cases of C02 occur. -/
example : (∃ m, parse1 ⟨false, true⟩ sample.render = some ⟨some m, none⟩) ∧
    parse1 ⟨false, true⟩ (ascii "<165>1 x") = some ⟨none, some ⟨.timestamp, 7⟩⟩ :=
  ⟨⟨sample.toMessage, by decide +kernel⟩, by decide +kernel⟩

/-- C02: the same on a machine in whatever state earlier calls left it. -/
theorem C02_exactly_one_any_state (m : M) (hb : m.bestEffort = false) (input : Bytes) : ∃ m',
    (∃ msg, parse m input = some (⟨some msg, none⟩, m')) ∨ (∃ e, parse m input = some (⟨none, some e⟩, m')) := by
  obtain ⟨m', h, -, -⟩ := parse_eq m input
  refine ⟨m', ?_⟩
  rw [h, hb]
  cases descend m.compliantMsg input with
  | ok o => exact Or.inl ⟨_, rfl⟩
  | err e part => exact Or.inr ⟨e, rfl⟩

/-- C02/C04 also hold of `NewParser(...).Parse`, which returns what the machine returns. -/
theorem C02_parser_same_as_machine (m : M) (input : Bytes) : parserParse m input = parse m input := by
  obtain ⟨m', h, -, -⟩ := parse_eq m input
  rw [parserParse, h]
  cases descend m.compliantMsg input with
  | ok o => rfl
  | err e part => cases hb : m.bestEffort <;> simp [resultOf]

/-! ## everything that is returned -/

/-- a returned message is the export of fields that satisfy whatever holds of all collected fields -/
theorem returned {Q : Out → Prop} {o : Opts} {input : Bytes} {m : SyslogMessage} {err : Option Err}
    (h : parse1 o input = some ⟨some m, err⟩)
    (hQ : ∀ pri n, pri ≤ 191 → 1 ≤ n → n ≤ 999 → HasMin input pri →
      Closed Q ∧ Q (afterVersion pri n) ∧
      (∀ (s : Stamp) t, s.WF → s.Real → input = 60 :: (dec pri ++ 62 :: (dec n ++ 32 :: (s.render ++ t))) →
        Q { afterVersion pri n with timestamp := s.time, timestampSet := true })) :
    ∃ out, m = out.export ∧ Q out := by
  rw [parse1_eq, Option.some.injEq] at h
  rcases descend_all (c := o.compliantMsg) hQ with ⟨⟨e, he⟩, -⟩ | ⟨-, h2⟩
  · rw [he] at h; simp [resultOf] at h
  · cases hd : descend o.compliantMsg input with
    | ok out =>
      rw [hd] at h h2
      simp [resultOf] at h
      exact ⟨out, h.1.symm, h2⟩
    | err e part =>
      rw [hd] at h h2
      obtain ⟨out, hp, hq⟩ := h2
      cases hb : o.bestEffort with
      | false => simp [resultOf, hb] at h
      | true =>
        simp only [resultOf, hb, if_true, Result.mk.injEq] at h
        simp only [partOf] at hp
        split at hp
        · rw [hp] at h; simp at h; exact ⟨out, h.1.symm, hq⟩
        · rw [hp] at h; simp at h

/-- the minimum: priority, version -/
def MinQ (input : Bytes) (o : Out) : Prop :=
  o.prioritySet = true ∧ ∃ pri n, pri ≤ 191 ∧ 1 ≤ n ∧ n ≤ 999 ∧ HasMin input pri ∧ o.priority = UInt8.ofNat pri ∧ o.version = UInt16.ofNat n

theorem minQ_closed (input : Bytes) : Closed (MinQ input) :=
  ⟨fun _ _ h => h, fun _ _ h => h, fun _ _ _ h => h, fun _ _ _ h => h, fun _ _ _ h => h, fun _ _ _ h => h⟩

theorem minQ_minimal {input : Bytes} {o : Out} (h : MinQ input o) : o.minimal = true := by
  obtain ⟨h1, pri, n, h2, h3, h4, -, h5, h6⟩ := h
  simp only [Out.minimal, h1, h5, h6, Common.validPriority, Common.validVersion, Common.inBetween, UInt8.toNat_ofNat',
    UInt16.toNat_ofNat']
  simp
  omega

theorem minQ_export {input : Bytes} {o : Out} (h : MinQ input o) :
    ∃ pri n : Nat, pri ≤ 191 ∧ 1 ≤ n ∧ n ≤ 999 ∧ HasMin input pri ∧ o.export.priority = some (UInt8.ofNat pri) ∧
      o.export.facility = some (UInt8.ofNat (pri / 8)) ∧ o.export.severity = some (UInt8.ofNat (pri % 8)) ∧
      o.export.version = UInt16.ofNat n ∧ o.export.valid = true := by
  have hm := minQ_minimal h
  obtain ⟨h1, pri, n, h2, h3, h4, h0, h5, h6⟩ := h
  have hf : UInt8.ofNat pri / 8 = UInt8.ofNat (pri / 8) := by
    apply UInt8.toNat_inj.mp
    rw [UInt8.toNat_div, UInt8.toNat_ofNat', UInt8.toNat_ofNat', show UInt8.toNat 8 = 8 from rfl]
    omega
  have hs : UInt8.ofNat pri % 8 = UInt8.ofNat (pri % 8) := by
    apply UInt8.toNat_inj.mp
    rw [UInt8.toNat_mod, UInt8.toNat_ofNat', UInt8.toNat_ofNat', show UInt8.toNat 8 = 8 from rfl]
    omega
  refine ⟨pri, n, h2, h3, h4, h0, ?_, ?_, ?_, ?_, ?_⟩
  · simp [Out.export, Base.computeFromPriority, h5]
  · simp [Out.export, Base.computeFromPriority, h5, hf]
  · simp [Out.export, Base.computeFromPriority, h5, hs]
  · simp [Out.export, h6]
  · simp only [Out.minimal, Bool.and_eq_true] at hm
    simp only [SyslogMessage.valid, Base.valid, Out.export, Base.computeFromPriority, hm.1.2, hm.2, Bool.and_self]

/-! ## C03 -/

/-- C03: in best effort mode an error comes with a message exactly when the input starts with `<PRI>` and a
version digit 1-9; the message is then valid and carries that PRI. -/
theorem C03_partial_message_iff (co : Bool) (input : Bytes) (msg : Option SyslogMessage) (e : Err)
    (h : parse1 ⟨true, co⟩ input = some ⟨msg, some e⟩) :
    (msg.isSome ↔ ∃ (pri : Nat) (d : UInt8) (t : Bytes), pri ≤ 191 ∧ 49 ≤ d.toNat ∧ d.toNat ≤ 57 ∧
        input = [60] ++ dec pri ++ [62, d] ++ t) ∧
    ∀ m, msg = some m → m.valid = true ∧ ∃ (pri : Nat) (t : Bytes), pri ≤ 191 ∧ input = [60] ++ dec pri ++ [62] ++ t ∧
        m.priority = some (UInt8.ofNat pri) := by
  have hmin : (∃ pri, HasMin input pri) ↔ ∃ (pri : Nat) (d : UInt8) (t : Bytes), pri ≤ 191 ∧ 49 ≤ d.toNat ∧ d.toNat ≤ 57 ∧
        input = [60] ++ dec pri ++ [62, d] ++ t := by simp [HasMin]
  rw [← hmin]
  have hall := descend_all (Q := MinQ input) (c := co) (input := input)
    (fun pri n h1 h2 h3 h4 => ⟨minQ_closed input, ⟨rfl, pri, n, h1, h2, h3, h4, rfl, rfl⟩,
      fun s t _ _ _ => ⟨rfl, pri, n, h1, h2, h3, h4, rfl, rfl⟩⟩)
  rw [parse1_eq, Option.some.injEq, resultOf_err] at h
  obtain ⟨part, hd, rfl⟩ := h
  rcases hall with ⟨⟨e', he⟩, hno⟩ | ⟨hyes, hq⟩
  · rw [show (Opts.compliantMsg ⟨true, co⟩) = co from rfl, he] at hd
    simp only [Fin.err.injEq] at hd
    obtain ⟨-, rfl⟩ := hd
    refine ⟨⟨fun h => by simp at h, fun h => absurd h hno⟩, fun m hm => by simp at hm⟩
  · rw [show (Opts.compliantMsg ⟨true, co⟩) = co from rfl] at hd
    rw [hd] at hq
    obtain ⟨o, rfl, hq⟩ := hq
    have hp : partOf o = some o := by rw [partOf, if_pos (minQ_minimal hq)]
    simp only [hp, if_true, Option.map_some]
    refine ⟨⟨fun _ => hyes, fun _ => rfl⟩, fun m hm => ?_⟩
    simp only [Option.some.injEq] at hm
    subst hm
    obtain ⟨pri, n, h1, h2, h3, ⟨d, t, -, -, -, h4⟩, h5, -, -, -, h6⟩ := minQ_export hq
    exact ⟨h6, pri, d :: t, h1, by rw [h4]; simp, h5⟩

/-- both sides of C03 occur -/
example : (∃ m, parse1 ⟨true, false⟩ (ascii "<34>12") = some ⟨some m, some ⟨.version, 6⟩⟩) ∧
    parse1 ⟨true, false⟩ (ascii "<34>") = some ⟨none, some ⟨.version, 4⟩⟩ :=
  ⟨ex_of' (by decide +kernel), by decide +kernel⟩

/-! ## C04 -/

/-- C04: best effort does not change a successful parse. -/
theorem C04_success_same (co : Bool) (input : Bytes) (m : SyslogMessage) :
    parse1 ⟨false, co⟩ input = some ⟨some m, none⟩ ↔ parse1 ⟨true, co⟩ input = some ⟨some m, none⟩ := by
  rw [parse1_eq, parse1_eq, Option.some.injEq, Option.some.injEq, resultOf_ok, resultOf_ok]

/-- C04: both modes report the same error at the same column. -/
theorem C04_error_same (co : Bool) (input : Bytes) (e : Err) :
    (∃ msg, parse1 ⟨false, co⟩ input = some ⟨msg, some e⟩) ↔ ∃ msg, parse1 ⟨true, co⟩ input = some ⟨msg, some e⟩ := by
  simp only [parse1_eq, Option.some.injEq, resultOf_err]
  constructor
  · rintro ⟨_, part, h, -⟩; exact ⟨_, part, h, rfl⟩
  · rintro ⟨_, part, h, -⟩; exact ⟨_, part, h, rfl⟩

example : parse1 ⟨false, false⟩ (ascii "<34>1 - -") = some ⟨none, some ⟨.hostname, 9⟩⟩ ∧
    ∃ m, parse1 ⟨true, false⟩ (ascii "<34>1 - -") = some ⟨some m, some ⟨.hostname, 9⟩⟩ :=
  ⟨by decide +kernel, ex_of' (by decide +kernel)⟩

/-! ## C05 -/

/-- C05: every returned message, complete or partial, is valid and consistent. -/
theorem C05_returned_valid (o : Opts) (input : Bytes) (m : SyslogMessage) (err : Option Err)
    (h : parse1 o input = some ⟨some m, err⟩) :
    m.valid = true ∧ ∃ pri ver : Nat, pri ≤ 191 ∧ 1 ≤ ver ∧ ver ≤ 999 ∧ m.priority = some (UInt8.ofNat pri) ∧
      m.facility = some (UInt8.ofNat (pri / 8)) ∧ m.severity = some (UInt8.ofNat (pri % 8)) ∧
      m.version = UInt16.ofNat ver := by
  obtain ⟨out, rfl, hq⟩ := returned (Q := MinQ input) h
    (fun pri n h1 h2 h3 h4 => ⟨minQ_closed input, ⟨rfl, pri, n, h1, h2, h3, h4, rfl, rfl⟩,
      fun s t _ _ _ => ⟨rfl, pri, n, h1, h2, h3, h4, rfl, rfl⟩⟩)
  obtain ⟨pri, n, h1, h2, h3, -, h5, h6, h7, h8, h9⟩ := minQ_export hq
  exact ⟨h9, pri, n, h1, h2, h3, h5, h6, h7, h8⟩

example : ∃ m, parse1 ⟨true, false⟩ (ascii "<191>999 ") = some ⟨some m, some ⟨.timestamp, 9⟩⟩ :=
  ex_of' (by decide +kernel)

/-! ## C06 -/

/-- Parse a sequence of inputs with the same machine; the machine afterwards. -/
def parseMany (m : M) : List Bytes → Option M
  | [] => some m
  | input :: rest => (parse m input).bind fun r => parseMany r.2 rest

/-- C06: after any history a machine answers like a new one. -/
theorem C06_history_independent (o : Opts) (history : List Bytes) (input : Bytes) :
    ∃ m, parseMany (newMachine o) history = some m ∧ (parse m input).map Prod.fst = parse1 o input := by
  have key : ∀ (m : M), m.bestEffort = o.bestEffort → m.compliantMsg = o.compliantMsg →
      ∃ m', parseMany m history = some m' ∧ m'.bestEffort = o.bestEffort ∧ m'.compliantMsg = o.compliantMsg := by
    induction history with
    | nil => intro m h1 h2; exact ⟨m, rfl, h1, h2⟩
    | cons x xs ih =>
      intro m h1 h2
      obtain ⟨m', h, e1, e2⟩ := parse_eq m x
      obtain ⟨m'', h3⟩ := ih m' (e1.trans h1) (e2.trans h2)
      exact ⟨m'', by rw [parseMany, h]; exact h3⟩
  obtain ⟨m, h, h1, h2⟩ := key (newMachine o) rfl rfl
  refine ⟨m, h, ?_⟩
  obtain ⟨m', h3, -⟩ := parse_eq m input
  rw [parse1_eq, h3, h1, h2]; rfl

/-- C06: in whatever state a machine is, it answers like a new one in the same mode; the mode stays as it is. -/
theorem C06_state_independent (m : M) (input : Bytes) :
    ∃ m', parse m input = (parse1 ⟨m.bestEffort, m.compliantMsg⟩ input).map (·, m') ∧
      m'.bestEffort = m.bestEffort ∧ m'.compliantMsg = m.compliantMsg := by
  obtain ⟨m', h, h2⟩ := parse_eq m input
  exact ⟨m', by rw [h, parse1_eq]; rfl, h2⟩

/-- a history that leaves traces in the machine -/
example : ∃ m, parseMany (newMachine {}) [sample.render, ascii "<1>1 - - - - - [a b=\"c"] = some m ∧
    m.currentelem = ascii "a" ∧ m.currentparam = ascii "b" ∧ (parse m sample.render).map Prod.fst = parse1 {} sample.render := by
  obtain ⟨m, h, h2⟩ := C06_history_independent {} [sample.render, ascii "<1>1 - - - - - [a b=\"c"] sample.render
  have h3 : (parseMany (newMachine {}) [sample.render, ascii "<1>1 - - - - - [a b=\"c"]).map
      (fun m => (m.currentelem, m.currentparam)) = some (ascii "a", ascii "b") := by decide +kernel
  rw [h] at h3
  simp at h3
  exact ⟨m, h, h3.1, h3.2, h2⟩

/-! ## C07 -/

def NamesQ (o : Out) : Prop :=
  (o.hostname = [] ∨ NameWF 255 o.hostname) ∧ (o.appname = [] ∨ NameWF 48 o.appname) ∧
  (o.procID = [] ∨ NameWF 128 o.procID) ∧ (o.msgID = [] ∨ NameWF 32 o.msgID)

theorem namesQ_closed : Closed NamesQ :=
  ⟨fun _ _ h => h, fun _ _ h => h, fun _ _ hw h => ⟨Or.inr hw, h.2⟩, fun _ _ hw h => ⟨h.1, Or.inr hw, h.2.2⟩,
   fun _ _ hw h => ⟨h.1, h.2.1, Or.inr hw, h.2.2.2⟩, fun _ _ hw h => ⟨h.1, h.2.1, h.2.2.1, Or.inr hw⟩⟩

theorem optField_some {max : Nat} {f w : Bytes} (h : f = [] ∨ NameWF max f) (hw : optField f = some w) :
    NameWF max w ∧ w ≠ [45] := by
  simp only [optField] at hw
  split at hw
  · rename_i hne
    simp only [Option.some.injEq] at hw
    subst hw
    exact ⟨h.resolve_left hne.2, hne.1⟩
  · simp at hw

/-- C07: bounds and alphabet of the name fields of any returned message. -/
theorem C07_field_bounds (o : Opts) (input : Bytes) (m : SyslogMessage) (err : Option Err)
    (h : parse1 o input = some ⟨some m, err⟩) :
    (∀ w, m.hostname = some w → NameWF 255 w ∧ w ≠ [45]) ∧ (∀ w, m.appname = some w → NameWF 48 w ∧ w ≠ [45]) ∧
    (∀ w, m.procID = some w → NameWF 128 w ∧ w ≠ [45]) ∧ (∀ w, m.msgID = some w → NameWF 32 w ∧ w ≠ [45]) := by
  have h0 : NamesQ {} := ⟨Or.inl rfl, Or.inl rfl, Or.inl rfl, Or.inl rfl⟩
  obtain ⟨out, rfl, q1, q2, q3, q4⟩ := returned (Q := NamesQ) h
    (fun pri n h1 h2 h3 h4 => ⟨namesQ_closed, h0, fun s t _ _ _ => h0⟩)
  refine ⟨fun w hw => optField_some q1 hw, fun w hw => optField_some q2 hw, fun w hw => optField_some q3 hw,
    fun w hw => optField_some q4 hw⟩

/-- all four fields present in one result -/
example : ∃ m, parse1 ⟨true, false⟩ (ascii "<34>1 - h a p m x") = some ⟨some m, some ⟨.structuredData, 16⟩⟩ ∧
    m.hostname = some (ascii "h") ∧ m.appname = some (ascii "a") ∧ m.procID = some (ascii "p") ∧ m.msgID = some (ascii "m") :=
  ex_of (by decide +kernel)

/-! ## C08 -/

def TsQ (input : Bytes) (o : Out) : Prop :=
  o.timestampSet = true → ∃ (pri ver : Nat) (s : Stamp) (t : Bytes), pri ≤ 191 ∧ 1 ≤ ver ∧ ver ≤ 999 ∧ s.WF ∧ s.Real ∧
    input = 60 :: (dec pri ++ 62 :: (dec ver ++ 32 :: (s.render ++ t))) ∧ o.timestamp = s.time

theorem tsQ_closed (input : Bytes) : Closed (TsQ input) :=
  ⟨fun _ _ h => h, fun _ _ h => h, fun _ _ _ h => h, fun _ _ _ h => h, fun _ _ _ h => h, fun _ _ _ h => h⟩

/-- C08: a returned timestamp (also in a partial message) is the written one, syntactically correct and real. -/
theorem C08_timestamp_is_written_and_real (o : Opts) (input : Bytes) (m : SyslogMessage) (err : Option Err) (tm : GoTime.Time)
    (h : parse1 o input = some ⟨some m, err⟩) (ht : m.timestamp = some tm) :
    ∃ (pri ver : Nat) (s : Stamp) (t : Bytes), pri ≤ 191 ∧ 1 ≤ ver ∧ ver ≤ 999 ∧ s.WF ∧ s.Real ∧
      input = [60] ++ dec pri ++ [62] ++ dec ver ++ [32] ++ s.render ++ t ∧ tm = s.time := by
  obtain ⟨out, rfl, q⟩ := returned (Q := TsQ input) h
    (fun pri n h1 h2 h3 h4 => ⟨tsQ_closed input, fun h => by simp [afterVersion] at h,
      fun s t hs hr he _ => ⟨pri, n, s, t, h1, h2, h3, hs, hr, he, rfl⟩⟩)
  simp only [Out.export] at ht
  split at ht
  · rename_i hset
    obtain ⟨pri, ver, s, t, g1, g2, g3, g4, g5, g6, g7⟩ := q hset
    simp only [Option.some.injEq] at ht
    exact ⟨pri, ver, s, t, g1, g2, g3, g4, g5, by rw [g6]; simp, by rw [← ht, g7]⟩
  · simp at ht

/-- C08: a date that does not exist is always an error, located right after the timestamp; no timestamp is returned. -/
theorem C08_impossible_date_refused (o : Opts) (pri ver : Nat) (s : Stamp) (t : Bytes) (hpri : pri ≤ 191) (hver : 1 ≤ ver ∧ ver ≤ 999)
    (hwf : s.WF) (hreal : ¬ s.Real) :
    ∃ msg, parse1 o ([60] ++ dec pri ++ [62] ++ dec ver ++ [32] ++ s.render ++ t) = some ⟨msg, some ⟨.timeParse,
        ([60] ++ dec pri ++ [62] ++ dec ver ++ [32] ++ s.render).length⟩⟩ ∧
      ∀ m, msg = some m → m.timestamp = none := by
  have e : [60] ++ dec pri ++ [62] ++ dec ver ++ [32] ++ s.render ++ t =
      60 :: (dec pri ++ 62 :: (dec ver ++ 32 :: (s.render ++ t))) := by simp
  rw [parse1_eq, e, descend_version hpri hver, dTimestamp_unreal hwf hreal]
  refine ⟨if o.bestEffort then (partOf (afterVersion pri ver)).map Out.export else none, ?_, ?_⟩
  · simp only [mkErr, resultOf]
    congr 3
    simp
    omega
  · intro m hm
    cases hb : o.bestEffort with
    | false => simp [hb] at hm
    | true =>
      simp only [hb, if_true, partOf] at hm
      split at hm
      · simp at hm; rw [← hm]; rfl
      · simp at hm

/-- February 29 of a year that is not a leap year -/
example : ∃ s : Stamp, s.WF ∧ ¬ s.Real ∧ s.render = ascii "2003-02-29T00:00:00Z" :=
  ⟨⟨2003, 2, 29, 0, 0, 0, [], .utc⟩, by simp only [Stamp.WF, Zone.WF]; decide, by decide +kernel, by decide +kernel⟩

/-! ## C09 -/

/-- C09: when a well-formed message head and some elements with distinct ids are followed by `[` and an id already
used (and then by nothing, or by a byte that cannot continue a name), the duplicate-id error is reported right after
that id; strict mode gives no message. -/
theorem C09_duplicate_id_refused (o : Opts) (p : Parts) (hp : p.WF) (id t : Bytes) (hid : id ∈ p.sd.map Elem.id)
    (ht : ∀ b l, t = b :: l → ¬(Printable b ∧ b ≠ 61 ∧ b ≠ 93 ∧ b ≠ 34)) :
    ∃ msg, parse1 o (p.head ++ sdText p.sd ++ [91] ++ id ++ t) =
        some ⟨msg, some ⟨.sdIdDup, (p.head ++ sdText p.sd ++ [91] ++ id).length⟩⟩ ∧ (o.bestEffort = false → msg = none) := by
  have hne : p.sd ≠ [] := by intro h; rw [h] at hid; simp at hid
  have e : p.head ++ sdText p.sd ++ [91] ++ id ++ t = p.head ++ (sdText p.sd ++ 91 :: (id ++ t)) := by simp
  rw [parse1_eq, e, descend_head hp, dSD_dup hne hp.sd hp.ids hid (Or.inr fun b l h => by
    cases hb : isSdName b with
    | false => rfl
    | true => exact absurd (isSdName_iff.mp hb) (ht b l h))]
  refine ⟨if o.bestEffort then (partOf (withSD (headOut p) (elemMap p.sd))).map Out.export else none, ?_, ?_⟩
  · simp only [mkErr, resultOf]
    congr 3
    simp
    omega
  · intro h; simp [h]

example : parse1 {} (ascii "<1>1 - - - - - [a x=\"\"][b][a]") = some ⟨none, some ⟨.sdIdDup, 28⟩⟩ ∧
    (∃ m, parse1 ⟨true, false⟩ (ascii "<1>1 - - - - - [a x=\"\"][b][a]") = some ⟨some m, some ⟨.sdIdDup, 28⟩⟩ ∧
      (m.structuredData.map fun sd => sd.map Prod.fst) = some [ascii "a", ascii "b"]) :=
  ⟨by decide +kernel, ex_of (by decide +kernel)⟩

theorem length_insert_new {V : Type} {k : Bytes} {v : V} {m : SMap V} (h : m.find k = none) :
    (m.insert k v).length = m.length + 1 := by
  induction m with
  | nil => rfl
  | cons a r ih =>
    obtain ⟨k', v'⟩ := a
    simp only [SMap.find] at h
    split at h
    · simp at h
    · rename_i hne
      simp only [SMap.insert]
      split
      · simp
      · simp [hne, ih h]

theorem length_elems (es : List Elem) (sd : SD) (h : (es.map Elem.id).Nodup) (hn : ∀ e ∈ es, sd.find e.id = none) :
    (es.foldl putElem sd).length = sd.length + es.length := by
  induction es generalizing sd with
  | nil => rfl
  | cons e es ih =>
    rw [List.map_cons, List.nodup_cons] at h
    rw [List.foldl_cons, ih _ h.2, putElem, length_insert_new (hn e (by simp))]
    · simp; omega
    · intro x hx
      rw [putElem, SMap.find_insert, if_neg (fun e' => h.1 (by rw [← e']; exact List.mem_map_of_mem hx))]
      exact hn x (by simp [hx])

/-- C09: on success no element of the text is lost or merged with another one. -/
theorem C09_one_entry_per_element (o : Opts) (input : Bytes) (m : SyslogMessage) (h : parse1 o input = some ⟨some m, none⟩) :
    ∃ p : Parts, p.WF ∧ p.render = input ∧ ((m.structuredData.getD []).length = p.sd.length) ∧
      ∀ id, ((m.structuredData.getD []).find id).isSome ↔ id ∈ p.sd.map Elem.id := by
  rw [parse1_eq, Option.some.injEq, resultOf_ok] at h
  obtain ⟨out, h, rfl⟩ := h
  obtain ⟨p, h1, -, rfl, rfl⟩ := descend_iff.mp h
  refine ⟨p, h1, rfl, ?_, ?_⟩
  · rw [export_outOf h1]
    simp only [Parts.toMessage]
    split
    · rename_i h0; simp [h0]
    · rw [Option.getD_some, elemMap_eq, length_elems _ _ h1.ids (by simp [SMap.find])]; simp
  · intro id
    rw [export_outOf h1]
    simp only [Parts.toMessage]
    have key : ∀ (es : List Elem) (sd : SD), (SMap.find id (es.foldl putElem sd)).isSome ↔ id ∈ es.map Elem.id ∨ (sd.find id).isSome := by
      intro es
      induction es with
      | nil => intro sd; simp
      | cons e es ih =>
        intro sd
        rw [List.foldl_cons, ih, putElem, SMap.find_insert]
        by_cases he : id = e.id
        · rw [if_pos he]; simp [he]
        · rw [if_neg he]; simp [he]
    split
    · rename_i h0; simp [h0, SMap.find]
    · rw [Option.getD_some, elemMap_eq, key]; simp [SMap.find]

/-! ## C10 -/

def rawElem (e : Elem) : RawElem := ⟨e.id, e.params.map fun p => ⟨p.name, escape p.value⟩⟩

theorem find_paramMap (name : Bytes) (ps : List Param) (m : SMap Bytes) (v : Bytes) :
    SMap.find name (ps.foldl (fun m p => m.insert p.name p.value) m) = some v ↔
      (∃ raw, lastRaw name (ps.map fun p => ⟨p.name, escape p.value⟩) = some raw ∧ Unescaped raw v) ∨
      (lastRaw name (ps.map fun p => ⟨p.name, escape p.value⟩) = none ∧ m.find name = some v) := by
  induction ps generalizing m with
  | nil => simp [lastRaw]
  | cons p ps ih =>
    simp only [List.foldl_cons, List.map_cons, lastRaw, ih, SMap.find_insert]
    have einj : ∀ a b : Bytes, escape a = escape b ↔ a = b := by
      intro a b
      constructor
      · intro h; rw [← unesc_escape a, h, unesc_escape]
      · rintro rfl; rfl
    cases hl : lastRaw name (ps.map fun p => (⟨p.name, escape p.value⟩ : RawParam)) with
    | some raw => simp
    | none =>
      by_cases hn : p.name = name
      · subst hn
        simp [unescaped_iff, einj]
      · have : ¬ name = p.name := fun h => hn h.symm
        simp [hn, this]

/-- C10: on success the structured data in the text is a sequence of elements as written (`es`, with raw, still escaped
values) such that looking up parameter `name` of element `id` gives exactly the unescaped text of the last
parameter of that name. -/
theorem C10_values_unescaped (o : Opts) (input : Bytes) (m : SyslogMessage) (sd : SD)
    (h : parse1 o input = some ⟨some m, none⟩) (hsd : m.structuredData = some sd) :
    ∃ (p : Parts) (es : List RawElem), p.WF ∧ input = p.head ++ es.flatMap RawElem.text ++ msgText p.msg ∧
      (∀ e ∈ es, SdNameWF e.id ∧ ∀ q ∈ e.params, SdNameWF q.name ∧ ∃ v, Utf8 v ∧ Unescaped q.raw v) ∧ (es.map RawElem.id).Nodup ∧
      ∀ id name v, ((sd.find id).bind fun ps => ps.find name) = some v ↔
        ∃ e ∈ es, e.id = id ∧ ∃ raw, lastRaw name e.params = some raw ∧ Unescaped raw v := by
  rw [parse1_eq, Option.some.injEq, resultOf_ok] at h
  obtain ⟨out, h, rfl⟩ := h
  obtain ⟨p, h1, -, rfl, rfl⟩ := descend_iff.mp h
  rw [export_outOf h1] at hsd
  simp only [Parts.toMessage] at hsd
  have hne : p.sd ≠ [] := by intro h0; rw [if_pos h0] at hsd; simp at hsd
  rw [if_neg hne, Option.some.injEq] at hsd
  refine ⟨p, p.sd.map rawElem, h1, ?_, ?_, ?_, ?_⟩
  · have et : ∀ ps : List Param, ps.flatMap Param.render = (ps.map fun p => (⟨p.name, escape p.value⟩ : RawParam)).flatMap RawParam.text := by
      intro ps
      induction ps with
      | nil => rfl
      | cons q ps ih => simp [Param.render, RawParam.text, ih]
    have ee : ∀ es : List Elem, es.flatMap Elem.render = (es.map rawElem).flatMap RawElem.text := by
      intro es
      induction es with
      | nil => rfl
      | cons e es ih => simp [Elem.render, RawElem.text, rawElem, ih, et]
    rw [Parts.render_eq]
    have : sdText p.sd = p.sd.flatMap Elem.render := by
      cases hs : p.sd with
      | nil => exact absurd hs hne
      | cons => rfl
    rw [this, ee]; simp
  · intro e he
    obtain ⟨e0, h0, rfl⟩ := List.mem_map.mp he
    refine ⟨(h1.sd e0 h0).1, fun q hq => ?_⟩
    obtain ⟨q0, hq0, rfl⟩ := List.mem_map.mp hq
    exact ⟨((h1.sd e0 h0).2 q0 hq0).1, q0.value, ((h1.sd e0 h0).2 q0 hq0).2, (unescaped_iff _ _).mpr rfl⟩
  · rw [List.map_map]; exact h1.ids
  · intro id name v
    have key : ∀ (es : List Elem) (sd0 : SD), (es.map Elem.id).Nodup → (∀ e ∈ es, sd0.find e.id = none) →
        (((SMap.find id (es.foldl putElem sd0)).bind fun ps => ps.find name) = some v ↔
          (∃ e ∈ es.map rawElem, e.id = id ∧ ∃ raw, lastRaw name e.params = some raw ∧ Unescaped raw v) ∨
          ((sd0.find id).bind fun ps => ps.find name) = some v) := by
      intro es
      induction es with
      | nil => intro sd0 _ _; simp
      | cons e es ih =>
        intro sd0 hnd hnot
        rw [List.map_cons, List.nodup_cons] at hnd
        rw [List.foldl_cons, ih _ hnd.2 (by
          intro x hx
          rw [putElem, SMap.find_insert, if_neg (fun e' => hnd.1 (by rw [← e']; exact List.mem_map_of_mem hx))]
          exact hnot x (by simp [hx]))]
        rw [putElem, SMap.find_insert]
        by_cases he : id = e.id
        · subst he
          rw [if_pos rfl, hnot e (by simp)]
          simp only [Option.bind_some, Option.bind_none, paramMap]
          rw [find_paramMap]
          simp only [SMap.find, List.map_cons, List.mem_cons, exists_eq_or_imp]
          simp [rawElem, or_comm]
        · rw [if_neg he]
          have he' : ¬ e.id = id := fun h => he h.symm
          simp [rawElem, he']
    rw [← hsd, elemMap_eq, key p.sd [] h1.ids (by simp [SMap.find])]
    simp [SMap.find]

/-- the sample has a value with an escaped quote, one with an escaped backslash, and a repeated name -/
example : ∃ m sd, parse1 {} sample.render = some ⟨some m, none⟩ ∧ m.structuredData = some sd ∧
    ((sd.find (ascii "a@1")).bind fun ps => ps.find (ascii "x")) = some (ascii "b\\") :=
  ⟨_, _, (C01_strict_accepts_iff_grammar _ _).mpr ⟨sample, sample_wf, rfl, rfl⟩, rfl, by decide +kernel⟩

/-! ## C11 -/

/-- C11: without the compliant option, any bytes after the separator space are the message, verbatim. -/
theorem C11_msg_verbatim (be : Bool) (p : Parts) (hp : p.WF) (hm : p.msg = none) (w : Bytes) :
    parse1 ⟨be, false⟩ (p.render ++ [32] ++ w) =
      some ⟨some { p.toMessage with message := if w = [] then none else some w }, none⟩ := by
  have hq : ({ p with msg := some w } : Parts).WF := ⟨hp.pri, hp.version, hp.timestamp, hp.hostname, hp.appname, hp.procID, hp.msgID, hp.sd, hp.ids⟩
  have hr : ({ p with msg := some w } : Parts).render = p.render ++ [32] ++ w := by
    simp [Parts.render, hm, msgText]
  rw [parse1_eq, ← hr, descend_iff.mpr ⟨_, hq, fun _ _ h => by simp at h, rfl, rfl⟩]
  simp only [resultOf, export_outOf hq]
  simp [Parts.toMessage]

/-- C11: and when nothing follows STRUCTURED-DATA there is no message. -/
theorem C11_no_msg (be : Bool) (p : Parts) (hp : p.WF) (hm : p.msg = none) :
    ∃ m, parse1 ⟨be, false⟩ p.render = some ⟨some m, none⟩ ∧ m.message = none := by
  refine ⟨p.toMessage, ?_, by simp [Parts.toMessage, hm]⟩
  rw [parse1_eq, descend_iff.mpr ⟨p, hp, fun _ _ h => by simp at h, rfl, rfl⟩]
  simp only [resultOf, export_outOf hp]

/-- control bytes, invalid UTF-8 and NUL -/
example : ∃ p : Parts, p.WF ∧ p.msg = none ∧ parse1 ⟨false, false⟩ (p.render ++ [32] ++ [0, 10, 0xFF, 0xC0, 32]) =
    some ⟨some { p.toMessage with message := some [0, 10, 0xFF, 0xC0, 32] }, none⟩ :=
  have hwf : ({ sample with msg := none } : Parts).WF := ⟨sample_wf.pri, sample_wf.version, sample_wf.timestamp,
    sample_wf.hostname, sample_wf.appname, sample_wf.procID, sample_wf.msgID, sample_wf.sd, sample_wf.ids⟩
  ⟨{ sample with msg := none }, hwf, rfl, C11_msg_verbatim false _ hwf rfl _⟩

/-! ## C12 -/

/-- C12: with the compliant option exactly the messages whose MSG is compliant are accepted, with the same result. -/
theorem C12_compliant_accepts_iff (be : Bool) (input : Bytes) (m : SyslogMessage) :
    parse1 ⟨be, true⟩ input = some ⟨some m, none⟩ ↔
      parse1 ⟨be, false⟩ input = some ⟨some m, none⟩ ∧
      ∀ p : Parts, p.WF → p.render = input → ∀ w, p.msg = some w → MsgCompliant w := by
  simp only [parse1_eq, Option.some.injEq, resultOf_ok]
  constructor
  · rintro ⟨o, h, rfl⟩
    obtain ⟨p, h1, h2, rfl, rfl⟩ := descend_iff.mp h
    refine ⟨⟨_, descend_iff.mpr ⟨p, h1, fun _ _ h => by simp at h, rfl, rfl⟩, rfl⟩, ?_⟩
    intro q hq he w hw
    have := render_inj hq h1 he
    subst this
    exact h2 w hw rfl
  · rintro ⟨⟨o, h, rfl⟩, h2⟩
    obtain ⟨p, h1, -, rfl, rfl⟩ := descend_iff.mp h
    exact ⟨_, descend_iff.mpr ⟨p, h1, fun w hw _ => h2 p h1 rfl w hw, rfl, rfl⟩, rfl⟩

theorem acc_completable (s : U8) : ∃ t, U8.Acc s t := by
  cases s
  · exact ⟨[], rfl⟩
  · exact ⟨[0x80], show U8.firstBad _ _ = none by decide⟩
  · exact ⟨[0xA0, 0x80], show U8.firstBad _ _ = none by decide⟩
  · exact ⟨[0x80, 0x80], show U8.firstBad _ _ = none by decide⟩
  · exact ⟨[0x80, 0x80], show U8.firstBad _ _ = none by decide⟩
  · exact ⟨[0x90, 0x80, 0x80], show U8.firstBad _ _ = none by decide⟩
  · exact ⟨[0x80, 0x80, 0x80], show U8.firstBad _ _ = none by decide⟩
  · exact ⟨[0x80, 0x80, 0x80], show U8.firstBad _ _ = none by decide⟩

theorem firstBad_spec {s : U8} {l : Bytes} {n : Nat} (h : U8.firstBad s l = some n) :
    n ≤ l.length ∧ (∃ t, U8.Acc s (l.take n ++ t)) ∧ (n < l.length → ∀ t, ¬ U8.Acc s (l.take (n + 1) ++ t)) := by
  induction l generalizing s n with
  | nil =>
    simp only [U8.firstBad] at h
    split at h
    · simp at h
    · simp at h; subst h; exact ⟨by simp, acc_completable s, by simp⟩
  | cons b l ih =>
    simp only [U8.firstBad] at h
    split at h
    · rename_i hst
      simp at h; subst h
      refine ⟨by simp, acc_completable s, fun _ t hacc => ?_⟩
      simp only [Nat.zero_add, List.take_succ_cons, List.take_zero, List.cons_append, List.nil_append] at hacc
      obtain ⟨s', h1, -⟩ := U8.acc_cons.mp hacc
      rw [hst] at h1; simp at h1
    · rename_i s' hst
      cases hf : U8.firstBad s' l with
      | none => simp [hf] at h
      | some k =>
        simp [hf] at h; subst h
        obtain ⟨g1, ⟨t, g2⟩, g3⟩ := ih hf
        refine ⟨by simp; exact g1, ⟨t, ?_⟩, fun hlt t hacc => ?_⟩
        · exact U8.acc_cons.mpr ⟨s', hst, g2⟩
        · obtain ⟨s2, h1, h2⟩ := U8.acc_cons.mp hacc
          rw [hst] at h1; simp at h1; subst h1
          exact g3 (by simp at hlt; omega) t h2

/-- C12: a message refused because of MSG gives the MSG error at the first byte that cannot be part of a valid UTF-8
text (or at the end of the input, when it ends inside a character); in best effort mode everything before that byte
is returned. -/
theorem C12_refused (be : Bool) (p : Parts) (hp : p.WF) (w : Bytes) (hw : p.msg = some w) (hbad : ¬ MsgCompliant w) :
    ∃ n, n ≤ w.length ∧ (∃ t, Utf8 (w.take n ++ t)) ∧ (n < w.length → ¬ ∃ t, Utf8 (w.take (n + 1) ++ t)) ∧
      parse1 ⟨be, true⟩ p.render =
        some ⟨if be then some { p.toMessage with message := some (w.take n) } else none,
          some ⟨.msgNotCompliant, (p.head ++ sdText p.sd ++ [32]).length + n⟩⟩ := by
  simp only [MsgCompliant, Classical.not_imp] at hbad
  obtain ⟨⟨l, hl⟩, hbad⟩ := hbad
  have hl' : w = 0xEF :: 0xBB :: 0xBF :: l := hl.symm
  have hfb : U8.firstBad .s0 l ≠ none := by
    intro h
    exact hbad ((U8.acc_iff _).mp (by rw [hl']; exact (firstBad_bom l).mpr h))
  obtain ⟨n, hn⟩ := Option.ne_none_iff_exists'.mp hfb
  obtain ⟨g1, ⟨t, g2⟩, g3⟩ := firstBad_spec hn
  refine ⟨3 + n, by rw [hl']; simp; omega, ⟨t, ?_⟩, ?_, ?_⟩
  · have : w.take (3 + n) ++ t = 0xEF :: 0xBB :: 0xBF :: (l.take n ++ t) := by
      rw [hl', show 3 + n = n + 1 + 1 + 1 by omega]; rfl
    rw [this, ← U8.acc_iff, firstBad_bom]; exact g2
  · rintro hlt ⟨t, ht⟩
    have : w.take (3 + n + 1) ++ t = 0xEF :: 0xBB :: 0xBF :: (l.take (n + 1) ++ t) := by
      rw [hl', show 3 + n + 1 = n + 1 + 1 + 1 + 1 by omega]; rfl
    rw [this, ← U8.acc_iff, firstBad_bom] at ht
    exact g3 (by rw [hl'] at hlt; simp at hlt; omega) t ht
  · rw [parse1_eq, Parts.render_eq, hw, show msgText (some w) = 32 :: w from rfl, descend_head hp,
      dSD_msg hp.sd hp.ids (by cases hts : p.timestamp <;> exact ⟨by simp [headOut, putTs, hts], by simp [headOut, putTs, hts], by simp [headOut, putTs, hts]⟩)]
    have hq : ({ p with msg := some (w.take (3 + n)) } : Parts).WF :=
      ⟨hp.pri, hp.version, hp.timestamp, hp.hostname, hp.appname, hp.procID, hp.msgID, hp.sd, hp.ids⟩
    have hout : { putSD (headOut p) p.sd none with message := w.take (3 + n) } = outOf { p with msg := some (w.take (3 + n)) } := rfl
    have hd : ∀ pos, dMsg true pos w (putSD (headOut p) p.sd none) = mkErr .msgNotCompliant (pos + (3 + n))
        { putSD (headOut p) p.sd none with message := w.take (3 + n) } := by
      intro pos
      subst hl'
      simp only [dMsg, hn]
      simp
    rw [hd, hout, mkErr, partOf, if_pos (minimal_outOf hq)]
    simp only [resultOf, Option.map_some, export_outOf hq]
    have hne : ¬ w.take (3 + n) = [] := by rw [hl', show 3 + n = n + 1 + 1 + 1 by omega]; simp
    congr 3
    · simp [Parts.toMessage, hne]
    · simp; omega

/-- a BOM followed by an incomplete character -/
example : ¬ MsgCompliant (bom ++ [65, 0xE2, 0x82]) ∧ MsgCompliant (bom ++ [65, 0xC3, 0xA9]) ∧ MsgCompliant [0xFF] := by
  refine ⟨?_, ?_, ?_⟩
  · intro h
    have := (U8.acc_iff _).mpr (h ⟨[65, 0xE2, 0x82], rfl⟩)
    exact absurd this (show ¬ U8.firstBad _ _ = none by decide +kernel)
  · intro _; exact (U8.acc_iff _).mp (show U8.firstBad _ _ = none by decide +kernel)
  · intro h; rcases h with ⟨t, ht⟩; simp [bom] at ht

/-! ## C13, C14, C15 -/

/-- C13: the column of an error is between 0 and the length of the input. -/
theorem C13_column_in_range (o : Opts) (input : Bytes) (msg : Option SyslogMessage) (e : Err)
    (h : parse1 o input = some ⟨msg, some e⟩) : e.col ≤ input.length := by
  rw [parse1_eq, Option.some.injEq, resultOf_err] at h
  obtain ⟨part, h, -⟩ := h
  rcases descend_prefix h with h | h <;> omega

/-- C14: an error reported before the end of the input is decided by the bytes up to and including the
reported column: same error and same (partial) message for any continuation. -/
theorem C14_error_decided_by_prefix (o : Opts) (input input2 : Bytes) (msg : Option SyslogMessage) (e : Err)
    (h : parse1 o input = some ⟨msg, some e⟩) (hc : e.col < input.length)
    (hp : input2.take (e.col + 1) = input.take (e.col + 1)) : parse1 o input2 = some ⟨msg, some e⟩ := by
  rw [parse1_eq, Option.some.injEq, resultOf_err] at h
  obtain ⟨part, h, rfl⟩ := h
  rcases descend_prefix h with h' | ⟨-, h'⟩
  · omega
  · rw [parse1_eq, h' input2 hp, Option.some.injEq, resultOf_err]
    exact ⟨part, rfl, rfl⟩

example : ∃ m, parse1 ⟨true, false⟩ (ascii "<34>1 - h[ a p m [x\"rest") = some ⟨some m, some ⟨.sdId, 19⟩⟩ ∧
    19 < (ascii "<34>1 - h[ a p m [x\"rest").length := ex_of (by decide +kernel)

/-- C15: no input and no state of the machine makes `Parse` panic (or loop). -/
theorem C15_no_panic (m : M) (input : Bytes) : ∃ r, parse m input = some r := by
  obtain ⟨m', h, -⟩ := parse_eq m input
  exact ⟨_, h⟩

/-- the panicking operations are reachable in the model: an action executed out of place does panic -/
example : act .setPrival { pb := 1 } = .panic ∧ act .setParamvalue { out := { hasElements := true } } = .panic :=
  ⟨rfl, rfl⟩

end Verif.Props
