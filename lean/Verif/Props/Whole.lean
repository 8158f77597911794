import Verif.Props.Source
import Verif.Props.MiniOctet
import Verif.Props.MiniLines
import Verif.Props.Octet

/-!
# The written parts and the generated parts of the source, together (C108)

C103, C105 and C106 execute the programs of the hand-written files with `machine.Parse` as a parameter; C100 executes the Go bodies of the two
`machine.Parse`, state by state. Here the parameter *is* that execution: a call of `Parse` through the locked parser, the octet-counting parser or the
non-transparent parser runs the statements of `rfc5424/machine.go:113-12046` (`rfc3164/machine.go:97-7263`), from the configuration that the machine has
in memory and from whatever earlier calls left in its other fields. What comes out is stated in terms of the grammars only.
-/

set_option linter.constructorNameAsVariable false

namespace Verif.Props
open Verif.Mini Verif.Gen.Mini Verif.Go

namespace MiniSrc
variable {E : Type}

/-- what a finished execution of the body gives to the caller -/
def given5 (w : W E) : Fin Gen.GoRfc5424.R R5.V → Option (Out E Val)
  | .returned r g => some (.ok (.tuple [msgVal (R5.value r g).1, err5Val ((R5.value r g).2.map fun e => ⟨e.1, e.2.toNat⟩)]) w)
  | .panics => some (.panic w)
  | .stuck => none
  | .timeout => none

def given3 (w : W E) : Fin Gen.GoRfc3164.R R3.V → Option (Out E Val)
  | .returned r g => some (.ok (.tuple [msg3Val (R3.value r g).1, err3Val ((R3.value r g).2.map fun e => ⟨e.1, e.2.toNat⟩)]) w)
  | .panics => some (.panic w)
  | .stuck => none
  | .timeout => none

/-- `m.Parse(input)` for the machine in the variable `mi`: the statements of `rfc5424/machine.go:113-12046`. The options are those in memory; what the
other fields hold before the call is `left`, anything that may depend on everything. -/
def goParse5 (left : W E → GS R5.V) : List Val → M E Val
  | [.ptr mi [], input] => fun w => match cfgOf5 (w.heap mi) with
    | some o => given5 w (Src.call5424 { left w with x := { (left w).x with bestEffort := o.bestEffort, compliantMsg := o.compliantMsg } } input.bytes)
    | none => none
  | _ => M.stuck

/-- the same for `rfc3164/machine.go:97-7263` -/
def goParse3 (left : W E → GS R3.V) : List Val → M E Val
  | [.ptr mi [], input] => fun w => match cfgOf3 (w.heap mi) with
    | some o => given3 w (Src.call3164 { left w with x := { (left w).x with o := o } } input.bytes)
    | none => none
  | _ => M.stuck

theorem errs5 (e : Option Rfc5424.Err) : ((e.map fun e => (e.kind, (e.col : Int))).map fun e => (⟨e.1, e.2.toNat⟩ : Rfc5424.Err)) = e := by
  cases e <;> simp

theorem errs3 (e : Option Rfc3164.Err) : ((e.map fun e => (e.kind, (e.col : Int))).map fun e => (⟨e.1, e.2.toNat⟩ : Rfc3164.Err)) = e := by
  cases e <;> simp

/-- the call ends and returns what the model says -/
theorem goParse5_apply (left : W E → GS R5.V) (w : W E) {mi : Nat} {o : Rfc5424.Opts} (h : cfgOf5 (w.heap mi) = some o) (input : Val) :
    ∃ res, Rfc5424.parse1 o input.bytes = some res ∧ goParse5 left [.ptr mi [], input] w = some (.ok (.tuple [msgVal res.msg, err5Val res.err]) w) := by
  obtain ⟨r, g', res, h1, h2, h3, -⟩ := C100_rfc5424 { left w with x := { (left w).x with bestEffort := o.bestEffort, compliantMsg := o.compliantMsg } } input.bytes
  refine ⟨res, h2, ?_⟩
  show (match cfgOf5 (w.heap mi) with
    | some o => given5 w (Src.call5424 { left w with x := { (left w).x with bestEffort := o.bestEffort, compliantMsg := o.compliantMsg } } input.bytes)
    | none => none) = _
  rw [h]
  simp only [h1, given5, h3, errs5]

theorem goParse3_apply (left : W E → GS R3.V) (w : W E) {mi : Nat} {o : Rfc3164.Opts} (h : cfgOf3 (w.heap mi) = some o) (input : Val) :
    ∃ res, Rfc3164.parse1 o input.bytes = some res ∧ goParse3 left [.ptr mi [], input] w = some (.ok (.tuple [msg3Val res.msg, err3Val res.err]) w) := by
  obtain ⟨r, g', res, h1, h2, h3, -⟩ := C100_rfc3164 { left w with x := { (left w).x with o := o } } input.bytes
  refine ⟨res, h2, ?_⟩
  show (match cfgOf3 (w.heap mi) with
    | some o => given3 w (Src.call3164 { left w with x := { (left w).x with o := o } } input.bytes)
    | none => none) = _
  rw [h]
  simp only [h1, given3, h3, errs3]

theorem goParse5_ok {X : Env0 E} {left : W E → GS R5.V} (hX : X.call .rfc5424_machine_Parse = goParse5 left) : ParseOk kit5 X := by
  intro w mi c input h
  obtain ⟨res, h1, h2⟩ := goParse5_apply left w (isMach_cfg5 h) (.str input)
  exact ⟨_, _, w, congrArg (Option.map _) h1, (congrFun (congrFun hX _) w).trans h2, h, Nat.le_refl _, fun _ _ _ => rfl, rfl⟩

theorem goParse3_ok {X : Env0 E} {left : W E → GS R3.V} (hX : X.call .rfc3164_machine_Parse = goParse3 left) : ParseOk kit3 X := by
  intro w mi c input h
  obtain ⟨res, h1, h2⟩ := goParse3_apply left w (isMach_cfg3 h) (.str input)
  exact ⟨_, _, w, congrArg (Option.map _) h1, (congrFun (congrFun hX _) w).trans h2, h, Nat.le_refl _, fun _ _ _ => rfl, rfl⟩

/-- everything a user of the two parsers runs is a program here; the rest is the mutex and the clock -/
def wholeX (extra : Nat → Nat) (order : List Bytes → List Bytes) (now : E → GoTime.Time × E) (left5 : W E → GS R5.V) (left3 : W E → GS R3.V) : Env0 E where
  extra := extra
  order := order
  call := fun f => match f with
    | .sync_Lock => xLock
    | .sync_Unlock => xUnlock
    | .time_Now => xNow now
    | .time_Year => xYear
    | .rfc5424_machine_Parse => goParse5 left5
    | .rfc3164_machine_Parse => goParse3 left3
    | _ => fun _ => M.stuck
  meth := meth
  prog := prog

/-- the octet-counting parser on the same -/
def wholeOct (extra : Nat → Nat) (order : List Bytes → List Bytes) (left5 : W EO → GS R5.V) : Env0 EO :=
  { octX extra order with
    call := fun f => match f with
      | .rfc5424_machine_Parse => goParse5 left5
      | f => octCallP xParse5 f }

theorem goParse5_eq (left5 : W EO → GS R5.V) : goParse5 left5 = xParse5 := by
  have key : ∀ (mi : Nat) (input : Val) (w : W EO), goParse5 left5 [.ptr mi [], input] w = xParse5 [.ptr mi [], input] w := by
    intro mi input w
    cases h : cfgOf5 (w.heap mi) with
    | some o =>
      obtain ⟨res, h1, h2⟩ := goParse5_apply left5 w h input
      rw [h2]
      unfold cfgOf5 at h
      split at h
      · rename_i be co hb hc
        cases h
        rw [xParse5_apply w hb hc, h1]
      · cases h
    | none =>
      have e1 : goParse5 left5 [.ptr mi [], input] w = none := by
        show (match cfgOf5 (w.heap mi) with
          | some o => given5 w (Src.call5424 { left5 w with x := { (left5 w).x with bestEffort := o.bestEffort, compliantMsg := o.compliantMsg } } input.bytes)
          | none => none) = _
        rw [h]
      rw [e1]
      show none = (match (w.heap mi).get .bestEffort, (w.heap mi).get .compliantMsg with
        | some (.bool be), some (.bool co) => match Rfc5424.parse1 ⟨be, co⟩ input.bytes with
          | none => some (Out.panic w)
          | some r => some (Out.ok (Val.tuple [msgVal r.msg, err5Val r.err]) w)
        | _, _ => none)
      unfold cfgOf5 at h
      split at h
      · cases h
      · rename_i hn
        split
        · rename_i be co hb hc
          exact absurd hc (hn be co hb)
        · rfl
  funext args w
  cases args with
  | nil => rfl
  | cons v t =>
    cases t with
    | nil => cases v <;> first | rfl | (rename_i p; cases p <;> rfl)
    | cons i t =>
      cases t with
      | nil =>
        cases v with
        | ptr mi p =>
          cases p with
          | nil => exact key mi i w
          | cons => rfl
        | _ => rfl
      | cons => cases v <;> first | rfl | (rename_i p; cases p <;> rfl)

theorem wholeOct_eq (extra : Nat → Nat) (order : List Bytes → List Bytes) (left5 : W EO → GS R5.V) : wholeOct extra order left5 = octX extra order := by
  have e : (fun f => match f with
      | .rfc5424_machine_Parse => goParse5 left5
      | f => octCallP xParse5 f) = octCallP xParse5 := by
    funext f
    rw [goParse5_eq]
    cases f <;> rfl
  rw [wholeOct, e]
  rfl

/-- `Serves` with the answers described by a relation -/
def Answers (K : Kit) (Q : K.Cfg → Bytes → Val → Val → Prop) (X : Env0 E) (a mi : Nat) : K.Cfg → List PCall → W E → Prop
  | _, [], _ => True
  | c, .parse input :: cs, w =>
    Does X K.pkg.parse [.ptr a [], .str input] w fun o => ∃ msg err w', o = .ok (.tuple [msg, err]) w' ∧ Q c input msg err ∧ w'.ext = w.ext ∧ Answers K Q X a mi c cs w'
  | c, .withBestEffort :: cs, w =>
    Does X K.withBestEffort [.ptr mi []] w fun o => ∃ w', o = .ok (.tuple []) w' ∧ w'.ext = w.ext ∧ Answers K Q X a mi (K.turnOn c) cs w'
  | c, .hasBestEffort :: cs, w =>
    Does X K.hasBestEffort [.ptr a []] w fun o => o = .ok (.bool (K.be c)) w ∧ Answers K Q X a mi c cs w

theorem serves_answers {K : Kit} {res : K.Cfg → Bytes → Option (Val × Val)} {Q : K.Cfg → Bytes → Val → Val → Prop} (hQ : ∀ c input m e, res c input = some (m, e) → Q c input m e)
    {X : Env0 E} {a mi : Nat} : ∀ {cs : List PCall} {c : K.Cfg} {w : W E}, Serves K res X a mi c cs w → Answers K Q X a mi c cs w
  | [], _, _, _ => trivial
  | .parse _ :: _, _, _, ⟨msg, err, h1, h2⟩ => Does.mono h2 fun _ ⟨w', e, h3, h4⟩ => ⟨msg, err, w', e, hQ _ _ _ _ h1, h3, serves_answers hQ h4⟩
  | .withBestEffort :: _, _, _, h => Does.mono h fun _ ⟨w', e, h3, h4⟩ => ⟨w', e, h3, serves_answers hQ h4⟩
  | .hasBestEffort :: _, _, _, h => Does.mono h fun _ ⟨e, h4⟩ => ⟨e, serves_answers hQ h4⟩

/-- the input is a message of the grammar of RFC 5424; with `WithCompliantMsg`, one whose text is compliant -/
def IsMessage5 (o : Rfc5424.Opts) (input : Bytes) (p : Spec.Parts) : Prop :=
  p.WF ∧ p.render = input ∧ (o.compliantMsg = true → ∀ t, p.msg = some t → Spec.MsgCompliant t)

/-- What `Parse` of the RFC 5424 parser must return: for a message, its parts and no error; for anything else an error that points into the input, and
without best effort no message, with best effort one exactly if the input begins with a complete priority and a version. -/
def Answer5 (o : Rfc5424.Opts) (input : Bytes) (msg err : Val) : Prop :=
  (∀ p, IsMessage5 o input p → msg = .ext (.msg5 p.toMessage) ∧ err = .nil) ∧
  ((∀ p, ¬ IsMessage5 o input p) → ∃ e, err = .ext (.err5 e) ∧ e.col ≤ input.length ∧
    (o.bestEffort = false → msg = .nil) ∧
    (o.bestEffort = true → (msg ≠ .nil ↔ ∃ (pri : Nat) (d : UInt8) (t : Bytes), pri ≤ 191 ∧ 49 ≤ d.toNat ∧ d.toNat ≤ 57 ∧ input = [60] ++ Spec.dec pri ++ [62, d] ++ t) ∧
      (msg ≠ .nil → ∃ m, msg = .ext (.msg5 m) ∧ m.valid = true)))

/-- What `Parse` of the RFC 3164 parser must return: for a message, its parts and no error; otherwise, without best effort, no message, and no error either
exactly for the inputs of C32; with best effort a message exactly if the input begins with `<`, a digit and another byte. -/
def Answer3 (o : Rfc3164.Opts) (input : Bytes) (msg err : Val) : Prop :=
  (∀ p : Spec.Bsd.Parts, p.WF o.rfc3339 → p.render = input → msg = .ext (.msg3 (p.toMessage (Rfc3164.whenTime o p.time))) ∧ err = .nil) ∧
  ((∀ p : Spec.Bsd.Parts, p.WF o.rfc3339 → p.render ≠ input) →
    (err = .nil ∨ ∃ e, err = .ext (.err3 e) ∧ e.col ≤ input.length) ∧
    (o.bestEffort = false → msg = .nil ∧ (err = .nil ↔ Spec.Bsd.Silent o.rfc3339 input)) ∧
    (o.bestEffort = true → (msg ≠ .nil ↔ ∃ (d b : UInt8) (t : Bytes), input = 60 :: d :: b :: t ∧ 48 ≤ d.toNat ∧ d.toNat ≤ 57) ∧
      (msg ≠ .nil → ∃ m, msg = .ext (.msg3 m) ∧ m.valid = true)))

theorem accepted5 (o : Rfc5424.Opts) (input : Bytes) (m : Rfc5424.SyslogMessage) :
    Rfc5424.parse1 o input = some ⟨some m, none⟩ ↔ ∃ p, IsMessage5 o input p ∧ p.toMessage = m := by
  obtain ⟨be, co⟩ := o
  have h1 : Rfc5424.parse1 ⟨be, co⟩ input = some ⟨some m, none⟩ ↔ Rfc5424.parse1 ⟨false, co⟩ input = some ⟨some m, none⟩ := by
    cases be
    · exact Iff.rfl
    · exact (C04_success_same co input m).symm
  rw [h1]
  cases co with
  | false =>
    rw [show (⟨false, false⟩ : Rfc5424.Opts) = {} from rfl, C01_strict_accepts_iff_grammar]
    constructor
    · rintro ⟨p, a, b, c⟩; exact ⟨p, ⟨a, b, fun h => by cases h⟩, c⟩
    · rintro ⟨p, ⟨a, b, -⟩, c⟩; exact ⟨p, a, b, c⟩
  | true =>
    rw [C12_compliant_accepts_iff, show (⟨false, false⟩ : Rfc5424.Opts) = {} from rfl, C01_strict_accepts_iff_grammar]
    constructor
    · rintro ⟨⟨p, a, b, c⟩, d⟩; exact ⟨p, ⟨a, b, fun _ => d p a b⟩, c⟩
    · rintro ⟨p, ⟨a, b, d⟩, c⟩
      refine ⟨⟨p, a, b, c⟩, fun q hq hr t ht => d rfl t ?_⟩
      have := C01_decomposition_unique hq a (hr.trans b.symm)
      rw [← this]; exact ht

theorem answer5 (o : Rfc5424.Opts) (input : Bytes) (m e : Val) (h : parserResult5 o input = some (m, e)) : Answer5 o input m e := by
  obtain ⟨⟨rm, re⟩, hr⟩ : ∃ r, Rfc5424.parse1 o input = some r := ⟨_, Rfc5424.parse1_eq o input⟩
  obtain ⟨m', e', h1, h2⟩ := filter5 o input (msgVal rm) (err5Val re) (by simp only [kit5, hr]; rfl)
  obtain ⟨rfl, rfl⟩ : m' = m ∧ e' = e := by rw [h] at h1; simpa [eq_comm] using h1
  constructor
  · intro p hp
    have := (accepted5 o input p.toMessage).mpr ⟨p, hp, rfl⟩
    rw [hr] at this
    obtain ⟨rfl, rfl⟩ : rm = some p.toMessage ∧ re = none := by simpa using this
    simp [filtered, err5Val, msgVal] at h2
    exact ⟨h2.1.symm, h2.2.symm⟩
  · intro hn
    have hne : ∀ x, ¬ (rm = some x ∧ re = none) := by
      rintro x ⟨rfl, rfl⟩
      obtain ⟨p, hp, -⟩ := (accepted5 o input x).mp hr
      exact hn p hp
    obtain ⟨be, co⟩ := o
    cases be with
    | false =>
      rcases C02_exactly_one co input with ⟨x, hx⟩ | ⟨x, hx⟩
      · rw [hx] at hr
        obtain ⟨rfl, rfl⟩ : rm = some x ∧ re = none := by simpa [eq_comm] using hr
        exact absurd ⟨rfl, rfl⟩ (hne x)
      · have hr' := hr
        rw [hx] at hr
        obtain ⟨rfl, rfl⟩ : rm = none ∧ re = some x := by simpa [eq_comm] using hr
        simp [filtered, err5Val, msgVal, kit5] at h2
        exact ⟨x, h2.2.symm, C13_column_in_range _ _ _ _ hr', fun _ => h2.1.symm, fun h => by cases h⟩
    | true =>
      cases re with
      | none =>
        cases rm with
        | some x => exact absurd ⟨rfl, rfl⟩ (hne x)
        | none =>
          rcases C02_exactly_one co input with ⟨x, hx⟩ | ⟨x, hx⟩
          · rw [(C04_success_same co input x).mp hx] at hr; simp at hr
          · obtain ⟨y, hy⟩ := (C04_error_same co input x).mp ⟨_, hx⟩
            rw [hy] at hr; simp at hr
      | some x =>
        simp [filtered, err5Val, kit5] at h2
        obtain ⟨h3, h4⟩ := C03_partial_message_iff co input rm x hr
        refine ⟨x, h2.2.symm, C13_column_in_range _ _ _ _ hr, fun h => (by cases h), fun _ => ⟨?_, ?_⟩⟩
        · rw [← h2.1, ← h3]
          cases rm <;> simp [msgVal]
        · rw [← h2.1]
          cases rm with
          | none => intro h; exact absurd rfl h
          | some y => intro _; exact ⟨y, rfl, (h4 y rfl).1⟩

theorem answer3 (o : Rfc3164.Opts) (input : Bytes) (m e : Val) (h : parserResult3 o input = some (m, e)) : Answer3 o input m e := by
  obtain ⟨⟨rm, re⟩, hr⟩ : ∃ r, Rfc3164.parse1 o input = some r := ⟨_, Rfc3164.parse1_eq o input⟩
  obtain ⟨m', e', h1, h2⟩ := filter3 o input (msg3Val rm) (err3Val re) (by simp only [kit3, hr]; rfl)
  obtain ⟨rfl, rfl⟩ : m' = m ∧ e' = e := by rw [h] at h1; simpa [eq_comm] using h1
  constructor
  · rintro p hp rfl
    have := Bsd.accepts o hp
    rw [hr] at this
    obtain ⟨rfl, rfl⟩ : rm = some _ ∧ re = none := by simpa using this
    simp [filtered, err3Val, msg3Val] at h2
    exact ⟨h2.1.symm, h2.2.symm⟩
  · intro hn
    have he : e' = .nil ∨ ∃ e, e' = .ext (.err3 e) ∧ e.col ≤ input.length := by
      cases re with
      | none => simp [filtered, err3Val] at h2; exact Or.inl h2.2.symm
      | some x =>
        refine Or.inr ⟨x, ?_, Bsd.C38_column_in_range _ _ _ _ hr⟩
        cases hb : o.bestEffort <;> simp [filtered, err3Val, kit3, hb] at h2 <;> exact h2.2.symm
    refine ⟨he, fun hb => ?_, fun hb => ?_⟩
    · have hm : rm = none := by
        cases rm with
        | none => rfl
        | some x =>
          obtain rfl := Bsd.C32_strict_never_both o hb input x re hr
          obtain ⟨p, hp, he, -⟩ := (Bsd.C31_accepts_iff o hb input x).mp hr
          exact absurd he (hn p hp)
      subst hm
      rw [← Bsd.C32_nil_nil_iff o hb, hr]
      cases re with
      | none => simp [filtered, err3Val, msg3Val] at h2; simp [← h2.1, ← h2.2]
      | some x => simp [filtered, err3Val, msg3Val, kit3, hb] at h2; simp [← h2.1, ← h2.2]
    · have hm : m' = msg3Val rm := by
        cases re <;> simp [filtered, err3Val, kit3, hb] at h2 <;> exact h2.1.symm
      rw [← Bsd.C32_best_effort_message_iff o hb input, hr, hm]
      cases rm with
      | none => simp [msg3Val]
      | some y =>
        refine ⟨by simp [msg3Val], fun _ => ⟨y, rfl, (Bsd.C33_returned_valid o input y re hr).2.1⟩⟩

/-- the configuration that the options make -/
theorem cfg_any (os : List Rfc5424.MachineOption) : (⟨(Rfc5424.newMachineWith os).bestEffort, (Rfc5424.newMachineWith os).compliantMsg⟩ : Rfc5424.Opts) =
    ⟨os.any (· matches .bestEffort), os.any (· matches .compliantMsg)⟩ := by
  have key : ∀ (os : List Rfc5424.MachineOption) (m : Rfc5424.M), (os.foldl Rfc5424.applyOpt m).bestEffort = (m.bestEffort || os.any (· matches .bestEffort)) ∧
      (os.foldl Rfc5424.applyOpt m).compliantMsg = (m.compliantMsg || os.any (· matches .compliantMsg)) := by
    intro os
    induction os with
    | nil => intro m; simp
    | cons o os ih =>
      intro m
      rw [List.foldl_cons, (ih _).1, (ih _).2]
      cases o <;> simp [Rfc5424.applyOpt]
  simp only [Rfc5424.newMachineWith, key]
  simp

theorem outRep_messages : ∀ {vs : List (Val × Val)} {ms : List Rfc5424.SyslogMessage}, OutRep vs (ms.map fun m => (⟨some m, none⟩ : Octet.Result)) → vs = ms.map fun m => (.ext (.msg5 m), .nil)
  | [], [], _ => rfl
  | [], _ :: _, h => by cases h
  | _ :: _, [], h => by cases h
  | (a, b) :: vs, m :: ms, ⟨⟨h1, h2⟩, h3⟩ => by
    rw [outRep_messages h3]
    have e1 : a = .ext (.msg5 m) := h1
    have e2 : b = .nil := h2
    rw [e1, e2]
    rfl

end MiniSrc

open MiniSrc

section
variable {E : Type} (extra : Nat → Nat) (order : List Bytes → List Bytes) (now : E → GoTime.Time × E) (left5 : W E → GS R5.V) (left3 : W E → GS R3.V) (w : W E)

/-- **C108** (rfc5424): `NewParser(options...)` and then any sequence of `Parse`, `WithBestEffort`, `HasBestEffort`, all of it executed from the source, down
to the last `goto` of `machine.Parse`: every call returns, and `Parse` answers as the grammar says. -/
theorem C108_rfc5424 (s : Val) (os : List Rfc5424.MachineOption) (hs : IsSlice w s (os.map optVal5)) :
    Does (wholeX extra order now left5 left3) .rfc5424_NewParser [s] w fun o => ∃ a mi w', o = .ok (.ptr a []) w' ∧ (∀ c, c < w.next → w'.heap c = w.heap c) ∧ w'.ext = w.ext ∧
      ∀ cs, Answers kit5 Answer5 (wholeX extra order now left5 left3) a mi ⟨os.any (· matches .bestEffort), os.any (· matches .compliantMsg)⟩ cs w' := by
  refine Does.mono (C105_rfc5424 (wholeX extra order now left5 left3) w ⟨rfl, rfl, rfl, rfl⟩ (goParse5_ok rfl) s os hs) ?_
  rintro o ⟨a, mi, w', h1, -, -, -, h2, h3, h4⟩
  refine ⟨a, mi, w', h1, h2, h3, fun cs => ?_⟩
  have := serves_answers (Q := Answer5) answer5 (h4 cs)
  rw [cfg_any] at this
  exact this

/-- **C108** (rfc3164): the same. -/
theorem C108_rfc3164 (s : Val) (os : List Opt3) (hs : IsSlice w s (os.map optVal3)) :
    Does (wholeX extra order now left5 left3) .rfc3164_NewParser [s] w fun o => ∃ a mi w', o = .ok (.ptr a []) w' ∧ (∀ c, c < w.next → w'.heap c = w.heap c) ∧ w'.ext = clockAfter now os w.ext ∧
      ∀ cs, Answers kit3 Answer3 (wholeX extra order now left5 left3) a mi (Rfc3164.optsOf (resolve now os w.ext)) cs w' := by
  refine Does.mono (C105_rfc3164 (wholeX extra order now left5 left3) w now ⟨rfl, rfl, rfl, rfl⟩ ⟨rfl, rfl⟩ (goParse3_ok rfl) s os hs) ?_
  rintro o ⟨a, mi, w', h1, -, -, -, h2, h3, h4⟩
  exact ⟨a, mi, w', h1, h2, h3, fun cs => serves_answers answer3 (h4 cs)⟩

end

section
variable (extra : Nat → Nat) (order : List Bytes → List Bytes) (left5 : W EO → GS R5.V)

/-- **C108** (octet counting): everything C103 says, with the program of `machine.Parse`. -/
theorem C108_octet (opts : List SOpt) (w : W EO) (s : Val) (hs : IsSlice w s (opts.map SOpt.val)) (streams : List (List Octet.Read)) :
    Does (wholeOct extra order left5) .octetcounting_NewParser [s] w fun o => ∃ a w0, o = .ok (.ptr a []) w0 ∧ w.next ≤ a ∧
      AfterStreams (wholeOct extra order left5) (.ptr a []) streams w0 fun w' =>
        (SOpt.listener ∈ opts → ∃ vs, w'.ext.out = w.ext.out ++ vs ∧ OutRep vs (allResults (SOpt.model opts) streams)) ∧
        (SOpt.listener ∉ opts → w'.ext.out = w.ext.out) ∧
        (∀ c, c < w.next → w'.heap c = w.heap c) ∧ w'.glob = w.glob := by
  rw [wholeOct_eq]
  exact C103_parse extra order opts w s hs streams

/-- **C108** (octet counting, messages of the grammar): framed messages, in any pieces, on any number of readers one after the other: the listener gets
exactly their parts, in order. -/
theorem C108_octet_messages (opts : List SOpt) (hl : SOpt.listener ∈ opts) (hfit : Fits (SOpt.model opts)) (w : W EO) (s : Val) (hs : IsSlice w s (opts.map SOpt.val))
    (jobs : List (List Spec.Parts × List Octet.Read))
    (hj : ∀ j ∈ jobs, j.1 ≠ [] ∧ Spec.Delivers j.2 ((j.1.map Spec.Parts.render).flatMap Spec.octetFrame) ∧ ∀ p ∈ j.1, p.WF ∧ (p.render.length : Int) ≤ maxLength (SOpt.model opts) ∧ p.render.length < 2 ^ 63) :
    Does (wholeOct extra order left5) .octetcounting_NewParser [s] w fun o => ∃ a w0, o = .ok (.ptr a []) w0 ∧
      AfterStreams (wholeOct extra order left5) (.ptr a []) (jobs.map Prod.snd) w0 fun w' =>
        w'.ext.out = w.ext.out ++ (jobs.flatMap Prod.fst).map fun p => (.ext (.msg5 p.toMessage), .nil) := by
  have key : allResults (SOpt.model opts) (jobs.map Prod.snd) = ((jobs.flatMap Prod.fst).map Spec.Parts.toMessage).map fun m => (⟨some m, none⟩ : Octet.Result) := by
    induction jobs with
    | nil => rfl
    | cons j js ih =>
      obtain ⟨h1, h2, h3⟩ := hj j (by simp)
      have := C39_round_trip (SOpt.model opts) hfit (j.1.map fun p => (p.render, p.toMessage)) (by simpa using h1)
        (by simp only [List.mem_map]; rintro x ⟨p, hp, rfl⟩; exact (C01_strict_accepts_iff_grammar _ _).mpr ⟨p, (h3 p hp).1, rfl, rfl⟩)
        (by simp only [List.mem_map]; rintro x ⟨p, hp, rfl⟩; exact (h3 p hp).2) j.2 (by simpa [Function.comp_def] using h2)
      have ih' := ih fun j hj' => hj j (by simp [hj'])
      simp only [allResults, List.map_cons, List.flatMap_cons, List.map_append] at ih' ⊢
      rw [ih', this]
      simp [Function.comp_def]
  refine Does.mono (C108_octet extra order left5 opts w s hs (jobs.map Prod.snd)) ?_
  rintro o ⟨a, w0, h1, -, h2⟩
  refine ⟨a, w0, h1, AfterStreams.mono ?_ h2⟩
  rintro w' ⟨h3, -⟩
  obtain ⟨vs, h3, h4⟩ := h3 hl
  rw [key] at h4
  rw [h3, outRep_messages h4, List.map_map]
  rfl

end

section
variable (extra : Nat → Nat) (order : List Bytes → List Bytes) (left5 : W EN → GS R5.V) (d : NonTransparent.Driver)

/-- **C108** (non-transparent framing): what C106 says, with the program of `machine.Parse`. -/
theorem C108_lines (opts : List NOpt) (w : W EN) (s : Val) (hs : IsSlice w s (opts.map NOpt.val)) (acts : List LAct) (hv : volume acts < 2 ^ 63) :
    Does (ntX extra order (goParse5 left5) d) .nontransparent_NewParser [s] w fun o => ∃ a w0, o = .ok (.ptr a []) w0 ∧
      LineCalls (ntX extra order (goParse5 left5) d) d a w.next
        (fun w' => ∃ reports, Spec.Calls (NT.loopOf d) (NT.trailerByte (opts.filterMap NOpt.model)) {} ((acts.filterMap doOf).flatMap NT.actsOf) reports ∧
          w'.ext.out = w.ext.out ++ (toListener acts (hasListener opts) reports).map fun r => nresVal (NT.resultFor (NT.isBestEffort (opts.filterMap NOpt.model)) r))
        acts (NonTransparent.newParser (opts.filterMap NOpt.model)) (hasListener opts) w0 :=
  C106_history extra order (goParse5 left5) d (goParse5_ok rfl) opts w s hs acts hv

end

/-! ## Cases -/

section
variable (extra : Nat → Nat) (order : List Bytes → List Bytes) (left5 : W Clock → GS R5.V) (left3 : W Clock → GS R3.V)

/-- a message, then the same text cut off, then the same with best effort -/
example : Does (wholeX extra order tick left5 left3) .rfc5424_NewParser [.slice 1 0 1 1] clockWorld fun o => ∃ a mi w', o = .ok (.ptr a []) w' ∧
    ∀ cs, Answers kit5 Answer5 (wholeX extra order tick left5 left3) a mi ⟨false, true⟩ cs w' := by
  refine Does.mono (C108_rfc5424 extra order tick left5 left3 clockWorld _ _ clock_slice5) ?_
  rintro o ⟨a, mi, w', h1, -, -, h2⟩
  exact ⟨a, mi, w', h1, h2⟩

/-- what that says of a message and of a text that is none -/
example (a mi : Nat) (w : W Clock) (h : Answers kit5 Answer5 (wholeX extra order tick left5 left3) a mi ⟨false, false⟩ [.parse sample.render, .parse []] w) :
    Does (wholeX extra order tick left5 left3) .rfc5424_parser_Parse [.ptr a [], .str sample.render] w fun o => ∃ w', o = .ok (.tuple [.ext (.msg5 sample.toMessage), .nil]) w' ∧
      Does (wholeX extra order tick left5 left3) .rfc5424_parser_Parse [.ptr a [], .str []] w' fun o => ∃ w' e, o = .ok (.tuple [.nil, .ext (.err5 e)]) w' ∧ e.col = 0 := by
  refine Does.mono h ?_
  rintro o ⟨msg, err, w', h1, h2, -, h3⟩
  obtain ⟨rfl, rfl⟩ := h2.1 sample ⟨sample_wf, rfl, fun h => by cases h⟩
  refine ⟨w', h1, Does.mono h3 ?_⟩
  rintro o ⟨msg, err, w', g1, g2, -, -⟩
  obtain ⟨e, rfl, k1, k2, -⟩ := g2.2 fun p hp => by
    have := hp.2.1
    simp [Spec.Parts.render, Spec.Parts.head] at this
  obtain rfl := k2 rfl
  exact ⟨w', e, g1, Nat.le_zero.mp k1⟩

example : Does (wholeX extra order tick left5 left3) .rfc3164_NewParser [.slice 0 0 4 4] clockWorld fun o => ∃ a mi w', o = .ok (.ptr a []) w' ∧ w'.ext = ⟨2026⟩ ∧
    ∀ cs, Answers kit3 Answer3 (wholeX extra order tick left5 left3) a mi { bestEffort := true, yyyy := 2025, rfc3339 := true } cs w' := by
  refine Does.mono (C108_rfc3164 extra order tick left5 left3 clockWorld _ _ clock_slice3) ?_
  rintro o ⟨a, mi, w', h1, -, h2, h3⟩
  exact ⟨a, mi, w', h1, h2, h3⟩

end

/-- two readers, the first with two messages, byte by byte -/
example (extra : Nat → Nat) (order : List Bytes → List Bytes) (left5 : W EO → GS R5.V) (w : W EO) (h : w.heap 0 = .arr [SOpt.val .listener]) (hn : 0 < w.next) :
    Does (wholeOct extra order left5) .octetcounting_NewParser [.slice 0 0 1 1] w fun o => ∃ a w0, o = .ok (.ptr a []) w0 ∧
      AfterStreams (wholeOct extra order left5) (.ptr a []) [sched1 (Spec.octetFrame sample.render ++ Spec.octetFrame sample.render), sched1 (Spec.octetFrame sample.render)] w0 fun w' =>
        w'.ext.out = w.ext.out ++ List.replicate 3 (.ext (.msg5 sample.toMessage), .nil) := by
  have hw : sample.WF ∧ (sample.render.length : Int) ≤ maxLength (SOpt.model [.listener]) ∧ sample.render.length < 2 ^ 63 := ⟨sample_wf, by decide +kernel, by decide +kernel⟩
  have := C108_octet_messages extra order left5 [.listener] (by simp) (by decide +kernel) w (.slice 0 0 1 1) (Or.inr ⟨0, 0, 1, 1, _, rfl, h, hn, by simp, by simp, rfl⟩)
    [([sample, sample], sched1 (Spec.octetFrame sample.render ++ Spec.octetFrame sample.render)), ([sample], sched1 (Spec.octetFrame sample.render))]
    (by
      intro j hj
      simp only [List.mem_cons, List.not_mem_nil, or_false] at hj
      rcases hj with rfl | rfl
      · refine ⟨by simp, by simpa using sched1_delivers _, fun p hp => ?_⟩
        obtain rfl : p = sample := by simpa using hp
        exact hw
      · refine ⟨by simp, by simpa using sched1_delivers _, fun p hp => ?_⟩
        obtain rfl : p = sample := by simpa using hp
        exact hw)
  exact this

/-- a listener from the start, one reader -/
example (extra : Nat → Nat) (order : List Bytes → List Bytes) (left5 : W EN → GS R5.V) (d : NonTransparent.Driver) (w : W EN) (h : w.heap 0 = .arr [NOpt.val .listener]) (hn : 0 < w.next) (bytes : Bytes) (hb : bytes.length < 2 ^ 63) :
    Does (ntX extra order (goParse5 left5) d) .nontransparent_NewParser [.slice 0 0 1 1] w fun o => ∃ a w0, o = .ok (.ptr a []) w0 ∧
    LineCalls (ntX extra order (goParse5 left5) d) d a w.next
      (fun w' => ∃ reports, Spec.Calls (NT.loopOf d) 10 {} [.parse bytes .unexpectedEOF] reports ∧ w'.ext.out = w.ext.out ++ (toListener [.parse bytes .unexpectedEOF] true reports).map fun r => nresVal (NT.resultFor false r))
      [.parse bytes .unexpectedEOF] (NonTransparent.newParser []) true w0 :=
  C108_lines extra order left5 d [.listener] w _ (Or.inr ⟨0, 0, 1, 1, _, rfl, h, hn, by simp, by simp, rfl⟩) [.parse bytes .unexpectedEOF] hb

end Verif.Props
