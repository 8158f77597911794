import Verif.Octet.Late
import Verif.Ears

/-!
# Listeners that install another listener

The field `emit` of the parser is read at every report (octetcounting/parser.go:83, 90, 98, 114, 118, 127, 130), and `WithListener` writes it
(octetcounting/parser.go:65-67), also when a listener calls it while `Parse` runs. As in `Octet/Model.lean` otherwise.
-/

namespace Verif.Octet
open Verif.Spec

/-- `run` (octetcounting/parser.go:77-141) -/
def runR (f : Installs Result) : Nat → Ears Result → Parser → Option (Ears Result × Parser)
  | 0, _, _ => none
  | fuel + 1, e, p =>
    match p.scan with
    | (tok, p) =>
    if tok.typ ≠ .MSGLEN then some (e.hear f ⟨none, some (.notMsgLen tok)⟩, p)
    else if toInt p.s.msglen > p.maxMessageLength then some (e.hear f ⟨none, some (.tooLong p.s.msglen p.maxMessageLength)⟩, p)
    else
    match p.scan with
    | (tok, p) =>
    if tok.typ ≠ .WS then some (e.hear f ⟨none, some (.notWS tok)⟩, p)
    else
    match p.scan with
    | (tok, p) =>
    if tok.typ ≠ .SYSLOGMSG then
      let err := Error.notMsg tok p.s.msglen
      if (tok.lit.length : Int) < toInt p.s.msglen ∧ p.bestEffort = true then
        match p.parseMsg tok.lit with
        | none => none
        | some (result, p) => some (e.hear f ⟨result.msg, match result.err with | none => some err | some err' => some err'⟩, p)
      else some (e.hear f ⟨none, some err⟩, p)
    else
    match p.parseMsg tok.lit with
    | none => none
    | some (result, p) =>
      let e := if p.bestEffort = true ∨ result.err = none then e.hear f result else e
      if p.bestEffort = false ∧ result.err ≠ none then some (e.hear f ⟨none, result.err⟩, p)
      else
      match p.scan with
      | (tok, p) =>
      if tok.typ = .EOF then some (e, p)
      else runR f fuel e p.unscan

/-- `parser.Parse` (octetcounting/parser.go:72-75) -/
def Parser.parseR (f : Installs Result) (e : Ears Result) (p : Parser) (sched : List Read) : Option (Ears Result × Parser) :=
  let s := newScanner sched p.maxMessageLength
  runR f (s.r.remaining + 1) e { p with s := s }

/-- The loop reports the same results, to whoever is the listener. -/
theorem runR_eq (f : Installs Result) (fuel : Nat) (e : Ears Result) (p : Parser) :
    runR f fuel e p = (runLoop fuel p).map fun x => (x.1.foldl (Ears.hear f) e, x.2) := by
  induction fuel generalizing e p with
  | zero => rfl
  | succ fuel ih =>
    rw [runR, runLoop]
    generalize p.scan = q1
    obtain ⟨t1, p1⟩ := q1
    simp only []
    by_cases c1 : t1.typ ≠ .MSGLEN
    · rw [if_pos c1, if_pos c1]; rfl
    rw [if_neg c1, if_neg c1]
    by_cases c2 : toInt p1.s.msglen > p1.maxMessageLength
    · rw [if_pos c2, if_pos c2]; rfl
    rw [if_neg c2, if_neg c2]
    generalize p1.scan = q2
    obtain ⟨t2, p2⟩ := q2
    simp only []
    by_cases c3 : t2.typ ≠ .WS
    · rw [if_pos c3, if_pos c3]; rfl
    rw [if_neg c3, if_neg c3]
    generalize p2.scan = q3
    obtain ⟨t3, p3⟩ := q3
    simp only []
    by_cases c4 : t3.typ ≠ .SYSLOGMSG
    · rw [if_pos c4, if_pos c4]
      by_cases c5 : (t3.lit.length : Int) < toInt p3.s.msglen ∧ p3.bestEffort = true
      · rw [if_pos c5, if_pos c5]
        cases p3.parseMsg t3.lit with
        | none => rfl
        | some y => obtain ⟨r, p4⟩ := y; rfl
      · rw [if_neg c5, if_neg c5]; rfl
    rw [if_neg c4, if_neg c4]
    cases p3.parseMsg t3.lit with
    | none => rfl
    | some y =>
      obtain ⟨r, p4⟩ := y
      simp only []
      by_cases c6 : p4.bestEffort = false ∧ r.err ≠ none
      · have hn : ¬ (p4.bestEffort = true ∨ r.err = none) := by
          rintro (h | h)
          · rw [c6.1] at h; cases h
          · exact c6.2 h
        rw [if_pos c6, if_pos c6, if_neg hn, if_neg hn]; rfl
      · have hy : p4.bestEffort = true ∨ r.err = none := by
          cases hb : p4.bestEffort with
          | true => exact Or.inl rfl
          | false =>
            right
            cases hr : r.err with
            | none => rfl
            | some x => exact absurd ⟨hb, by rw [hr]; simp⟩ c6
        rw [if_neg c6, if_neg c6, if_pos hy, if_pos hy]
        generalize p4.scan = q5
        obtain ⟨t5, p5⟩ := q5
        simp only []
        by_cases c7 : t5.typ = .EOF
        · rw [if_pos c7, if_pos c7]; rfl
        · rw [if_neg c7, if_neg c7, ih]
          cases runLoop fuel p5.unscan with
          | none => rfl
          | some z => obtain ⟨rest, p6⟩ := z; rfl

theorem parseR_eq (f : Installs Result) (e : Ears Result) (p : Parser) (sched : List Read) :
    p.parseR f e sched = (p.parse sched).map fun x => (x.1.foldl (Ears.hear f) e, x.2) := runR_eq f _ e _

end Verif.Octet
