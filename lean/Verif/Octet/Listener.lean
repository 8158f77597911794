import Verif.Octet.PlatformSpec
import Verif.Octet.Resume
import Verif.Options

/-!
# Listeners that call the parser

The parser calls the listener while `Parse` runs (`p.emit(...)`, octetcounting/parser.go), and the listener may call methods of the same parser.
-/

namespace Verif.Octet
open Verif.Spec
open Verif.Rfc5424 (parse_eq parse1_eq)

/-- the calls a listener can make: `WithBestEffort()`, `WithMaxMessageLength(n)` (octetcounting/parser.go:46-60), `Parse(reader)` -/
inductive Do where
  | withBestEffort
  | withMaxMessageLength (n : Int)
  | parse (sched : List Read)

/-- a listener: what it does when it has got these results (in this order, the last one just now). Any deterministic listener that depends
on nothing but the results can be described like this. -/
abbrev Listener := List Result → List Do

/-- the calls of the listener, one after the other; `nested` is `run()`. `hist`: the results the listener has got so far -/
def perform (nested : List Result → Parser → Option (List Result × Parser)) : List Do → List Result → Parser → Option (List Result × Parser)
  | [], hist, p => some (hist, p)
  | .withBestEffort :: as, hist, p => perform nested as hist p.withBestEffort
  | .withMaxMessageLength n :: as, hist, p => perform nested as hist { p with maxMessageLength := n }
  | .parse sched :: as, hist, p =>
    match nested hist { p with s := newScanner sched p.maxMessageLength } with
    | none => none
    | some (hist, p) => perform nested as hist p

/-- `p.emit(r)`: the listener gets the result and does its calls -/
def emitL (L : Listener) (nested : List Result → Parser → Option (List Result × Parser)) (r : Result) (hist : List Result) (p : Parser) :
    Option (List Result × Parser) := perform nested (L (hist ++ [r])) (hist ++ [r]) p

/-- `run` (octetcounting/parser.go:77-141) with a listener: all results the listener has got afterwards; `fuel` bounds rounds and nested calls -/
def runL (L : Listener) : Nat → List Result → Parser → Option (List Result × Parser)
  | 0, _, _ => none
  | fuel + 1, hist, p =>
    match p.scan with
    | (tok, p) =>
    if tok.typ ≠ .MSGLEN then emitL L (runL L fuel) ⟨none, some (.notMsgLen tok)⟩ hist p
    else if toInt p.s.msglen > p.maxMessageLength then
      emitL L (runL L fuel) ⟨none, some (.tooLong p.s.msglen p.maxMessageLength)⟩ hist p
    else
    match p.scan with
    | (tok, p) =>
    if tok.typ ≠ .WS then emitL L (runL L fuel) ⟨none, some (.notWS tok)⟩ hist p
    else
    match p.scan with
    | (tok, p) =>
    if tok.typ ≠ .SYSLOGMSG then
      let e := Error.notMsg tok p.s.msglen
      if (tok.lit.length : Int) < toInt p.s.msglen ∧ p.bestEffort = true then
        match p.parseMsg tok.lit with
        | none => none
        | some (result, p) =>
          emitL L (runL L fuel) ⟨result.msg, match result.err with | none => some e | some e' => some e'⟩ hist p
      else emitL L (runL L fuel) ⟨none, some e⟩ hist p
    else
    match p.parseMsg tok.lit with
    | none => none
    | some (result, p) =>
      match (if p.bestEffort = true ∨ result.err = none then emitL L (runL L fuel) result hist p else some (hist, p)) with
      | none => none
      | some (hist, p) =>
      if p.bestEffort = false ∧ result.err ≠ none then emitL L (runL L fuel) ⟨none, result.err⟩ hist p
      else
      match p.scan with
      | (tok, p) =>
      if tok.typ = .EOF then some (hist, p)
      else runL L fuel hist p.unscan

/-- `Parse` with a listener; `out` is what the listener has got when it returns -/
def Parser.HearsL (L : Listener) (p : Parser) (sched : List Read) (out : List Result) : Prop :=
  ∃ fuel p', runL L fuel [] { p with s := newScanner sched p.maxMessageLength } = some (out, p')

/-! ## More fuel does not matter -/

theorem perform_mono {f g : List Result → Parser → Option (List Result × Parser)} (h : ∀ hist p x, f hist p = some x → g hist p = some x)
    (as : List Do) (hist : List Result) (p : Parser) (x : List Result × Parser) (hx : perform f as hist p = some x) :
    perform g as hist p = some x := by
  induction as generalizing hist p with
  | nil => exact hx
  | cons a as ih =>
    cases a with
    | withBestEffort => exact ih _ _ hx
    | withMaxMessageLength n => exact ih _ _ hx
    | parse sched =>
      simp only [perform] at hx ⊢
      cases hf : f hist { p with s := newScanner sched p.maxMessageLength } with
      | none => rw [hf] at hx; simp at hx
      | some y =>
        rw [hf] at hx
        rw [h _ _ _ hf]
        exact ih _ _ hx

theorem runL_mono (L : Listener) (fuel : Nat) (hist : List Result) (p : Parser) (x : List Result × Parser) (h : runL L fuel hist p = some x) :
    runL L (fuel + 1) hist p = some x := by
  induction fuel generalizing hist p x with
  | zero => simp [runL] at h
  | succ fuel ih =>
    have he : ∀ r hist p x, emitL L (runL L fuel) r hist p = some x → emitL L (runL L (fuel + 1)) r hist p = some x :=
      fun r hist p x hx => perform_mono ih _ _ _ _ hx
    rw [runL] at h ⊢
    generalize p.scan = q1 at *
    obtain ⟨t1, p1⟩ := q1
    simp only [] at h ⊢
    by_cases c1 : t1.typ ≠ .MSGLEN
    · rw [if_pos c1] at h ⊢; exact he _ _ _ _ h
    rw [if_neg c1] at h ⊢
    by_cases c2 : toInt p1.s.msglen > p1.maxMessageLength
    · rw [if_pos c2] at h ⊢; exact he _ _ _ _ h
    rw [if_neg c2] at h ⊢
    generalize p1.scan = q2 at *
    obtain ⟨t2, p2⟩ := q2
    simp only [] at h ⊢
    by_cases c3 : t2.typ ≠ .WS
    · rw [if_pos c3] at h ⊢; exact he _ _ _ _ h
    rw [if_neg c3] at h ⊢
    generalize p2.scan = q3 at *
    obtain ⟨t3, p3⟩ := q3
    simp only [] at h ⊢
    by_cases c4 : t3.typ ≠ .SYSLOGMSG
    · rw [if_pos c4] at h ⊢
      by_cases c5 : (t3.lit.length : Int) < toInt p3.s.msglen ∧ p3.bestEffort = true
      · rw [if_pos c5] at h ⊢
        cases hp : p3.parseMsg t3.lit with
        | none => rw [hp] at h; simp at h
        | some y => rw [hp] at h; exact he _ _ _ _ h
      · rw [if_neg c5] at h ⊢; exact he _ _ _ _ h
    rw [if_neg c4] at h ⊢
    cases hp : p3.parseMsg t3.lit with
    | none => rw [hp] at h; simp at h
    | some y =>
      obtain ⟨r, p4⟩ := y
      rw [hp] at h
      simp only [] at h ⊢
      cases hq : (if p4.bestEffort = true ∨ r.err = none then emitL L (runL L fuel) r hist p4 else some (hist, p4)) with
      | none => rw [hq] at h; simp at h
      | some y =>
        have hq' : (if p4.bestEffort = true ∨ r.err = none then emitL L (runL L (fuel + 1)) r hist p4 else some (hist, p4)) = some y := by
          by_cases c6 : p4.bestEffort = true ∨ r.err = none
          · rw [if_pos c6] at hq ⊢; exact he _ _ _ _ hq
          · rw [if_neg c6] at hq ⊢; exact hq
        rw [hq] at h
        rw [hq']
        obtain ⟨hist5, p5⟩ := y
        simp only [] at h ⊢
        by_cases c7 : p5.bestEffort = false ∧ r.err ≠ none
        · rw [if_pos c7] at h ⊢; exact he _ _ _ _ h
        rw [if_neg c7] at h ⊢
        generalize p5.scan = q6 at *
        obtain ⟨t6, p6⟩ := q6
        simp only [] at h ⊢
        by_cases c8 : t6.typ = .EOF
        · rw [if_pos c8] at h ⊢; exact h
        · rw [if_neg c8] at h ⊢; exact ih _ _ _ h

theorem runL_mono_le (L : Listener) {fuel fuel' : Nat} (hle : fuel ≤ fuel') (hist : List Result) (p : Parser) (x : List Result × Parser)
    (h : runL L fuel hist p = some x) : runL L fuel' hist p = some x := by
  induction hle with
  | refl => exact h
  | step _ ih => exact runL_mono L _ _ _ _ ih

theorem hearsL_unique {L : Listener} {p : Parser} {sched : List Read} {out out' : List Result} (h : p.HearsL L sched out) (h' : p.HearsL L sched out') :
    out = out' := by
  obtain ⟨f, q, h⟩ := h
  obtain ⟨f', q', h'⟩ := h'
  have h1 := runL_mono_le L (Nat.le_max_left f f') _ _ _ h
  have h2 := runL_mono_le L (Nat.le_max_right f f') _ _ _ h'
  rw [h1] at h2
  simp only [Option.some.injEq, Prod.mk.injEq] at h2
  exact h2.1

/-! ## While the listener only listens -/

theorem runL_silent (L : Listener) (fuel : Nat) (hist : List Result) (p : Parser) (hL : ∀ h, h ≠ [] → L (hist ++ h) = []) :
    runL L fuel hist p = (runLoop fuel p).map fun x => (hist ++ x.1, x.2) := by
  induction fuel generalizing hist p with
  | zero => rfl
  | succ fuel ih =>
    have he : ∀ r p, emitL L (runL L fuel) r hist p = some (hist ++ [r], p) := by
      intro r p
      rw [emitL, hL [r] (by simp), perform]
    rw [runL, runLoop]
    generalize p.scan = q1 at *
    obtain ⟨t1, p1⟩ := q1
    simp only []
    by_cases c1 : t1.typ ≠ .MSGLEN
    · rw [if_pos c1, if_pos c1, he]; rfl
    rw [if_neg c1, if_neg c1]
    by_cases c2 : toInt p1.s.msglen > p1.maxMessageLength
    · rw [if_pos c2, if_pos c2, he]; rfl
    rw [if_neg c2, if_neg c2]
    generalize p1.scan = q2 at *
    obtain ⟨t2, p2⟩ := q2
    simp only []
    by_cases c3 : t2.typ ≠ .WS
    · rw [if_pos c3, if_pos c3, he]; rfl
    rw [if_neg c3, if_neg c3]
    generalize p2.scan = q3 at *
    obtain ⟨t3, p3⟩ := q3
    simp only []
    cases hp : p3.parseMsg t3.lit with
    | none =>
      simp only []
      by_cases c4 : t3.typ ≠ .SYSLOGMSG
      · rw [if_pos c4, if_pos c4]
        by_cases c5 : (t3.lit.length : Int) < toInt p3.s.msglen ∧ p3.bestEffort = true
        · rw [if_pos c5, if_pos c5]; rfl
        · rw [if_neg c5, if_neg c5, he]; rfl
      · rw [if_neg c4, if_neg c4]; rfl
    | some y =>
      obtain ⟨r, p4⟩ := y
      simp only []
      by_cases c4 : t3.typ ≠ .SYSLOGMSG
      · rw [if_pos c4, if_pos c4]
        by_cases c5 : (t3.lit.length : Int) < toInt p3.s.msglen ∧ p3.bestEffort = true
        · rw [if_pos c5, if_pos c5, he]; rfl
        · rw [if_neg c5, if_neg c5, he]; rfl
      rw [if_neg c4, if_neg c4, he]
      by_cases c6 : p4.bestEffort = true ∨ r.err = none
      · rw [if_pos c6, if_pos c6]
        have c7 : ¬ (p4.bestEffort = false ∧ r.err ≠ none) := by
          rintro ⟨a, b⟩
          rcases c6 with c | c
          · rw [c] at a; simp at a
          · exact b c
        simp only []
        rw [if_neg c7, if_neg c7]
        generalize p4.scan = q6 at *
        obtain ⟨t6, p6⟩ := q6
        simp only []
        by_cases c8 : t6.typ = .EOF
        · rw [if_pos c8, if_pos c8]; rfl
        · rw [if_neg c8, if_neg c8, ih (hist ++ [r]) p6.unscan (fun h hh => by rw [List.append_assoc]; exact hL _ (by simp))]
          cases runLoop fuel p6.unscan with
          | none => rfl
          | some z => simp
      · rw [if_neg c6, if_neg c6]
        have c7 : p4.bestEffort = false ∧ r.err ≠ none := by
          constructor
          · cases hb : p4.bestEffort with
            | false => rfl
            | true => exact absurd (Or.inl hb) c6
          · exact fun h => c6 (Or.inr h)
        simp only []
        rw [if_pos c7, if_pos c7, he]; rfl

end Verif.Octet
