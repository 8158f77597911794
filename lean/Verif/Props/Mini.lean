import Verif.Mini.Export

/-!
# The hand-written helpers, statement by statement (C102)

`Verif.Gen.Mini.prog` has the bodies of the hand-written functions of the packages as they stand in the repository; `Mini.call` executes them:
variables, pointers, structs, slices with capacities, maps, loops, nested calls. The theorems here say that a call of one of the helper
functions and methods ends, what it returns, that it panics only where said, and that it changes nothing that existed before the call but the
receiver where it is a setter. The right hand sides are the functions that the other properties are about.
-/

set_option linter.constructorNameAsVariable false

namespace Verif.Props
open Verif.Mini Verif.Gen.Mini

namespace MiniSrc
variable {E : Type}

/-- The call `f(args...)` in the world `w` ends, in a way that `P` describes; `d` says how deep calls are nested -/
def Does (X : Env0 E) (f : Nm) (args : List Val) (w : W E) (P : Out E Val → Prop) : Prop :=
  ∃ d, ∀ n, d ≤ n → ∃ o, call X n f args w = some o ∧ P o

/-- The call returns `v` and changes nothing -/
def Returns (X : Env0 E) (f : Nm) (args : List Val) (w : W E) (v : Val) : Prop := Does X f args w fun o => o = .ok v w

theorem does {X : Env0 E} {f : Nm} {args : List Val} {w : W E} {P : Out E Val → Prop} (d : Nat) (h : ∀ n, ∃ o, call X (n + d) f args w = some o ∧ P o) :
    Does X f args w P :=
  ⟨d, fun n hn => by obtain ⟨k, rfl⟩ := Nat.exists_eq_add_of_le hn; rw [Nat.add_comm]; exact h k⟩

theorem returns {X : Env0 E} {f : Nm} {args : List Val} {w : W E} {v : Val} (d : Nat) (h : ∀ n, call X (n + d) f args w = some (.ok v w)) :
    Returns X f args w v := does d fun n => ⟨_, h n, rfl⟩

/-- The environment with the program at hand: the sizes of the arrays that `append` allocates, the order of maps and what the functions of
other packages do are arbitrary -/
def env (extra : Nat → Nat) (order : List Bytes → List Bytes) (other : Nm → List Val → M E Val) : Env0 E :=
  { extra := extra, order := order, call := other, meth := meth, prog := prog }

/-- The result is nil if there is no text, else a new pointer to it; nothing else changed -/
def NewText (w : W E) (t : Option String) (o : Out E Val) : Prop :=
  match t with
  | none => ∃ w', o = .ok .nil w' ∧ Keeps w w'
  | some t => ∃ c w', o = .ok (.ptr c []) w' ∧ w'.heap c = .str (ascii t) ∧ w.next ≤ c ∧ Keeps w w'

end MiniSrc

open MiniSrc

section
variable {E : Type} (extra : Nat → Nat) (order : List Bytes → List Bytes) (other : Nm → List Val → M E Val) (w : W E)

/-! ## Package `common` -/

/-- **C102** (`InBetween`, `ValidPriority`, `ValidVersion`): true exactly in the range; nothing changes. -/
theorem C102_ranges (val min max : Int) (p : UInt8) (v : UInt16) :
    Returns (env extra order other) .common_InBetween [.int .int val, .int .int min, .int .int max] w (.bool (decide (min ≤ val ∧ val ≤ max))) ∧
    Returns (env extra order other) .common_ValidPriority [byteVal p] w (.bool (decide (p.toNat ≤ 191))) ∧
    Returns (env extra order other) .common_ValidVersion [.int .u16 v.toNat] w (.bool (decide (1 ≤ v.toNat ∧ v.toNat ≤ 999))) := by
  refine ⟨returns 1 fun n => ?_, returns 2 fun n => ?_, returns 2 fun n => ?_⟩
  · rw [inBetween_call rfl]
    congr 3
    simp [Common.inBetween]
  · rw [validPriority_call rfl]
    congr 3
    simp [Common.validPriority, Common.inBetween]
    omega
  · rw [validVersion_call rfl]
    congr 3
    simp only [Common.validVersion, Common.inBetween, ← Bool.decide_and, decide_eq_decide]
    omega

/-- **C102** (`UnsafeUTF8DecimalCodePointsToInt`): the number of C18; nothing changes. -/
theorem C102_decimal (chars : Bytes) (h : chars.length < 2 ^ 63) :
    Returns (env extra order other) .common_UnsafeUTF8DecimalCodePointsToInt [.str chars] w (.int .int (Common.unsafeDec chars).toInt) :=
  returns 1 fun n => unsafeDec_call rfl n chars h w

/-- **C102** (`EscapeBytes`): the text of C20 and C28; nothing changes. -/
theorem C102_escape (value : Bytes) :
    Returns (env extra order other) .common_EscapeBytes [.str value] w (.str (Common.escapeBytes value)) :=
  returns 1 fun n => escapeBytes_call rfl n value w

/-- **C102** (`RemoveBytes`, any positions): for a slice `data` of any array, of any capacity, and a slice of positions, all of them `int`s of any size: the bytes at `pos - i - offset`
(in 64 bits) are removed one after the other, in a new array, so that neither the bytes of `data` nor anything else is overwritten; a panic exactly where there
a position is out of range. -/
theorem C102_remove_any (data positions : Val) (bs : Bytes) (ps : List Int) (offset : Int)
    (hd : IsSlice w data (bs.map byteVal)) (hps : IsSlice w positions (ps.map (.int .int))) (hl : bs.length < 2 ^ 63) :
    Does (env extra order other) .common_RemoveBytes [data, positions, .int .int offset] w fun o =>
      match removeLoop64 ps 0 offset bs with
      | none => ∃ w', o = .panic w' ∧ Keeps w w'
      | some r => ∃ v w', o = .ok v w' ∧ Keeps w w' ∧ IsSlice w' v (r.map byteVal) ∧ (∀ a off len cap, v = .slice a off len cap → w.next ≤ a) := by
  refine does 1 fun n => ?_
  have := removeBytes_call (X := env extra order other) rfl n data positions bs ps offset w hd hps hl
  cases hr : removeLoop64 ps 0 offset bs with
  | none =>
    rw [hr] at this
    obtain ⟨w', e, k⟩ := this
    exact ⟨_, e, w', rfl, k⟩
  | some r =>
    rw [hr] at this
    obtain ⟨v, w', e, k, i, u⟩ := this
    exact ⟨_, e, v, w', rfl, k, i, fun a off len cap h => Nat.le_of_eq (u a off len cap h).symm⟩

/-- **C102** (`RemoveBytes`): the bytes of C19, if no sum overflows. -/
theorem C102_remove (data positions : Val) (bs : Bytes) (ps : List Int) (offset : Int)
    (hd : IsSlice w data (bs.map byteVal)) (hps : IsSlice w positions (ps.map (.int .int)))
    (hsz : bs.length < 2 ^ 63)
    (ho : -2 ^ 61 < offset ∧ offset < 2 ^ 61) (hb : ∀ p ∈ ps, -2 ^ 61 < p ∧ p < 2 ^ 61) (hl : ps.length < 2 ^ 61) :
    Does (env extra order other) .common_RemoveBytes [data, positions, .int .int offset] w fun o =>
      match Common.removeBytes bs ps offset with
      | none => ∃ w', o = .panic w' ∧ Keeps w w'
      | some r => ∃ v w', o = .ok v w' ∧ Keeps w w' ∧ IsSlice w' v (r.map byteVal) ∧ (∀ a off len cap, v = .slice a off len cap → w.next ≤ a) := by
  have h := C102_remove_any extra order other w data positions bs ps offset hd hps hsz
  rw [removeLoop64_small offset ho ps 0 bs hb (by omega)] at h
  exact h

/-! ## Messages: `syslog.Base` and what embeds it -/

/-- **C102** (`(*Base).Valid`): true exactly if there is a priority and it is at most 191. -/
theorem C102_base_valid (a : Nat) (b : Base) (h : HasBase w a b) :
    Returns (env extra order other) .syslog_Base_Valid [.ptr a []] w (.bool (decide (∃ p, b.priority = some p ∧ p.toNat ≤ 191))) := by
  refine returns 3 fun n => ?_
  rw [baseValid_call rfl n a b w h]
  congr 3
  cases hb : b.priority with
  | none => simp [Base.valid, hb]
  | some p =>
    simp [Base.valid, hb, Common.validPriority, Common.inBetween]
    omega

/-- **C102** (`(*rfc5424.SyslogMessage).Valid`): the priority, and the version is between 1 and 999. -/
theorem C102_valid5 (a : Nat) (m : Rfc5424.SyslogMessage) (h : HasMsg5 w a m) :
    Returns (env extra order other) .rfc5424_SyslogMessage_Valid [.ptr a []] w
      (.bool (decide ((∃ p, m.priority = some p ∧ p.toNat ≤ 191) ∧ 1 ≤ m.version.toNat ∧ m.version.toNat ≤ 999))) := by
  refine returns 4 fun n => ?_
  rw [valid5_call rfl n a m w h.base h.version]
  congr 3
  cases hb : m.priority with
  | none => simp [Rfc5424.SyslogMessage.valid, Base.valid, hb]
  | some p =>
    simp only [Rfc5424.SyslogMessage.valid, Base.valid, hb, Common.validPriority, Common.validVersion, Common.inBetween, ← Bool.decide_and, decide_eq_decide]
    simp
    omega

/-- **C102** (`(*Base).ComputeFromPriority`): priority `v`, facility `v / 8`, severity `v % 8`, in new variables; the other fields and all other
variables stay as they are. -/
theorem C102_compute (a : Nat) (b : Base) (v : UInt8) (h : HasBase w a b) :
    Does (env extra order other) .syslog_Base_ComputeFromPriority [.ptr a [], byteVal v] w fun o => ∃ w', o = .ok (.tuple []) w' ∧ KeepsBut a w w' ∧
      HasBase w' a { b with priority := some v, facility := some (v / 8), severity := some (v % 8) } := by
  refine does 1 fun n => ?_
  obtain ⟨w', ty, fs, c, _, e, _, _, k, hb⟩ := computeFromPriority_call (X := env extra order other) rfl n a b v w h
  refine ⟨_, e, w', rfl, k, ?_⟩
  exact hb

/-- **C102** (the five text methods): the texts of C17. -/
theorem C102_texts (a : Nat) (b : Base) (h : HasBase w a b) :
    Does (env extra order other) .syslog_Base_FacilityMessage [.ptr a []] w (NewText w b.facilityMessage) ∧
    Does (env extra order other) .syslog_Base_FacilityLevel [.ptr a []] w (NewText w b.facilityLevel) ∧
    Does (env extra order other) .syslog_Base_SeverityMessage [.ptr a []] w (NewText w b.severityMessage) ∧
    Does (env extra order other) .syslog_Base_SeverityLevel [.ptr a []] w (NewText w b.severityLevel) ∧
    Does (env extra order other) .syslog_Base_SeverityShortLevel [.ptr a []] w (NewText w b.severityShortLevel) := by
  have f : ∀ {g : Nm} {t : Option String} (_ : ∀ n, ∃ w', TextResult' (call (env extra order other) (n + 1) g [.ptr a []]) w w' t ∧ Keeps w w'),
      Does (env extra order other) g [.ptr a []] w (NewText w t) := by
    intro g t hg
    refine does 1 fun n => ?_
    obtain ⟨w', e, k⟩ := hg n
    cases t with
    | none => exact ⟨_, e, w', rfl, k⟩
    | some t =>
      obtain ⟨c, e, e2, e3, _⟩ := e
      exact ⟨_, e, c, w', rfl, e2, e3, k⟩
  exact ⟨f fun n => (facilityMessage_call rfl n a b w h).to, f fun n => facilityLevel_call rfl n a b w h, f fun n => (severityMessage_call rfl n a b w h).to,
    f fun n => (severityLevel_call rfl n a b w h).to, f fun n => (severityShortLevel_call rfl n a b w h).to⟩

/-! ## The results of the two machines -/

/-- **C102** (`minimal` and `export` of package rfc5424): for what `(*machine).Parse` collected (`o`, in the variable `s`; `sd` is its map of
structured data) they are the functions that the model of `Parse` uses; the exported message is new, and nothing else changes. -/
theorem C102_export5 (s : Nat) (o : Rfc5424.Out) (sd : Val) (h : w.heap s = out5Val o sd) (hs : s < w.next) (hsd : ElemMap w s sd (o.structuredData.getD [])) :
    Returns (env extra order other) .rfc5424_syslogMessage_minimal [.ptr s []] w (.bool o.minimal) ∧
    Does (env extra order other) .rfc5424_syslogMessage_export [.ptr s []] w fun r => ∃ a w', r = .ok (.ptr a []) w' ∧ w.next ≤ a ∧ Keeps w w' ∧ HasMsg5 w' a o.export := by
  refine ⟨returns 3 fun n => minimal5_call rfl n s o sd w h, does 2 fun n => ?_⟩
  obtain ⟨w', e, k, m, -⟩ := export5_call (X := env extra order other) rfl n s o sd w h hs hsd
  exact ⟨_, e, _, w', rfl, Nat.le_refl _, k, m⟩

/-- **C102** (`minimal` and `export` of package rfc3164) -/
theorem C102_export3 (s : Nat) (o : Rfc3164.Out) (h : w.heap s = out3Val o) (hs : s < w.next) :
    Returns (env extra order other) .rfc3164_syslogMessage_minimal [.ptr s []] w (.bool o.minimal) ∧
    Does (env extra order other) .rfc3164_syslogMessage_export [.ptr s []] w fun r => ∃ a w', r = .ok (.ptr a []) w' ∧ w.next ≤ a ∧ Keeps w w' ∧ HasBase w' a o.export := by
  refine ⟨returns 3 fun n => minimal3_call rfl n s o w h, does 2 fun n => ?_⟩
  obtain ⟨w', e, k, m, -⟩ := export3_call (X := env extra order other) rfl n s o w h hs
  exact ⟨_, e, _, w', rfl, Nat.le_refl _, k, m⟩

end

/-! ## The hypotheses are met

A world with a message (variable 0) of priority 165, facility 20, severity 5 and version 1, a `[]byte` `"ab\\cd"` (variable 4, of capacity 7) and
a slice of positions (variable 5). -/

namespace MiniSrc

def exMsg : Rfc5424.SyslogMessage := { priority := some 165, facility := some 20, severity := some 5, version := 1 }

def exWorld : W Unit :=
  { heap := fun a => match a with
      | 0 => .struct .rfc5424_SyslogMessage [(.Facility, .ptr 1 []), (.Severity, .ptr 2 []), (.Priority, .ptr 3 []), (.Timestamp, .nil), (.Hostname, .nil), (.Appname, .nil),
          (.ProcID, .nil), (.MsgID, .nil), (.Message, .nil), (.Version, .int .u16 1), (.StructuredData, .nil)]
      | 1 => byteVal 20
      | 2 => byteVal 5
      | 3 => byteVal 165
      | 4 => .arr ((ascii "xab\\cdyz").map byteVal)
      | 5 => .arr [.int .int 3]
      | 6 => out5Val { prioritySet := true, priority := 165, version := 1, hasElements := true, structuredData := some [(ascii "id", [])] } (.map 7)
      | 7 => .entries [(ascii "id", .nil)]
      | _ => .nil
    next := 8
    glob := fun _ => .nil
    ext := () }

theorem exWorld_msg : HasMsg5 exWorld 0 exMsg where
  base := ⟨_, _, rfl, by decide, ⟨_, rfl, 1, [], rfl, by decide, by decide, rfl⟩, ⟨_, rfl, 2, [], rfl, by decide, by decide, rfl⟩, ⟨_, rfl, 3, [], rfl, by decide, by decide, rfl⟩,
    ⟨_, rfl, rfl⟩, ⟨_, rfl, rfl⟩, ⟨_, rfl, rfl⟩, ⟨_, rfl, rfl⟩, ⟨_, rfl, rfl⟩, ⟨_, rfl, rfl⟩⟩
  version := ⟨_, _, rfl, rfl⟩
  sd := ⟨_, _, _, rfl, rfl, rfl⟩

end MiniSrc

example (extra : Nat → Nat) (order : List Bytes → List Bytes) (other : Nm → List Val → M Unit Val) :
    Returns (env extra order other) .rfc5424_SyslogMessage_Valid [.ptr 0 []] exWorld (.bool true) :=
  C102_valid5 extra order other exWorld 0 exMsg exWorld_msg

example (extra : Nat → Nat) (order : List Bytes → List Bytes) (other : Nm → List Val → M Unit Val) :
    Does (env extra order other) .syslog_Base_FacilityLevel [.ptr 0 []] exWorld
      fun o => ∃ c w', o = .ok (.ptr c []) w' ∧ w'.heap c = .str (ascii "local4") ∧ 8 ≤ c ∧ Keeps exWorld w' :=
  (C102_texts extra order other exWorld 0 exMsg.toBase exWorld_msg.base).2.1

/-- the backslash at position 3 of the whole, 2 of `ab\\cd` -/
example (extra : Nat → Nat) (order : List Bytes → List Bytes) (other : Nm → List Val → M Unit Val) :
    Does (env extra order other) .common_RemoveBytes [.slice 4 1 5 7, .slice 5 0 1 1, .int .int 1] exWorld
      fun o => ∃ v w', o = .ok v w' ∧ Keeps exWorld w' ∧ IsSlice w' v ((ascii "abcd").map byteVal) ∧ (∀ a off len cap, v = .slice a off len cap → 8 ≤ a) := by
  have := C102_remove extra order other exWorld (.slice 4 1 5 7) (.slice 5 0 1 1) (ascii "ab\\cd") [3] 1
    (Or.inr ⟨4, 1, 5, 7, _, rfl, rfl, by decide, by decide, by decide, rfl⟩) (Or.inr ⟨5, 0, 1, 1, _, rfl, rfl, by decide, by decide, by decide, rfl⟩)
    (by decide) (by decide) (by decide) (by decide)
  exact this

/-- a position below every index, and an offset so large that the difference comes out as 1: byte 1 is removed, there is no panic -/
example (extra : Nat → Nat) (order : List Bytes → List Bytes) (other : Nm → List Val → M Unit Val) (w : W Unit) (hw : w = { exWorld with heap := upd exWorld.heap 5 (.arr [.int .int (-2 ^ 63)]) }) :
    Does (env extra order other) .common_RemoveBytes [.slice 4 1 5 7, .slice 5 0 1 1, .int .int (2 ^ 63 - 1)] w
      fun o => ∃ v w', o = .ok v w' ∧ Keeps w w' ∧ IsSlice w' v ((ascii "a\\cd").map byteVal) ∧ (∀ a off len cap, v = .slice a off len cap → w.next ≤ a) := by
  subst hw
  exact C102_remove_any extra order other { exWorld with heap := upd exWorld.heap 5 (.arr [.int .int (-2 ^ 63)]) } (.slice 4 1 5 7) (.slice 5 0 1 1) (ascii "ab\\cd") [-2 ^ 63] (2 ^ 63 - 1)
    (Or.inr ⟨4, 1, 5, 7, _, rfl, rfl, by decide, by decide, by decide, rfl⟩) (Or.inr ⟨5, 0, 1, 1, _, rfl, rfl, by decide, by decide, by decide, rfl⟩) (by decide)

example (extra : Nat → Nat) (order : List Bytes → List Bytes) (other : Nm → List Val → M Unit Val) :
    Returns (env extra order other) .rfc5424_syslogMessage_minimal [.ptr 6 []] exWorld (.bool true) :=
  (C102_export5 extra order other exWorld 6 { prioritySet := true, priority := 165, version := 1, hasElements := true, structuredData := some [(ascii "id", [])] } (.map 7) rfl
    (by decide) (Or.inr ⟨7, _, rfl, by decide, by decide, rfl, rfl, Or.inl ⟨rfl, rfl⟩, trivial⟩)).1

end Verif.Props
