import Verif.Mini.SetGo
import Verif.Props.Mini

/-!
# The builder, statement by statement (C104)

`Verif.Gen.Mini.prog` has the setters of `rfc5424.SyslogMessage` and `String` as they stand in `rfc5424/builder.go`; the function `set` that they call is
generated by Ragel and is executed as it stands too (`Mini.setGo`, the program `Verif.Gen.GoBuilder.prog` over the same memory). The theorems say what calls of
them do to a message in memory: its struct, the variables that its fields point to, its maps.
-/

set_option linter.constructorNameAsVariable false

namespace Verif.Props
open Verif.Mini Verif.Gen.Mini
open Verif.Builder (Globals Entry Call)
open Verif.Rfc5424 (SyslogMessage)

namespace MiniSrc
variable {E : Type}

/-- the method that a call is of, -/
def setterName : Call → Nm
  | .priority _ => .rfc5424_SyslogMessage_SetPriority
  | .version _ => .rfc5424_SyslogMessage_SetVersion
  | .timestamp _ => .rfc5424_SyslogMessage_SetTimestamp
  | .hostname _ => .rfc5424_SyslogMessage_SetHostname
  | .appname _ => .rfc5424_SyslogMessage_SetAppname
  | .procID _ => .rfc5424_SyslogMessage_SetProcID
  | .msgID _ => .rfc5424_SyslogMessage_SetMsgID
  | .elementID _ => .rfc5424_SyslogMessage_SetElementID
  | .parameter _ _ _ => .rfc5424_SyslogMessage_SetParameter
  | .message _ => .rfc5424_SyslogMessage_SetMessage

/-- and its arguments -/
def setterArgs : Call → List Val
  | .priority v => [byteVal v]
  | .version v => [.int .u16 v.toNat]
  | .timestamp s => [.str s]
  | .hostname s => [.str s]
  | .appname s => [.str s]
  | .procID s => [.str s]
  | .msgID s => [.str s]
  | .elementID s => [.str s]
  | .parameter id name value => [.str id, .str name, .str value]
  | .message s => [.str s]

/-- `sm.SetX(..).SetY(..)...`: each call is made on what the one before returned; `P` describes the end -/
def Chained (X : Env0 E) (P : Out E Val → Prop) : List Call → Val → W E → Prop
  | [], v, w => P (.ok v w)
  | c :: cs, v, w => Does X (setterName c) (v :: setterArgs c) w fun o => match o with
    | .ok v' w' => Chained X P cs v' w'
    | .panic w' => P (.panic w')

theorem setter_does {X : Env0 E} (hp : X.prog = prog) (hs : SetOk X.call) (c : Call) {w : W E} {a : Nat} {m : SyslogMessage} {g : Globals} (hr : RepMsg w a m) (hg : HasGlob w g) (n : Nat) :
    Sets w a (c.run (m, g)) (call X (n + 3) (setterName c) (.ptr a [] :: setterArgs c) w) := by
  cases c with
  | priority v => exact setPriority_call hp n hr hg v
  | version v => exact setVersion_call hp n hr hg v
  | timestamp s => exact simple_call hp hs (n + 1) .timestamp rfl hr hg s
  | hostname s => exact simple_call hp hs (n + 1) .hostname rfl hr hg s
  | appname s => exact simple_call hp hs (n + 1) .appname rfl hr hg s
  | procID s => exact simple_call hp hs (n + 1) .procid rfl hr hg s
  | msgID s => exact simple_call hp hs (n + 1) .msgid rfl hr hg s
  | elementID s => exact simple_call hp hs (n + 1) .sdid rfl hr hg s
  | parameter id name value => exact setParameter_call hp hs (n + 1) hr hg id name value
  | message s => exact simple_call hp hs (n + 1) .msg rfl hr hg s

/-- What a setter (or a chain of setters), called in `w`, does, by what the model says: it returns its receiver, whose message is then the new one, and changes
no variables but those of the message; or it panics -/
def SetterDone (w : W E) (a : Nat) (r : Option (SyslogMessage × Globals)) (o : Out E Val) : Prop :=
  match r with
  | some (m, g) => ∃ w', o = .ok (.ptr a []) w' ∧ RepMsg w' a m ∧ HasGlob w' g ∧ Frame w w' a
  | none => ∃ w', o = .panic w'

/-- the program, with the function `set` that Ragel generated as it is written -/
def buildX (extra : Nat → Nat) (order : List Bytes → List Bytes) (other : Nm → List Val → M E Val) : Env0 E :=
  libX extra order fun f args => if f = .rfc5424_SyslogMessage_set then setGo (call (libX extra order other) 1) args else other f args

theorem buildX_set (extra : Nat → Nat) (order : List Bytes → List Bytes) (other : Nm → List Val → M E Val) : SetOk (buildX extra order other).call :=
  setGo_ok (fun e w => translate_call (X := libX extra order other) rfl 0 e w) rfl

end MiniSrc

open MiniSrc

section
variable {E : Type} (extra : Nat → Nat) (order : List Bytes → List Bytes) (other : Nm → List Val → M E Val) (w : W E)

/-- **C104** (the entry points): `translate` gives each entry point of the generated function its start state. -/
theorem C104_entry (e : Entry) : Returns (env extra order other) .rfc5424_entrypoint_translate [.int .int (entryCode e)] w (.int .int e.translate) :=
  returns 1 fun n => translate_call rfl n e w

/-- **C104** (`String`): for a message in memory, in whatever order maps are iterated, `String` ends without a panic and changes nothing that existed before;
it returns the text with a nil error, or no text and the error `invalid syslog` if the message is not valid. -/
theorem C104_string (ho : ∀ xs, (order xs).Perm xs) (a : Nat) (m : SyslogMessage) (h : HasMsg5 w a m) :
    Does (buildX extra order other) .rfc5424_SyslogMessage_String [.ptr a []] w fun o => ∃ w', Keeps w w' ∧
      o = .ok (match Builder.string m with
        | some text => .tuple [.str text, .nil]
        | none => .tuple [.str [], .err (ascii "invalid syslog") []]) w' :=
  does 5 fun n => by
    obtain ⟨w', h1, h2⟩ := string_call (extra := extra) (other := _) ho n h
    exact ⟨_, h1, w', h2, rfl⟩

/-- **C104** (setters): each setter, called on a message in memory, ends and does to the message and to the package variables what the model of the setter
says, and nothing to the variables of others; it returns its receiver. -/
theorem C104_setter (c : Call) (a : Nat) (m : SyslogMessage) (g : Globals) (hr : RepMsg w a m) (hg : HasGlob w g) :
    Does (buildX extra order other) (setterName c) (.ptr a [] :: setterArgs c) w (SetterDone w a (c.run (m, g))) :=
  does 3 fun n => by
    have h := setter_does (X := buildX extra order other) rfl (buildX_set extra order other) c hr hg n
    cases hc : c.run (m, g) with
    | none => rw [hc] at h; obtain ⟨w', h⟩ := h; exact ⟨_, h, w', rfl⟩
    | some r => rw [hc] at h; obtain ⟨w', h, h1⟩ := h; exact ⟨_, h, w', rfl, h1⟩

/-- **C104** (chains): a chain of setter calls of any length, on a message in memory, does what the model of the chain says. -/
theorem C104_chain (cs : List Call) (a : Nat) (m : SyslogMessage) (g : Globals) (hr : RepMsg w a m) (hg : HasGlob w g) :
    Chained (buildX extra order other) (SetterDone w a (Builder.runCalls cs (m, g))) cs (.ptr a []) w := by
  suffices H : ∀ w1, Frame w w1 a → RepMsg w1 a m → HasGlob w1 g → Chained (buildX extra order other) (SetterDone w a (Builder.runCalls cs (m, g))) cs (.ptr a []) w1 from
    H w (Frame.refl w a) hr hg
  clear hr hg
  induction cs generalizing m g with
  | nil => exact fun w1 hf hr hg => ⟨w1, rfl, hr, hg, hf⟩
  | cons c cs ih =>
    intro w1 hf hr hg
    obtain ⟨d, h⟩ := C104_setter extra order other w1 c a m g hr hg
    refine ⟨d, fun n hn => ?_⟩
    obtain ⟨o, h1, h2⟩ := h n hn
    refine ⟨o, h1, ?_⟩
    cases hc : c.run (m, g) with
    | none =>
      rw [hc] at h2
      obtain ⟨w', rfl⟩ := h2
      show SetterDone w a (Builder.runCalls (c :: cs) (m, g)) _
      rw [Builder.runCalls, hc]
      exact ⟨w', rfl⟩
    | some r =>
      obtain ⟨m', g'⟩ := r
      rw [hc] at h2
      obtain ⟨w', rfl, h3, h4, h5⟩ := h2
      show Chained (buildX extra order other) (SetterDone w a (Builder.runCalls (c :: cs) (m, g))) cs (.ptr a []) w'
      have := ih m' g' w' (hf.trans h5) h3 h4
      rw [Builder.runCalls, hc]
      exact this

end

/-! ## Instances -/

namespace MiniSrc

/-- a message in memory, with structured data -/
def bMsg : SyslogMessage := { facility := some 20, severity := some 5, priority := some 165, version := 1, hostname := some (ascii "h"), structuredData := some [(ascii "a", []), (ascii "b", [(ascii "k", ascii "v")])] }

def bWorld : W Unit :=
  { heap := fun a => match a with
      | 0 => .struct .rfc5424_SyslogMessage [(.Facility, .ptr 1 []), (.Severity, .ptr 2 []), (.Priority, .ptr 3 []), (.Timestamp, .nil), (.Hostname, .ptr 4 []), (.Appname, .nil),
          (.ProcID, .nil), (.MsgID, .nil), (.Message, .nil), (.Version, .int .u16 1), (.StructuredData, .ptr 5 [])]
      | 1 => byteVal 20
      | 2 => byteVal 5
      | 3 => byteVal 165
      | 4 => .str (ascii "h")
      | 5 => .map 6
      | 6 => .entries [(ascii "a", .map 8), (ascii "b", .map 7)]
      | 7 => .entries [(ascii "k", .str (ascii "v"))]
      | 8 => .entries []
      | _ => .nil
    next := 9
    glob := fun x => if x = .currentid then .str [] else if x = .currentparamname then .str [] else .nil
    ext := () }

theorem bWorld_rep : RepMsg bWorld 0 bMsg where
  msg :=
    { base := ⟨_, _, rfl, by decide, ⟨_, rfl, 1, [], rfl, by decide, by decide, rfl⟩, ⟨_, rfl, 2, [], rfl, by decide, by decide, rfl⟩, ⟨_, rfl, 3, [], rfl, by decide, by decide, rfl⟩,
        ⟨_, rfl, rfl⟩, ⟨_, rfl, 4, [], rfl, by decide, by decide, rfl⟩, ⟨_, rfl, rfl⟩, ⟨_, rfl, rfl⟩, ⟨_, rfl, rfl⟩, ⟨_, rfl, rfl⟩⟩
      version := ⟨_, _, rfl, rfl⟩
      sd := ⟨_, _, _, rfl, rfl, 5, [], _, rfl, by decide, by decide, rfl, Or.inr ⟨6, _, rfl, by decide, by decide, rfl, rfl, Or.inr ⟨8, rfl, by decide, by decide, rfl⟩, rfl,
        Or.inr ⟨7, rfl, by decide, by decide, rfl⟩, trivial⟩⟩ }
  shape := by
    intro ty fs c p h1 h2
    have h1' : Val.struct .rfc5424_SyslogMessage [(.Facility, .ptr 1 []), (.Severity, .ptr 2 []), (.Priority, .ptr 3 []), (.Timestamp, .nil), (.Hostname, .ptr 4 []), (.Appname, .nil),
          (.ProcID, .nil), (.MsgID, .nil), (.Message, .nil), (.Version, .int .u16 1), (.StructuredData, .ptr 5 [])] = .struct ty fs := h1
    injection h1' with e1 e2
    subst e2
    obtain ⟨rfl, rfl⟩ : 5 = c ∧ [] = p := by simpa using h2
    refine ⟨6, _, rfl, rfl, ?_, ?_⟩
    · simp
    · intro e he
      rcases List.mem_cons.mp he with rfl | he
      · exact ⟨8, rfl⟩
      · rcases List.mem_cons.mp he with rfl | he
        · exact ⟨7, rfl⟩
        · cases he
  sorted := by
    intro sd h
    obtain rfl := Option.some.inj h
    exact ⟨⟨by decide, by decide, trivial⟩, by
      intro e he
      rcases List.mem_cons.mp he with rfl | he
      · trivial
      · rcases List.mem_cons.mp he with rfl | he
        · exact ⟨by decide, trivial⟩
        · cases he⟩

end MiniSrc

/-- the text, elements in the order of their ids -/
example (extra : Nat → Nat) (other : Nm → List Val → M Unit Val) :
    Does (buildX extra List.reverse other) .rfc5424_SyslogMessage_String [.ptr 0 []] bWorld
      fun o => ∃ w', Keeps bWorld w' ∧ o = .ok (.tuple [.str (ascii "<165>1 - h - - - [a][b k=\"v\"]"), .nil]) w' := by
  have h := C104_string extra List.reverse other bWorld (fun xs => List.reverse_perm xs) 0 bMsg bWorld_rep.msg
  rwa [show Builder.string bMsg = some (ascii "<165>1 - h - - - [a][b k=\"v\"]") by decide +kernel] at h

/-- a chain that changes the message -/
example (extra : Nat → Nat) (order : List Bytes → List Bytes) (other : Nm → List Val → M Unit Val) :
    Chained (buildX extra order other) (fun o => ∃ w', o = .ok (.ptr 0 []) w' ∧ RepMsg w' 0 { bMsg with version := 2, structuredData := some [(ascii "a", [(ascii "n", ascii "x")]), (ascii "b", [(ascii "k", ascii "v")])] } ∧
        HasGlob w' { currentid := ascii "a", currentparamname := ascii "n" } ∧ Frame bWorld w' 0)
      [.version 2, .version 1000, .parameter (ascii "a") (ascii "n") (ascii "x")] (.ptr 0 []) bWorld := by
  have h := C104_chain extra order other bWorld [.version 2, .version 1000, .parameter (ascii "a") (ascii "n") (ascii "x")] 0 bMsg {} bWorld_rep ⟨rfl, rfl⟩
  rwa [show Builder.runCalls [.version 2, .version 1000, .parameter (ascii "a") (ascii "n") (ascii "x")] (bMsg, {}) =
    some ({ bMsg with version := 2, structuredData := some [(ascii "a", [(ascii "n", ascii "x")]), (ascii "b", [(ascii "k", ascii "v")])] }, { currentid := ascii "a", currentparamname := ascii "n" }) by decide +kernel] at h

end Verif.Props
