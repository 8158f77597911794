import Verif.Mini.Msgs
import Verif.Props.MiniBuild
import Verif.Props.Rebuild

/-!
# Messages that are built one beside the other (C107)

Several messages are in one memory. A chain of setters, executed statement by statement with the generated function `set`, is called on one of them; what
becomes of it and of the others?
-/

set_option linter.constructorNameAsVariable false

namespace Verif.Props
open Verif.Mini Verif.Gen.Mini
open Verif.Builder (Globals Entry Call)
open Verif.Spec (Denotes)
open Verif.Rfc5424 (SyslogMessage)

namespace MiniSrc
variable {E : Type}

theorem runCalls_total (cs : List Call) : ∀ (m : SyslogMessage) (g : Globals), ∃ m' g', Builder.runCalls cs (m, g) = some (m', g') := by
  induction cs with
  | nil => exact fun m g => ⟨m, g, rfl⟩
  | cons c cs ih =>
    intro m g
    obtain ⟨m1, g1, h, _⟩ := C22_only_own_field c m g
    obtain ⟨m', g', h'⟩ := ih m1 g1
    exact ⟨m', g', by rw [Builder.runCalls, h]; exact h'⟩

theorem Chained.mono {X : Env0 E} {P Q : Out E Val → Prop} (hpq : ∀ o, P o → Q o) : ∀ (cs : List Call) (v : Val) (w : W E), Chained X P cs v w → Chained X Q cs v w
  | [], _, _, h => hpq _ h
  | c :: cs, v, w, ⟨d, h⟩ => ⟨d, fun n hn => by
      obtain ⟨o, h1, h2⟩ := h n hn
      refine ⟨o, h1, ?_⟩
      cases o with
      | ok v' w' => exact Chained.mono hpq cs v' w' h2
      | panic w' => exact hpq _ h2⟩

/-- a chain that ends well: it returns the receiver, `P` describes the memory then -/
def Ends (X : Env0 E) (cs : List Call) (a : Nat) (w : W E) (P : W E → Prop) : Prop :=
  Chained X (fun o => ∃ w', o = .ok (.ptr a []) w' ∧ P w') cs (.ptr a []) w

/-- what `String` returns for the message `m` -/
def textVal (m : SyslogMessage) : Val :=
  match Builder.string m with
  | some text => .tuple [.str text, .nil]
  | none => .tuple [.str [], .err (ascii "invalid syslog") []]

/-- `String` on the message in the variable `a` returns the text of `m` and changes nothing that existed before -/
def Prints (X : Env0 E) (w : W E) (a : Nat) (m : SyslogMessage) : Prop :=
  Does X .rfc5424_SyslogMessage_String [.ptr a []] w fun o => ∃ w', Keeps w w' ∧ o = .ok (textVal m) w'

end MiniSrc

open MiniSrc

section
variable {E : Type} (extra : Nat → Nat) (order : List Bytes → List Bytes) (other : Nm → List Val → M E Val) (w : W E)

/-- **C107** (a chain): a chain of setters on a message in memory never panics; at its end the message is as the model of the chain says, and the variables that
existed before and do not belong to the message are as before. -/
theorem C107_chain (cs : List Call) (a : Nat) (m : SyslogMessage) (g : Globals) (hr : RepMsg w a m) (hg : HasGlob w g) :
    ∃ m' g', Builder.runCalls cs (m, g) = some (m', g') ∧
      Ends (buildX extra order other) cs a w fun w' => RepMsg w' a m' ∧ HasGlob w' g' ∧ ∀ x, x < w.next → ¬ Owns w a x → w'.heap x = w.heap x := by
  obtain ⟨m', g', h⟩ := runCalls_total cs m g
  refine ⟨m', g', h, ?_⟩
  have hc := C104_chain extra order other w cs a m g hr hg
  rw [h] at hc
  refine Chained.mono ?_ cs _ w hc
  rintro o ⟨w', rfl, h1, h2, h3⟩
  exact ⟨w', rfl, h1, h2, h3.same⟩

/-- **C107** (a new message): `&rfc5424.SyslogMessage{}`, any chain of setters, then `String`: the message is the one that the calls denote, and `String` returns
its text, or the error if it is not valid. -/
theorem C107_built (ho : ∀ xs, (order xs).Perm xs) (cs : List Call) (g : Globals) (hg : HasGlob w g) :
    ∃ m, Denotes cs m ∧ Ends (buildX extra order other) cs w.next (newVar w zeroMsg) fun w' => RepMsg w' w.next m ∧ Prints (buildX extra order other) w' w.next m := by
  obtain ⟨m, g', h, hd⟩ := C67_calls_denote cs g
  refine ⟨m, hd, ?_⟩
  obtain ⟨m', g'', h', he⟩ := C107_chain extra order other (newVar w zeroMsg) cs w.next {} g (newMsg_rep w) hg
  rw [h] at h'
  obtain ⟨rfl, rfl⟩ : m = m' ∧ g' = g'' := by simpa using h'
  refine Chained.mono ?_ cs _ _ he
  rintro o ⟨w', rfl, h1, _, _⟩
  exact ⟨w', rfl, h1, C104_string extra order other w' ho w.next m h1.msg⟩

/-- **C107** (independence): a chain of setters on one message leaves every other message as it is, if nothing that belongs to the first (its struct, its maps)
is something the other depends on. -/
theorem C107_independent (cs : List Call) (a b : Nat) (m mb : SyslogMessage) (g : Globals) (hr : RepMsg w a m) (hg : HasGlob w g) (hb : RepMsg w b mb)
    (hd : ∀ x, x < w.next → Owns w a x → ¬ Reaches w b x) : Ends (buildX extra order other) cs a w fun w' => RepMsg w' b mb := by
  obtain ⟨m', g', h⟩ := runCalls_total cs m g
  have hc := C104_chain extra order other w cs a m g hr hg
  rw [h] at hc
  refine Chained.mono ?_ cs _ w hc
  rintro o ⟨w', rfl, _, _, h3⟩
  exact ⟨w', rfl, hb.congr h3.next fun x hx hre => h3.same x hx fun ho => hd x hx ho hre⟩

/-- **C107** (a new message beside others): whatever is done to a new message, every message that existed before it is as it was, and prints the same text. -/
theorem C107_new_is_independent (ho : ∀ xs, (order xs).Perm xs) (cs : List Call) (b : Nat) (mb : SyslogMessage) (g : Globals) (hg : HasGlob w g) (hb : RepMsg w b mb) :
    Ends (buildX extra order other) cs w.next (newVar w zeroMsg) fun w' => RepMsg w' b mb ∧ Prints (buildX extra order other) w' b mb := by
  have hb1 : RepMsg (newVar w zeroMsg) b mb := hb.congr (newVar_keeps w _).2.1 fun x hx _ => (newVar_keeps w _).1 x hx
  obtain ⟨m', g', h⟩ := runCalls_total cs {} g
  have hc := C104_chain extra order other (newVar w zeroMsg) cs w.next {} g (newMsg_rep w) hg
  rw [h] at hc
  refine Chained.mono ?_ cs _ _ hc
  rintro o ⟨w', rfl, _, _, h3⟩
  have hb2 : RepMsg w' b mb := hb.congr (Nat.le_trans (newVar_keeps w _).2.1 h3.next) fun x hx _ => by
    refine (h3.same x (Nat.lt_of_lt_of_le hx (newVar_keeps w _).2.1) ?_).trans ((newVar_keeps w _).1 x hx)
    rintro (rfl | ⟨ty, fs, c, p, c', mm, g1, g2, _⟩)
    · exact Nat.lt_irrefl _ hx
    · rw [newVar_same, zeroMsg] at g1
      injection g1 with e1 e2
      subst e2
      cases g2
  exact ⟨w', rfl, hb2, C104_string extra order other w' ho b mb hb2.msg⟩

/-- **C107** (copies): `b := *a` for a message that has structured data, then a chain of setters on the first. The copy gets the new structured data of the first
(they are one map); every other field of it is as it was copied. -/
theorem C107_copy (cs : List Call) (a : Nat) (m : SyslogMessage) (g : Globals) (hr : RepMsg w a m) (hg : HasGlob w g) (hsd : m.structuredData ≠ none) :
    ∃ m' g', Builder.runCalls cs (m, g) = some (m', g') ∧
      Ends (buildX extra order other) cs a (newVar w (w.heap a)) fun w' => RepMsg w' a m' ∧ RepMsg w' w.next { m with structuredData := m'.structuredData } := by
  obtain ⟨m', g', h⟩ := runCalls_total cs m g
  refine ⟨m', g', h, ?_⟩
  obtain ⟨hr1, hcopy, hsh⟩ := copy_rep hr hsd
  have hc := C104_chain extra order other (newVar w (w.heap a)) cs a m g hr1 hg
  rw [h] at hc
  refine Chained.mono ?_ cs _ _ hc
  rintro o ⟨w', rfl, h1, _, h3⟩
  exact ⟨w', rfl, h1, hr1.shared hcopy (hsh).1 h1 h3⟩

/-- **C107** (copies, the other way): ... and a chain on the copy changes the structured data of the first. -/
theorem C107_copy_back (cs : List Call) (a : Nat) (m : SyslogMessage) (g : Globals) (hr : RepMsg w a m) (hg : HasGlob w g) (hsd : m.structuredData ≠ none) :
    ∃ m' g', Builder.runCalls cs (m, g) = some (m', g') ∧
      Ends (buildX extra order other) cs w.next (newVar w (w.heap a)) fun w' => RepMsg w' w.next m' ∧ RepMsg w' a { m with structuredData := m'.structuredData } := by
  obtain ⟨m', g', h⟩ := runCalls_total cs m g
  refine ⟨m', g', h, ?_⟩
  obtain ⟨hr1, hcopy, hsh⟩ := copy_rep hr hsd
  have hc := C104_chain extra order other (newVar w (w.heap a)) cs w.next m g hcopy hg
  rw [h] at hc
  refine Chained.mono ?_ cs _ _ hc
  rintro o ⟨w', rfl, h1, _, h3⟩
  exact ⟨w', rfl, h1, hcopy.shared hr1 (hsh).2 h1 h3⟩

/-- **C107** (copies without structured data): if there are no structured data yet when the struct is copied, the two are independent. -/
theorem C107_copy_nil (cs : List Call) (a : Nat) (m : SyslogMessage) (g : Globals) (hr : RepMsg w a m) (hg : HasGlob w g) (hsd : m.structuredData = none) :
    ∃ m' g', Builder.runCalls cs (m, g) = some (m', g') ∧
      (Ends (buildX extra order other) cs a (newVar w (w.heap a)) fun w' => RepMsg w' a m' ∧ RepMsg w' w.next m) ∧
      Ends (buildX extra order other) cs w.next (newVar w (w.heap a)) fun w' => RepMsg w' w.next m' ∧ RepMsg w' a m := by
  obtain ⟨m', g', h⟩ := runCalls_total cs m g
  obtain ⟨hr1, hcopy, hd1, hd2⟩ := copy_nil hr hsd
  refine ⟨m', g', h, ?_, ?_⟩
  · have hc := C104_chain extra order other (newVar w (w.heap a)) cs a m g hr1 hg
    rw [h] at hc
    refine Chained.mono ?_ cs _ _ hc
    rintro o ⟨w', rfl, h1, _, h3⟩
    exact ⟨w', rfl, h1, hcopy.congr h3.next fun x hx hre => h3.same x hx fun ho => hd1 x ho hre⟩
  · have hc := C104_chain extra order other (newVar w (w.heap a)) cs w.next m g hcopy hg
    rw [h] at hc
    refine Chained.mono ?_ cs _ _ hc
    rintro o ⟨w', rfl, h1, _, h3⟩
    exact ⟨w', rfl, h1, hr1.congr h3.next fun x hx hre => h3.same x hx fun ho => hd2 x ho hre⟩

end

/-! ## Instances -/

/-- a new message, three calls (one refused), and `String` -/
example (extra : Nat → Nat) (other : Nm → List Val → M Unit Val) :
    ∃ m, Denotes [.priority 34, .version 1, .hostname (ascii "a b"), .parameter (ascii "i") (ascii "n") (ascii "v")] m ∧
      Ends (buildX extra List.reverse other) [.priority 34, .version 1, .hostname (ascii "a b"), .parameter (ascii "i") (ascii "n") (ascii "v")] 9 (newVar bWorld zeroMsg)
        fun w' => RepMsg w' 9 m ∧ Prints (buildX extra List.reverse other) w' 9 m :=
  C107_built extra List.reverse other bWorld (fun xs => List.reverse_perm xs) _ {} ⟨rfl, rfl⟩

/-- the copy of a message with structured data gets the parameter, not the version -/
example (extra : Nat → Nat) (order : List Bytes → List Bytes) (other : Nm → List Val → M Unit Val) :
    Ends (buildX extra order other) [.version 2, .parameter (ascii "a") (ascii "n") (ascii "x")] 0 (newVar bWorld (bWorld.heap 0)) fun w' =>
      RepMsg w' 0 { bMsg with version := 2, structuredData := some [(ascii "a", [(ascii "n", ascii "x")]), (ascii "b", [(ascii "k", ascii "v")])] } ∧
      RepMsg w' 9 { bMsg with structuredData := some [(ascii "a", [(ascii "n", ascii "x")]), (ascii "b", [(ascii "k", ascii "v")])] } := by
  obtain ⟨m', g', h1, h2⟩ := C107_copy extra order other bWorld [.version 2, .parameter (ascii "a") (ascii "n") (ascii "x")] 0 bMsg {} bWorld_rep ⟨rfl, rfl⟩ (by decide)
  rw [show Builder.runCalls [.version 2, .parameter (ascii "a") (ascii "n") (ascii "x")] (bMsg, {}) =
    some ({ bMsg with version := 2, structuredData := some [(ascii "a", [(ascii "n", ascii "x")]), (ascii "b", [(ascii "k", ascii "v")])] }, { currentid := ascii "a", currentparamname := ascii "n" }) by decide +kernel] at h1
  obtain ⟨rfl, rfl⟩ : _ = m' ∧ _ = g' := by simpa using h1
  exact h2

/-- the message of the examples and a new one are independent: the condition of `C107_independent` holds -/
example : ∀ x, x < (newVar bWorld zeroMsg).next → Owns (newVar bWorld zeroMsg) 9 x → ¬ Reaches (newVar bWorld zeroMsg) 0 x := by
  have h9 : (newVar bWorld zeroMsg).heap 9 = zeroMsg := newVar_same bWorld _
  have h0 : (newVar bWorld zeroMsg).heap 0 = bWorld.heap 0 := (newVar_keeps bWorld zeroMsg).1 0 (by decide)
  rintro x _ (rfl | ⟨ty, fs, c, p, c', mm, g1, g2, _⟩) hre
  · have hb1 : RepMsg (newVar bWorld zeroMsg) 0 bMsg := bWorld_rep.congr (newVar_keeps bWorld zeroMsg).2.1 fun x hx _ => (newVar_keeps bWorld zeroMsg).1 x hx
    rcases hre with ho | ⟨ty, fs, f, p, hf, g1, g2⟩
    · rcases ho with ho | ⟨ty, fs, c, p, c', mm, g1, g2, g3, g4, g5⟩
      · cases ho
      · obtain ⟨k1, k2, k3⟩ := bWorld_rep.msg.sd.cell (by rw [← h0]; exact g1) g2
        rw [(newVar_keeps bWorld zeroMsg).1 c k1] at g3
        obtain ⟨k4, _⟩ := k3 c' g3
        rcases g5 with rfl | ⟨k, g5⟩
        · exact absurd k4 (by decide)
        · obtain ⟨ty2, fs2, c2, p2, c2', mm2, q1, q2, q3, q4, q5⟩ := rep_sd bWorld_rep (sd := [(ascii "a", []), (ascii "b", [(ascii "k", ascii "v")])]) rfl
          obtain ⟨rfl, rfl⟩ : ty = ty2 ∧ fs = fs2 := by rw [h0, q1] at g1; injection g1 with e1 e2; exact ⟨e1.symm, e2.symm⟩
          rw [g2] at q2
          have q2 := Option.some.inj q2
          injection q2 with e1 e2
          subst e1; subst e2
          rw [g3] at q3
          have q3 := Option.some.inj q3
          injection q3 with e1
          subst e1
          rw [(newVar_keeps bWorld zeroMsg).1 c' k4, q4] at g4
          injection g4 with g4
          subst g4
          exact absurd (entries_below q5 k 9 g5) (by decide)
    · have := (bWorld_rep.out (by rw [← h0]; exact g1) hf g2).1
      exact absurd this (by decide)
  · rw [h9, zeroMsg] at g1
    injection g1 with e1 e2
    subst e2
    cases g2

end Verif.Props
