import Verif.Props.MiniPanic
import Verif.Mini.Halt

/-!
# A reader that panics, statement by statement (C119)

The statements of `octetcounting` as they stand in the repository, executed, where calls of functions of other packages may panic: the calls of `bufio.Reader` do so if
the `io.Reader` that was given panics.
-/

set_option linter.constructorNameAsVariable false

namespace Verif.Props
open Verif.Mini Verif.Gen.Mini

namespace MiniSrc

/-- The functions of other packages, except the listener, may panic at any call, and leave anything behind; the listener has got nothing by that. Otherwise they do as
before. -/
def MayPanic (other other' : Nm → List Val → M EO Val) : Prop :=
  (∀ args, other' .emit args = other .emit args) ∧
  ∀ f args w, other' f args w = other f args w ∨ (other f args w ≠ none ∧ ∃ w', other' f args w = some (.panic w') ∧ w'.ext.out = w.ext.out)

/-- The acts, one after the other; as `OctetActs`, but a call of `Parse` may end with a panic. The listener has then got a first part of what it would have got if the
reader had gone on to deliver `reads`. If it ends without, it has passed on all of that, and the acts go on. -/
def HaltActs (X : Env0 EO) (opts : List SOpt) (a lo : Nat) : List OAct → List SOpt → W EO → Prop
  | [], _, _ => True
  | .parse reads :: acts, late, w => Does X .octetcounting_parser_Parse [.ptr a [], .ext (.obj 0)] (reading w reads) fun o => ∃ vs rs,
      (if SOpt.listener ∈ opts ++ late then OutRep vs rs else vs = []) ∧
      (∀ bytes, Spec.Delivers reads bytes → Spec.EmitsOn 64 (SOpt.bestEffort ∈ opts ++ late) (SOpt.bestEffort ∈ opts) (maximum (opts ++ late)) bytes rs) ∧
      ((∃ w', o = .ok (.tuple []) w' ∧ w'.ext.out = w.ext.out ++ vs ∧ (∀ c, c < lo → w'.heap c = w.heap c) ∧ w'.glob = w.glob ∧ HaltActs X opts a lo acts late w') ∨
       (∃ w' first, o = .panic w' ∧ first <+: vs ∧ w'.ext.out = w.ext.out ++ first))
  | .option o :: acts, late, w => ∃ f caps, o.val = .clo f caps ∧ Does X f (caps ++ [.ptr a []]) w fun r => ∃ w', r = .ok (.ptr a []) w' ∧ w'.ext = w.ext ∧
      (∀ c, c < lo → w'.heap c = w.heap c) ∧ w'.glob = w.glob ∧ HaltActs X opts a lo acts (late ++ [o]) w'
  | .hasBestEffort :: acts, late, w => Returns X .octetcounting_parser_HasBestEffort [.ptr a []] w (.bool (SOpt.bestEffort ∈ opts ++ late)) ∧ HaltActs X opts a lo acts late w

section
variable (extra : Nat → Nat) (order : List Bytes → List Bytes)

theorem Mute.halts {m : M EO Val} (h : Mute m) : Halts EO.out m m := fun w o e => ⟨[], by rw [h w o e, List.append_nil], Or.inl e⟩

theorem emit_halts (args : List Val) : Halts EO.out (xEmit args) (xEmit args) := by
  intro w o e
  revert e
  fun_cases xEmit args
  · rename_i a
    intro e
    have e' := e
    dsimp only at e
    split at e
    · rename_i m r h1 h2
      injection e with e
      subst e
      exact ⟨[(m, r)], rfl, Or.inl e'⟩
    · cases e
  · exact fun e => by cases e

theorem halts_may {m m' : M EO Val} (h : Mute m) (h' : ∀ w, m' w = m w ∨ (m w ≠ none ∧ ∃ w', m' w = some (.panic w') ∧ w'.ext.out = w.ext.out)) : Halts EO.out m m' := by
  intro w o e
  refine ⟨[], by rw [h w o e, List.append_nil], ?_⟩
  rcases h' w with h1 | ⟨_, w', h1, h2⟩
  · exact Or.inl (h1.trans e)
  · exact Or.inr ⟨[], w', List.prefix_refl _, h1, by rw [h2, List.append_nil]⟩

theorem other_mute (f : Nm) (hf : f ≠ .emit) (args : List Val) : Mute (octCallP xParse5 f args) := by
  cases f
  case emit => exact absurd rfl hf
  case bufio_NewReaderSize => exact newReaderSize_mute args
  case bufio_ReadByte => exact readByte_mute args
  case bufio_UnreadByte => exact unreadByte_mute args
  case bufio_Peek => exact peek_mute args
  case bufio_Discard => exact discard_mute args
  case bytes_WriteByte => exact writeByte_mute args
  case bytes_String => exact buffer_mute args
  case bytes_Bytes => exact buffer_mute args
  case strconv_ParseUint => exact parseUint_mute args
  case fmt_Errorf => exact errorf_mute args
  case rfc5424_machine_Parse => exact parse5_mute args
  all_goals exact stuck_mute

variable {other : Nm → List Val → M EO Val}

theorem octHalt_env (h : MayPanic (octCallP xParse5) other) : RelEnv (fun {α} => @Halts EO (Val × Val) α EO.out) (octX extra order) (octXC extra order other) where
  extra := rfl
  order := rfl
  meth := rfl
  prog := rfl
  call f args := by
    by_cases hf : f = .emit
    · subst hf
      show Halts EO.out (xEmit args) (other .emit args)
      rw [h.1 args]
      exact emit_halts args
    · exact halts_may (other_mute f hf args) (h.2 f args)

theorem does_halts (h : MayPanic (octCallP xParse5) other) {f : Nm} {args : List Val} {w : W EO} {P P' : Out EO Val → Prop} (hd : Does (octX extra order) f args w P)
    (hok : ∀ o, P o → P' o) (hpa : ∀ o es g w', P o → o.world.ext.out = w.ext.out ++ es → g <+: es → w'.ext.out = w.ext.out ++ g → P' (.panic w')) :
    Does (octXC extra order other) f args w P' := by
  obtain ⟨d, hd⟩ := hd
  refine ⟨d, fun n hn => ?_⟩
  obtain ⟨o, e, hP⟩ := hd n hn
  obtain ⟨es, he, hc⟩ := call_rel halts_closed (octHalt_env extra order h) prog_plain (fun n _ => halts_defers fun _ _ => by cases n <;> rfl) n f args w o e
  rcases hc with hc | ⟨g, w', e1, e2, e3⟩
  · exact ⟨o, hc, hok o hP⟩
  · exact ⟨_, e2, hpa o es g w' hP he e1 e3⟩

theorem halt_acts (h : MayPanic (octCallP xParse5) other) (opts : List SOpt) (a mi : Nat) : ∀ (acts : List OAct) (late : List SOpt) (w : W EO),
    Ready opts late a mi w → (∀ n, SOpt.maxLength n ∈ opts ++ late ∨ .option (.maxLength n) ∈ acts → n < 2 ^ 63 - 20) →
    HaltActs (octXC extra order other) opts a a acts late w := by
  intro acts
  induction acts with
  | nil => intros; trivial
  | cons act acts ih =>
    intro late w hr hf
    cases act with
    | parse reads =>
      obtain ⟨d, hd⟩ := parse_ready extra order reads hr fun n hn => hf n (Or.inl hn)
      refine does_halts extra order h ⟨d, hd⟩ ?_ ?_
      · rintro o ⟨w', vs, rfl, hout, ⟨rs, hv, hs⟩, hfr, hg, next⟩
        exact ⟨vs, rs, hv, hs, Or.inl ⟨w', rfl, hout, hfr, hg, ih late w' next fun n hn => hf n (hn.imp id fun h => by simp [h])⟩⟩
      · rintro o es g w'' ⟨w', vs, rfl, hout, ⟨rs, hv, hs⟩, _, _, _⟩ he hp hw
        have he : w'.ext.out = w.ext.out ++ es := he
        obtain rfl : es = vs := List.append_cancel_left (he.symm.trans hout)
        exact ⟨es, rs, hv, hs, Or.inr ⟨w'', g, rfl, hp, hw⟩⟩
    | option o =>
      obtain ⟨f, caps, hc, h⟩ := option_ready extra order (other := other) o hr
      refine ⟨f, caps, hc, does_imp h ?_⟩
      rintro r ⟨w', rfl, h1, h2, h3, next⟩
      exact ⟨w', rfl, h1, h2, h3, ih _ w' next fun n hn => hf n (later_maximum hn)⟩
    | hasBestEffort =>
      exact ⟨hasBestEffort_ready extra order hr, ih late w hr fun n hn => hf n (hn.imp id fun h => by simp [h])⟩

end

/-- the functions of other packages; what panics is not modelled -/
def calmly {E : Type} (X : Env0 E) : Env0 E := { X with call := fun f args => calm (X.call f args) }

end MiniSrc

open MiniSrc

variable (extra : Nat → Nat) (order : List Bytes → List Bytes)

/-- **C119**: `NewParser(opts...)`, then any sequence of `Parse`, options and `HasBestEffort`, where the calls of `bufio.Reader`, and of all other packages but the
listener, may panic: every call does what `HaltActs` says. The maxima are smaller than the largest `int` by 20 (C71). -/
theorem C119_panicking_reader (other : Nm → List Val → M EO Val) (h : MayPanic (octCallP xParse5) other) (opts : List SOpt) (w : W EO) (s : Val)
    (hs : IsSlice w s (opts.map SOpt.val)) (acts : List OAct) (hfit : ∀ n, SOpt.maxLength n ∈ opts ∨ .option (.maxLength n) ∈ acts → n < 2 ^ 63 - 20) :
    Does (octXC extra order other) .octetcounting_NewParser [s] w fun o => ∃ a w0, o = .ok (.ptr a []) w0 ∧ w0.ext = w.ext ∧ (∀ c, c < w.next → w0.heap c = w.heap c) ∧
      HaltActs (octXC extra order other) opts a w.next acts [] w0 := by
  refine does_imp (new_ready extra order opts w s hs) ?_
  rintro o ⟨a, mi, w0, rfl, h1, h2, h3, rfl⟩
  exact ⟨_, w0, rfl, h1, h2, halt_acts extra order h opts w.next mi acts [] w0 h3 fun n hn => hfit n (by simpa using hn)⟩

/-- **C119**: no panic is swallowed: a call of any function of the packages (`prog`; all of them, with any functions of other packages) returns only if no function of
another package that was called in it panicked; for then it returns, with the same result and in the same state, where such panics are not there at all. -/
theorem C119_not_swallowed {E : Type} (X : Env0 E) (hX : X.prog = prog) (n : Nat) (f : Nm) (args : List Val) (w w' : W E) (v : Val) (h : call X n f args w = some (.ok v w')) :
    call (calmly X) n f args w = some (.ok v w') :=
  have env : RelEnv (fun {α} => @Alike E α) X (calmly X) := ⟨rfl, rfl, rfl, rfl, fun f args => calm_alike (X.call f args)⟩
  call_rel alike_closed env (by rw [hX]; exact prog_plain) (fun _ hc => alike_defers env hc) n f args w v w' h

/-! ## A case -/

namespace MiniSrc

/-- does the call read from the `io.Reader`, with nothing in the buffer, and is only one read left? -/
def lastRead (w : W EO) : Bool := w.ext.rd.q.isEmpty && w.ext.rd.sched.length == 1

/-- a reader that panics at its last read: `ReadByte` and `Peek` do so when they call it with an empty buffer; the `bufio.Reader` that is left is another one -/
def lastPanics (f : Nm) (args : List Val) : M EO Val := fun w => match f with
  | .bufio_ReadByte => if lastRead w = true ∧ xReadByte args w ≠ none then some (.panic (w.rd (Octet.newReader 16 []))) else xReadByte args w
  | .bufio_Peek => if lastRead w = true ∧ xPeek args w ≠ none then some (.panic (w.rd (Octet.newReader 16 []))) else xPeek args w
  | f => octCallP xParse5 f args w

theorem lastPanics_may : MayPanic (octCallP xParse5) lastPanics := by
  refine ⟨fun args => rfl, fun f args w => ?_⟩
  cases f
  case bufio_ReadByte =>
    by_cases h : lastRead w = true ∧ xReadByte args w ≠ none
    · exact Or.inr ⟨h.2, _, if_pos h, rfl⟩
    · exact Or.inl (if_neg h)
  case bufio_Peek =>
    by_cases h : lastRead w = true ∧ xPeek args w ≠ none
    · exact Or.inr ⟨h.2, _, if_pos h, rfl⟩
    · exact Or.inl (if_neg h)
  all_goals exact Or.inl rfl

/-- it does panic -/
theorem lastPanics_panics (w : W EO) (h : lastRead w = true) : ∃ w', lastPanics .bufio_ReadByte [.ext (.obj 1)] w = some (.panic w') := by
  have hn : xReadByte [.ext (.obj 1)] w ≠ none := by
    show (match w.ext.rd.readByte with
      | (some b, rd) => some (Out.ok (Val.tuple [byteVal b, .nil]) { w with ext := { w.ext with rd := rd } })
      | (none, rd) => some (Out.ok (Val.tuple [byteVal 0, .ext (.readErr 0)]) { w with ext := { w.ext with rd := rd } }) : Option (Out EO Val)) ≠ none
    split <;> simp
  exact ⟨_, if_pos ⟨h, hn⟩⟩

end MiniSrc

example (w : W EO) (h : w.heap 0 = .arr []) (hn : 0 < w.next) : Does (octXC extra order lastPanics) .octetcounting_NewParser [.slice 0 0 0 0] w fun o => ∃ a w0,
    o = .ok (.ptr a []) w0 ∧ w0.ext = w.ext ∧ (∀ c, c < w.next → w0.heap c = w.heap c) ∧ HaltActs (octXC extra order lastPanics) [] a w.next exOctetActs [] w0 :=
  C119_panicking_reader extra order _ lastPanics_may [] w _ (Or.inr ⟨0, 0, 0, 0, [], rfl, h, hn, by simp, by simp, rfl⟩) exOctetActs (by intro n hn; simp [exOctetActs] at hn; omega)

/-- `NewParser` returns, where no panic is modelled, too -/
example (w : W EO) (h : w.heap 0 = .arr []) (hn : 0 < w.next) : ∃ n v w', call (calmly (octXC extra order lastPanics)) n .octetcounting_NewParser [.slice 0 0 0 0] w = some (.ok v w') := by
  obtain ⟨d, hd⟩ := C119_panicking_reader extra order _ lastPanics_may [] w _ (Or.inr ⟨0, 0, 0, 0, [], rfl, h, hn, by simp, by simp, rfl⟩) [] (by simp)
  obtain ⟨o, e, a, w0, rfl, _⟩ := hd d (Nat.le_refl _)
  exact ⟨d, _, w0, C119_not_swallowed (octXC extra order lastPanics) rfl d _ _ w w0 _ e⟩

end Verif.Props
