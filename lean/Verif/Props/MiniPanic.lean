import Verif.Props.MiniOctetHistory
import Verif.Props.MiniParse
import Verif.Mini.Cut

/-!
# A listener that panics, statement by statement (C118)

The statements of `octetcounting` as they stand in the repository, executed, with a listener that panics when it wants to: `stop` says, of all it has got so far,
whether it panics now.
-/

set_option linter.constructorNameAsVariable false

namespace Verif.Props
open Verif.Mini Verif.Gen.Mini

namespace MiniSrc

/-- a listener that panics if `stop` says so of what it has got, the present result included (called at octetcounting/parser.go:83-130) -/
def xEmitP (stop : List (Val × Val) → Bool) : List Val → M EO Val
  | [.ptr a []] => fun w => match (w.heap a).get .Message, (w.heap a).get .Error with
    | some m, some e => if stop (w.ext.out ++ [(m, e)]) then some (.panic { w with ext := { w.ext with out := w.ext.out ++ [(m, e)] } })
        else some (.ok (.tuple []) { w with ext := { w.ext with out := w.ext.out ++ [(m, e)] } })
    | _, _ => none
  | _ => M.stuck

/-- the program, with such a listener -/
def octPanic (extra : Nat → Nat) (order : List Bytes → List Bytes) (stop : List (Val × Val) → Bool) : Env0 EO :=
  { octX extra order with call := fun f args => match f with | .emit => xEmitP stop args | f => octCallP xParse5 f args }

/-- a listener that records, in the states `K`; nothing is said of it in others -/
noncomputable def xEmitG (K : W EO → Prop) : List Val → M EO Val := fun args w => open Classical in if K w then xEmit args w else none

section
variable {stop : List (Val × Val) → Bool} {Q K : W EO → Prop}

/-- nothing is passed to the listener -/
def Mute (m : M EO Val) : Prop := ∀ w o, m w = some o → o.world.ext.out = w.ext.out

theorem Mute.cut {m : M EO Val} (h : Mute m) : Cut EO.out stop Q m m :=
  fun w o e => ⟨[], by rw [h w o e, List.append_nil], e⟩

theorem stuck_mute : Mute (M.stuck : M EO Val) := fun _ _ h => by cases h

theorem world_out {v : Out EO Val} {w : W EO} {o : Out EO Val} (e : some v = some o) (h : v.world.ext.out = w.ext.out) : o.world.ext.out = w.ext.out := by
  injection e with e; subst e; exact h

theorem newReaderSize_mute (args : List Val) : Mute (xNewReaderSize args) := by
  fun_cases xNewReaderSize args
  · exact fun w o e => world_out e rfl
  · exact stuck_mute

theorem unreadByte_mute (args : List Val) : Mute (xUnreadByte args) := by
  fun_cases xUnreadByte args
  · exact fun w o e => world_out e rfl
  · exact stuck_mute

theorem peek_mute (args : List Val) : Mute (xPeek args) := by
  fun_cases xPeek args
  · exact fun w o e => world_out e rfl
  · exact stuck_mute

theorem discard_mute (args : List Val) : Mute (xDiscard args) := by
  fun_cases xDiscard args
  · exact fun w o e => world_out e rfl
  · exact stuck_mute

theorem parseUint_mute (args : List Val) : Mute (xParseUint args) := by
  fun_cases xParseUint args
  · exact fun w o e => world_out e rfl
  · exact stuck_mute

theorem errorf_mute (args : List Val) : Mute (xErrorf args) := by
  fun_cases xErrorf args
  · exact fun w o e => world_out e rfl
  · exact stuck_mute

theorem readByte_mute (args : List Val) : Mute (xReadByte args) := by
  fun_cases xReadByte args
  · intro w o e
    dsimp only at e
    split at e <;> exact world_out e rfl
  · exact stuck_mute

theorem writeByte_mute (args : List Val) : Mute (xWriteByte args) := by
  fun_cases xWriteByte args
  · intro w o e
    dsimp only at e
    split at e
    · exact world_out e rfl
    · cases e
  · exact stuck_mute

theorem buffer_mute (args : List Val) : Mute (xBuffer args) := by
  fun_cases xBuffer args
  · intro w o e
    dsimp only at e
    split at e
    · exact world_out e rfl
    · cases e
  · exact stuck_mute

theorem parse5_mute (args : List Val) : Mute (xParse5 args) := by
  fun_cases xParse5 args
  · intro w o e
    dsimp only at e
    split at e
    · split at e <;> exact world_out e rfl
    · cases e
  · exact stuck_mute

theorem emit_cut (hQ : ∀ w v, K w → Q { w with ext := { w.ext with out := w.ext.out ++ [v] } }) (args : List Val) : Cut EO.out stop Q (xEmitG K args) (xEmitP stop args) := by
  intro w o e
  rw [xEmitG] at e
  by_cases hK : K w
  case neg => rw [if_neg hK] at e; cases e
  rw [if_pos hK] at e
  revert e
  fun_cases xEmit args
  · rename_i a
    intro e
    dsimp only at e
    split at e
    · rename_i m r h1 h2
      injection e with e
      subst e
      refine ⟨[(m, r)], rfl, ?_⟩
      have hd : xEmitP stop [.ptr a []] w = if stop (w.ext.out ++ [(m, r)]) then some (.panic { w with ext := { w.ext with out := w.ext.out ++ [(m, r)] } })
          else some (.ok (.tuple []) { w with ext := { w.ext with out := w.ext.out ++ [(m, r)] } }) := by
        show (match (w.heap a).get .Message, (w.heap a).get .Error with
          | some m, some e => if stop (w.ext.out ++ [(m, e)]) then some (Out.panic { w with ext := { w.ext with out := w.ext.out ++ [(m, e)] } })
              else some (Out.ok (Val.tuple []) { w with ext := { w.ext with out := w.ext.out ++ [(m, e)] } })
          | _, _ => none) = _
        rw [h1, h2]
      rw [cutAt, cutAt]
      by_cases hs : stop (w.ext.out ++ [(m, r)]) = true
      · rw [if_pos hs] at hd ⊢
        exact ⟨_, hd, rfl, hQ w _ hK⟩
      · rw [if_neg hs] at hd ⊢
        exact hd
    · cases e
  · exact fun e => by cases e

theorem octPanic_cut (extra : Nat → Nat) (order : List Bytes → List Bytes) (hQ : ∀ w v, K w → Q { w with ext := { w.ext with out := w.ext.out ++ [v] } }) :
    CutEnv EO.out stop Q (octXE extra order xParse5 (xEmitG K)) (octPanic extra order stop) where
  extra := rfl
  order := rfl
  meth := rfl
  prog := rfl
  call f args := by
    cases f
    case emit => exact emit_cut hQ args
    case bufio_NewReaderSize => exact (newReaderSize_mute args).cut
    case bufio_ReadByte => exact (readByte_mute args).cut
    case bufio_UnreadByte => exact (unreadByte_mute args).cut
    case bufio_Peek => exact (peek_mute args).cut
    case bufio_Discard => exact (discard_mute args).cut
    case bytes_WriteByte => exact (writeByte_mute args).cut
    case bytes_String => exact (buffer_mute args).cut
    case bytes_Bytes => exact (buffer_mute args).cut
    case strconv_ParseUint => exact (parseUint_mute args).cut
    case fmt_Errorf => exact (errorf_mute args).cut
    case rfc5424_machine_Parse => exact (parse5_mute args).cut
    all_goals exact stuck_mute.cut

theorem prog_plain : ∀ f fn, prog f = some fn → Plain fn.body = true := by
  intro f fn h
  have : (match prog f with | none => true | some fn => Plain fn.body) = true := by cases f <;> rfl
  rwa [h] at this

end

/-- The acts, one after the other, with a listener that panics when `stop` says so; as `OctetActs`, but a call of `Parse` may end with a panic. It does so only if the
listener panics: what the listener has got then is what it would have got, up to the result at which it panicked, and nothing after it. If it does not panic at any
result, the call returns and has passed on all of them. In both cases the acts go on: a program that recovers uses the parser as before. -/
def PanicActs (stop : List (Val × Val) → Bool) (X : Env0 EO) (opts : List SOpt) (a lo : Nat) : List OAct → List SOpt → W EO → Prop
  | [], _, _ => True
  | .parse reads :: acts, late, w => Does X .octetcounting_parser_Parse [.ptr a [], .ext (.obj 0)] (reading w reads) fun o => ∃ vs rs w',
      (if SOpt.listener ∈ opts ++ late then OutRep vs rs else vs = []) ∧
      (∀ bytes, Spec.Delivers reads bytes → Spec.EmitsOn 64 (SOpt.bestEffort ∈ opts ++ late) (SOpt.bestEffort ∈ opts) (maximum (opts ++ late)) bytes rs) ∧
      ((o = .ok (.tuple []) w' ∧ w'.ext.out = w.ext.out ++ vs ∧ ∀ x r y, vs = x ++ r :: y → stop (w.ext.out ++ x ++ [r]) = false) ∨
       (∃ x r y, o = .panic w' ∧ vs = x ++ r :: y ∧ (∀ x' r' y', x = x' ++ r' :: y' → stop (w.ext.out ++ x' ++ [r']) = false) ∧
          stop (w.ext.out ++ x ++ [r]) = true ∧ w'.ext.out = w.ext.out ++ x ++ [r])) ∧
      (∀ c, c < lo → w'.heap c = w.heap c) ∧ w'.glob = w.glob ∧ PanicActs stop X opts a lo acts late w'
  | .option o :: acts, late, w => ∃ f caps, o.val = .clo f caps ∧ Does X f (caps ++ [.ptr a []]) w fun r => ∃ w', r = .ok (.ptr a []) w' ∧ w'.ext = w.ext ∧
      (∀ c, c < lo → w'.heap c = w.heap c) ∧ w'.glob = w.glob ∧ PanicActs stop X opts a lo acts (late ++ [o]) w'
  | .hasBestEffort :: acts, late, w => Returns X .octetcounting_parser_HasBestEffort [.ptr a []] w (.bool (SOpt.bestEffort ∈ opts ++ late)) ∧ PanicActs stop X opts a lo acts late w

section
variable (extra : Nat → Nat) (order : List Bytes → List Bytes) (stop : List (Val × Val) → Bool)

/-- a call, with the listener that panics -/
theorem does_cut {Q K : W EO → Prop} (hQ : ∀ w v, K w → Q { w with ext := { w.ext with out := w.ext.out ++ [v] } }) {f : Nm} {args : List Val} {w : W EO} {P P' : Out EO Val → Prop}
    (h : Does (octXE extra order xParse5 (xEmitG K)) f args w P)
    (hok : ∀ o es, P o → o.world.ext.out = w.ext.out ++ es → cutAt stop w.ext.out es = none → P' o)
    (hpa : ∀ o es g w', P o → o.world.ext.out = w.ext.out ++ es → cutAt stop w.ext.out es = some g → w'.ext.out = w.ext.out ++ g → Q w' → P' (.panic w')) :
    Does (octPanic extra order stop) f args w P' := by
  obtain ⟨d, h⟩ := h
  refine ⟨d, fun n hn => ?_⟩
  obtain ⟨o, e, hP⟩ := h n hn
  obtain ⟨es, he, hc⟩ := call_cut (octPanic_cut (stop := stop) extra order hQ) prog_plain ⟨rfl, fun _ _ => rfl⟩ n f args w o e
  cases hg : cutAt stop w.ext.out es with
  | none => rw [hg] at hc; exact ⟨o, hc, hok o es hP he hg⟩
  | some g => rw [hg] at hc; obtain ⟨w', e', hw, hq⟩ := hc; exact ⟨_, e', hpa o es g w' hP he hg hw hq⟩

theorem xEmitG_true : xEmitG (fun _ => True) = xEmit := by
  funext args w
  rw [xEmitG, if_pos trivial]

/-- a call that passes nothing on -/
theorem does_same {f : Nm} {args : List Val} {w : W EO} {P P' : Out EO Val → Prop} (h : Does (octX extra order) f args w P) (hq : ∀ o, P o → o.world.ext.out = w.ext.out ∧ P' o) :
    Does (octPanic extra order stop) f args w P' := by
  refine does_cut extra order stop (Q := fun _ => True) (K := fun _ => True) (fun _ _ _ => trivial) (by rw [xEmitG_true]; exact h) (fun o es hP _ _ => (hq o hP).2) fun o es g w' hP he hg _ _ => ?_
  rw [(hq o hP).1] at he
  have : es = [] := by simpa using he
  subst this
  cases hg

/-- what stays as it is while `Parse` runs: the modes of the parser, the message parser, the variables below it -/
structure Still (go : Bool) (max : Int) (a mi : Nat) (w0 : W EO) (p : Octet.Parser) (w : W EO) : Prop where
  hgo : p.bestEffort = go
  hmax : p.maxMessageLength = max
  next : w0.next ≤ w.next
  heap : ∀ c, c < w0.next → c ≠ a → w.heap c = w0.heap c
  glob : w.glob = w0.glob

/-- after `scan` -/
def Scanned (go : Bool) (max : Int) (a mi : Nat) (w0 : W EO) (p : Octet.Parser) (w : W EO) : Prop := Still go max a mi w0 p w ∧ p.stepback = false

theorem Still.step {go : Bool} {max : Int} {a mi : Nat} {w0 w w' : W EO} {p : Octet.Parser} (h : Still go max a mi w0 p w) (s : Step a w w') : Still go max a mi w0 p w' :=
  ⟨h.hgo, h.hmax, Nat.le_trans h.next s.2.1, fun c hc hn => (s.1 c (Nat.lt_of_lt_of_le hc h.next) hn).trans (h.heap c hc hn), s.2.2.1.trans h.glob⟩

theorem still_scan {go : Bool} {max : Int} {a mi : Nat} {w0 w : W EO} {p : Octet.Parser} (h : Still go max a mi w0 p w) : Scanned go max a mi w0 p.scan.2 w := by
  rw [Octet.Parser.scan]
  by_cases hs : p.stepback = true
  · rw [if_pos hs]; exact ⟨⟨h.hgo, h.hmax, h.next, h.heap, h.glob⟩, rfl⟩
  · rw [if_neg hs]; exact ⟨⟨h.hgo, h.hmax, h.next, h.heap, h.glob⟩, by simpa using hs⟩

theorem scanned_parsed {go : Bool} {max : Int} {a mi : Nat} {w0 w : W EO} {p p' : Octet.Parser} {lit : Bytes} {r : Octet.Result} (h : Scanned go max a mi w0 p w)
    (e : p.parseMsg lit = some (r, p')) : Scanned go max a mi w0 p' w := by
  rw [Octet.Parser.parseMsg] at e
  split at e
  · cases e
  · injection e with e
    injection e with _ e
    subst e
    exact ⟨⟨h.1.hgo, h.1.hmax, h.1.next, h.1.heap, h.1.glob⟩, h.2⟩

/-- the states in which the listener is called -/
def AtEmit (go : Bool) (max : Int) (a mi : Nat) (w0 : W EO) (w : W EO) : Prop := ∃ p out, Scanned go max a mi w0 p w ∧ Rep none w a mi p out

theorem atEmit_guard {L : Option (List (Val × Val))} (go : Bool) (max : Int) (a mi : Nat) (w0 : W EO) :
    Guard (xEmitG (AtEmit go max a mi w0)) L a mi (Still go max a mi w0) (Scanned go max a mi w0) where
  step h s := ⟨h.1.step s, h.2⟩
  step0 h s := h.step s
  weaken h := h.1
  scan h := still_scan h
  unscan h := ⟨h.1.hgo, h.1.hmax, h.1.next, h.1.heap, h.1.glob⟩
  parsed h e := scanned_parsed h e
  start h := ⟨h.hgo, h.hmax, h.next, h.heap, h.glob⟩
  emit := by
    intro _ p w out c m e hI hR hc
    rw [xEmitG, if_pos ⟨p, out, hI, hR⟩]
    exact xEmit_apply w (a := c) (m := m) (e := e) (by simp [hc, resVal]) (by simp [hc, resVal])

theorem atEmit_more {go : Bool} {max : Int} {a mi : Nat} {w0 : W EO} (w : W EO) (v : Val × Val) (h : AtEmit go max a mi w0 w) :
    AtEmit go max a mi w0 { w with ext := { w.ext with out := w.ext.out ++ [v] } } := by
  obtain ⟨p, out, ⟨h1, h2⟩, R⟩ := h
  exact ⟨p, out ++ [v], ⟨⟨h1.hgo, h1.hmax, h1.next, h1.heap, h1.glob⟩, h2⟩, ⟨R.heap, R.lt, R.mlt, R.ne, R.mbe, R.mco, R.mty, R.rd, by
    show w.ext.out ++ [v] = _
    rw [R.out]; rfl, R.len⟩⟩

theorem panic_acts (opts : List SOpt) (a mi : Nat) : ∀ (acts : List OAct) (late : List SOpt) (w : W EO),
    Ready opts late a mi w → (∀ n, SOpt.maxLength n ∈ opts ++ late ∨ .option (.maxLength n) ∈ acts → n < 2 ^ 63 - 20) →
    PanicActs stop (octPanic extra order stop) opts a a acts late w := by
  intro acts
  induction acts with
  | nil => intros; trivial
  | cons act acts ih =>
    intro late w hr hf
    cases act with
    | parse reads =>
      obtain ⟨p, R, hi⟩ := hr
      have hfit : maximum (opts ++ late) < 2 ^ 63 - 20 := maximum_fits _ fun n hn => hf n (Or.inl hn)
      obtain ⟨p', e, hi'⟩ := Octet.parseB_idle (bits := 64) hi (wrap_fits (Or.inr rfl) hfit) reads
      rw [Octet.parseB_64] at e
      obtain ⟨rs, hrs⟩ : ∃ rs, rs = Octet.prunB 64 (SOpt.bestEffort ∈ opts ++ late) (SOpt.bestEffort ∈ opts) (maximum (opts ++ late)) (Octet.delivered reads) := ⟨_, rfl⟩
      rw [← hrs] at e
      have spec : ∀ bytes, Spec.Delivers reads bytes → Spec.EmitsOn 64 (SOpt.bestEffort ∈ opts ++ late) (SOpt.bestEffort ∈ opts) (maximum (opts ++ late)) bytes rs :=
        fun bytes hb => Octet.emitsOn_iff.mpr (by rw [hrs, Octet.delivers_delivered hb])
      have hstart : Still (SOpt.bestEffort ∈ opts ++ late) (maximum (opts ++ late)) a mi (reading w reads) p (reading w reads) :=
        ⟨hi.hgo, hi.hmax, Nat.le_refl _, fun _ _ _ => rfl, rfl⟩
      have hrest : ∀ n, SOpt.maxLength n ∈ opts ++ late ∨ .option (.maxLength n) ∈ acts → n < 2 ^ 63 - 20 := fun n hn => hf n (hn.imp id fun h => by simp [h])
      have run : Does (octXE extra order xParse5 (xEmitG (AtEmit (SOpt.bestEffort ∈ opts ++ late) (maximum (opts ++ late)) a mi (reading w reads)))) .octetcounting_parser_Parse
          [.ptr a [], .ext (.obj 0)] (reading w reads) fun o => ∃ w' vs, o = .ok (.tuple []) w' ∧ OutRep vs rs ∧ Rep (SOpt.muted (opts ++ late) w.ext.out) w' a mi p' (w.ext.out ++ vs) ∧
            Step a (reading w reads) w' := by
        refine does 7 fun n => ?_
        obtain ⟨w', vs, e1, v1, R1, S1⟩ := parse_call (extra := extra) (order := order) xParse5_ok n (w := reading w reads) e (rep_reading R reads) (atEmit_guard _ _ a mi (reading w reads)) hstart
        exact ⟨_, e1, w', vs, rfl, v1.values, R1, S1⟩
      refine does_cut extra order stop atEmit_more run ?_ ?_
      · rintro o es ⟨w', vs, rfl, v1, R1, S1⟩ he hc
        have next : Ready opts late a mi w' := by
          have R2 := R1.idle
          refine ⟨p', ⟨?_, R2.lt, R2.mlt, R2.ne, R2.mbe, R2.mco, R2.mty, (muted_getD _ _).symm⟩, hi'⟩
          obtain ⟨last, sv, h1, h2⟩ := R2.heap
          refine ⟨last, sv, h1.trans ?_, h2⟩
          unfold SOpt.muted; split <;> rfl
        have he : w'.ext.out = w.ext.out ++ es := he
        have frame : ∀ c, c < a → w'.heap c = w.heap c := fun c hc => S1.1 c (Nat.lt_trans hc R.lt) (by omega)
        have hno : ∀ x r y, es = x ++ r :: y → stop (w.ext.out ++ x ++ [r]) = false := (cutAt_none stop es w.ext.out).mp hc
        refine ⟨es, rs, w', ?_, spec, Or.inl ⟨rfl, he, hno⟩, frame, S1.2.2.1, ih late w' next hrest⟩
        by_cases hl : SOpt.listener ∈ opts ++ late
        · have hout : w'.ext.out = w.ext.out ++ vs := by rw [R1.out, SOpt.muted, if_pos ((SOpt.hears_iff _).mpr hl)]; rfl
          rw [if_pos hl, List.append_cancel_left (he.symm.trans hout)]
          exact v1
        · have hout : w'.ext.out = w.ext.out := by rw [R1.out, SOpt.muted, if_neg (mt (SOpt.hears_iff _).mp hl)]; rfl
          rw [if_neg hl]
          simpa [hout] using he
      · rintro o es g w'' ⟨w', vs, rfl, v1, R1, S1⟩ he hc hw ⟨q, out, ⟨hst, hsb⟩, RQ⟩
        have he : w'.ext.out = w.ext.out ++ es := he
        have hw : w''.ext.out = w.ext.out ++ g := hw
        obtain ⟨x, r, y, e1, rfl, e3, e4⟩ := (cutAt_some stop es w.ext.out g).mp hc
        by_cases hl : SOpt.listener ∈ opts ++ late
        case neg =>
          have hout : w'.ext.out = w.ext.out := by rw [R1.out, SOpt.muted, if_neg (mt (SOpt.hears_iff _).mp hl)]; rfl
          have : es = [] := by simpa [hout] using he
          rw [this] at e1; simp at e1
        have hout : w'.ext.out = w.ext.out ++ vs := by rw [R1.out, SOpt.muted, if_pos ((SOpt.hears_iff _).mpr hl)]; rfl
        obtain rfl : es = vs := List.append_cancel_left (he.symm.trans hout)
        have hmi : w''.heap mi = w.heap mi := hst.heap mi R.mlt R.ne
        have next : Ready opts late a mi w'' := by
          have R2 := RQ.idle
          have hmut : SOpt.muted (opts ++ late) w''.ext.out = none := by rw [SOpt.muted, if_pos ((SOpt.hears_iff _).mpr hl)]
          have hbe : q.internal.bestEffort = p.internal.bestEffort := by
            have h1 := R2.mbe; have h2 := R.mbe
            rw [hmi] at h1
            simpa using h1.symm.trans h2
          have hco : q.internal.compliantMsg = p.internal.compliantMsg := by
            have h1 := R2.mco; have h2 := R.mco
            rw [hmi] at h1
            simpa using h1.symm.trans h2
          refine ⟨q, ?_, ⟨hst.hgo, hst.hmax, hbe.trans hi.ibe, hco.trans hi.ico, hsb⟩⟩
          rw [hmut]
          exact ⟨R2.heap, R2.lt, R2.mlt, R2.ne, R2.mbe, R2.mco, R2.mty, rfl⟩
        exact ⟨es, rs, w'', by rw [if_pos hl]; exact v1, spec, Or.inr ⟨x, r, y, rfl, e1, e3, e4, hw.trans (List.append_assoc _ _ _).symm⟩,
          fun c hc => hst.heap c (Nat.lt_trans hc R.lt) (by omega), hst.glob, ih late w'' next hrest⟩
    | option o =>
      obtain ⟨f, caps, hc, h⟩ := option_ready extra order o hr
      refine ⟨f, caps, hc, does_same extra order stop h ?_⟩
      rintro r ⟨w', rfl, h1, h2, h3, next⟩
      exact ⟨congrArg EO.out h1, w', rfl, h1, h2, h3, ih _ w' next fun n hn => hf n (later_maximum hn)⟩
    | hasBestEffort =>
      refine ⟨does_same extra order stop (hasBestEffort_ready extra order hr) ?_, ih late w hr fun n hn => hf n (hn.imp id fun h => by simp [h])⟩
      rintro o rfl
      exact ⟨rfl, rfl⟩

end

end MiniSrc

open MiniSrc

variable (extra : Nat → Nat) (order : List Bytes → List Bytes)

/-- **C118**: `NewParser(opts...)`, then any sequence of `Parse`, options and `HasBestEffort`, with a listener that panics whenever it wants to (`stop`): every call does
what `PanicActs` says, also after a panic. The maxima are smaller than the largest `int` by 20 (C71). -/
theorem C118_panicking_listener (stop : List (Val × Val) → Bool) (opts : List SOpt) (w : W EO) (s : Val) (hs : IsSlice w s (opts.map SOpt.val)) (acts : List OAct)
    (hfit : ∀ n, SOpt.maxLength n ∈ opts ∨ .option (.maxLength n) ∈ acts → n < 2 ^ 63 - 20) :
    Does (octPanic extra order stop) .octetcounting_NewParser [s] w fun o => ∃ a w0, o = .ok (.ptr a []) w0 ∧ w0.ext = w.ext ∧ (∀ c, c < w.next → w0.heap c = w.heap c) ∧
      PanicActs stop (octPanic extra order stop) opts a w.next acts [] w0 := by
  refine does_same extra order stop (new_ready extra order opts w s hs) ?_
  rintro o ⟨a, mi, w0, rfl, h1, h2, h3, rfl⟩
  exact ⟨congrArg EO.out h1, _, w0, rfl, h1, h2, panic_acts extra order stop opts w.next mi acts [] w0 h3 fun n hn => hfit n (by simpa using hn)⟩

/-! ## A case -/

/-- a listener that panics at the second result -/
example (w : W EO) (h : w.heap 0 = .arr []) (hn : 0 < w.next) : Does (octPanic extra order fun vs => vs.length == 2) .octetcounting_NewParser [.slice 0 0 0 0] w fun o => ∃ a w0,
    o = .ok (.ptr a []) w0 ∧ w0.ext = w.ext ∧ (∀ c, c < w.next → w0.heap c = w.heap c) ∧
    PanicActs (fun vs => vs.length == 2) (octPanic extra order fun vs => vs.length == 2) [] a w.next exOctetActs [] w0 :=
  C118_panicking_listener extra order _ [] w _ (Or.inr ⟨0, 0, 0, 0, [], rfl, h, hn, by simp, by simp, rfl⟩) exOctetActs (by intro n hn; simp [exOctetActs] at hn; omega)

namespace MiniSrc

/-- two messages in one read -/
def exTwo : Bytes := ascii "16 <1>1 - - - - - -16 <2>1 - - - - - -"

/-- what is reported of them without a panic -/
def exTwoResults : List Octet.Result := Octet.prunB 64 false false 8192 (exTwo.map some)

theorem exTwo_results : exTwoResults.length = 2 ∧ exTwoResults.all (fun r => r.msg.isSome && r.err.isNone) = true := by decide +kernel

theorem two_good {l : List Octet.Result} (h : l.length = 2) (h2 : l.all (fun r => r.msg.isSome && r.err.isNone) = true) : ∃ r1 r2, l = [r1, r2] ∧ r1.err = none := by
  obtain ⟨r1, l, rfl⟩ := List.exists_cons_of_length_eq_add_one h
  obtain ⟨r2, l, rfl⟩ := List.exists_cons_of_length_eq_add_one (Nat.succ.inj h)
  obtain rfl := List.eq_nil_of_length_eq_zero (Nat.succ.inj (Nat.succ.inj h))
  rw [List.all_cons, Bool.and_eq_true, Bool.and_eq_true] at h2
  exact ⟨r1, r2, rfl, Option.isNone_iff_eq_none.mp h2.1.2⟩

theorem exTwo_two : ∃ r1 r2, exTwoResults = [r1, r2] ∧ r1.err = none := two_good exTwo_results.1 exTwo_results.2

theorem exTwo_emits {rs : List Octet.Result} (h : Spec.EmitsOn 64 false false 8192 exTwo rs) : rs = exTwoResults := (Octet.emitsOn_iff.mp h).symm

end MiniSrc

/-- `WithListener`, then a stream with two messages; the listener panics at the first result: `Parse` ends with a panic, and the first message is all that was heard. -/
example (w : W EO) (h : w.heap 0 = .arr []) (hn : 0 < w.next) (X : Env0 EO) (hX : X = octPanic extra order fun vs => vs.length == w.ext.out.length + 1) :
    Does X .octetcounting_NewParser [.slice 0 0 0 0] w fun o => ∃ a w0, o = .ok (.ptr a []) w0 ∧ ∃ f caps, SOpt.listener.val = .clo f caps ∧
      Does X f (caps ++ [.ptr a []]) w0 fun o => ∃ w1, o = .ok (.ptr a []) w1 ∧
        Does X .octetcounting_parser_Parse [.ptr a [], .ext (.obj 0)] (reading w1 [⟨exTwo, true⟩]) fun o => ∃ w2 v r, o = .panic w2 ∧ w2.ext.out = w.ext.out ++ [v] ∧
          exTwoResults.head? = some r ∧ r.err = none ∧ OutRep [v] [r] := by
  subst hX
  refine does_mono (C118_panicking_listener extra order (fun vs => vs.length == w.ext.out.length + 1) [] w _ (Or.inr ⟨0, 0, 0, 0, [], rfl, h, hn, by simp, by simp, rfl⟩)
    [.option .listener, .parse [⟨exTwo, true⟩]] (by simp)) ?_
  rintro o ⟨a, w0, rfl, h1, _, f, caps, hc, hd⟩
  refine ⟨a, w0, rfl, f, caps, hc, does_mono hd ?_⟩
  rintro o ⟨w1, rfl, h2, _, _, hp⟩
  refine ⟨w1, rfl, does_mono hp ?_⟩
  rintro o ⟨vs, rs, w', hvs, hrs, hend, _⟩
  have hrs : rs = exTwoResults := exTwo_emits (hrs exTwo (delivers_whole exTwo (by decide)))
  have hout : w1.ext.out = w.ext.out := by rw [h2, h1]
  obtain ⟨r1, r2, hl, hr1⟩ := exTwo_two
  rw [if_pos (by simp), hrs, hl] at hvs
  match vs, hvs with
  | [v1, v2], ⟨hv1, hv2, _⟩ =>
    rcases hend with ⟨_, _, hno⟩ | ⟨x, r, y, rfl, hxy, hno, _, hw'⟩
    · have := hno [] v1 [v2] rfl
      simp [hout] at this
    · cases x with
      | nil =>
        injection hxy with e1 _
        subst e1
        refine ⟨w', v1, r1, rfl, ?_, by rw [hl]; rfl, hr1, hv1, trivial⟩
        rw [hw']; simp [hout]
      | cons z x =>
        injection hxy with e1 _
        subst e1
        have := hno [] v1 x rfl
        simp [hout] at this

end Verif.Props
