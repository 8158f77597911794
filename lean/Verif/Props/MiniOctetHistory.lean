import Verif.Props.MiniOctet
import Verif.Props.Platform

/-!
# The whole history of an octet-counting parser, statement by statement (C114)

The statements of `octetcounting` as they stand in the repository, executed: a parser is made with options, then it is given readers, further options, and asked
`HasBestEffort`, in any order. What each call of `Parse` gives the listener is compared with `Spec.EmitsOn` (`Verif/Spec/OctetPlatform.lean`).
-/

set_option linter.constructorNameAsVariable false

namespace Verif.Props
open Verif.Mini Verif.Gen.Mini

namespace MiniSrc

/-- what a program does with a parser -/
inductive OAct where
  /-- `p.Parse(r)`, where `r` delivers `reads` -/
  | parse (reads : List Octet.Read)
  /-- an option, applied to `p` -/
  | option (o : SOpt)
  /-- `p.HasBestEffort()` -/
  | hasBestEffort

/-- the maximum that options ask for: the last one, 8192 without any -/
def maximum (os : List SOpt) : Int := ((os.filterMap fun o => match o with | .maxLength n => some n | _ => none).getLast?).getD 8192

/-- The acts, one after the other, on the parser at `a`, made with the options `opts`; `late` are the options that were applied since. Every call returns. What the
listener gets, if there is one by now, is what the specification says of a parser that goes on after wrong messages if best effort was ever asked for, keeps incomplete
messages if it was asked for when the parser was made, and has the last maximum. Nothing else is passed on to a listener; `HasBestEffort` tells whether best effort was
ever asked for; variables below `lo` are not changed. -/
def OctetActs (X : Env0 EO) (opts : List SOpt) (a lo : Nat) : List OAct → List SOpt → W EO → Prop
  | [], _, _ => True
  | .parse reads :: acts, late, w => Does X .octetcounting_parser_Parse [.ptr a [], .ext (.obj 0)] (reading w reads) fun o => ∃ w' vs, o = .ok (.tuple []) w' ∧ w'.ext.out = w.ext.out ++ vs ∧
      (∃ rs, (if SOpt.listener ∈ opts ++ late then OutRep vs rs else vs = []) ∧
        ∀ bytes, Spec.Delivers reads bytes → Spec.EmitsOn 64 (SOpt.bestEffort ∈ opts ++ late) (SOpt.bestEffort ∈ opts) (maximum (opts ++ late)) bytes rs) ∧
      (∀ c, c < lo → w'.heap c = w.heap c) ∧ w'.glob = w.glob ∧ OctetActs X opts a lo acts late w'
  | .option o :: acts, late, w => ∃ f caps, o.val = .clo f caps ∧ Does X f (caps ++ [.ptr a []]) w fun r => ∃ w', r = .ok (.ptr a []) w' ∧ w'.ext = w.ext ∧
      (∀ c, c < lo → w'.heap c = w.heap c) ∧ w'.glob = w.glob ∧ OctetActs X opts a lo acts (late ++ [o]) w'
  | .hasBestEffort :: acts, late, w => Returns X .octetcounting_parser_HasBestEffort [.ptr a []] w (.bool (SOpt.bestEffort ∈ opts ++ late)) ∧ OctetActs X opts a lo acts late w

theorem bool_eq_decide {b : Bool} {p : Prop} [Decidable p] (h : b = true ↔ p) : b = decide p := by
  cases b with
  | true => exact (decide_eq_true (h.mp rfl)).symm
  | false => exact (decide_eq_false fun hp => by cases h.mpr hp).symm

/-- the options in the model -/
theorem ap_config (o : SOpt) {opts os : List SOpt} {p : Octet.Parser} (h : Octet.IdleB (SOpt.bestEffort ∈ os) (SOpt.bestEffort ∈ opts) (maximum os) p) :
    Octet.IdleB (SOpt.bestEffort ∈ os ++ [o]) (SOpt.bestEffort ∈ opts) (maximum (os ++ [o])) (o.ap p) := by
  cases o with
  | listener =>
    refine ⟨h.hgo.trans (by simp), h.hmax.trans (by simp [maximum]), h.ibe, h.ico, h.step⟩
  | bestEffort =>
    refine ⟨by simp [SOpt.ap, Octet.applyOpt], h.hmax.trans (by simp [maximum]), h.ibe, h.ico, h.step⟩
  | maxLength n =>
    refine ⟨h.hgo.trans (by simp), by simp [maximum, SOpt.ap, Octet.applyOpt], h.ibe, h.ico, h.step⟩

theorem new_config (opts : List SOpt) : Octet.IdleB (SOpt.bestEffort ∈ opts) (SOpt.bestEffort ∈ opts) (maximum opts) (Octet.newParser (SOpt.model opts)) := by
  obtain ⟨h1, h2⟩ := config (SOpt.model opts)
  have e1 : isBestEffort (SOpt.model opts) = decide (SOpt.bestEffort ∈ opts) := by
    refine bool_eq_decide ?_
    rw [h1]
    clear h1 h2
    induction opts with
    | nil => simp [SOpt.model]
    | cons o os ih => cases o <;> simp [SOpt.model] <;> simpa using ih
  have e2 : maxLength (SOpt.model opts) = maximum opts := by
    rw [h2, maximum]
    congr 2
    clear h1 h2 e1
    induction opts with
    | nil => rfl
    | cons o os ih => cases o <;> simp [SOpt.model] <;> exact ih
  have := idleB_new (SOpt.model opts)
  rwa [e1, e2] at this

theorem em_muted (os : List SOpt) (o : SOpt) (b : List (Val × Val)) : o.em (octEmitVal (SOpt.muted os b)) = octEmitVal (SOpt.muted (os ++ [o]) b) := by
  rw [← SOpt.fold_em, ← SOpt.fold_em, List.foldl_append]
  rfl

theorem muted_getD (os : List SOpt) (b : List (Val × Val)) : (SOpt.muted os b).getD b = b := by
  unfold SOpt.muted; split <;> rfl

theorem maximum_fits (os : List SOpt) (h : ∀ n, SOpt.maxLength n ∈ os → n < 2 ^ 63 - 20) : maximum os < 2 ^ 63 - 20 := by
  rw [maximum]
  cases hg : (os.filterMap fun o => match o with | .maxLength n => some n | _ => none).getLast? with
  | none => simp
  | some n =>
    have hm := List.mem_of_getLast? hg
    rw [List.mem_filterMap] at hm
    obtain ⟨o, ho, e⟩ := hm
    cases o with
    | maxLength k => injection e with e; subst e; exact h _ ho
    | listener => cases e
    | bestEffort => cases e

/-- the parser at `a` between the acts -/
def Ready (opts late : List SOpt) (a mi : Nat) (w : W EO) : Prop :=
  ∃ p, Rep0 (SOpt.muted (opts ++ late) w.ext.out) w a mi p w.ext.out ∧ Octet.IdleB (SOpt.bestEffort ∈ opts ++ late) (SOpt.bestEffort ∈ opts) (maximum (opts ++ late)) p

theorem does_imp {X : Env0 EO} {f : Nm} {args : List Val} {w : W EO} {P Q : Out EO Val → Prop} (h : Does X f args w P) (hpq : ∀ o, P o → Q o) : Does X f args w Q := by
  obtain ⟨d, h⟩ := h
  exact ⟨d, fun n hn => (h n hn).imp fun o ho => ⟨ho.1, hpq o ho.2⟩⟩

theorem later_maximum {opts late : List SOpt} {o : SOpt} {acts : List OAct} {n : Int} (hn : SOpt.maxLength n ∈ opts ++ (late ++ [o]) ∨ OAct.option (.maxLength n) ∈ acts) :
    SOpt.maxLength n ∈ opts ++ late ∨ OAct.option (.maxLength n) ∈ OAct.option o :: acts := by
  rcases hn with hn | hn
  · rw [← List.append_assoc, List.mem_append] at hn
    rcases hn with hn | hn
    · exact Or.inl hn
    · right; rw [List.mem_singleton] at hn; simp [hn]
  · exact Or.inr (by simp [hn])

/-- an option, applied to the parser -/
theorem option_ready (extra : Nat → Nat) (order : List Bytes → List Bytes) {other : Nm → List Val → M EO Val} {opts late : List SOpt} {a mi : Nat} {w : W EO} (o : SOpt) (hr : Ready opts late a mi w) :
    ∃ f caps, o.val = .clo f caps ∧ Does (octXC extra order other) f (caps ++ [.ptr a []]) w fun r => ∃ w', r = .ok (.ptr a []) w' ∧ w'.ext = w.ext ∧
      (∀ c, c < a → w'.heap c = w.heap c) ∧ w'.glob = w.glob ∧ Ready opts (late ++ [o]) a mi w' := by
  obtain ⟨p, R, hi⟩ := hr
  obtain ⟨f, caps, hc⟩ := o.val_clo
  obtain ⟨last, sv, h1, h2⟩ := R.heap
  refine ⟨f, caps, hc, does 2 fun n => ?_⟩
  obtain ⟨w', hw'⟩ : ∃ w' : W EO, w' = { w with heap := upd w.heap a (parserVal0 (.ptr mi []) sv last (o.em (octEmitVal (SOpt.muted (opts ++ late) w.ext.out))) (o.ap p)) } := ⟨_, rfl⟩
  have e := sopt_call (extra := extra) (order := order) (other := other) n h1 o hc
  rw [← hw'] at e
  have hext : w'.ext = w.ext := by rw [hw']
  have hne := R.ne
  have hmi : w'.heap mi = w.heap mi := by rw [hw']; simp [upd_apply, hne]
  have next : Ready opts (late ++ [o]) a mi w' := by
    refine ⟨o.ap p, ⟨⟨last, sv, ?_, ?_⟩, ?_, ?_, hne, ?_, ?_, ?_, ?_⟩, ?_⟩
    · rw [hext, ← List.append_assoc, ← em_muted, hw']; simp
    · cases o <;> exact h2
    · rw [hw']; exact R.lt
    · rw [hw']; exact R.mlt
    · rw [hmi]; cases o <;> exact R.mbe
    · rw [hmi]; cases o <;> exact R.mco
    · rw [hmi]; exact R.mty
    · exact (muted_getD _ _).symm
    · rw [← List.append_assoc]; exact ap_config o hi
  exact ⟨_, e, w', rfl, hext, fun c hc => by rw [hw']; simp [upd_apply, show c ≠ a by omega], by rw [hw'], next⟩

/-- `HasBestEffort` -/
theorem hasBestEffort_ready (extra : Nat → Nat) (order : List Bytes → List Bytes) {other : Nm → List Val → M EO Val} {opts late : List SOpt} {a mi : Nat} {w : W EO} (hr : Ready opts late a mi w) :
    Returns (octXC extra order other) .octetcounting_parser_HasBestEffort [.ptr a []] w (.bool (SOpt.bestEffort ∈ opts ++ late)) := by
  obtain ⟨p, R, hi⟩ := hr
  refine returns 1 fun n => ?_
  obtain ⟨last, sv, h1, _⟩ := R.heap
  rw [call_fn (octc_prog _ _ _) prog_octetcounting_parser_HasBestEffort]
  simp only [parserVal0] at h1
  have hgo := hi.hgo
  simp [octetcounting_parser_HasBestEffort, h1, hgo]

/-- `Parse` -/
theorem parse_ready (extra : Nat → Nat) (order : List Bytes → List Bytes) {opts late : List SOpt} {a mi : Nat} {w : W EO} (reads : List Octet.Read) (hr : Ready opts late a mi w)
    (hf : ∀ n, SOpt.maxLength n ∈ opts ++ late → n < 2 ^ 63 - 20) :
    Does (octX extra order) .octetcounting_parser_Parse [.ptr a [], .ext (.obj 0)] (reading w reads) fun o => ∃ w' vs, o = .ok (.tuple []) w' ∧ w'.ext.out = w.ext.out ++ vs ∧
      (∃ rs, (if SOpt.listener ∈ opts ++ late then OutRep vs rs else vs = []) ∧
        ∀ bytes, Spec.Delivers reads bytes → Spec.EmitsOn 64 (SOpt.bestEffort ∈ opts ++ late) (SOpt.bestEffort ∈ opts) (maximum (opts ++ late)) bytes rs) ∧
      (∀ c, c < a → w'.heap c = w.heap c) ∧ w'.glob = w.glob ∧ Ready opts late a mi w' := by
  obtain ⟨p, R, hi⟩ := hr
  have hfit : maximum (opts ++ late) < 2 ^ 63 - 20 := maximum_fits _ hf
  obtain ⟨p', e, hi'⟩ := Octet.parseB_idle (bits := 64) hi (wrap_fits (Or.inr rfl) hfit) reads
  rw [Octet.parseB_64] at e
  refine does 7 fun n => ?_
  obtain ⟨w', vs, e1, v1, R1, S1⟩ := parse_call (extra := extra) (order := order) xParse5_ok n (w := reading w reads) e (rep_reading R reads) Guard.plain trivial
  have spec : ∀ bytes, Spec.Delivers reads bytes → Spec.EmitsOn 64 (SOpt.bestEffort ∈ opts ++ late) (SOpt.bestEffort ∈ opts) (maximum (opts ++ late)) bytes (Octet.prunB 64 (SOpt.bestEffort ∈ opts ++ late) (SOpt.bestEffort ∈ opts) (maximum (opts ++ late)) (Octet.delivered reads)) :=
    fun bytes hb => Octet.emitsOn_iff.mpr (by rw [Octet.delivers_delivered hb])
  have hw : (reading w reads).glob = w.glob := rfl
  have next : Ready opts late a mi w' := by
    have R2 := R1.idle
    refine ⟨p', ⟨?_, R2.lt, R2.mlt, R2.ne, R2.mbe, R2.mco, R2.mty, (muted_getD _ _).symm⟩, hi'⟩
    obtain ⟨last, sv, h1, h2⟩ := R2.heap
    refine ⟨last, sv, h1.trans ?_, h2⟩
    unfold SOpt.muted; split <;> rfl
  have frame : ∀ c, c < a → w'.heap c = w.heap c := fun c hc => S1.1 c (Nat.lt_trans hc R.lt) (by omega)
  by_cases hl : SOpt.listener ∈ opts ++ late
  · have hout : w'.ext.out = w.ext.out ++ vs := by rw [R1.out, SOpt.muted, if_pos ((SOpt.hears_iff _).mpr hl)]; rfl
    exact ⟨_, e1, w', vs, rfl, hout, ⟨_, by rw [if_pos hl]; exact v1.values, spec⟩, frame, S1.2.2.1, next⟩
  · have hout : w'.ext.out = w.ext.out ++ [] := by rw [R1.out, SOpt.muted, if_neg (mt (SOpt.hears_iff _).mp hl)]; simp
    exact ⟨_, e1, w', [], rfl, hout, ⟨_, by rw [if_neg hl], spec⟩, frame, S1.2.2.1, next⟩

theorem octet_acts (extra : Nat → Nat) (order : List Bytes → List Bytes) (opts : List SOpt) (a mi : Nat) : ∀ (acts : List OAct) (late : List SOpt) (w : W EO),
    Ready opts late a mi w → (∀ n, SOpt.maxLength n ∈ opts ++ late ∨ .option (.maxLength n) ∈ acts → n < 2 ^ 63 - 20) → OctetActs (octX extra order) opts a a acts late w := by
  intro acts
  induction acts with
  | nil => intros; trivial
  | cons act acts ih =>
    intro late w hr hf
    cases act with
    | parse reads =>
      refine does_imp (parse_ready extra order reads hr fun n hn => hf n (Or.inl hn)) ?_
      rintro o ⟨w', vs, h1, h2, h3, h4, h5, next⟩
      exact ⟨w', vs, h1, h2, h3, h4, h5, ih late w' next fun n hn => hf n (hn.imp id fun h => by simp [h])⟩
    | option o =>
      obtain ⟨f, caps, hc, h⟩ := option_ready extra order o hr
      refine ⟨f, caps, hc, does_imp h ?_⟩
      rintro r ⟨w', rfl, h1, h2, h3, next⟩
      exact ⟨w', rfl, h1, h2, h3, ih _ w' next fun n hn => hf n (later_maximum hn)⟩
    | hasBestEffort =>
      exact ⟨hasBestEffort_ready extra order hr, ih late w hr fun n hn => hf n (hn.imp id fun h => by simp [h])⟩

/-- the constructor -/
theorem new_ready (extra : Nat → Nat) (order : List Bytes → List Bytes) {other : Nm → List Val → M EO Val} (opts : List SOpt) (w : W EO) (s : Val) (hs : IsSlice w s (opts.map SOpt.val)) :
    Does (octXC extra order other) .octetcounting_NewParser [s] w fun o => ∃ a mi w0, o = .ok (.ptr a []) w0 ∧ w0.ext = w.ext ∧ (∀ c, c < w.next → w0.heap c = w.heap c) ∧
      Ready opts [] a mi w0 ∧ a = w.next := by
  refine does 5 fun n => ?_
  obtain ⟨w0, e, ⟨mi, hmi, R⟩, h1, h2⟩ := newParser_call (extra := extra) (order := order) (other := other) n hs
  refine ⟨_, e, w.next, mi, w0, rfl, h1, h2.1, ⟨Octet.newParser (SOpt.model opts), ?_, ?_⟩, rfl⟩
  · rw [List.append_nil, h1]; exact R
  · rw [List.append_nil]; exact new_config opts

end MiniSrc

open MiniSrc

variable (extra : Nat → Nat) (order : List Bytes → List Bytes)

/-- **C114**: `NewParser(opts...)`, then any sequence of `Parse`, options and `HasBestEffort`: every call does what `OctetActs` says, and variables that existed before
are not changed. The maxima are smaller than the largest `int` by 20 (C71). -/
theorem C114_every_history (opts : List SOpt) (w : W EO) (s : Val) (hs : IsSlice w s (opts.map SOpt.val)) (acts : List OAct)
    (hfit : ∀ n, SOpt.maxLength n ∈ opts ∨ .option (.maxLength n) ∈ acts → n < 2 ^ 63 - 20) :
    Does (octX extra order) .octetcounting_NewParser [s] w fun o => ∃ a w0, o = .ok (.ptr a []) w0 ∧ w0.ext = w.ext ∧ (∀ c, c < w.next → w0.heap c = w.heap c) ∧
      OctetActs (octX extra order) opts a w.next acts [] w0 := by
  refine does_imp (new_ready extra order opts w s hs) ?_
  rintro o ⟨a, mi, w0, rfl, h1, h2, h3, rfl⟩
  exact ⟨_, w0, rfl, h1, h2, octet_acts extra order opts w.next mi acts [] w0 h3 fun n hn => hfit n (by simpa using hn)⟩

/-! ## A case -/

namespace MiniSrc

/-- no options; a listener; a stream with a wrong message; best effort and a smaller maximum; two streams; the question -/
def exOctetActs : List OAct :=
  [.parse [⟨ascii "16 <1>1 - - - - - -", false⟩], .option .listener, .parse [⟨ascii "3 <1>16 <1>1 - - - - - -", false⟩], .hasBestEffort, .option .bestEffort, .option (.maxLength 16),
   .parse [⟨ascii "3 <1>16 <1>1 - - ", false⟩, ⟨ascii "- - - -17 <1>", false⟩], .hasBestEffort]

end MiniSrc

example (w : W EO) (h : w.heap 0 = .arr []) (hn : 0 < w.next) : Does (octX extra order) .octetcounting_NewParser [.slice 0 0 0 0] w fun o => ∃ a w0, o = .ok (.ptr a []) w0 ∧ w0.ext = w.ext ∧ (∀ c, c < w.next → w0.heap c = w.heap c) ∧
    OctetActs (octX extra order) [] a w.next exOctetActs [] w0 :=
  C114_every_history extra order [] w _ (Or.inr ⟨0, 0, 0, 0, [], rfl, h, hn, by simp, by simp, rfl⟩) exOctetActs (by intro n hn; simp [exOctetActs] at hn; omega)

end Verif.Props
