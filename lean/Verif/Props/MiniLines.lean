import Verif.Mini.LinesNew
import Verif.Props.MiniCtor
import Verif.Props.MiniOctet
import Verif.Props.NonTransparentCalls

/-!
# Non-transparent framing, statement by statement (C106)

The bodies of `nontransparent/parser.go` (without `Exec`, which Ragel writes: C101) and `nontransparent/trailer_type.go` as they stand in the
repository (`Verif.Gen.Mini.prog`), executed by `Mini.call`: what the listener gets are the results that the properties C48 to C54 and C73 are about.
-/

set_option linter.constructorNameAsVariable false

namespace Verif.Props
open Verif.Mini Verif.Gen.Mini
open Verif.NonTransparent (Machine TrailerType ReadErr Driver)

namespace MiniSrc

/-- the world when the user hands over a reader that delivers `bytes` and then the error `stop` (or the end of the stream) -/
def feeding (w : W EN) (bytes : Bytes) (stop : ReadErr) : W EN := { w with ext := { w.ext with stream := bytes, stop := stop } }

/-- what a caller can do with a parser -/
inductive LAct where
  | parse (bytes : Bytes) (stop : ReadErr)
  | opt (o : NOpt)
  | hasBestEffort

/-- the bytes of all the streams -/
def volume : List LAct → Nat
  | [] => 0
  | .parse bytes _ :: acts => bytes.length + volume acts
  | _ :: acts => volume acts

/-- The acts, one after the other, on the parser at `a`: all the calls return. `m` is the parser in the model, `listens` says whether there is a
listener. `Parse` gives the listener the results of the model, in order (nothing without a listener); an option changes the parser as in the
model; `HasBestEffort` tells the option. Variables below `lo` are not changed. At the end, `P`. -/
def LineCalls (X : Env0 EN) (d : Driver) (a lo : Nat) (P : W EN → Prop) : List LAct → Machine → Bool → W EN → Prop
  | [], _, _, w => P w
  | .parse bytes stop :: acts, m, listens, w => ∃ m', Machine.parse d { m with out := [] } bytes stop = some m' ∧
      Does X .nontransparent_machine_Parse [.ptr a [], .ext (.obj 0)] (feeding w bytes stop) fun o => ∃ w', o = .ok (.tuple []) w' ∧
        w'.ext.out = w.ext.out ++ (if listens then m'.out.map nresVal else []) ∧ (∀ c, c < lo → w'.heap c = w.heap c) ∧ LineCalls X d a lo P acts m' listens w'
  | .opt o :: acts, m, listens, w => ∃ f caps, o.val = .clo f caps ∧
      Does X f (caps ++ [.ptr a []]) w fun r => ∃ w', r = .ok (.ptr a []) w' ∧ w'.ext = w.ext ∧ (∀ c, c < lo → w'.heap c = w.heap c) ∧ LineCalls X d a lo P acts (o.ap m) (o.listens listens) w'
  | .hasBestEffort :: acts, m, listens, w => Returns X .nontransparent_machine_HasBestEffort [.ptr a []] w (.bool m.bestEffort) ∧ LineCalls X d a lo P acts m listens w

theorem RepN_rebase {MR : NRel} {lo : Nat} {w : W EN} {a mi : Nat} {em : Bool} {pre : List (Val × Val)} {m : Machine} (h : RepN MR lo w a mi em pre m) : RepN MR w.next w a mi em w.ext.out { m with out := [] } :=
  ⟨h.heap, h.mach, h.ne, h.lt, h.mlt, h.lt, h.mlt, [], by simp, Nat.le_refl _, fun _ => rfl, fun _ => Nat.le_refl w.next⟩

theorem RepN_feeding {MR : NRel} {lo : Nat} {w : W EN} {a mi : Nat} {em : Bool} {pre : List (Val × Val)} {m : Machine} (h : RepN MR lo w a mi em pre m) (bytes : Bytes) (stop : ReadErr) : RepN MR lo (feeding w bytes stop) a mi em pre m :=
  ⟨h.heap, h.mach, h.ne, h.lt, h.mlt, h.low, h.mlow, h.out.keep (Nat.le_refl _) (Nat.le_refl _) rfl fun _ _ _ => rfl⟩

theorem ap_agrees {m : Machine} (h : Agrees m) (o : NOpt) : Agrees (o.ap m) ∧ (o.ap m).internal = m.internal ∧ (o.ap m).candidate = m.candidate ∧ (o.ap m).lastChunk = m.lastChunk ∧ (o.ap m).out = m.out := by
  cases o with
  | trailer t =>
    simp only [NOpt.ap, NOpt.model, NonTransparent.applyOpt]
    cases hv : NonTransparent.TrailerType.value t with
    | none => exact ⟨h, rfl, rfl, rfl, rfl⟩
    | some b => exact ⟨agrees_value (b := b) hv rfl, rfl, rfl, rfl, rfl⟩
  | _ => exact ⟨h, rfl, rfl, rfl, rfl⟩

/-- what the listener gets -/
def heard (d : Driver) : List LAct → Machine → Bool → Option (List NonTransparent.Result)
  | [], _, _ => some []
  | .parse bytes stop :: acts, m, listens => match Machine.parse d { m with out := [] } bytes stop with
    | none => none
    | some m' => (heard d acts m' listens).map ((if listens then m'.out else []) ++ ·)
  | .opt o :: acts, m, listens => heard d acts (o.ap m) (o.listens listens)
  | .hasBestEffort :: acts, m, listens => heard d acts m listens

/-- the acts that the model has -/
def doOf : LAct → Option NT.Do
  | .parse bytes stop => some (.parse bytes stop)
  | .opt o => o.model.map .opt
  | .hasBestEffort => none

/-- of what the calls of `Parse` report, what goes to the listener: the reports of the calls that begin when there is one -/
def toListener {α : Type} : List LAct → Bool → List (List α) → List α
  | .parse _ _ :: acts, listens, r :: rs => (if listens then r else []) ++ toListener acts listens rs
  | .opt o :: acts, listens, rs => toListener acts (o.listens listens) rs
  | .hasBestEffort :: acts, listens, rs => toListener acts listens rs
  | _, _, _ => []

theorem toListener_map {α β : Type} (f : α → β) : ∀ (acts : List LAct) (b : Bool) (rs : List (List α)), toListener acts b (rs.map (List.map f)) = (toListener acts b rs).map f
  | [], _, _ => by simp [toListener]
  | .parse _ _ :: acts, b, [] => by simp [toListener]
  | .parse _ _ :: acts, b, r :: rs => by
    simp only [List.map_cons, toListener, toListener_map f acts b rs, List.map_append]
    cases b <;> rfl
  | .opt o :: acts, b, rs => by simp only [toListener, toListener_map f acts _ rs]
  | .hasBestEffort :: acts, b, rs => by simp only [toListener, toListener_map f acts _ rs]

theorem heard_calls (d : Driver) : ∀ (acts : List LAct) (m : Machine) (b : Bool), heard d acts m b = (NT.calls d m (acts.filterMap doOf)).map (toListener acts b)
  | [], _, _ => rfl
  | .parse bytes stop :: acts, m, b => by
    simp only [heard, doOf, List.filterMap_cons, NT.calls]
    cases Machine.parse d { m with out := [] } bytes stop with
    | none => rfl
    | some m' =>
      simp only [heard_calls d acts m']
      cases NT.calls d m' (acts.filterMap doOf) <;> rfl
  | .opt o :: acts, m, b => by
    simp only [heard, heard_calls d acts (o.ap m)]
    cases o <;> rfl
  | .hasBestEffort :: acts, m, b => by simp only [heard, heard_calls d acts m]; rfl

section
variable (extra : Nat → Nat) (order : List Bytes → List Bytes) (parse5 : List Val → M EN Val) (d : Driver)

theorem line_calls (hP : ParseOk kit5 (ntBase extra order parse5)) (a mi lo : Nat) (hlo : lo ≤ a) (hlm : lo ≤ mi) (P : W EN → Prop) : ∀ (acts : List LAct) (m : Machine) (em : Bool) (w : W EN),
    RepN valRelN w.next w a mi em w.ext.out { m with out := [] } → Agrees m → m.candidate.length + volume acts < 2 ^ 63 → lo ≤ w.next →
    (∀ w' rs, heard d acts m em = some rs → w'.ext.out = w.ext.out ++ rs.map nresVal → (∀ c, c < lo → w'.heap c = w.heap c) → P w') →
    LineCalls (ntX extra order parse5 d) d a lo P acts m em w
  | [], _, _, w, _, _, _, _, hp => hp w [] rfl (by simp) (fun _ _ => rfl)
  | .parse bytes stop :: acts, m, em, w, h, hag, hb, hn, hp => by
    simp only [volume] at hb
    have h1 := RepN_feeding h bytes stop
    have hb' : (feeding w bytes stop).ext.stream.length = bytes.length := rfl
    obtain ⟨m', w', q1, q2, q3, q4, q5, q6⟩ := nparse_call (extra := extra) (order := order) (d := d) (nparses_values hP) 0 h1 hag (by rw [hb']; simp only; omega)
    refine ⟨m', q1, does 2 fun n => ?_⟩
    obtain ⟨m2, w2, r1, r2, r3, r4, r5, r6⟩ := nparse_call (extra := extra) (order := order) (d := d) (nparses_values hP) n h1 hag (by rw [hb']; simp only; omega)
    obtain rfl : m2 = m' := Option.some.inj (r1.symm.trans q1)
    have hn2 : w.next ≤ w2.next := r4.next
    have hold : ∀ c, c < lo → w2.heap c = w.heap c := fun c hc => r4.heap c (show c < w.next by omega) (by omega) (by omega)
    refine ⟨_, r2, w2, rfl, r3.out.values, hold, ?_⟩
    refine line_calls hP a mi lo hlo hlm P acts m2 em w2 (RepN_rebase r3) (r5.agrees hag) (by rw [hb'] at r6; simp only at r6; omega) (by omega) ?_
    intro w3 rs g1 g2 g3
    refine hp w3 ((if em then m2.out else []) ++ rs) ?_ ?_ fun c hc => (g3 c hc).trans (hold c hc)
    · have : Machine.parse d { m with out := [] } bytes stop = some m2 := r1
      simp only [heard, this, g1, Option.map_some]
    · rw [g2, r3.out.values]
      cases em <;> simp
  | .opt o :: acts, m, em, w, h, hag, hb, hn, hp => by
    simp only [volume] at hb
    obtain ⟨cv, lv, hh, hc, hl⟩ := h.heap
    obtain ⟨f, caps, hf⟩ := o.val_clo
    obtain ⟨k1, k2, k3, k4, k5⟩ := ap_agrees hag o
    refine ⟨f, caps, hf, does 3 fun n => ?_⟩
    have e := nopt_call (extra := extra) (order := order) (parse5 := parse5) (d := d) (m := m) n hh o hf
    have hr : RepN valRelN w.next { w with heap := upd w.heap a (ntVal (o.ap m) cv lv (emitVal (o.listens em)) (.ptr mi [])) } a mi (o.listens em) w.ext.out { o.ap m with out := [] } := by
      obtain ⟨fs, e1, g⟩ := h.mach
      exact ⟨⟨cv, lv, by simp [ntVal], by rw [hc]; simp [k3], by rw [hl]; simp [k4]⟩, ⟨fs, by simp [Mini.upd_apply, Ne.symm h.ne, e1], by simp only [k2]; exact g⟩, h.ne, h.lt, h.mlt, h.lt, h.mlt, [], by simp, Nat.le_refl _, fun _ => rfl, fun _ => Nat.le_refl w.next⟩
    have hold : ∀ c, c < lo → upd w.heap a (ntVal (o.ap m) cv lv (emitVal (o.listens em)) (.ptr mi [])) c = w.heap c := fun c hc => by simp [Mini.upd_apply, show c ≠ a by omega]
    refine ⟨_, e, _, rfl, rfl, hold, ?_⟩
    refine line_calls hP a mi lo hlo hlm P acts (o.ap m) (o.listens em) _ hr k1 (by rw [k3]; omega) hn ?_
    intro w3 rs g1 g2 g3
    exact hp w3 rs g1 g2 fun c hc => (g3 c hc).trans (hold c hc)
  | .hasBestEffort :: acts, m, em, w, h, hag, hb, hn, hp => by
    simp only [volume] at hb
    exact ⟨returns 1 fun n => nhasBestEffort_call (m := { m with out := [] }) n h, line_calls hP a mi lo hlo hlm P acts m em w h hag hb hn hp⟩

end

end MiniSrc

open MiniSrc

variable (extra : Nat → Nat) (order : List Bytes → List Bytes) (parse5 : List Val → M EN Val) (d : Driver)

/-- **C106** (`nontransparent.NewParser(opts...)`, then any sequence of `Parse(r)`, options applied to the parser, `HasBestEffort()`): every call
returns, none panics; what each does is what the model says (`LineCalls`), and in the end the listener has got exactly what the model's parser
gives it from the moment there is a listener. -/
theorem C106_parser (hP : ParseOk kit5 (ntBase extra order parse5)) (opts : List NOpt) (w : W EN) (s : Val) (hs : IsSlice w s (opts.map NOpt.val)) (acts : List LAct) (hv : volume acts < 2 ^ 63) :
    Does (ntX extra order parse5 d) .nontransparent_NewParser [s] w fun o => ∃ a w0, o = .ok (.ptr a []) w0 ∧ w.next ≤ a ∧ w0.ext = w.ext ∧
      LineCalls (ntX extra order parse5 d) d a w.next
        (fun w' => (∃ rs, heard d acts (NonTransparent.newParser (opts.filterMap NOpt.model)) (hasListener opts) = some rs ∧ w'.ext.out = w.ext.out ++ rs.map nresVal) ∧ ∀ c, c < w.next → w'.heap c = w.heap c)
        acts (NonTransparent.newParser (opts.filterMap NOpt.model)) (hasListener opts) w0 := by
  refine does 5 fun n => ?_
  obtain ⟨w0, mi, e, R, h1, h2, h3, h4, h5, h6⟩ := nnewParser_call (extra := extra) (order := order) (parse5 := parse5) (d := d) (MR := valRelN) n hs
  refine ⟨_, e, w.next, w0, rfl, Nat.le_refl _, h2, ?_⟩
  refine line_calls extra order parse5 d hP w.next mi w.next (Nat.le_refl _) (by omega) _ acts _ _ w0 (RepN_rebase R) h4 (by rw [h5]; simpa using hv) (Nat.le_of_lt R.lt) ?_
  intro w' rs g1 g2 g3
  exact ⟨⟨rs, g1, by rw [g2, h2]⟩, fun c hc => (g3 c hc).trans (h3.1 c hc)⟩

/-- **C106** (the same, from the source to the specification of C73): what the listener gets is, for the reports that `Spec.Calls` allows for these acts (there is
exactly one possibility: C73), the results of the texts reported by the calls that begin when there is a listener, from the start or set later. -/
theorem C106_history (hP : ParseOk kit5 (ntBase extra order parse5)) (opts : List NOpt) (w : W EN) (s : Val) (hs : IsSlice w s (opts.map NOpt.val)) (acts : List LAct) (hv : volume acts < 2 ^ 63) :
    Does (ntX extra order parse5 d) .nontransparent_NewParser [s] w fun o => ∃ a w0, o = .ok (.ptr a []) w0 ∧
      LineCalls (ntX extra order parse5 d) d a w.next
        (fun w' => ∃ reports, Spec.Calls (NT.loopOf d) (NT.trailerByte (opts.filterMap NOpt.model)) {} ((acts.filterMap doOf).flatMap NT.actsOf) reports ∧
          w'.ext.out = w.ext.out ++ (toListener acts (hasListener opts) reports).map fun r => nresVal (NT.resultFor (NT.isBestEffort (opts.filterMap NOpt.model)) r))
        acts (NonTransparent.newParser (opts.filterMap NOpt.model)) (hasListener opts) w0 := by
  refine does 5 fun n => ?_
  obtain ⟨w0, mi, e, R, h1, h2, h3, h4, h5, h6⟩ := nnewParser_call (extra := extra) (order := order) (parse5 := parse5) (d := d) (MR := valRelN) n hs
  refine ⟨_, e, w.next, w0, rfl, ?_⟩
  refine line_calls extra order parse5 d hP w.next mi w.next (Nat.le_refl _) (by omega) _ acts _ _ w0 (RepN_rebase R) h4 (by rw [h5]; simpa using hv) (Nat.le_of_lt R.lt) ?_
  intro w' rs g1 g2 g3
  rw [heard_calls, Option.map_eq_some_iff] at g1
  obtain ⟨rss, g4, g5⟩ := g1
  obtain ⟨reports, g6, g7⟩ := (C73_every_history d _ _ _).mp g4
  refine ⟨reports, g6, ?_⟩
  rw [g2, h2, ← g5, g7, toListener_map, List.map_map]
  rfl

/-- **C106** (`TrailerType.Value`, `String`, `MarshalText`): 0 is LF, 1 is NUL, everything else is unknown. -/
theorem C106_trailers (w : W EN) (t : Int) :
    Returns (ntX extra order parse5 d) .nontransparent_TrailerType_String [.int .int t] w (.str (if t = 0 then ascii "LF" else if t = 1 then ascii "NUL" else [])) ∧
    Returns (ntX extra order parse5 d) .nontransparent_TrailerType_Value [.int .int t] w
      (.tuple (if t = 0 then [.int .int 10, .nil] else if t = 1 then [.int .int 0, .nil] else [.int .const (-1), .err (ascii "unknown TrailerType") []])) ∧
    Returns (ntX extra order parse5 d) .nontransparent_TrailerType_MarshalText [.int .int t] w
      (.tuple (if t = 0 then [.str (ascii "LF"), .nil] else if t = 1 then [.str (ascii "NUL"), .nil] else [.nil, .err (ascii "unknown TrailerType") []])) ∧
    Returns (ntX extra order parse5 d) .nontransparent_WithTrailer [.int .int t] w (NOpt.val (.trailer t)) := by
  refine ⟨returns 1 fun n => ?_, returns 2 fun n => ?_, returns 2 fun n => ?_, returns 1 fun n => ?_⟩
  · rw [nstring_call]
    rcases trailer_cases t with h | rfl | rfl
    · have h0 : t ≠ 0 := by simp only [TrailerType] at h; omega
      have h1 : t ≠ 1 := by simp only [TrailerType] at h; omega
      rw [if_neg h0, if_neg h1, NonTransparent.TrailerType.string, if_pos (by exact h)]
    · rfl
    · rfl
  · rw [value_call]
    rcases trailer_cases t with h | rfl | rfl
    · have h0 : t ≠ 0 := by simp only [TrailerType] at h; omega
      have h1 : t ≠ 1 := by simp only [TrailerType] at h; omega
      rw [if_neg h0, if_neg h1, valueVals, NonTransparent.TrailerType.value, if_pos (by exact h)]; rfl
    · rfl
    · rfl
  · rw [marshal_call]
    rcases trailer_cases t with h | rfl | rfl
    · have h0 : t ≠ 0 := by simp only [TrailerType] at h; omega
      have h1 : t ≠ 1 := by simp only [TrailerType] at h; omega
      rw [if_neg h0, if_neg h1, marshalVals, NonTransparent.TrailerType.marshalText, if_neg (by rw [NonTransparent.TrailerType.string, if_pos (by exact h)]; simp)]; rfl
    · rfl
    · rfl
  · rw [call_fn (p := prog) rfl prog_nontransparent_WithTrailer]; rfl

/-- **C106** (`TrailerTypeFromString`, `UnmarshalText`, `UnmarshalTOML`): what C53 says; the variable is set, to -1 if the name is unknown. -/
theorem C106_trailer_names (w : W EN) (s : Bytes) (p : Nat) (v : Int) (hp : w.heap p = .int .int v) :
    (∃ k, Returns (ntX extra order parse5 d) .nontransparent_TrailerTypeFromString [.str s] w (.tuple [.int k (NonTransparent.trailerTypeFromString s).1,
      if (NonTransparent.trailerTypeFromString s).2 then .nil else .err (ascii "unknown TrailerType") []])) ∧
    ∀ f, f = .nontransparent_TrailerType_UnmarshalText ∨ f = .nontransparent_TrailerType_UnmarshalTOML →
      Does (ntX extra order parse5 d) f [.ptr p [], .str s] w fun o => o = .ok (if (NonTransparent.trailerTypeFromString s).2 then .nil else .err (ascii "unknown TrailerType") [])
        { w with heap := upd w.heap p (.int .int (NonTransparent.trailerTypeFromString s).1) } := by
  refine ⟨⟨if (NonTransparent.trailerTypeFromString s).2 then .int else .const, returns 2 fun n => ?_⟩, ?_⟩
  · rw [from_call, fromVals]
    cases (NonTransparent.trailerTypeFromString s).2 <;> rfl
  · rintro f (rfl | rfl)
    · exact does 3 fun n => ⟨_, unmarshal_call n s hp, rfl⟩
    · exact does 4 fun n => ⟨_, unmarshalTOML_call n s hp, rfl⟩

/-! ## Cases -/

namespace MiniSrc

/-- a `machine.Parse` that returns what the model says meets the hypothesis -/
theorem lines_ok : ParseOk kit5 (ntBase extra order xMachine5) := by
  intro w mi c input h
  have hc := isMach_cfg5 h
  obtain ⟨v, hv, hm⟩ := isMach_put (Or.inl rfl) h (.str input)
  have hr := Rfc5424.parse1_eq c input
  refine ⟨_, _, { w with heap := upd w.heap mi v }, by simp only [kit5, hr]; rfl, ?_, hm, Nat.le_refl _, fun x _ hx => by simp [Mini.upd, hx], rfl⟩
  show (match cfgOf5 (w.heap mi) with
    | some o => match Rfc5424.parse1 o input, (w.heap mi).put .data (.str input) with
      | some r, some v => some (Out.ok (Val.tuple [msgVal r.msg, err5Val r.err]) { w with heap := upd w.heap mi v })
      | _, _ => some (.panic w)
    | none => none) = _
  rw [hc]
  simp only [hr, hv]

/-- `[]syslog.ParserOption{WithTrailer(NUL), WithTrailer(7), WithBestEffort()}` -/
def exLineOpts : List NOpt := [.trailer 1, .trailer 7, .bestEffort]
def exLines : W EN :=
  { heap := fun a => if a = 0 then .arr (exLineOpts.map NOpt.val) else .nil, next := 1, glob := fun _ => .nil, ext := { stream := [], stop := .unexpectedEOF, out := [] } }

/-- a stream without a listener, then with one: the message held back is reported again, then the new one, then the rest with the reader's error -/
def exActs : List LAct :=
  [.hasBestEffort, .parse (ascii "<1>1 - - - - - -" ++ [0]) .unexpectedEOF, .opt .listener, .opt (.maxLength 3), .parse (ascii "<2>1 - - - - - -" ++ [0] ++ ascii "<3>1 x") (.other 5)]

def exHeard : Option (List NonTransparent.Result) → Bool
  | some [⟨some m1, none⟩, ⟨some m2, none⟩, ⟨some m3, some (.message e)⟩] => m1.priority == some 1 && m2.priority == some 2 && m3.priority == some 3 && e.col == 5
  | _ => false

set_option maxRecDepth 100000 in
theorem exHeard_ok : exHeard (heard ⟨false, false, false⟩ exActs (NonTransparent.newParser (exLineOpts.filterMap NOpt.model)) (hasListener exLineOpts)) = true := by decide +kernel

theorem exHeard_inv {x : Option (List NonTransparent.Result)} (h : exHeard x = true) : ∃ m1 m2 m3 e, x = some [⟨some m1, none⟩, ⟨some m2, none⟩, ⟨some m3, some (.message e)⟩] ∧
    m1.priority = some 1 ∧ m2.priority = some 2 ∧ m3.priority = some 3 := by
  unfold exHeard at h
  split at h
  · simp only [Bool.and_eq_true, beq_iff_eq] at h
    exact ⟨_, _, _, _, rfl, h.1.1.1, h.1.1.2, h.1.2⟩
  · cases h

theorem LineCalls_mono {X : Env0 EN} {d : Driver} {a lo : Nat} {P Q : W EN → Prop} (hpq : ∀ w, P w → Q w) : ∀ {acts : List LAct} {m : Machine} {b : Bool} {w : W EN}, LineCalls X d a lo P acts m b w → LineCalls X d a lo Q acts m b w
  | [], _, _, w, h => hpq w h
  | .parse _ _ :: _, _, _, _, ⟨m', h1, h2⟩ => ⟨m', h1, Does.mono h2 fun _ ⟨w', e, h3, h4, h5⟩ => ⟨w', e, h3, h4, LineCalls_mono hpq h5⟩⟩
  | .opt _ :: _, _, _, _, ⟨f, caps, h1, h2⟩ => ⟨f, caps, h1, Does.mono h2 fun _ ⟨w', e, h3, h4, h5⟩ => ⟨w', e, h3, h4, LineCalls_mono hpq h5⟩⟩
  | .hasBestEffort :: _, _, _, _, ⟨h1, h2⟩ => ⟨h1, LineCalls_mono hpq h2⟩

end MiniSrc

example : Does (ntX extra order xMachine5 ⟨false, false, false⟩) .nontransparent_NewParser [.slice 0 0 3 3] exLines fun o => ∃ a w0, o = .ok (.ptr a []) w0 ∧
    LineCalls (ntX extra order xMachine5 ⟨false, false, false⟩) ⟨false, false, false⟩ a 1
      (fun w' => ∃ m1 m2 m3 e, w'.ext.out = [(.ext (.msg5 m1), .nil), (.ext (.msg5 m2), .nil), (.ext (.msg5 m3), .ext (.err5 e))] ∧ m1.priority = some 1 ∧ m2.priority = some 2 ∧ m3.priority = some 3)
      exActs (NonTransparent.newParser (exLineOpts.filterMap NOpt.model)) false w0 := by
  refine Does.mono (C106_parser extra order xMachine5 ⟨false, false, false⟩ (lines_ok extra order) exLineOpts exLines (.slice 0 0 3 3) (Or.inr ⟨0, 0, 3, 3, _, rfl, rfl, by decide, by decide, by decide, rfl⟩) exActs (by decide +kernel)) ?_
  rintro o ⟨a, w0, rfl, _, _, h⟩
  refine ⟨a, w0, rfl, LineCalls_mono ?_ h⟩
  rintro w' ⟨⟨rs, h1, h2⟩, -⟩
  obtain ⟨m1, m2, m3, e, h3, p⟩ := exHeard_inv exHeard_ok
  obtain rfl := Option.some.inj (h1.symm.trans h3)
  exact ⟨m1, m2, m3, e, h2, p⟩

/-- with a listener from the start, and with one that is set between two streams: it gets the reports of the second -/
example (w : W EN) (h : w.heap 0 = .arr [NOpt.val .listener]) (hn : 0 < w.next) (bytes : Bytes) (hb : bytes.length < 2 ^ 63) : Does (ntX extra order xMachine5 d) .nontransparent_NewParser [.slice 0 0 1 1] w fun o => ∃ a w0, o = .ok (.ptr a []) w0 ∧
    LineCalls (ntX extra order xMachine5 d) d a w.next
      (fun w' => ∃ reports, Spec.Calls (NT.loopOf d) 10 {} [.parse bytes .unexpectedEOF] reports ∧
        w'.ext.out = w.ext.out ++ (toListener [.parse bytes .unexpectedEOF] true reports).map fun r => nresVal (NT.resultFor false r))
      [.parse bytes .unexpectedEOF] (NonTransparent.newParser []) true w0 :=
  C106_history extra order xMachine5 d (lines_ok extra order) [.listener] w _ (Or.inr ⟨0, 0, 1, 1, _, rfl, h, hn, by simp, by simp, rfl⟩) [.parse bytes .unexpectedEOF] hb

example (w : W EN) (h : w.heap 0 = .arr []) (hn : 0 < w.next) (b1 b2 : Bytes) (hb : b1.length + b2.length < 2 ^ 63) : Does (ntX extra order xMachine5 d) .nontransparent_NewParser [.slice 0 0 0 0] w fun o => ∃ a w0, o = .ok (.ptr a []) w0 ∧
    LineCalls (ntX extra order xMachine5 d) d a w.next
      (fun w' => ∃ reports, Spec.Calls (NT.loopOf d) 10 {} [.parse b1 .unexpectedEOF, .parse b2 .unexpectedEOF] reports ∧
        w'.ext.out = w.ext.out ++ (toListener [.parse b1 .unexpectedEOF, .opt .listener, .parse b2 .unexpectedEOF] false reports).map fun r => nresVal (NT.resultFor false r))
      [.parse b1 .unexpectedEOF, .opt .listener, .parse b2 .unexpectedEOF] (NonTransparent.newParser []) false w0 :=
  C106_history extra order xMachine5 d (lines_ok extra order) [] w _ (Or.inr ⟨0, 0, 0, 0, _, rfl, h, hn, by simp, by simp, rfl⟩)
    [.parse b1 .unexpectedEOF, .opt .listener, .parse b2 .unexpectedEOF] (by simpa [volume] using hb)

/-- a variable of type `TrailerType`: `UnmarshalText([]byte("'nul'"))` makes it NUL, `"crlf"` makes it -1 -/
example (w : W EN) : Does (ntX extra order xMachine5 d) .nontransparent_TrailerType_UnmarshalText [.ptr 0 [], .str (ascii "'nul'")] { w with heap := upd w.heap 0 (.int .int 0) }
      (fun o => o = .ok .nil { w with heap := upd w.heap 0 (.int .int 1) }) ∧
    Does (ntX extra order xMachine5 d) .nontransparent_TrailerType_UnmarshalText [.ptr 0 [], .str (ascii "crlf")] { w with heap := upd w.heap 0 (.int .int 0) }
      (fun o => o = .ok (.err (ascii "unknown TrailerType") []) { w with heap := upd w.heap 0 (.int .int (-1)) }) := by
  have h1 : NonTransparent.trailerTypeFromString (ascii "'nul'") = (1, true) := by decide +kernel
  have h2 : NonTransparent.trailerTypeFromString (ascii "crlf") = (-1, false) := by decide +kernel
  constructor
  · have := (C106_trailer_names extra order xMachine5 d { w with heap := upd w.heap 0 (.int .int 0) } (ascii "'nul'") 0 0 (by simp)).2 _ (Or.inl rfl)
    simp only [h1, ite_true, upd_upd] at this
    exact this
  · have := (C106_trailer_names extra order xMachine5 d { w with heap := upd w.heap 0 (.int .int 0) } (ascii "crlf") 0 0 (by simp)).2 _ (Or.inl rfl)
    simp only [h2, Bool.false_eq_true, ite_false, upd_upd] at this
    exact this

end Verif.Props
