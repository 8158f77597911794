import Verif.Conc.Flag
import Verif.Props.Concurrent

/-! # C76: switching to best effort while goroutines parse -/

namespace Verif.Props
open Verif.Spec
open Verif.Conc (Mem)
open Verif.Conc.Flag

/-! ## automata -/

section
variable {A M : Type} {T : Nat → Fsm.Row A} {act : A → M → Fsm.Step M} {adv : M → M} {start : Nat} {reset : M → Bytes → M}

theorem micro_more {s s' : Mem M} (h : (Conc.fsmObj T act adv start reset id).micro s = .inl s') :
    Fsm.run T act adv s.rest s.cs s.vars = Fsm.run T act adv s'.rest s'.cs s'.vars ∧
    ∃ b, Fsm.stepByte T act adv b Fsm.jumpFuel s.cs s.vars = .done s'.cs s'.vars := by
  obtain ⟨cs, rest, m⟩ := s
  cases rest with
  | nil => simp [Conc.fsmObj] at h
  | cons b bs =>
    simp only [Conc.fsmObj] at h
    split at h
    · simp at h
    · simp at h
    · simp at h
    · rename_i cs1 m1 heq
      simp only [Sum.inl.injEq] at h
      subst h
      simp only [Fsm.run, heq]
      exact ⟨trivial, b, heq⟩

theorem micro_stop {s s' : Mem M} {q : Fsm.Res M} (h : (Conc.fsmObj T act adv start reset id).micro s = .inr (s', q)) :
    q = Fsm.run T act adv s.rest s.cs s.vars ∧ (∀ cs' m', q = .done cs' m' → s'.vars = m') ∧ ((∀ cs' m', q ≠ .done cs' m') → s' = s) := by
  obtain ⟨cs, rest, m⟩ := s
  cases rest with
  | nil =>
    simp only [Conc.fsmObj, id, Sum.inr.injEq, Prod.mk.injEq] at h
    obtain ⟨h1, h2⟩ := h
    refine ⟨h2.symm, fun cs' m' hd => ?_, fun hn => ?_⟩
    · rw [h2, hd] at h1
      rw [← h1]
    · rw [h2] at h1
      cases q with
      | done cs' m' => exact absurd rfl (hn cs' m')
      | panic => exact h1.symm
      | loop => exact h1.symm
  | cons b bs =>
    simp only [Conc.fsmObj] at h
    split at h
    · rename_i heq
      simp only [id, Sum.inr.injEq, Prod.mk.injEq] at h
      obtain ⟨h1, h2⟩ := h
      simp only [Fsm.run, heq]
      exact ⟨h2.symm, fun cs' m' hd => by rw [← h2] at hd; simp at hd, fun _ => h1.symm⟩
    · rename_i heq
      simp only [id, Sum.inr.injEq, Prod.mk.injEq] at h
      obtain ⟨h1, h2⟩ := h
      simp only [Fsm.run, heq]
      exact ⟨h2.symm, fun cs' m' hd => by rw [← h2] at hd; simp at hd, fun _ => h1.symm⟩
    · rename_i m1 heq
      simp only [id, Sum.inr.injEq, Prod.mk.injEq] at h
      obtain ⟨h1, h2⟩ := h
      simp only [Fsm.run, heq]
      refine ⟨h2.symm, fun cs' m' hd => ?_, fun hn => absurd h2.symm (hn _ _)⟩
      rw [← h2] at hd
      simp only [Fsm.Res.done.injEq] at hd
      rw [← h1, hd.2]
    · simp at h
end

/-! ## rfc5424 -/

namespace Rfc5424Parser
open Verif.Rfc5424

/-- `m.bestEffort = b` -/
def setFlag (b : Bool) (m : M) : M := { m with bestEffort := b }

/-- the return statements of `machine.Parse` (rfc5424/machine.go:12034-12043) when `m.bestEffort` reads as `b`; `none` is a panic -/
def inner (b : Bool) : Fsm.Res M → Option Result
  | .done cs m => some (finish cs (setFlag b m))
  | .panic => none
  | .loop => none

/-- the statements of `parser.Parse` after it (rfc5424/parser.go:36-44) when `p.bestEffort` reads as `b` -/
def outer (b : Bool) : Option Result → Option Result
  | some ⟨msg, some e⟩ => if b then some ⟨msg, some e⟩ else some ⟨none, some e⟩
  | some ⟨msg, none⟩ => some ⟨msg, none⟩
  | none => none

/-- the machine inside a `parser` (rfc5424/parser.go:10-13), with its mode (rfc5424/machine.go:70, 86-88) in the memory -/
def switched : Obj (Mem M) Bytes (Fsm.Res M) (Option Result) where
  begin_ := (Conc.fsmObj T act adv 1 reset (id : Fsm.Res M → Fsm.Res M)).begin_
  micro := (Conc.fsmObj T act adv 1 reset (id : Fsm.Res M → Fsm.Res M)).micro
  flag s := s.vars.bestEffort
  enable s := { s with vars := setFlag true s.vars }
  inner := inner
  outer := outer

theorem withText_flag {b : Bool} {m : M} {f f' : Bytes → Fsm.Step M} (hf : ∀ t, f' t = onStep (setFlag b) (f t)) :
    withText (setFlag b m) f' = onStep (setFlag b) (withText m f) := by
  have e : (setFlag b m).text = m.text := rfl
  unfold withText
  rw [e]
  cases m.text with
  | none => rfl
  | some t => exact hf t

/-- no action reads or writes the mode -/
theorem act_flag (b : Bool) (a : Verif.Gen.Rfc5424.Act) (m : M) : act a (setFlag b m) = onStep (setFlag b) (act a m) := by
  cases a <;> try rfl
  case selectMsgMode => obtain ⟨data, p, pb, err, ce, cp, ma, bs, be, co, out⟩ := m; cases co <;> rfl
  case setPrival => exact withText_flag fun t => rfl
  case setVersion => exact withText_flag fun t => rfl
  case setTimestamp =>
    refine withText_flag fun t => ?_
    cases GoTime.parseRFC3339Micro t <;> rfl
  case setHostname => exact withText_flag fun t => rfl
  case setAppname => exact withText_flag fun t => rfl
  case setProcid => exact withText_flag fun t => rfl
  case setMsgid => exact withText_flag fun t => rfl
  case setMsg => exact withText_flag fun t => rfl
  case setParamname => exact withText_flag fun t => rfl
  case setId =>
    refine withText_flag fun t => ?_
    simp only [setFlag]
    cases m.out.structuredData with
    | none => rfl
    | some sd =>
      simp only []
      cases sd.find t <;> rfl
  case setParamvalue =>
    simp only [act]
    have e : (setFlag b m).out = m.out := rfl
    rw [e]
    by_cases h : m.out.hasElements = true
    · rw [if_pos h, if_pos h]
      refine withText_flag fun t => ?_
      generalize hx : (if m.backslashat.length > 0 then
            Common.removeBytes t (m.backslashat.map Int.ofNat) m.pb else some t) = tx
      have hy : (if (setFlag b m).backslashat.length > 0 then
            Common.removeBytes t ((setFlag b m).backslashat.map Int.ofNat) (setFlag b m).pb else some t) = tx := hx
      rw [hy]
      simp only [setFlag]
      cases tx with
      | none => rfl
      | some text =>
        simp only []
        cases m.out.structuredData with
        | none => rfl
        | some sd =>
          simp only []
          cases sd.find m.currentelem <;> rfl
    · rw [if_neg h, if_neg h]; rfl
  case errMsg =>
    obtain ⟨data, p, pb, err, ce, cp, ma, bs, be, co, out⟩ := m
    cases ma with
    | zero => rfl
    | succ k =>
      show act .errMsg ⟨data, p, pb, err, ce, cp, k + 1, bs, b, co, out⟩ = _
      simp only [act, if_pos (Nat.succ_pos k)]
      cases slice data (k + 1) p <;> rfl

theorem run_flag (b : Bool) (bs : Bytes) (cs : Nat) (m : M) :
    Fsm.run T act adv bs cs (setFlag b m) = onRes (setFlag b) (Fsm.run T act adv bs cs m) :=
  run_map (T := T) (adv := adv) (f := setFlag b) (act_flag b) (fun _ => rfl) bs cs m

/-- the run keeps the mode -/
theorem step_flag {c : UInt8} {cs cs' : Nat} {m m' : M} (h : Fsm.stepByte T act adv c Fsm.jumpFuel cs m = .done cs' m') :
    m'.bestEffort = m.bestEffort := by
  have := stepByte_map (T := T) (adv := adv) (f := setFlag m.bestEffort) (act_flag m.bestEffort) (fun _ => rfl) c Fsm.jumpFuel cs m
  have e : setFlag m.bestEffort m = m := rfl
  rw [e, h] at this
  simp only [onRes, Fsm.Res.done.injEq, true_and] at this
  rw [this]
  rfl

theorem end_flag {bs : Bytes} {cs cs' : Nat} {m m' : M} (h : Fsm.run T act adv bs cs m = .done cs' m') : m'.bestEffort = m.bestEffort := by
  have := run_flag m.bestEffort bs cs m
  have e : setFlag m.bestEffort m = m := rfl
  rw [e, h] at this
  simp only [onRes, Fsm.Res.done.injEq, true_and] at this
  rw [this]
  rfl

/-- The result of a call when the two reads of the mode see `b` and `b'`: whatever they see, it is the result in one of the two modes. -/
theorem two_reads (m : M) (i : Bytes) : ∃ cs m', Fsm.run T act adv i 1 (reset m i) = .done cs m' ∧ m'.compliantMsg = m.compliantMsg ∧
    ∀ b b', outer b' (inner b (.done cs m')) = parse1 ⟨b && b', m.compliantMsg⟩ i := by
  obtain ⟨m', hp, -, hc⟩ := parse_eq (setFlag false m) i
  have key : ∀ b, ∃ m'', parse (setFlag b m) i = some (resultOf b (descend m.compliantMsg i), m'') := by
    intro b
    obtain ⟨m2, h2, -, -⟩ := parse_eq (setFlag b m) i
    exact ⟨m2, h2⟩
  have hrun : ∀ b, Fsm.run T act adv i 1 (reset (setFlag b m) i) = onRes (setFlag b) (Fsm.run T act adv i 1 (reset m i)) :=
    fun b => run_flag b i 1 (reset m i)
  simp only [parse, hrun] at hp key
  cases hr : Fsm.run T act adv i 1 (reset m i) with
  | panic => rw [hr] at hp; simp [onRes] at hp
  | loop => rw [hr] at hp; simp [onRes] at hp
  | done cs m1 =>
    rw [hr] at hp key
    simp only [onRes, Option.some.injEq, Prod.mk.injEq] at hp key
    refine ⟨cs, m1, rfl, ?_, fun b b' => ?_⟩
    · rw [← hp.2] at hc; exact hc
    · obtain ⟨-, hk, -⟩ := key b
      simp only [inner, hk, parse1_eq]
      cases descend m.compliantMsg i with
      | ok x => rfl
      | err e part => cases b <;> cases b' <;> rfl

theorem good (co : Bool) : Good switched (fun b i => parse1 ⟨b, co⟩ i) (fun s => s.vars.compliantMsg = co)
    (fun i s => ∃ cs m', Fsm.run T act adv s.rest s.cs s.vars = .done cs m' ∧ m'.compliantMsg = co ∧
      ∀ b b', outer b' (inner b (.done cs m')) = parse1 ⟨b && b', co⟩ i) where
  start i s h := by
    obtain ⟨cs, m', h1, h2, h3⟩ := two_reads s.vars i
    rw [h] at h2 h3
    exact ⟨cs, m', h1, h2, h3⟩
  more i s s' h hm := by
    have := (micro_more (T := T) (act := act) (adv := adv) (start := 1) (reset := reset) hm).1
    rw [this] at h
    exact h
  stop i s s' q h hm := by
    obtain ⟨cs, m', h1, h2, h3⟩ := h
    obtain ⟨hq, hv, -⟩ := micro_stop (T := T) (act := act) (adv := adv) (start := 1) (reset := reset) hm
    rw [h1] at hq
    subst hq
    refine ⟨by rw [hv _ _ rfl]; exact h2, fun b b' hb => ?_⟩
    have := h3 b b'
    cases b with
    | false => exact this
    | true => rw [hb rfl] at this ⊢; exact this
  enable s h := h
  enable_mid i s h := by
    obtain ⟨cs, m', h1, h2, h3⟩ := h
    refine ⟨cs, setFlag true m', ?_, h2, h3⟩
    show Fsm.run T act adv s.rest s.cs (setFlag true s.vars) = _
    rw [run_flag, h1]
    rfl
  flag_start i s := rfl
  flag_more s s' hm := by
    obtain ⟨-, c, hc⟩ := micro_more (T := T) (act := act) (adv := adv) (start := 1) (reset := reset) hm
    exact step_flag hc
  flag_stop s s' q hm := by
    obtain ⟨hq, hv, hn⟩ := micro_stop (T := T) (act := act) (adv := adv) (start := 1) (reset := reset) hm
    show s'.vars.bestEffort = s.vars.bestEffort
    cases q with
    | done cs' m' => rw [hv _ _ rfl]; exact end_flag hq.symm
    | panic => rw [hn (by intros; simp)]
    | loop => rw [hn (by intros; simp)]
  flag_enable s := rfl

end Rfc5424Parser

/-! ## rfc3164 -/

namespace Rfc3164Parser
open Verif.Rfc3164

/-- `o` with `m.bestEffort` reading as `b` -/
def withFlag (o : Opts) (b : Bool) : Opts := { o with bestEffort := b }

/-- the return statements of `machine.Parse` (rfc3164/machine.go:7254-7263) when `m.bestEffort` reads as `b`; `none` is a panic -/
def inner (o : Opts) (b : Bool) : Fsm.Res M → Option Result
  | .done cs m => some (finish (withFlag o b) cs m)
  | .panic => none
  | .loop => none

/-- the statements of `parser.Parse` after it (rfc3164/parser.go:35-43) when `p.bestEffort` reads as `b` -/
def outer (b : Bool) : Option Result → Option Result
  | some ⟨msg, some e⟩ => if b then some ⟨msg, some e⟩ else some ⟨none, some e⟩
  | some ⟨msg, none⟩ => some ⟨msg, none⟩
  | none => none

/-- the machine inside a `parser` (rfc3164/parser.go:10-13), with its mode (rfc3164/machine.go:35, 54-56) in the memory; the other options have no
method on the parser -/
def switched (o : Opts) : Obj (Mem M × Bool) Bytes (Fsm.Res M) (Option Result) where
  begin_ i s := ((Conc.fsmObj (T o) (act o) adv 1 reset (id : Fsm.Res M → Fsm.Res M)).begin_ i s.1, s.2)
  micro s :=
    match (Conc.fsmObj (T o) (act o) adv 1 reset (id : Fsm.Res M → Fsm.Res M)).micro s.1 with
    | .inl s' => .inl (s', s.2)
    | .inr (s', q) => .inr ((s', s.2), q)
  flag s := s.2
  enable s := (s.1, true)
  inner := inner o
  outer := outer

/-- the automaton does not read the mode -/
theorem act_flag (o : Opts) (b : Bool) : act (withFlag o b) = act o := by
  funext a m
  cases a <;> rfl

theorem run_flag (o : Opts) (b : Bool) (bs : Bytes) (cs : Nat) (m : M) :
    Fsm.run (T (withFlag o b)) (act (withFlag o b)) adv bs cs m = Fsm.run (T o) (act o) adv bs cs m := by
  rw [act_flag]; rfl

/-- The result of a call when the two reads of the mode see `b` and `b'`. -/
theorem two_reads (o : Opts) (m : M) (i : Bytes) : ∃ cs m', Fsm.run (T o) (act o) adv i 1 (reset m i) = .done cs m' ∧
    ∀ b b', outer b' (inner o b (.done cs m')) = parse1 (withFlag o b) i ∨ outer b' (inner o b (.done cs m')) = parse1 (withFlag o (b && b')) i := by
  have hp : ∀ b, (parse (withFlag o b) m i).map Prod.fst = some (resultOf (withFlag o b) (descend (withFlag o b) i)) := fun b => parse_eq _ m i
  have key : ∀ b, (parse (withFlag o b) m i).map Prod.fst = parse1 (withFlag o b) i := fun b => by rw [hp, parse1_eq]
  simp only [parse, run_flag] at hp key
  cases hr : Fsm.run (T o) (act o) adv i 1 (reset m i) with
  | panic => have := hp true; rw [hr] at this; simp at this
  | loop => have := hp true; rw [hr] at this; simp at this
  | done cs m1 =>
    rw [hr] at key
    simp only [Option.map_some] at key
    refine ⟨cs, m1, rfl, fun b b' => ?_⟩
    rw [← key b, ← key (b && b')]
    simp only [inner, finish, withFlag]
    by_cases hc : cs < 333 ∨ cs = 373
    · simp only [if_pos hc]
      cases m1.err with
      | none => exact .inl (by cases b <;> cases m1.out.minimal <;> rfl)
      | some e => exact .inr (by cases b <;> cases b' <;> cases m1.out.minimal <;> rfl)
    · simp only [if_neg hc]
      exact .inl rfl

theorem good (o : Opts) : Good (switched o) (fun b i => parse1 (withFlag o b) i) (fun _ => True)
    (fun i s => ∃ cs m', Fsm.run (T o) (act o) adv s.1.rest s.1.cs s.1.vars = .done cs m' ∧
      ∀ b b', outer b' (inner o b (.done cs m')) = parse1 (withFlag o b) i ∨ outer b' (inner o b (.done cs m')) = parse1 (withFlag o (b && b')) i) where
  start i s _ := two_reads o s.1.vars i
  more i s s' h hm := by
    simp only [switched] at hm
    split at hm
    · rename_i s1 h1
      simp only [Sum.inl.injEq] at hm
      subst hm
      rw [(micro_more h1).1] at h
      exact h
    · simp at hm
  stop i s s' q h hm := by
    obtain ⟨cs, m', h1, h3⟩ := h
    simp only [switched] at hm
    split at hm
    · simp at hm
    · rename_i s1 q1 h2
      simp only [Sum.inr.injEq, Prod.mk.injEq] at hm
      obtain ⟨hq, -, -⟩ := micro_stop h2
      rw [hm.2, h1] at hq
      subst hq
      refine ⟨trivial, fun b b' hb => ?_⟩
      have := h3 b b'
      cases b with
      | false => rcases this with this | this <;> exact this
      | true =>
        rw [hb rfl] at this ⊢
        rcases this with this | this <;> exact this
  enable s _ := trivial
  enable_mid i s h := h
  flag_start i s := rfl
  flag_more s s' hm := by
    simp only [switched] at hm
    split at hm
    · simp only [Sum.inl.injEq] at hm; rw [← hm]; rfl
    · simp at hm
  flag_stop s s' q hm := by
    simp only [switched] at hm
    split at hm
    · simp at hm
    · simp only [Sum.inr.injEq, Prod.mk.injEq] at hm; rw [← hm.1]; rfl
  flag_enable s := rfl

end Rfc3164Parser

/-! ## C76 -/

/-- C76 (rfc5424): any number of goroutines call `Parse`, `WithBestEffort` and `HasBestEffort` on one parser, in any order and under any schedule.
Each call has its whole effect at one moment between call and return: there is a history of the mode, which is switched at most once, by a call of
`WithBestEffort`, and every `Parse` returned what a new machine in the mode of that moment returns. -/
theorem C76_rfc5424 (o : Rfc5424.Opts) (prog : Nat → List (Op Bytes)) (g : G (Mem Rfc5424.M) Bytes (Fsm.Res Rfc5424.M) (Option Rfc5424.Result))
    (h : Reach Rfc5424Parser.switched (init (Rfc5424Parser.fresh o) prog) g) :
    (∃ on, Linear (fun b i => Rfc5424.parse1 { o with bestEffort := b } i) o.bestEffort prog g on) ∧
    (∀ t t', (g.thr t).pc.inside = true → (g.thr t').pc.inside = true → t = t') := by
  obtain ⟨c, hc⟩ := inv_reach (Rfc5424Parser.good o.compliantMsg) (s := Rfc5424Parser.fresh o) rfl h
  exact ⟨linear hc, fun _ _ => exclusion hc⟩

/-- C76 (rfc3164) -/
theorem C76_rfc3164 (o : Rfc3164.Opts) (prog : Nat → List (Op Bytes)) (g : G (Mem Rfc3164.M × Bool) Bytes (Fsm.Res Rfc3164.M) (Option Rfc3164.Result))
    (h : Reach (Rfc3164Parser.switched o) (init (Rfc3164Parser.fresh, o.bestEffort) prog) g) :
    (∃ on, Linear (fun b i => Rfc3164.parse1 { o with bestEffort := b } i) o.bestEffort prog g on) ∧
    (∀ t t', (g.thr t).pc.inside = true → (g.thr t').pc.inside = true → t = t') := by
  obtain ⟨c, hc⟩ := inv_reach (Rfc3164Parser.good o) (s := (Rfc3164Parser.fresh, o.bestEffort)) trivial h
  exact ⟨linear hc, fun _ _ => exclusion hc⟩

/-- C76: in particular a `Parse` that was called after some `WithBestEffort` returned is a best effort parse, whoever made the two calls, and one that
returned before any `WithBestEffort` was called has the mode the parser was made with. -/
theorem C76_before_and_after {S Q R : Type} {spec : Bool → Bytes → R} {be : Bool} {prog : Nat → List (Op Bytes)}
    {g : G S Bytes Q R} {on : Nat → Bool} (h : Linear spec be prog g on) {t : Nat} {x : Entry Bytes R} (hx : x ∈ (g.thr t).log) {i : Bytes} (hop : x.op = .parse i) :
    ((∃ t' y, y ∈ (g.thr t').log ∧ y.op = .withBestEffort ∧ y.upto < x.from_) → x.ret = .result (spec true i)) ∧
    ((∀ p, Switching g p → x.upto < p) → x.ret = .result (spec be i)) := by
  have hr := h.right t x hx
  obtain ⟨op, ret, a, b⟩ := x
  simp only at hop
  subst hop
  cases ret with
  | done => exact hr.2.elim
  | flag => exact hr.2.elim
  | result r =>
    obtain ⟨hab, p, h1, h2, rfl⟩ := hr
    simp only at h1 h2 ⊢
    constructor
    · rintro ⟨t', y, hy, hyop, hlt⟩
      have hyr := h.right t' y hy
      obtain ⟨op', ret', a', b'⟩ := y
      simp only at hyop hlt
      subst hyop
      cases ret' with
      | result => exact hyr.2.elim
      | flag => exact hyr.2.elim
      | done =>
        have hon : on b' = true := hyr.2
        rw [h.monotone b' p (by omega) hon]
    · intro hno
      have : on p = be := by
        cases hb : be with
        | true => exact h.initial hb p
        | false =>
          cases hon : on p with
          | false => rfl
          | true =>
            rcases h.cause p hon with hc | ⟨p', hp', -, hsw⟩
            · rw [hb] at hc; simp at hc
            · have := hno p' hsw; omega
      rw [this]

/-- C76: as long as a call is outstanding, some goroutine can go on. -/
theorem C76_no_deadlock (o : Rfc5424.Opts) (prog : Nat → List (Op Bytes)) (g : G (Mem Rfc5424.M) Bytes (Fsm.Res Rfc5424.M) (Option Rfc5424.Result))
    (h : Reach Rfc5424Parser.switched (init (Rfc5424Parser.fresh o) prog) g) (hn : ∃ t, (g.thr t).pc.current ++ (g.thr t).todo ≠ []) :
    ∃ t g', Step Rfc5424Parser.switched t g g' := by
  obtain ⟨c, hc⟩ := inv_reach (Rfc5424Parser.good o.compliantMsg) (s := Rfc5424Parser.fresh o) rfl h
  exact progress hc hn

/-- C76: the reads of the mode race with `WithBestEffort`, so the Go memory model does not promise more than that each of the two reads sees `true` or
`false`. That is enough: on a machine left in any state by earlier calls, whatever the two reads see, the result is the one of strict or of best effort
parsing. -/
theorem C76_any_reads (m : Rfc5424.M) (i : Bytes) (seen1 seen2 : Bool) :
    ∃ b, Rfc5424Parser.outer seen2 (Rfc5424Parser.inner seen1 (Fsm.run Rfc5424.T Rfc5424.act Rfc5424.adv i 1 (Rfc5424.reset m i))) =
      Rfc5424.parse1 ⟨b, m.compliantMsg⟩ i ∧ (b = seen1 ∨ b = seen2) := by
  obtain ⟨cs, m', h1, -, h3⟩ := Rfc5424Parser.two_reads m i
  refine ⟨seen1 && seen2, by rw [h1]; exact h3 seen1 seen2, ?_⟩
  cases seen1 <;> cases seen2 <;> simp

theorem C76_any_reads_rfc3164 (o : Rfc3164.Opts) (m : Rfc3164.M) (i : Bytes) (seen1 seen2 : Bool) :
    ∃ b, Rfc3164Parser.outer seen2 (Rfc3164Parser.inner o seen1 (Fsm.run (Rfc3164.T o) (Rfc3164.act o) Rfc3164.adv i 1 (Rfc3164.reset m i))) =
      Rfc3164.parse1 { o with bestEffort := b } i ∧ (b = seen1 ∨ b = seen2) := by
  obtain ⟨cs, m', h1, h3⟩ := Rfc3164Parser.two_reads o m i
  rw [h1]
  rcases h3 seen1 seen2 with h | h
  · exact ⟨seen1, h, .inl rfl⟩
  · refine ⟨seen1 && seen2, h, ?_⟩
    cases seen1 <;> cases seen2 <;> simp

set_option maxRecDepth 100000 in
/-- Two goroutines: the second switches the mode while the first is inside `Parse`, after the automaton has stopped; the first returns a best effort
result, and the mode asked for afterwards is best effort. -/
example : ∃ g, Reach Rfc5424Parser.switched
      (init (Rfc5424Parser.fresh {}) fun t => if t = 0 then [.parse (ascii "<1>1")] else if t = 1 then [.withBestEffort, .hasBestEffort] else []) g ∧
    ((g.thr 0).log.map fun x => (x.op, x.ret == .result (Rfc5424.parse1 ⟨true, false⟩ (ascii "<1>1")), x.ret == .result (Rfc5424.parse1 {} (ascii "<1>1")))) =
      [(.parse (ascii "<1>1"), true, false)] ∧
    ((g.thr 1).log.map fun x => (x.op, x.ret == .flag true, x.from_, x.upto)) =
      [(.withBestEffort, false, 8, 10), (.hasBestEffort, true, 15, 17)] := by
  refine ⟨_, .step (t := 1) (.step (t := 1) (.step (t := 1) (.step (t := 0) (.step (t := 0) (.step (t := 0) (.step (t := 0)
    (.step (t := 1) (.step (t := 1) (.step (t := 1)
    (.step (t := 0) (.step (t := 0) (.step (t := 0) (.step (t := 0) (.step (t := 0) (.step (t := 0) (.step (t := 0) (.step (t := 0) .refl
      (.call rfl rfl)) (.lock rfl rfl)) (.begin_ rfl)) (.micro rfl rfl)) (.micro rfl rfl)) (.micro rfl rfl)) (.micro rfl rfl)) (.stop rfl rfl))
      (.call rfl rfl)) (.enable rfl)) (.enabled rfl)) (.inner rfl)) (.outer rfl)) (.unlock rfl)) (.ret rfl)) (.call rfl rfl)) (.ask rfl)) (.answer rfl), ?_, ?_⟩
  · decide +kernel
  · decide +kernel

end Verif.Props
