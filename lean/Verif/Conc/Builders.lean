import Verif.Builder.Param

/-!
# Goroutines building different messages

Every goroutine `t` owns one message and calls setters on it. The package variables `currentid` and `currentparamname`
(rfc5424/builder.go:64-65) are shared by all of them. A step is: a setter other than `SetParameter`; or one of the five parts of
`SetParameter` (rfc5424/builder.go:9325-9344): `sm.set(sdid, id)`, the first test with `currentid = id`, `sm.set(sdpn, name)`, the second
test with `currentparamname = name`, `sm.set(sdpv, value)`. Simplification: a `set` call is one step (it reads the package variables in
a single action; it never writes them).
-/

namespace Verif.Conc.Builders
open Verif.Builder
open Verif.Spec
open Verif.Rfc5424 (SyslogMessage SD)

/-- where a goroutine is -/
inductive PC where
  /-- between two calls -/
  | idle
  /-- in `SetParameter(id, name, value)`, after `sm.set(sdid, id)` (rfc5424/builder.go:9327) -/
  | afterId (id name value : Bytes)
  /-- after `currentid = id` (rfc5424/builder.go:9333) -/
  | idWritten (id name value : Bytes)
  /-- after `sm.set(sdpn, name)` (rfc5424/builder.go:9334) -/
  | afterName (id name value : Bytes)
  /-- after `currentparamname = name` (rfc5424/builder.go:9337) -/
  | nameWritten (id name value : Bytes)
  /-- the goroutine has panicked -/
  | panicked
  deriving DecidableEq, Repr

/-- a goroutine: where it is, its message, the calls it will make, the calls it has made -/
structure Thread where
  pc : PC
  msg : SyslogMessage
  todo : List Call
  done : List Call
  deriving DecidableEq, Repr

/-- `SetParameter` returns -/
def Thread.ret (th : Thread) (id name value : Bytes) : Thread := { th with pc := .idle, done := th.done ++ [.parameter id name value] }

/-- The next step of a goroutine; `none` if it has nothing to do (any more). -/
def Thread.step (g : Globals) (th : Thread) : Option (Globals × Thread) :=
  match th.pc with
  | .panicked => none
  | .idle =>
    match th.todo with
    | [] => none
    | .parameter id name value :: cs =>
      match set g .sdid id th.msg with
      | none => some (g, { th with pc := .panicked })
      | some m => some (g, { th with pc := .afterId id name value, msg := m, todo := cs })
    | c :: cs =>
      match c.run (th.msg, g) with
      | none => some (g, { th with pc := .panicked })
      | some (m, g') => some (g', { th with msg := m, todo := cs, done := th.done ++ [c] })
  | .afterId id name value =>
    if hasElement id th.msg then some ({ g with currentid := id }, { th with pc := .idWritten id name value })
    else some (g, th.ret id name value)
  | .idWritten id name value =>
    match set g .sdpn name th.msg with
    | none => some (g, { th with pc := .panicked })
    | some m => some (g, { th with pc := .afterName id name value, msg := m })
  | .afterName id name value =>
    if hasParam id name th.msg then some ({ g with currentparamname := name }, { th with pc := .nameWritten id name value })
    else some (g, th.ret id name value)
  | .nameWritten id name value =>
    match set g .sdpv value th.msg with
    | none => some (g, { th with pc := .panicked })
    | some m => some (g, { th with msg := m }.ret id name value)

/-- all goroutines and the package variables -/
structure G where
  g : Globals
  thr : Nat → Thread

/-- goroutine `t` makes a step -/
def G.step (s : G) (t : Nat) : Option G :=
  match (s.thr t).step s.g with
  | none => none
  | some (g', th) => some ⟨g', fun t' => if t' = t then th else s.thr t'⟩

/-- a schedule: who makes the next step -/
def G.exec (s : G) : List Nat → Option G
  | [] => some s
  | t :: ts =>
    match s.step t with
    | none => none
    | some s' => s'.exec ts

/-- in the middle of a `SetParameter` -/
def PC.inside : PC → Bool
  | .idle => false
  | .panicked => false
  | _ => true

/-- at most one goroutine is in the middle of a `SetParameter` -/
def G.Exclusive (s : G) : Prop := ∀ t t', (s.thr t).pc.inside = true → (s.thr t').pc.inside = true → t = t'

/-- an execution in which no two `SetParameter` calls overlap; other setters may overlap with anything -/
def Serial (s : G) : List Nat → Prop
  | [] => True
  | t :: ts => ∀ s', s.step t = some s' → s'.Exclusive ∧ Serial s' ts

/-- the beginning -/
def init (g : Globals) (msgs : Nat → SyslogMessage) (prog : Nat → List Call) : G := ⟨g, fun t => ⟨.idle, msgs t, prog t, []⟩⟩

/-! ## A `SetParameter` does not depend on what the package variables were before -/

theorem set_indep (g g' : Globals) (e : Entry) (w : Bytes) (sm : SyslogMessage) (h1 : e ≠ .sdpn) (h2 : e ≠ .sdpv) :
    set g e w sm = set g' e w sm := by
  cases e with
  | timestamp =>
    by_cases h : ∃ s : Stamp, s.WF ∧ s.Real ∧ w = s.render
    · obtain ⟨s, a, b, c⟩ := h
      rw [(set_timestamp g w sm).1 s a b c, (set_timestamp g' w sm).1 s a b c]
    · rw [(set_timestamp g w sm).2 h, (set_timestamp g' w sm).2 h]
  | hostname =>
    by_cases h : NameWF 255 w ∧ w ≠ [45]
    · rw [(set_hostname g w sm).1 h, (set_hostname g' w sm).1 h]
    · rw [(set_hostname g w sm).2 h, (set_hostname g' w sm).2 h]
  | appname =>
    by_cases h : NameWF 48 w ∧ w ≠ [45]
    · rw [(set_appname g w sm).1 h, (set_appname g' w sm).1 h]
    · rw [(set_appname g w sm).2 h, (set_appname g' w sm).2 h]
  | procid =>
    by_cases h : NameWF 128 w ∧ w ≠ [45]
    · rw [(set_procid g w sm).1 h, (set_procid g' w sm).1 h]
    · rw [(set_procid g w sm).2 h, (set_procid g' w sm).2 h]
  | msgid =>
    by_cases h : NameWF 32 w ∧ w ≠ [45]
    · rw [(set_msgid g w sm).1 h, (set_msgid g' w sm).1 h]
    · rw [(set_msgid g w sm).2 h, (set_msgid g' w sm).2 h]
  | sdid =>
    by_cases h : SdNameWF w
    · rw [(set_sdid g w sm).1 h, (set_sdid g' w sm).1 h]
    · rw [(set_sdid g w sm).2 h, (set_sdid g' w sm).2 h]
  | sdpn => exact absurd rfl h1
  | sdpv => exact absurd rfl h2
  | msg => rw [set_msg, set_msg]

/-- the message after `SetParameter`; it always returns -/
theorem setParameter_indep (id name value : Bytes) (sm : SyslogMessage) :
    ∃ m, ∀ g, ∃ g', setParameter g id name value sm = some (m, g') := by
  by_cases hstart : SdNameWF id ∨ (sm.structuredData.getD []).find id ≠ none
  · obtain ⟨ps, h3, h4⟩ := find_ensure (sm.structuredData.getD []) id
    have h1 : ∀ g, set g .sdid id sm = some { sm with structuredData := some (ensure (sm.structuredData.getD []) id) } := fun g => by
      obtain ⟨sd, ps', h1, h2, h3', -⟩ := setParameter_start g id sm hstart
      rw [h1, h2]
    have ht := fun g => setParameter_tail (name := name) (value := value) (h1 g) rfl h3
    by_cases hn : SdNameWF name
    · by_cases hv : ∃ v, Utf8 v ∧ value = escape v
      · obtain ⟨v, hu, hv⟩ := hv
        exact ⟨_, fun g => ⟨_, (ht g).1 hn v hu hv⟩⟩
      · exact ⟨_, fun g => ⟨_, (ht g).2.1 hn hv⟩⟩
    · by_cases hf : ps.find name = none
      · exact ⟨_, fun g => ⟨_, (ht g).2.2.1 hn hf⟩⟩
      · by_cases hv : ∃ v, Utf8 v ∧ value = escape v
        · obtain ⟨v, hu, hv⟩ := hv
          exact ⟨_, fun g => ⟨_, (ht g).2.2.2.1 hn hf v hu hv⟩⟩
        · exact ⟨_, fun g => ⟨_, (ht g).2.2.2.2 hn hf hv⟩⟩
  · rw [not_or] at hstart
    exact ⟨sm, fun g => ⟨g, setParameter_none hstart.1 (Decidable.byContradiction hstart.2)⟩⟩

/-- message part of a result -/
def msgOf : Option (SyslogMessage × Globals) → Option SyslogMessage
  | none => none
  | some (m, _) => some m

theorem msgOf_map (x : Option SyslogMessage) (g : Globals) : msgOf (x.map (·, g)) = x := by cases x <;> rfl

theorem run_indep (c : Call) (sm : SyslogMessage) (g g' : Globals) : msgOf (c.run (sm, g)) = msgOf (c.run (sm, g')) := by
  cases c with
  | parameter id name value =>
    obtain ⟨m, h⟩ := setParameter_indep id name value sm
    obtain ⟨g1, h1⟩ := h g
    obtain ⟨g2, h2⟩ := h g'
    simp only [Call.run, h1, h2, msgOf]
  | _ =>
    first
    | rfl
    | (simp only [Call.run, msgOf_map]; exact set_indep _ _ _ _ _ (by decide) (by decide))

/-- only `SetParameter` writes the package variables -/
theorem run_globals {c : Call} (hc : ∀ id name value, c ≠ .parameter id name value) {sm m : SyslogMessage} {g g' : Globals}
    (h : c.run (sm, g) = some (m, g')) : g' = g := by
  cases c with
  | parameter id name value => exact absurd rfl (hc _ _ _)
  | priority v => simp only [Call.run, Option.some.injEq, Prod.mk.injEq] at h; exact h.2.symm
  | version v => simp only [Call.run, Option.some.injEq, Prod.mk.injEq] at h; exact h.2.symm
  | _ =>
    simp only [Call.run, Option.map_eq_some_iff, Prod.mk.injEq] at h
    obtain ⟨_, _, _, h⟩ := h; exact h.symm

theorem runCalls_concat (cs : List Call) (c : Call) (s : SyslogMessage × Globals) :
    runCalls (cs ++ [c]) s = (runCalls cs s).bind c.run := by
  induction cs generalizing s with
  | nil => simp only [List.nil_append, runCalls, Option.bind_some]; cases c.run s <;> rfl
  | cons d cs ih =>
    simp only [List.cons_append, runCalls]
    cases d.run s with
    | none => rfl
    | some s' => exact ih s'

/-! ## Invariant -/

/-- what the call under way will make of the message if it is not disturbed -/
def finish (g : Globals) (msg : SyslogMessage) : PC → Option SyslogMessage
  | .idle => some msg
  | .panicked => none
  | .afterId id name value =>
    if hasElement id msg then
      match set { g with currentid := id } .sdpn name msg with
      | none => none
      | some m => if hasParam id name m then set ⟨id, name⟩ .sdpv value m else some m
    else some msg
  | .idWritten id name value =>
    match set g .sdpn name msg with
    | none => none
    | some m => if hasParam id name m then set { g with currentparamname := name } .sdpv value m else some m
  | .afterName id name value => if hasParam id name msg then set { g with currentparamname := name } .sdpv value msg else some msg
  | .nameWritten _ _ value => set g .sdpv value msg

/-- the call under way -/
def PC.call : PC → List Call
  | .idle => []
  | .panicked => []
  | .afterId id name value => [.parameter id name value]
  | .idWritten id name value => [.parameter id name value]
  | .afterName id name value => [.parameter id name value]
  | .nameWritten id name value => [.parameter id name value]

/-- everything is as if the goroutine were alone -/
structure Good (m0 : SyslogMessage) (g : Globals) (th : Thread) : Prop where
  alive : th.pc ≠ .panicked
  res : ∃ m, finish g th.msg th.pc = some m ∧ msgOf (runCalls (th.done ++ th.pc.call) (m0, {})) = some m

theorem finish_idle_indep {th : Thread} {m0 : SyslogMessage} {g g' : Globals} (h : Good m0 g th) (hi : th.pc.inside = false) :
    Good m0 g' th := by
  refine ⟨h.alive, ?_⟩
  obtain ⟨m, h1, h2⟩ := h.res
  refine ⟨m, ?_, h2⟩
  rw [← h1]
  cases hp : th.pc <;> simp_all [finish, PC.inside]

theorem msgOf_some {x : Option (SyslogMessage × Globals)} {m : SyslogMessage} (h : msgOf x = some m) : ∃ g, x = some (m, g) := by
  cases x with
  | none => simp [msgOf] at h
  | some y => obtain ⟨a, g⟩ := y; simp only [msgOf, Option.some.injEq] at h; exact ⟨g, by rw [h]⟩

/-- a step of the goroutine itself; the package variables change only if it is, or will be, inside `SetParameter` -/
theorem good_step {m0 : SyslogMessage} {g g' : Globals} {th th' : Thread} (h : Good m0 g th) (hs : th.step g = some (g', th')) :
    Good m0 g' th' ∧ (g' = g ∨ th.pc.inside = true) := by
  obtain ⟨m, h1, h2⟩ := h.res
  obtain ⟨pc, msg, todo, done⟩ := th
  cases pc with
  | panicked => exact absurd rfl h.alive
  | idle =>
    simp only [finish, Option.some.injEq] at h1
    subst h1
    simp only [PC.call, List.append_nil] at h2
    obtain ⟨gd, hd⟩ := msgOf_some h2
    cases todo with
    | nil => simp [Thread.step] at hs
    | cons c cs =>
      have key : ∀ m' gx, c.run (msg, gx) = some (m', g') → msgOf (runCalls (done ++ [c]) (m0, {})) = some m' := by
        intro m' gx hr
        rw [runCalls_concat, hd, Option.bind_some, run_indep c msg gd gx, hr]; rfl
      by_cases hc : ∃ id name value, c = .parameter id name value
      · obtain ⟨id, name, value, rfl⟩ := hc
        simp only [Thread.step] at hs
        obtain ⟨mf, hf⟩ := setParameter_indep id name value msg
        obtain ⟨g1, hf1⟩ := hf g
        cases h3 : set g .sdid id msg with
        | none => simp [setParameter, h3] at hf1
        | some m1 =>
          simp only [h3, Option.some.injEq, Prod.mk.injEq] at hs
          obtain ⟨rfl, rfl⟩ := hs
          refine ⟨⟨by simp, mf, ?_, ?_⟩, Or.inl rfl⟩
          · simp only [setParameter, h3] at hf1
            simp only [finish]
            by_cases he : hasElement id m1 = true
            · rw [if_pos he] at hf1 ⊢
              cases h4 : set { g with currentid := id } .sdpn name m1 with
              | none => simp [h4] at hf1
              | some m2 =>
                simp only [h4] at hf1 ⊢
                by_cases hp : hasParam id name m2 = true
                · rw [if_pos hp] at hf1 ⊢
                  cases h5 : set ⟨id, name⟩ .sdpv value m2 with
                  | none => simp [h5] at hf1
                  | some m3 => simp only [h5, Option.some.injEq, Prod.mk.injEq] at hf1; rw [hf1.1]
                · rw [if_neg hp] at hf1 ⊢
                  simp only [Option.some.injEq, Prod.mk.injEq] at hf1; rw [hf1.1]
            · rw [if_neg he] at hf1 ⊢
              simp only [Option.some.injEq, Prod.mk.injEq] at hf1; rw [hf1.1]
          · simp only [PC.call]
            rw [runCalls_concat, hd, Option.bind_some, run_indep _ msg gd g]
            simp only [Call.run, hf1, msgOf]
      · have hc' : ∀ id name value, c ≠ .parameter id name value := fun a b d e => hc ⟨a, b, d, e⟩
        have hs' : (match c.run (msg, g) with
            | none => some (g, { pc := PC.panicked, msg := msg, todo := c :: cs, done := done : Thread })
            | some (m, g') => some (g', { pc := PC.idle, msg := m, todo := cs, done := done ++ [c] })) = some (g', th') := by
          cases c <;> first | exact hs | exact absurd rfl (hc' _ _ _)
        cases hr : c.run (msg, g) with
        | none =>
          have := run_indep c msg g {}
          exfalso
          cases c with
          | parameter id name value => exact absurd rfl (hc' _ _ _)
          | priority v => simp [Call.run] at hr
          | version v => simp [Call.run] at hr
          | timestamp w =>
            simp only [Call.run, Option.map_eq_none_iff] at hr
            by_cases hx : ∃ s : Stamp, s.WF ∧ s.Real ∧ w = s.render
            · obtain ⟨s, a, b, e⟩ := hx
              rw [(set_timestamp g w msg).1 s a b e] at hr; simp at hr
            · rw [(set_timestamp g w msg).2 hx] at hr; simp at hr
          | hostname w =>
            simp only [Call.run, Option.map_eq_none_iff] at hr
            by_cases hx : NameWF 255 w ∧ w ≠ [45]
            · rw [(set_hostname g w msg).1 hx] at hr; simp at hr
            · rw [(set_hostname g w msg).2 hx] at hr; simp at hr
          | appname w =>
            simp only [Call.run, Option.map_eq_none_iff] at hr
            by_cases hx : NameWF 48 w ∧ w ≠ [45]
            · rw [(set_appname g w msg).1 hx] at hr; simp at hr
            · rw [(set_appname g w msg).2 hx] at hr; simp at hr
          | procID w =>
            simp only [Call.run, Option.map_eq_none_iff] at hr
            by_cases hx : NameWF 128 w ∧ w ≠ [45]
            · rw [(set_procid g w msg).1 hx] at hr; simp at hr
            · rw [(set_procid g w msg).2 hx] at hr; simp at hr
          | msgID w =>
            simp only [Call.run, Option.map_eq_none_iff] at hr
            by_cases hx : NameWF 32 w ∧ w ≠ [45]
            · rw [(set_msgid g w msg).1 hx] at hr; simp at hr
            · rw [(set_msgid g w msg).2 hx] at hr; simp at hr
          | elementID w =>
            simp only [Call.run, Option.map_eq_none_iff] at hr
            by_cases hx : SdNameWF w
            · rw [(set_sdid g w msg).1 hx] at hr; simp at hr
            · rw [(set_sdid g w msg).2 hx] at hr; simp at hr
          | message w =>
            simp only [Call.run, Option.map_eq_none_iff] at hr
            rw [set_msg] at hr; simp at hr
        | some y =>
          obtain ⟨m', gy⟩ := y
          rw [hr] at hs'
          simp only [Option.some.injEq, Prod.mk.injEq] at hs'
          obtain ⟨rfl, rfl⟩ := hs'
          have hg := run_globals hc' hr
          exact ⟨⟨by simp, m', rfl, by simpa only [PC.call, List.append_nil] using key m' g hr⟩, Or.inl hg⟩
  | afterId id name value =>
    refine ⟨?_, Or.inr rfl⟩
    simp only [Thread.step] at hs
    simp only [finish] at h1
    by_cases he : hasElement id msg = true
    · rw [if_pos he] at hs h1
      simp only [Option.some.injEq, Prod.mk.injEq] at hs
      obtain ⟨rfl, rfl⟩ := hs
      exact ⟨by simp, m, h1, h2⟩
    · rw [if_neg he] at hs h1
      simp only [Option.some.injEq, Prod.mk.injEq] at hs
      obtain ⟨rfl, rfl⟩ := hs
      exact ⟨by simp [Thread.ret], m, h1, by simpa only [Thread.ret, PC.call, List.append_nil] using h2⟩
  | idWritten id name value =>
    refine ⟨?_, Or.inr rfl⟩
    simp only [Thread.step] at hs
    simp only [finish] at h1
    cases h3 : set g .sdpn name msg with
    | none => simp [h3] at h1
    | some m1 =>
      simp only [h3, Option.some.injEq, Prod.mk.injEq] at hs h1
      obtain ⟨rfl, rfl⟩ := hs
      exact ⟨by simp, m, h1, h2⟩
  | afterName id name value =>
    refine ⟨?_, Or.inr rfl⟩
    simp only [Thread.step] at hs
    simp only [finish] at h1
    by_cases he : hasParam id name msg = true
    · rw [if_pos he] at hs h1
      simp only [Option.some.injEq, Prod.mk.injEq] at hs
      obtain ⟨rfl, rfl⟩ := hs
      exact ⟨by simp, m, h1, h2⟩
    · rw [if_neg he] at hs h1
      simp only [Option.some.injEq, Prod.mk.injEq] at hs
      obtain ⟨rfl, rfl⟩ := hs
      exact ⟨by simp [Thread.ret], m, h1, by simpa only [Thread.ret, PC.call, List.append_nil] using h2⟩
  | nameWritten id name value =>
    refine ⟨?_, Or.inr rfl⟩
    simp only [Thread.step] at hs
    simp only [finish] at h1
    simp only [h1, Option.some.injEq, Prod.mk.injEq] at hs
    obtain ⟨rfl, rfl⟩ := hs
    exact ⟨by simp [Thread.ret], m, rfl, by simpa only [Thread.ret, PC.call, List.append_nil] using h2⟩

theorem good_exec {msgs : Nat → SyslogMessage} {s s' : G} {sched : List Nat} (h : ∀ t, Good (msgs t) s.g (s.thr t))
    (hx : s.Exclusive) (hser : Serial s sched) (he : s.exec sched = some s') : ∀ t, Good (msgs t) s'.g (s'.thr t) := by
  induction sched generalizing s with
  | nil => simp only [G.exec, Option.some.injEq] at he; subst he; exact h
  | cons t ts ih =>
    simp only [G.exec] at he
    cases hs : s.step t with
    | none => simp [hs] at he
    | some s1 =>
      simp only [hs] at he
      obtain ⟨hx1, hser1⟩ := hser s1 hs
      refine ih ?_ hx1 hser1 he
      simp only [G.step] at hs
      cases hst : (s.thr t).step s.g with
      | none => simp [hst] at hs
      | some y =>
        obtain ⟨g', th⟩ := y
        simp only [hst, Option.some.injEq] at hs
        subst hs
        obtain ⟨a, b⟩ := good_step (h t) hst
        intro t'
        by_cases htt : t' = t
        · subst htt; simpa using a
        · simp only [if_neg htt]
          rcases b with rfl | b
          · exact h t'
          · refine finish_idle_indep (h t') ?_
            cases hi : (s.thr t').pc.inside with
            | false => rfl
            | true => exact absurd (hx t' t hi b) htt

/-- the calls made and to be made are those of the program -/
theorem prog_exec {prog : Nat → List Call} {s s' : G} {sched : List Nat}
    (h : ∀ t, (s.thr t).pc ≠ .panicked → (s.thr t).done ++ ((s.thr t).pc.call ++ (s.thr t).todo) = prog t)
    (he : s.exec sched = some s') : ∀ t, (s'.thr t).pc ≠ .panicked → (s'.thr t).done ++ ((s'.thr t).pc.call ++ (s'.thr t).todo) = prog t := by
  induction sched generalizing s with
  | nil => simp only [G.exec, Option.some.injEq] at he; subst he; exact h
  | cons t ts ih =>
    simp only [G.exec] at he
    cases hs : s.step t with
    | none => simp [hs] at he
    | some s1 =>
      simp only [hs] at he
      refine ih ?_ he
      simp only [G.step] at hs
      cases hst : (s.thr t).step s.g with
      | none => simp [hst] at hs
      | some y =>
        obtain ⟨g', th⟩ := y
        simp only [hst, Option.some.injEq] at hs
        subst hs
        intro t'
        by_cases htt : t' = t
        · subst htt
          simp only [if_true]
          have ht := h t'
          revert hst ht
          generalize s.thr t' = th0
          obtain ⟨pc, msg, todo, done⟩ := th0
          intro hst ht
          simp only [Thread.step] at hst
          cases pc with
          | panicked => simp at hst
          | idle =>
            cases todo with
            | nil => simp at hst
            | cons c cs =>
              have ht := ht (by simp)
              simp only [PC.call, List.nil_append] at ht
              simp only at hst
              split at hst
              · simp at hst
              · rename_i id name value cs' heq
                obtain ⟨rfl, rfl⟩ := heq
                split at hst <;> simp only [Option.some.injEq, Prod.mk.injEq] at hst <;> obtain ⟨rfl, rfl⟩ := hst
                · simp
                · intro _; simpa [PC.call] using ht
              · rename_i c' cs' hne heq
                obtain ⟨rfl, rfl⟩ := heq
                split at hst <;> simp only [Option.some.injEq, Prod.mk.injEq] at hst <;> obtain ⟨rfl, rfl⟩ := hst
                · simp
                · intro _; simpa [PC.call] using ht
          | _ =>
            have ht := ht (by simp)
            simp only [PC.call] at ht
            simp only at hst
            split at hst <;> simp only [Option.some.injEq, Prod.mk.injEq] at hst <;> obtain ⟨rfl, rfl⟩ := hst <;>
              simp_all [PC.call, Thread.ret]
        · simp only [if_neg htt]; exact h t'

/-! ## Deciding that a schedule of `n` goroutines has no overlap (for examples) -/

/-- `Exclusive` among the first `n` goroutines -/
def exclusiveB (n : Nat) (s : G) : Bool :=
  (List.range n).all fun t => (List.range n).all fun t' => !(s.thr t).pc.inside || !(s.thr t').pc.inside || t == t'

/-- `Serial` with `n` goroutines -/
def serialB (n : Nat) (s : G) : List Nat → Bool
  | [] => true
  | t :: ts =>
    match s.step t with
    | none => true
    | some s' => exclusiveB n s' && serialB n s' ts

theorem serial_of {n : Nat} {sched : List Nat} {s : G} (hn : ∀ t, n ≤ t → (s.thr t).pc = .idle ∧ (s.thr t).todo = [])
    (h : serialB n s sched = true) : Serial s sched := by
  induction sched generalizing s with
  | nil => trivial
  | cons t ts ih =>
    intro s' hs
    simp only [serialB, hs, Bool.and_eq_true] at h
    have hn' : ∀ t, n ≤ t → (s'.thr t).pc = .idle ∧ (s'.thr t).todo = [] := by
      intro t' ht'
      simp only [G.step] at hs
      cases hst : (s.thr t).step s.g with
      | none => simp [hst] at hs
      | some y =>
        simp only [hst, Option.some.injEq] at hs
        subst hs
        by_cases htt : t' = t
        · subst htt
          obtain ⟨a, b⟩ := hn t' ht'
          simp [Thread.step, a, b] at hst
        · simp only [if_neg htt]; exact hn t' ht'
    refine ⟨?_, ih hn' h.2⟩
    intro a b ha hb
    have hlt : ∀ x, (s'.thr x).pc.inside = true → x < n := by
      intro x hx
      rcases Nat.lt_or_ge x n with h' | h'
      · exact h'
      · rw [(hn' x h').1] at hx; simp [PC.inside] at hx
    have := List.all_eq_true.mp (List.all_eq_true.mp h.1 a (List.mem_range.mpr (hlt a ha))) b (List.mem_range.mpr (hlt b hb))
    simpa [ha, hb] using this

end Verif.Conc.Builders
