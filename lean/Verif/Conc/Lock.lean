import Verif.Fsm
import Verif.Bytes

/-!
# Goroutines sharing an object behind a mutex

Models the pattern `p.Lock(); defer p.Unlock(); ... use the shared machine ...` (rfc5424/parser.go:33-45,
rfc3164/parser.go:32-44). The memory of the object is shared; while one goroutine is between `Lock` and `Unlock` its
accesses are separate steps, and the scheduler may run other goroutines in between. Sequential consistency is assumed: this
is what the Go memory model guarantees for programs without data races, and mutual exclusion (proved below) is why there are
none.
-/

namespace Verif.Conc

/-- An object with shared memory `S`, calls with argument `I` and result `R`. -/
structure Obj (S I R : Type) where
  /-- first step of a call -/
  begin_ : I → S → S
  /-- next step: continue, or return -/
  micro : S → S ⊕ (S × R)

variable {S I R : Type}

/-- A call that is not interrupted, from memory `s`: it returns `r` and leaves memory `s'`. -/
inductive Runs (o : Obj S I R) : S → R → S → Prop
  | ret {s s' r} : o.micro s = .inr (s', r) → Runs o s r s'
  | more {s s1 s' r} : o.micro s = .inl s1 → Runs o s1 r s' → Runs o s r s'

/-- where a goroutine is -/
inductive PC (I R : Type) where
  /-- outside -/
  | idle
  /-- after `Lock` -/
  | locked (i : I)
  /-- executing the body -/
  | running (i : I)
  /-- before `Unlock` (deferred) -/
  | leaving (i : I) (r : R)

/-- a goroutine: where it is, the calls it will still make, the calls it has made and their results -/
structure Thread (I R : Type) where
  pc : PC I R
  todo : List I
  log : List (I × R)

/-- global state -/
structure G (S I R : Type) where
  mem : S
  locked : Bool
  thr : Nat → Thread I R

def G.set (g : G S I R) (t : Nat) (x : Thread I R) : Nat → Thread I R := fun t' => if t' = t then x else g.thr t'

/-- One step of goroutine `t`. -/
inductive Step (o : Obj S I R) (t : Nat) : G S I R → G S I R → Prop
  /-- `Lock` blocks while the mutex is locked -/
  | lock {g i is} : (g.thr t).pc = .idle → (g.thr t).todo = i :: is → g.locked = false →
      Step o t g ⟨g.mem, true, g.set t ⟨.locked i, is, (g.thr t).log⟩⟩
  | begin_ {g i} : (g.thr t).pc = .locked i →
      Step o t g ⟨o.begin_ i g.mem, g.locked, g.set t { g.thr t with pc := .running i }⟩
  | micro {g i s} : (g.thr t).pc = .running i → o.micro g.mem = .inl s → Step o t g ⟨s, g.locked, g.thr⟩
  | ret {g i s r} : (g.thr t).pc = .running i → o.micro g.mem = .inr (s, r) →
      Step o t g ⟨s, g.locked, g.set t { g.thr t with pc := .leaving i r }⟩
  | unlock {g i r} : (g.thr t).pc = .leaving i r →
      Step o t g ⟨g.mem, false, g.set t { g.thr t with pc := .idle, log := (g.thr t).log ++ [(i, r)] }⟩

/-- Executions under an arbitrary scheduler. -/
inductive Reach (o : Obj S I R) (g0 : G S I R) : G S I R → Prop
  | refl : Reach o g0 g0
  | step {g g' t} : Reach o g0 g → Step o t g g' → Reach o g0 g'

/-- the beginning: nobody has called anything; goroutine `t` will make the calls `prog t` -/
def init (s : S) (prog : Nat → List I) : G S I R := ⟨s, false, fun t => ⟨.idle, prog t, []⟩⟩

/-- inside the critical section -/
def PC.inside : PC I R → Bool
  | .idle => false
  | _ => true

/-- the argument of the call under way -/
def PC.current : PC I R → List I
  | .idle => []
  | .locked i => [i]
  | .running i => [i]
  | .leaving i _ => [i]

/-- What holds in all reachable states. `P` is an invariant of the memory between calls, `iso i r` says that `r` is the
right result for `i`. -/
structure Inv (o : Obj S I R) (P : S → Prop) (iso : I → R → Prop) (prog : Nat → List I) (g : G S I R) : Prop where
  free : g.locked = false → P g.mem ∧ ∀ t, (g.thr t).pc.inside = false
  held : g.locked = true → ∃ t, (g.thr t).pc.inside = true ∧ (∀ t', t' ≠ t → (g.thr t').pc.inside = false) ∧
    match (g.thr t).pc with
    | .idle => True
    | .locked _ => P g.mem
    | .running i => ∀ r s', Runs o g.mem r s' → iso i r ∧ P s'
    | .leaving i r => iso i r ∧ P g.mem
  log : ∀ t, ∀ x ∈ (g.thr t).log, iso x.1 x.2
  prog : ∀ t, (g.thr t).log.map Prod.fst ++ ((g.thr t).pc.current ++ (g.thr t).todo) = prog t

theorem set_self (g : G S I R) (t : Nat) (x : Thread I R) : g.set t x t = x := by simp [G.set]
theorem set_ne (g : G S I R) {t t' : Nat} (x : Thread I R) (h : t' ≠ t) : g.set t x t' = g.thr t' := by simp [G.set, h]

theorem inv_init (o : Obj S I R) (P : S → Prop) (iso : I → R → Prop) (prog : Nat → List I) (s : S) (hs : P s) :
    Inv o P iso prog (init s prog) :=
  ⟨fun _ => ⟨hs, fun _ => rfl⟩, fun h => by simp [init] at h, fun t x hx => by simp [init] at hx, fun t => by simp [init, PC.current]⟩

theorem inv_step {o : Obj S I R} {P : S → Prop} {iso : I → R → Prop} {prog : Nat → List I}
    (hcall : ∀ i s r s', P s → Runs o (o.begin_ i s) r s' → iso i r ∧ P s') {t : Nat} {g g' : G S I R}
    (h : Inv o P iso prog g) (hs : Step o t g g') : Inv o P iso prog g' := by
  have owner : (g.thr t).pc.inside = true → g.locked = true ∧ (∀ t', t' ≠ t → (g.thr t').pc.inside = false) ∧
      match (g.thr t).pc with
      | .idle => True
      | .locked _ => P g.mem
      | .running i => ∀ r s', Runs o g.mem r s' → iso i r ∧ P s'
      | .leaving i r => iso i r ∧ P g.mem := by
    intro hin
    cases hl : g.locked with
    | false => rw [(h.free hl).2 t] at hin; simp at hin
    | true =>
      obtain ⟨t0, h1, h2, h3⟩ := h.held hl
      have : t = t0 := Decidable.byContradiction fun hne => by rw [h2 t hne] at hin; simp at hin
      subst this
      exact ⟨rfl, h2, h3⟩
  cases hs with
  | @lock i is hpc htodo hl =>
    refine ⟨fun hh => by simp at hh, fun _ => ⟨t, ?_, ?_, ?_⟩, ?_, ?_⟩
    · simp only [set_self]; rfl
    · intro t' hne; simp only [set_ne g _ hne]; exact (h.free hl).2 t'
    · simp only [set_self]; exact (h.free hl).1
    · intro t' x hx
      by_cases hne : t' = t
      · subst hne; simp only [set_self] at hx; exact h.log t' x hx
      · simp only [set_ne g _ hne] at hx; exact h.log t' x hx
    · intro t'
      by_cases hne : t' = t
      · subst hne
        have := h.prog t'
        rw [hpc, htodo] at this
        simp only [set_self]
        exact this
      · simp only [set_ne g _ hne]; exact h.prog t'
  | @begin_ i hpc =>
    have hown := owner (by rw [hpc]; rfl)
    rw [hpc] at hown
    refine ⟨fun hh => by simp only at hh; rw [hown.1] at hh; simp at hh, fun _ => ⟨t, ?_, ?_, ?_⟩, ?_, ?_⟩
    · simp only [set_self]; rfl
    · intro t' hne; simp only [set_ne g _ hne]; exact hown.2.1 t' hne
    · simp only [set_self]; exact fun r s' hr => hcall i g.mem r s' hown.2.2 hr
    · intro t' x hx
      by_cases hne : t' = t
      · subst hne; simp only [set_self] at hx; exact h.log t' x hx
      · simp only [set_ne g _ hne] at hx; exact h.log t' x hx
    · intro t'
      by_cases hne : t' = t
      · subst hne
        have := h.prog t'
        rw [hpc] at this
        simp only [set_self]
        exact this
      · simp only [set_ne g _ hne]; exact h.prog t'
  | @micro i s hpc hm =>
    have hown := owner (by rw [hpc]; rfl)
    have hrun := hown.2.2
    rw [hpc] at hrun
    refine ⟨fun hh => by simp only at hh; rw [hown.1] at hh; simp at hh, fun _ => ⟨t, ?_, ?_, ?_⟩, h.log, h.prog⟩
    · show (g.thr t).pc.inside = true; rw [hpc]; rfl
    · exact hown.2.1
    · simp only [hpc]; exact fun r s' hr => hrun r s' (.more hm hr)
  | @ret i s r hpc hm =>
    have hown := owner (by rw [hpc]; rfl)
    have hrun := hown.2.2
    rw [hpc] at hrun
    refine ⟨fun hh => by simp only at hh; rw [hown.1] at hh; simp at hh, fun _ => ⟨t, ?_, ?_, ?_⟩, ?_, ?_⟩
    · simp only [set_self]; rfl
    · intro t' hne; simp only [set_ne g _ hne]; exact hown.2.1 t' hne
    · simp only [set_self]; exact hrun r s (.ret hm)
    · intro t' x hx
      by_cases hne : t' = t
      · subst hne; simp only [set_self] at hx; exact h.log t' x hx
      · simp only [set_ne g _ hne] at hx; exact h.log t' x hx
    · intro t'
      by_cases hne : t' = t
      · subst hne
        have := h.prog t'
        rw [hpc] at this
        simp only [set_self]
        exact this
      · simp only [set_ne g _ hne]; exact h.prog t'
  | @unlock i r hpc =>
    have hown := owner (by rw [hpc]; rfl)
    have hlv := hown.2.2
    rw [hpc] at hlv
    refine ⟨fun _ => ⟨hlv.2, ?_⟩, fun hh => by simp at hh, ?_, ?_⟩
    · intro t'
      by_cases hne : t' = t
      · subst hne; simp only [set_self]; rfl
      · simp only [set_ne g _ hne]; exact hown.2.1 t' hne
    · intro t' x hx
      by_cases hne : t' = t
      · subst hne
        simp only [set_self, List.mem_append, List.mem_singleton] at hx
        rcases hx with hx | rfl
        · exact h.log t' x hx
        · exact hlv.1
      · simp only [set_ne g _ hne] at hx; exact h.log t' x hx
    · intro t'
      by_cases hne : t' = t
      · subst hne
        have := h.prog t'
        rw [hpc] at this
        simp only [set_self, List.map_append, List.map_cons, List.map_nil, PC.current, List.append_assoc, List.nil_append]
        exact this
      · simp only [set_ne g _ hne]; exact h.prog t'

theorem inv_reach {o : Obj S I R} {P : S → Prop} {iso : I → R → Prop} {prog : Nat → List I}
    (hcall : ∀ i s r s', P s → Runs o (o.begin_ i s) r s' → iso i r ∧ P s') {s : S} (hs : P s) {g : G S I R}
    (h : Reach o (init s prog) g) : Inv o P iso prog g := by
  induction h with
  | refl => exact inv_init o P iso prog s hs
  | step _ hst ih => exact inv_step hcall ih hst

/-- mutual exclusion -/
theorem exclusion {o : Obj S I R} {P : S → Prop} {iso : I → R → Prop} {prog : Nat → List I} {g : G S I R}
    (h : Inv o P iso prog g) {t t' : Nat} (h1 : (g.thr t).pc.inside = true) (h2 : (g.thr t').pc.inside = true) : t = t' := by
  cases hl : g.locked with
  | false => rw [(h.free hl).2 t] at h1; simp at h1
  | true =>
    obtain ⟨t0, _, h3, _⟩ := h.held hl
    have e1 : t = t0 := Decidable.byContradiction fun hne => by rw [h3 t hne] at h1; simp at h1
    have e2 : t' = t0 := Decidable.byContradiction fun hne => by rw [h3 t' hne] at h2; simp at h2
    rw [e1, e2]

/-- no deadlock: if some goroutine has calls left, some goroutine can make a step -/
theorem progress {o : Obj S I R} {P : S → Prop} {iso : I → R → Prop} {prog : Nat → List I} {g : G S I R}
    (h : Inv o P iso prog g) (hn : ∃ t, (g.thr t).pc.inside = true ∨ (g.thr t).todo ≠ []) : ∃ t g', Step o t g g' := by
  cases hl : g.locked with
  | false =>
    obtain ⟨t, ht⟩ := hn
    have hin := (h.free hl).2 t
    rcases ht with ht | ht
    · rw [hin] at ht; simp at ht
    · obtain ⟨i, is, hi⟩ : ∃ i is, (g.thr t).todo = i :: is := by
        cases hh : (g.thr t).todo with
        | nil => exact absurd hh ht
        | cons i is => exact ⟨i, is, rfl⟩
      have hpc : (g.thr t).pc = .idle := by
        cases hh : (g.thr t).pc <;> rw [hh] at hin <;> simp [PC.inside] at hin <;> rfl
      exact ⟨t, _, .lock hpc hi hl⟩
  | true =>
    obtain ⟨t, h1, _, _⟩ := h.held hl
    cases hh : (g.thr t).pc with
    | idle => rw [hh] at h1; simp [PC.inside] at h1
    | locked i => exact ⟨t, _, .begin_ hh⟩
    | running i =>
      cases hm : o.micro g.mem with
      | inl s => exact ⟨t, _, .micro hh hm⟩
      | inr x => obtain ⟨s, r⟩ := x; exact ⟨t, _, .ret hh hm⟩
    | leaving i r => exact ⟨t, _, .unlock hh⟩

/-! ## an automaton as such an object -/

/-- memory of an automaton: state, unread input and variables -/
structure Mem (M : Type) where
  cs : Nat
  rest : Bytes
  vars : M

/-- `p.machine.Parse(input)` in steps of one byte: `reset` is its prologue, `fin` what it returns -/
def fsmObj {A M R : Type} (T : Nat → Fsm.Row A) (act : A → M → Fsm.Step M) (adv : M → M) (start : Nat) (reset : M → Bytes → M)
    (fin : Fsm.Res M → R) : Obj (Mem M) Bytes R where
  begin_ input s := ⟨start, input, reset s.vars input⟩
  micro s :=
    match s.rest with
    | [] =>
      let r := Fsm.runEof T act Fsm.jumpFuel s.cs s.vars
      .inr (match r with | .done cs m => ⟨cs, [], m⟩ | _ => s, fin r)
    | b :: bs =>
      match Fsm.stepByte T act adv b Fsm.jumpFuel s.cs s.vars with
      | .panic => .inr (s, fin .panic)
      | .loop => .inr (s, fin .loop)
      | .done 0 m => .inr (⟨0, bs, m⟩, fin (.done 0 m))
      | .done (cs + 1) m => .inl ⟨cs + 1, bs, m⟩

theorem fsm_runs {A M R : Type} {T : Nat → Fsm.Row A} {act : A → M → Fsm.Step M} {adv : M → M} {start : Nat} {reset : M → Bytes → M}
    {fin : Fsm.Res M → R} : ∀ (rest : Bytes) (cs : Nat) (m : M) (r : R) (s' : Mem M),
    Runs (fsmObj T act adv start reset fin) ⟨cs, rest, m⟩ r s' →
    r = fin (Fsm.run T act adv rest cs m) ∧ ∀ cs' m', Fsm.run T act adv rest cs m = .done cs' m' → s'.vars = m' := by
  intro rest
  induction rest with
  | nil =>
    intro cs m r s' h
    cases h with
    | ret h1 =>
      simp only [fsmObj, Sum.inr.injEq, Prod.mk.injEq] at h1
      refine ⟨h1.2.symm, fun cs' m' hd => ?_⟩
      have hd : Fsm.runEof T act Fsm.jumpFuel cs m = .done cs' m' := hd
      rw [hd] at h1
      rw [← h1.1]
    | more h1 _ => simp [fsmObj] at h1
  | cons b bs ih =>
    intro cs m r s' h
    have key : Fsm.run T act adv (b :: bs) cs m = match Fsm.stepByte T act adv b Fsm.jumpFuel cs m with
      | .panic => .panic
      | .loop => .loop
      | .done 0 m' => .done 0 m'
      | .done (cs' + 1) m' => Fsm.run T act adv bs (cs' + 1) m' := rfl
    rw [key]
    cases h with
    | ret h1 =>
      simp only [fsmObj] at h1
      split at h1
      · simp only [Sum.inr.injEq, Prod.mk.injEq] at h1
        exact ⟨h1.2.symm, fun _ _ hd => by simp at hd⟩
      · simp only [Sum.inr.injEq, Prod.mk.injEq] at h1
        exact ⟨h1.2.symm, fun _ _ hd => by simp at hd⟩
      · rename_i m1 heq
        simp only [Sum.inr.injEq, Prod.mk.injEq] at h1
        refine ⟨h1.2.symm, fun _ _ hd => ?_⟩
        simp only [Fsm.Res.done.injEq] at hd
        rw [← h1.1, ← hd.2]
      · simp at h1
    | more h1 h2 =>
      simp only [fsmObj] at h1
      split at h1
      · simp at h1
      · simp at h1
      · simp at h1
      · rename_i cs1 m1 heq
        simp only [Sum.inl.injEq] at h1
        subst h1
        exact ih _ _ _ _ h2

end Verif.Conc
