import Verif.Conc.Lock

/-!
# A parser behind a mutex whose mode is switched without it

`parser` (rfc5424/parser.go:10-13, rfc3164/parser.go:10-13) embeds a mutex and a machine. `Parse` holds the mutex; `WithBestEffort`
(rfc5424/machine.go:86-88, rfc3164/machine.go:54-56, promoted from the machine) and `HasBestEffort` (rfc5424/parser.go:25-27, rfc3164/parser.go:25-27) do not. `Parse` reads the
flag twice: `machine.Parse` once the automaton has stopped (rfc5424/machine.go:12038, rfc3164/machine.go:7255), and `parser.Parse` if there is an
error (rfc5424/parser.go:38, rfc3164/parser.go:38). The three kinds of calls are made by any number of goroutines; their accesses interleave in any order (sequential
consistency; there is a data race on the flag, so the Go memory model promises less; `Obj.Ends` covers all values the two reads may see).

The global clock and the times in the entries of the logs are ghosts: they only number the steps, so that statements about the order of calls
can be made.
-/

namespace Verif.Conc.Flag

/-- A machine with memory `S`, calls with argument `I`, end states `Q` of the automaton and results `R`. -/
structure Obj (S I Q R : Type) where
  /-- first step of a call -/
  begin_ : I → S → S
  /-- next step: continue, or stop -/
  micro : S → S ⊕ (S × Q)
  /-- `m.bestEffort` -/
  flag : S → Bool
  /-- `m.bestEffort = true` -/
  enable : S → S
  /-- what `machine.Parse` returns, depending on the flag -/
  inner : Bool → Q → R
  /-- what `parser.Parse` returns, depending on the flag -/
  outer : Bool → R → R

/-- the calls -/
inductive Op (I : Type) where
  | parse (i : I)
  | withBestEffort
  | hasBestEffort
  deriving DecidableEq

/-- their results -/
inductive Ret (R : Type) where
  | result (r : R)
  | done
  | flag (b : Bool)
  deriving DecidableEq

/-- a call that has returned: when it was made, when it returned -/
structure Entry (I R : Type) where
  op : Op I
  ret : Ret R
  from_ : Nat
  upto : Nat

/-- where a goroutine is; `a` is the time at which the call under way was made -/
inductive PC (I Q R : Type) where
  | idle
  /-- `Parse`, before `Lock` -/
  | waiting (i : I) (a : Nat)
  | locked (i : I) (a : Nat)
  | running (i : I) (a : Nat)
  /-- the automaton has stopped, the flag is not yet read -/
  | stopped (i : I) (a : Nat) (q : Q)
  /-- `machine.Parse` has returned -/
  | returned (i : I) (a : Nat) (r : R)
  /-- before the deferred `Unlock` -/
  | leaving (i : I) (a : Nat) (r : R)
  /-- after `Unlock` -/
  | left (i : I) (a : Nat) (r : R)
  /-- `WithBestEffort`, before and after the assignment -/
  | enabling (a : Nat)
  | enabled (a : Nat)
  /-- `HasBestEffort`, before and after reading the flag -/
  | asking (a : Nat)
  | asked (a : Nat) (b : Bool)

structure Thread (I Q R : Type) where
  pc : PC I Q R
  todo : List (Op I)
  log : List (Entry I R)

structure G (S I Q R : Type) where
  mem : S
  locked : Bool
  clock : Nat
  thr : Nat → Thread I Q R

variable {S I Q R : Type}

def G.set (g : G S I Q R) (t : Nat) (x : Thread I Q R) : Nat → Thread I Q R := fun t' => if t' = t then x else g.thr t'

/-- goroutine `t` goes on at `pc` -/
def G.at_ (g : G S I Q R) (t : Nat) (pc : PC I Q R) : Nat → Thread I Q R := g.set t { g.thr t with pc := pc }

/-- the call under way returns -/
def G.leave (g : G S I Q R) (t : Nat) (op : Op I) (r : Ret R) (a : Nat) : Nat → Thread I Q R :=
  g.set t { g.thr t with pc := .idle, log := (g.thr t).log ++ [⟨op, r, a, g.clock⟩] }

/-- where a call begins -/
def PC.start : Op I → Nat → PC I Q R
  | .parse i, a => .waiting i a
  | .withBestEffort, a => .enabling a
  | .hasBestEffort, a => .asking a

/-- One step of goroutine `t`. -/
inductive Step (o : Obj S I Q R) (t : Nat) : G S I Q R → G S I Q R → Prop
  | call {g op ops} : (g.thr t).pc = .idle → (g.thr t).todo = op :: ops →
      Step o t g ⟨g.mem, g.locked, g.clock + 1, g.set t ⟨.start op g.clock, ops, (g.thr t).log⟩⟩
  | lock {g i a} : (g.thr t).pc = .waiting i a → g.locked = false → Step o t g ⟨g.mem, true, g.clock + 1, g.at_ t (.locked i a)⟩
  | begin_ {g i a} : (g.thr t).pc = .locked i a → Step o t g ⟨o.begin_ i g.mem, g.locked, g.clock + 1, g.at_ t (.running i a)⟩
  | micro {g i a s} : (g.thr t).pc = .running i a → o.micro g.mem = .inl s → Step o t g ⟨s, g.locked, g.clock + 1, g.thr⟩
  | stop {g i a s q} : (g.thr t).pc = .running i a → o.micro g.mem = .inr (s, q) →
      Step o t g ⟨s, g.locked, g.clock + 1, g.at_ t (.stopped i a q)⟩
  | inner {g i a q} : (g.thr t).pc = .stopped i a q →
      Step o t g ⟨g.mem, g.locked, g.clock + 1, g.at_ t (.returned i a (o.inner (o.flag g.mem) q))⟩
  | outer {g i a r} : (g.thr t).pc = .returned i a r →
      Step o t g ⟨g.mem, g.locked, g.clock + 1, g.at_ t (.leaving i a (o.outer (o.flag g.mem) r))⟩
  | unlock {g i a r} : (g.thr t).pc = .leaving i a r → Step o t g ⟨g.mem, false, g.clock + 1, g.at_ t (.left i a r)⟩
  | ret {g i a r} : (g.thr t).pc = .left i a r → Step o t g ⟨g.mem, g.locked, g.clock + 1, g.leave t (.parse i) (.result r) a⟩
  | enable {g a} : (g.thr t).pc = .enabling a → Step o t g ⟨o.enable g.mem, g.locked, g.clock + 1, g.at_ t (.enabled a)⟩
  | enabled {g a} : (g.thr t).pc = .enabled a → Step o t g ⟨g.mem, g.locked, g.clock + 1, g.leave t .withBestEffort .done a⟩
  | ask {g a} : (g.thr t).pc = .asking a → Step o t g ⟨g.mem, g.locked, g.clock + 1, g.at_ t (.asked a (o.flag g.mem))⟩
  | answer {g a b} : (g.thr t).pc = .asked a b → Step o t g ⟨g.mem, g.locked, g.clock + 1, g.leave t .hasBestEffort (.flag b) a⟩

/-- Executions under an arbitrary scheduler. -/
inductive Reach (o : Obj S I Q R) (g0 : G S I Q R) : G S I Q R → Prop
  | refl : Reach o g0 g0
  | step {g g' t} : Reach o g0 g → Step o t g g' → Reach o g0 g'

/-- the beginning: goroutine `t` will make the calls `prog t` -/
def init (s : S) (prog : Nat → List (Op I)) : G S I Q R := ⟨s, false, 0, fun t => ⟨.idle, prog t, []⟩⟩

/-- between `Lock` and `Unlock` -/
def PC.inside : PC I Q R → Bool
  | .locked _ _ | .running _ _ | .stopped _ _ _ | .returned _ _ _ | .leaving _ _ _ => true
  | _ => false

/-- in a call of `WithBestEffort` made at time `a` -/
def PC.switching : PC I Q R → Nat → Prop
  | .enabling a, a' => a = a'
  | .enabled a, a' => a = a'
  | _, _ => False

/-- the call under way -/
def PC.current : PC I Q R → List (Op I)
  | .idle => []
  | .waiting i _ | .locked i _ | .running i _ | .stopped i _ _ | .returned i _ _ | .leaving i _ _ | .left i _ _ => [.parse i]
  | .enabling _ | .enabled _ => [.withBestEffort]
  | .asking _ | .asked _ _ => [.hasBestEffort]

/-! ## Specification -/

/-- `on p` says whether the mode at time `p` is best effort. An entry of a log is right if the call had its whole effect at one moment between
call and return. -/
def Right (spec : Bool → I → R) (on : Nat → Bool) (x : Entry I R) : Prop :=
  x.from_ < x.upto ∧
  match x.op, x.ret with
  | .parse i, .result r => ∃ p, x.from_ ≤ p ∧ p ≤ x.upto ∧ r = spec (on p) i
  | .hasBestEffort, .flag b => ∃ p, x.from_ ≤ p ∧ p ≤ x.upto ∧ b = on p
  | .withBestEffort, .done => on x.upto = true
  | _, _ => False

/-- The mode is never switched back. -/
def Monotone (on : Nat → Bool) : Prop := ∀ p p', p ≤ p' → on p = true → on p' = true

/-- at time `p` a call of `WithBestEffort` was under way, or is since -/
def Switching (g : G S I Q R) (p : Nat) : Prop :=
  ∃ t, (∃ x ∈ (g.thr t).log, x.op = .withBestEffort ∧ x.from_ < p ∧ p ≤ x.upto) ∨ ∃ a, (g.thr t).pc.switching a ∧ a < p

/-- What the object must satisfy. `P` holds of the memory between calls, `Mid i` during a call with argument `i`. -/
structure Good (o : Obj S I Q R) (spec : Bool → I → R) (P : S → Prop) (Mid : I → S → Prop) : Prop where
  start : ∀ i s, P s → Mid i (o.begin_ i s)
  more : ∀ i s s', Mid i s → o.micro s = .inl s' → Mid i s'
  stop : ∀ i s s' q, Mid i s → o.micro s = .inr (s', q) → P s' ∧ ∀ b b', (b = true → b' = true) → o.outer b' (o.inner b q) = spec b i
  enable : ∀ s, P s → P (o.enable s)
  enable_mid : ∀ i s, Mid i s → Mid i (o.enable s)
  flag_start : ∀ i s, o.flag (o.begin_ i s) = o.flag s
  flag_more : ∀ s s', o.micro s = .inl s' → o.flag s' = o.flag s
  flag_stop : ∀ s s' q, o.micro s = .inr (s', q) → o.flag s' = o.flag s
  flag_enable : ∀ s, o.flag (o.enable s) = true

/-- the mode at time `p`, if it was switched at time `c` -/
def onOf (c : Option Nat) (p : Nat) : Bool := match c with | none => false | some c => decide (c ≤ p)

/-- what holds of the goroutine inside -/
def Holds (o : Obj S I Q R) (spec : Bool → I → R) (P : S → Prop) (Mid : I → S → Prop) (c : Option Nat) (mem : S) (clock : Nat) : PC I Q R → Prop
  | .locked _ _ => P mem
  | .running i _ => Mid i mem
  | .stopped i _ q => P mem ∧ ∀ b b', (b = true → b' = true) → o.outer b' (o.inner b q) = spec b i
  | .returned i a r => P mem ∧ ∃ p, a ≤ p ∧ p < clock ∧ ∀ b', (onOf c p = true → b' = true) → o.outer b' r = spec (onOf c p) i
  | .leaving i a r => P mem ∧ ∃ p, a ≤ p ∧ p < clock ∧ r = spec (onOf c p) i
  | _ => True

/-- what holds of every goroutine -/
def Each (spec : Bool → I → R) (c : Option Nat) (clock : Nat) : PC I Q R → Prop
  | .idle => True
  | .waiting _ a | .locked _ a | .running _ a | .stopped _ a _ | .returned _ a _ | .leaving _ a _ | .enabling a | .asking a => a < clock
  | .left i a r => ∃ p, a ≤ p ∧ p < clock ∧ r = spec (onOf c p) i
  | .enabled a => a < clock ∧ ∃ d, c = some d ∧ d < clock
  | .asked a b => ∃ p, a ≤ p ∧ p < clock ∧ b = onOf c p

/-- What holds in all reachable states; `c` is the time at which the mode was switched. -/
structure Inv (o : Obj S I Q R) (spec : Bool → I → R) (P : S → Prop) (Mid : I → S → Prop) (be : Bool) (prog : Nat → List (Op I)) (c : Option Nat)
    (g : G S I Q R) : Prop where
  free : g.locked = false → P g.mem ∧ ∀ t, (g.thr t).pc.inside = false
  held : g.locked = true → ∃ t, (g.thr t).pc.inside = true ∧ (∀ t', t' ≠ t → (g.thr t').pc.inside = false) ∧
    Holds o spec P Mid c g.mem g.clock (g.thr t).pc
  each : ∀ t, Each spec c g.clock (g.thr t).pc
  log : ∀ t, ∀ x ∈ (g.thr t).log, Right spec (onOf c) x ∧ x.upto < g.clock
  prog : ∀ t, (g.thr t).log.map Entry.op ++ ((g.thr t).pc.current ++ (g.thr t).todo) = prog t
  since : o.flag g.mem = true ↔ ∃ d, c = some d
  past : ∀ d, c = some d → d ≤ g.clock
  cause : ∀ d, c = some d → (be = true ∧ d = 0) ∨ Switching g d
  initial : be = true → c = some 0

theorem set_self (g : G S I Q R) (t : Nat) (x : Thread I Q R) : g.set t x t = x := by simp [G.set]
theorem set_ne (g : G S I Q R) {t t' : Nat} (x : Thread I Q R) (h : t' ≠ t) : g.set t x t' = g.thr t' := by simp [G.set, h]

theorem each_mono {spec : Bool → I → R} {c : Option Nat} {n n' : Nat} (hn : n ≤ n') {pc : PC I Q R} (h : Each spec c n pc) : Each spec c n' pc := by
  cases pc <;> simp only [Each] at h ⊢ <;> first | omega | trivial | skip
  · obtain ⟨p, h1, h2, h3⟩ := h; exact ⟨p, h1, by omega, h3⟩
  · obtain ⟨h0, d, h1, h2⟩ := h; exact ⟨by omega, d, h1, by omega⟩
  · obtain ⟨p, h1, h2, h3⟩ := h; exact ⟨p, h1, by omega, h3⟩

theorem holds_mono {o : Obj S I Q R} {spec : Bool → I → R} {P : S → Prop} {Mid : I → S → Prop} {c : Option Nat} {mem : S} {n n' : Nat} (hn : n ≤ n')
    {pc : PC I Q R} (h : Holds o spec P Mid c mem n pc) : Holds o spec P Mid c mem n' pc := by
  cases pc <;> simp only [Holds] at h ⊢ <;> first | exact h | skip
  · obtain ⟨h0, p, h1, h2, h3⟩ := h; exact ⟨h0, p, h1, by omega, h3⟩
  · obtain ⟨h0, p, h1, h2, h3⟩ := h; exact ⟨h0, p, h1, by omega, h3⟩

theorem on_before {d p : Nat} (h : p < d) : onOf (some d) p = onOf none p := by simp [onOf]; omega

/-- switching the mode later does not change the past -/
theorem right_switch {spec : Bool → I → R} {d : Nat} {x : Entry I R} (h : Right spec (onOf none) x) (hx : x.upto < d) : Right spec (onOf (some d)) x := by
  refine ⟨h.1, ?_⟩
  have h2 := h.2
  split at h2
  · obtain ⟨p, h3, h4, h5⟩ := h2
    exact ⟨p, h3, h4, by rw [on_before (by omega)]; exact h5⟩
  · obtain ⟨p, h3, h4, h5⟩ := h2
    exact ⟨p, h3, h4, by rw [on_before (by omega)]; exact h5⟩
  · simp [onOf] at h2
  · exact h2

theorem each_switch {spec : Bool → I → R} {n d : Nat} (hd : n ≤ d) {pc : PC I Q R} (h : Each spec none n pc) : Each spec (some d) n pc := by
  cases pc <;> simp only [Each] at h ⊢ <;> first | exact h | skip
  · obtain ⟨p, h1, h2, h3⟩ := h; exact ⟨p, h1, h2, by rw [on_before (by omega)]; exact h3⟩
  · obtain ⟨_, e, h1, _⟩ := h; simp at h1
  · obtain ⟨p, h1, h2, h3⟩ := h; exact ⟨p, h1, h2, by rw [on_before (by omega)]; exact h3⟩

theorem holds_switch {o : Obj S I Q R} {spec : Bool → I → R} {P : S → Prop} {Mid : I → S → Prop} {mem : S} {n d : Nat} (hd : n ≤ d)
    {pc : PC I Q R} (h : Holds o spec P Mid none mem n pc) : Holds o spec P Mid (some d) mem n pc := by
  cases pc <;> simp only [Holds] at h ⊢ <;> first | exact h | skip
  · obtain ⟨h0, p, h1, h2, h3⟩ := h; exact ⟨h0, p, h1, h2, by rw [on_before (by omega)]; exact h3⟩
  · obtain ⟨h0, p, h1, h2, h3⟩ := h; exact ⟨h0, p, h1, h2, by rw [on_before (by omega)]; exact h3⟩

theorem holds_enable {o : Obj S I Q R} {spec : Bool → I → R} {P : S → Prop} {Mid : I → S → Prop} (ho : Good o spec P Mid) {c : Option Nat} {mem : S}
    {n : Nat} {pc : PC I Q R} (h : Holds o spec P Mid c mem n pc) : Holds o spec P Mid c (o.enable mem) n pc := by
  cases pc <;> simp only [Holds] at h ⊢ <;> first | exact h | skip
  · exact ho.enable _ h
  · exact ho.enable_mid _ _ h
  · exact ⟨ho.enable _ h.1, h.2⟩
  · exact ⟨ho.enable _ h.1, h.2⟩
  · exact ⟨ho.enable _ h.1, h.2⟩

/-- the mode now -/
theorem on_now {o : Obj S I Q R} {spec : Bool → I → R} {P : S → Prop} {Mid : I → S → Prop} {be : Bool} {prog : Nat → List (Op I)} {c : Option Nat}
    {g : G S I Q R} (h : Inv o spec P Mid be prog c g) : onOf c g.clock = o.flag g.mem := by
  cases c with
  | none =>
    cases hf : o.flag g.mem with
    | false => rfl
    | true => obtain ⟨d, hd⟩ := h.since.mp hf; simp at hd
  | some d =>
    have := h.past d rfl
    rw [h.since.mpr ⟨d, rfl⟩]
    simp [onOf, this]

theorem inv_init (o : Obj S I Q R) (spec : Bool → I → R) (P : S → Prop) (Mid : I → S → Prop) (prog : Nat → List (Op I)) (s : S) (hs : P s) :
    Inv o spec P Mid (o.flag s) prog (if o.flag s then some 0 else none) (init s prog) := by
  refine ⟨fun _ => ⟨hs, fun _ => rfl⟩, fun h => by simp [init] at h, fun _ => trivial, fun t x hx => by simp [init] at hx, fun t => by simp [init, PC.current],
    ?_, ?_, ?_, ?_⟩
  · show o.flag s = true ↔ _
    cases o.flag s <;> simp
  · intro d hd
    cases hf : o.flag s <;> rw [hf] at hd <;> simp at hd
    omega
  · intro d hd
    cases hf : o.flag s <;> rw [hf] at hd <;> simp at hd
    exact .inl ⟨rfl, hd.symm⟩
  · intro h; rw [h]; rfl

/-- a step of one goroutine, which leaves the others where they are -/
theorem frame {o : Obj S I Q R} {spec : Bool → I → R} {P : S → Prop} {Mid : I → S → Prop} {be : Bool} {prog : Nat → List (Op I)} {c : Option Nat}
    {g g' : G S I Q R} {t : Nat} (h : Inv o spec P Mid be prog c g) (hthr : ∀ t', t' ≠ t → g'.thr t' = g.thr t') (hclock : g'.clock = g.clock + 1)
    (heach : Each spec c (g.clock + 1) (g'.thr t).pc)
    (hlog : (g'.thr t).log = (g.thr t).log ∨ ∃ x, (g'.thr t).log = (g.thr t).log ++ [x] ∧ Right spec (onOf c) x ∧ x.upto = g.clock)
    (hprog : (g'.thr t).log.map Entry.op ++ ((g'.thr t).pc.current ++ (g'.thr t).todo) =
      (g.thr t).log.map Entry.op ++ ((g.thr t).pc.current ++ (g.thr t).todo))
    (hsw : ∀ a, (g.thr t).pc.switching a → (g'.thr t).pc.switching a ∨
      ∃ x ∈ (g'.thr t).log, x.op = .withBestEffort ∧ x.from_ = a ∧ x.upto = g.clock)
    (hflag : o.flag g'.mem = o.flag g.mem)
    (hfree : g'.locked = false → P g'.mem ∧ ∀ t, (g'.thr t).pc.inside = false)
    (hheld : g'.locked = true → ∃ t, (g'.thr t).pc.inside = true ∧ (∀ t', t' ≠ t → (g'.thr t').pc.inside = false) ∧
      Holds o spec P Mid c g'.mem g'.clock (g'.thr t).pc) : Inv o spec P Mid be prog c g' := by
  have hsub : ∀ x ∈ (g.thr t).log, x ∈ (g'.thr t).log := by
    intro x hx
    rcases hlog with e | ⟨y, e, -⟩
    · rw [e]; exact hx
    · rw [e]; exact List.mem_append_left _ hx
  refine ⟨hfree, hheld, fun t' => ?_, fun t' x hx => ?_, fun t' => ?_, ?_, ?_, ?_, h.initial⟩
  · rw [hclock]
    by_cases hne : t' = t
    · subst hne; exact heach
    · rw [hthr t' hne]; exact each_mono (by omega) (h.each t')
  · rw [hclock]
    by_cases hne : t' = t
    · subst hne
      rcases hlog with e | ⟨y, e, hy, hu⟩
      · rw [e] at hx
        have := h.log t' x hx
        exact ⟨this.1, by omega⟩
      · rw [e, List.mem_append, List.mem_singleton] at hx
        rcases hx with hx | rfl
        · have := h.log t' x hx
          exact ⟨this.1, by omega⟩
        · exact ⟨hy, by omega⟩
    · rw [hthr t' hne] at hx
      have := h.log t' x hx
      exact ⟨this.1, by omega⟩
  · by_cases hne : t' = t
    · subst hne; rw [hprog]; exact h.prog t'
    · rw [hthr t' hne]; exact h.prog t'
  · rw [hflag]; exact h.since
  · intro d hd; have := h.past d hd; omega
  · intro d hd
    rcases h.cause d hd with hc | ⟨t', hc⟩
    · exact .inl hc
    · refine .inr ⟨t', ?_⟩
      by_cases hne : t' = t
      · subst hne
        rcases hc with ⟨x, hx, h1⟩ | ⟨a, ha, hlt⟩
        · exact .inl ⟨x, hsub x hx, h1⟩
        · rcases hsw a ha with hs | ⟨x, hx, h1, h2, h3⟩
          · exact .inr ⟨a, hs, hlt⟩
          · exact .inl ⟨x, hx, h1, by omega, by have := h.past d hd; omega⟩
      · rw [hthr t' hne]; exact hc

/-- a step outside of the critical section -/
theorem outside {o : Obj S I Q R} {spec : Bool → I → R} {P : S → Prop} {Mid : I → S → Prop} {be : Bool} {prog : Nat → List (Op I)} {c : Option Nat}
    {g : G S I Q R} {t : Nat} {x : Thread I Q R} (h : Inv o spec P Mid be prog c g) (h0 : (g.thr t).pc.inside = false) (h1 : x.pc.inside = false)
    (heach : Each spec c (g.clock + 1) x.pc)
    (hlog : x.log = (g.thr t).log ∨ ∃ y, x.log = (g.thr t).log ++ [y] ∧ Right spec (onOf c) y ∧ y.upto = g.clock)
    (hprog : x.log.map Entry.op ++ (x.pc.current ++ x.todo) = (g.thr t).log.map Entry.op ++ ((g.thr t).pc.current ++ (g.thr t).todo))
    (hsw : ∀ a, (g.thr t).pc.switching a → x.pc.switching a ∨ ∃ y ∈ x.log, y.op = .withBestEffort ∧ y.from_ = a ∧ y.upto = g.clock) :
    Inv o spec P Mid be prog c ⟨g.mem, g.locked, g.clock + 1, g.set t x⟩ := by
  have hin : ∀ t', (g.set t x t').pc.inside = (g.thr t').pc.inside := by
    intro t'
    by_cases hne : t' = t
    · subst hne; rw [set_self, h1, h0]
    · rw [set_ne g x hne]
  refine frame (t := t) h (fun t' hne => set_ne g x hne) rfl (by simp only [set_self]; exact heach) (by simp only [set_self]; exact hlog)
    (by simp only [set_self]; exact hprog) (by simp only [set_self]; exact hsw) rfl ?_ ?_
  · intro hl
    exact ⟨(h.free hl).1, fun t' => by rw [hin]; exact (h.free hl).2 t'⟩
  · intro hl
    obtain ⟨t0, h2, h3, h4⟩ := h.held hl
    have hne : t0 ≠ t := fun e => by rw [e, h0] at h2; simp at h2
    refine ⟨t0, by rw [hin]; exact h2, fun t' ht' => by rw [hin]; exact h3 t' ht', ?_⟩
    simp only [set_ne g x hne]
    exact holds_mono (Nat.le_succ _) h4

/-- a step inside of the critical section -/
theorem within {o : Obj S I Q R} {spec : Bool → I → R} {P : S → Prop} {Mid : I → S → Prop} {be : Bool} {prog : Nat → List (Op I)} {c : Option Nat}
    {g : G S I Q R} {t : Nat} {pc : PC I Q R} {mem : S} (h : Inv o spec P Mid be prog c g) (h0 : (g.thr t).pc.inside = true) (h1 : pc.inside = true)
    (heach : Each spec c (g.clock + 1) pc) (hcur : pc.current = (g.thr t).pc.current) (hflag : o.flag mem = o.flag g.mem)
    (hh : Holds o spec P Mid c g.mem g.clock (g.thr t).pc → Holds o spec P Mid c mem (g.clock + 1) pc) :
    Inv o spec P Mid be prog c ⟨mem, g.locked, g.clock + 1, g.at_ t pc⟩ := by
  cases hl : g.locked with
  | false => rw [(h.free hl).2 t] at h0; simp at h0
  | true =>
    obtain ⟨t0, h2, h3, h4⟩ := h.held hl
    have hne : t = t0 := Decidable.byContradiction fun hne => by rw [h3 t hne] at h0; simp at h0
    subst hne
    refine frame (t := t) h (fun t' hne => set_ne g _ hne) rfl (by simp only [G.at_, set_self]; exact heach) (.inl (by simp only [G.at_, set_self]))
      (by simp only [G.at_, set_self, hcur]) ?_ hflag (fun hf => by simp at hf) (fun _ => ⟨t, ?_, ?_, ?_⟩)
    · intro a ha
      exfalso
      cases hpc : (g.thr t).pc <;> rw [hpc] at ha h0 <;> simp [PC.switching, PC.inside] at ha h0
    · simp only [G.at_, set_self]; exact h1
    · intro t' hne; simp only [G.at_, set_ne g _ hne]; exact h3 t' hne
    · simp only [G.at_, set_self]; exact hh h4

theorem inv_step {o : Obj S I Q R} {spec : Bool → I → R} {P : S → Prop} {Mid : I → S → Prop} (ho : Good o spec P Mid) {be : Bool}
    {prog : Nat → List (Op I)} {c : Option Nat} {g g' : G S I Q R} {t : Nat} (h : Inv o spec P Mid be prog c g) (hs : Step o t g g') :
    ∃ c', Inv o spec P Mid be prog c' g' := by
  have hnow := on_now h
  have heach := h.each t
  cases hs with
  | @call op ops hpc htodo =>
    refine ⟨c, outside h (by rw [hpc]; rfl) (by cases op <;> rfl) ?_ (.inl rfl) ?_ (by rw [hpc]; intro a ha; exact ha.elim)⟩
    · cases op <;> simp [PC.start, Each]
    · rw [hpc, htodo]; cases op <;> rfl
  | @lock i a hpc hl =>
    rw [hpc] at heach
    simp only [Each] at heach
    refine ⟨c, frame (t := t) h (fun t' hne => set_ne g _ hne) rfl ?_ (.inl ?_) ?_ ?_ rfl (fun hf => by simp at hf) (fun _ => ⟨t, ?_, ?_, ?_⟩)⟩
    · simp only [G.at_, set_self, Each]; omega
    · simp only [G.at_, set_self]
    · simp only [G.at_, set_self, hpc]; rfl
    · rw [hpc]; intro a ha; exact ha.elim
    · simp only [G.at_, set_self]; rfl
    · intro t' hne; simp only [G.at_, set_ne g _ hne]; exact (h.free hl).2 t'
    · simp only [G.at_, set_self, Holds]; exact (h.free hl).1
  | @begin_ i a hpc =>
    rw [hpc] at heach
    simp only [Each] at heach
    refine ⟨c, within h (by rw [hpc]; rfl) rfl (by simp only [Each]; omega) (by rw [hpc]; rfl) (ho.flag_start _ _) ?_⟩
    rw [hpc]; exact fun hp => ho.start _ _ hp
  | @micro i a s hpc hm =>
    rw [hpc] at heach
    simp only [Each] at heach
    have hi := within (pc := .running i a) (mem := s) h (by rw [hpc]; rfl) rfl (by simp only [Each]; omega) (by rw [hpc]) (ho.flag_more _ _ hm)
      (by rw [hpc]; exact fun hp => ho.more _ _ _ hp hm)
    have : g.at_ t (.running i a) = g.thr := by
      funext t'
      by_cases hne : t' = t
      · subst hne
        simp only [G.at_, set_self, ← hpc]
      · simp only [G.at_, set_ne g _ hne]
    rw [this] at hi
    exact ⟨c, hi⟩
  | @stop i a s q hpc hm =>
    rw [hpc] at heach
    simp only [Each] at heach
    refine ⟨c, within h (by rw [hpc]; rfl) rfl (by simp only [Each]; omega) (by rw [hpc]; rfl) (ho.flag_stop _ _ _ hm) ?_⟩
    rw [hpc]; exact fun hp => ho.stop _ _ _ _ hp hm
  | @inner i a q hpc =>
    rw [hpc] at heach
    simp only [Each] at heach
    refine ⟨c, within h (by rw [hpc]; rfl) rfl (by simp only [Each]; omega) (by rw [hpc]; rfl) rfl ?_⟩
    rw [hpc]
    simp only [Holds]
    rintro ⟨h1, h2⟩
    exact ⟨h1, g.clock, by omega, by omega, by rw [hnow]; exact h2 _⟩
  | @outer i a r hpc =>
    rw [hpc] at heach
    simp only [Each] at heach
    refine ⟨c, within h (by rw [hpc]; rfl) rfl (by simp only [Each]; omega) (by rw [hpc]; rfl) rfl ?_⟩
    rw [hpc]
    simp only [Holds]
    rintro ⟨h1, p, h2, h3, h4⟩
    refine ⟨h1, p, h2, by omega, h4 _ fun hon => ?_⟩
    rw [← hnow]
    cases c with
    | none => simp [onOf] at hon
    | some d => simp only [onOf, decide_eq_true_eq] at hon ⊢; omega
  | @unlock i a r hpc =>
    have hin : (g.thr t).pc.inside = true := by rw [hpc]; rfl
    cases hl : g.locked with
    | false => rw [(h.free hl).2 t] at hin; simp at hin
    | true =>
      obtain ⟨t0, h2, h3, h4⟩ := h.held hl
      have hne : t = t0 := Decidable.byContradiction fun hne => by rw [h3 t hne] at hin; simp at hin
      subst hne
      rw [hpc] at h4
      obtain ⟨h5, p, h6, h7, h8⟩ := h4
      refine ⟨c, frame (t := t) h (fun t' hne => set_ne g _ hne) rfl ?_ (.inl ?_) ?_ ?_ rfl (fun _ => ⟨h5, ?_⟩) (fun hf => by simp at hf)⟩
      · simp only [G.at_, set_self, Each]; exact ⟨p, h6, by omega, h8⟩
      · simp only [G.at_, set_self]
      · simp only [G.at_, set_self, hpc]; rfl
      · rw [hpc]; intro a ha; exact ha.elim
      · intro t'
        by_cases hne : t' = t
        · subst hne; simp only [G.at_, set_self]; rfl
        · simp only [G.at_, set_ne g _ hne]; exact h3 t' hne
  | @ret i a r hpc =>
    rw [hpc] at heach
    obtain ⟨p, h1, h2, h3⟩ := heach
    refine ⟨c, outside h (by rw [hpc]; rfl) rfl trivial (.inr ⟨_, rfl, ⟨?_, p, h1, ?_, h3⟩, rfl⟩) ?_ (by rw [hpc]; intro a ha; exact ha.elim)⟩
    · simp only; omega
    · simp only; omega
    · rw [hpc]; simp [PC.current]
  | @enable a hpc =>
    rw [hpc] at heach
    simp only [Each] at heach
    have hin0 : (g.thr t).pc.inside = false := by rw [hpc]; rfl
    have hin : ∀ t', (g.at_ t (.enabled a) t').pc.inside = (g.thr t').pc.inside := by
      intro t'
      by_cases hne : t' = t
      · subst hne; simp only [G.at_, set_self, hin0]; rfl
      · simp only [G.at_, set_ne g _ hne]
    have hfree : g.locked = false → P (o.enable g.mem) ∧ ∀ t', (g.at_ t (.enabled a) t').pc.inside = false :=
      fun hl => ⟨ho.enable _ (h.free hl).1, fun t' => by rw [hin]; exact (h.free hl).2 t'⟩
    have hother : ∀ t0, (g.thr t0).pc.inside = true → g.at_ t (.enabled a) t0 = g.thr t0 := by
      intro t0 h2
      have hne : t0 ≠ t := fun e => by rw [e, hin0] at h2; simp at h2
      simp only [G.at_, set_ne g _ hne]
    cases c with
    | some d =>
      have hf : o.flag g.mem = true := h.since.mpr ⟨d, rfl⟩
      have hd := h.past d rfl
      refine ⟨some d, frame (t := t) h (fun t' hne => set_ne g _ hne) rfl ?_ (.inl ?_) ?_ ?_ ?_ hfree ?_⟩
      · simp only [G.at_, set_self, Each]; exact ⟨by omega, d, rfl, by omega⟩
      · simp only [G.at_, set_self]
      · simp only [G.at_, set_self, hpc]; rfl
      · intro a' ha'
        rw [hpc] at ha'
        refine .inl ?_
        simp only [G.at_, set_self]
        exact ha'
      · rw [hf]; exact ho.flag_enable _
      · intro hl
        obtain ⟨t0, h2, h3, h4⟩ := h.held hl
        refine ⟨t0, by rw [hin]; exact h2, fun t' ht' => by rw [hin]; exact h3 t' ht', ?_⟩
        simp only [hother t0 h2]
        exact holds_mono (Nat.le_succ _) (holds_enable ho h4)
    | none =>
      refine ⟨some g.clock, hfree, ?_, ?_, ?_, ?_, ?_, ?_, ?_, ?_⟩
      · intro hl
        obtain ⟨t0, h2, h3, h4⟩ := h.held hl
        refine ⟨t0, by rw [hin]; exact h2, fun t' ht' => by rw [hin]; exact h3 t' ht', ?_⟩
        simp only [hother t0 h2]
        exact holds_mono (Nat.le_succ _) (holds_switch (Nat.le_refl _) (holds_enable ho h4))
      · intro t'
        by_cases hne : t' = t
        · subst hne; simp only [G.at_, set_self, Each]; exact ⟨by omega, _, rfl, by omega⟩
        · simp only [G.at_, set_ne g _ hne]; exact each_mono (Nat.le_succ _) (each_switch (Nat.le_refl _) (h.each t'))
      · intro t' x hx
        have hx' : x ∈ (g.thr t').log := by
          by_cases hne : t' = t
          · subst hne; simpa only [G.at_, set_self] using hx
          · simpa only [G.at_, set_ne g _ hne] using hx
        have := h.log t' x hx'
        exact ⟨right_switch this.1 this.2, Nat.lt_succ_of_lt this.2⟩
      · intro t'
        by_cases hne : t' = t
        · subst hne
          have := h.prog t'
          rw [hpc] at this
          simp only [G.at_, set_self]
          exact this
        · simp only [G.at_, set_ne g _ hne]; exact h.prog t'
      · exact ⟨fun _ => ⟨_, rfl⟩, fun _ => ho.flag_enable _⟩
      · intro d hd
        simp only [Option.some.injEq] at hd
        simp only
        omega
      · intro d hd
        simp only [Option.some.injEq] at hd
        refine .inr ⟨t, .inr ⟨a, ?_, by omega⟩⟩
        simp only [G.at_, set_self]
        rfl
      · intro hb
        have := h.initial hb
        simp at this
  | @enabled a hpc =>
    rw [hpc] at heach
    obtain ⟨h0, d, h1, h2⟩ := heach
    refine ⟨c, outside h (by rw [hpc]; rfl) rfl trivial (.inr ⟨_, rfl, ⟨h0, ?_⟩, rfl⟩) ?_ ?_⟩
    · subst h1; simp only [onOf, decide_eq_true_eq]; omega
    · rw [hpc]; simp [PC.current]
    · rw [hpc]
      intro a' ha'
      have ha' : a = a' := ha'
      exact .inr ⟨_, List.mem_append_right _ (List.mem_singleton_self _), rfl, ha', rfl⟩
  | @ask a hpc =>
    rw [hpc] at heach
    simp only [Each] at heach
    refine ⟨c, outside h (by rw [hpc]; rfl) rfl ?_ (.inl rfl) ?_ (by rw [hpc]; intro a ha; exact ha.elim)⟩
    · exact ⟨g.clock, by omega, by omega, hnow.symm⟩
    · rw [hpc]; rfl
  | @answer a b hpc =>
    rw [hpc] at heach
    obtain ⟨p, h1, h2, h3⟩ := heach
    refine ⟨c, outside h (by rw [hpc]; rfl) rfl trivial (.inr ⟨_, rfl, ⟨?_, p, h1, ?_, h3⟩, rfl⟩) ?_ (by rw [hpc]; intro a ha; exact ha.elim)⟩
    · simp only; omega
    · simp only; omega
    · rw [hpc]; simp [PC.current]

theorem inv_reach {o : Obj S I Q R} {spec : Bool → I → R} {P : S → Prop} {Mid : I → S → Prop} (ho : Good o spec P Mid) {prog : Nat → List (Op I)} {s : S}
    (hs : P s) {g : G S I Q R} (h : Reach o (init s prog) g) : ∃ c, Inv o spec P Mid (o.flag s) prog c g := by
  induction h with
  | refl => exact ⟨_, inv_init o spec P Mid prog s hs⟩
  | step _ hst ih => obtain ⟨c, hc⟩ := ih; exact inv_step ho hc hst

/-- The calls of an execution had their effects one after the other: there is a history `on` of the mode, switched at most once, and then during a
call of `WithBestEffort`, such that every call that has returned is right. -/
structure Linear (spec : Bool → I → R) (be : Bool) (prog : Nat → List (Op I)) (g : G S I Q R) (on : Nat → Bool) : Prop where
  monotone : Monotone on
  initial : be = true → ∀ p, on p = true
  cause : ∀ p, on p = true → be = true ∨ ∃ p', p' ≤ p ∧ on p' = true ∧ Switching g p'
  right : ∀ t, ∀ x ∈ (g.thr t).log, Right spec on x
  order : ∀ t, (g.thr t).log.map Entry.op <+: prog t

theorem linear {o : Obj S I Q R} {spec : Bool → I → R} {P : S → Prop} {Mid : I → S → Prop} {be : Bool} {prog : Nat → List (Op I)} {c : Option Nat}
    {g : G S I Q R} (h : Inv o spec P Mid be prog c g) : ∃ on, Linear spec be prog g on := by
  refine ⟨onOf c, ?_, ?_, ?_, fun t x hx => (h.log t x hx).1, fun t => ⟨_, h.prog t⟩⟩
  · intro p p' hp hon
    cases c with
    | none => simp [onOf] at hon
    | some d => simp only [onOf, decide_eq_true_eq] at hon ⊢; omega
  · intro hb p
    rw [h.initial hb]
    simp [onOf]
  · intro p hon
    cases c with
    | none => simp [onOf] at hon
    | some d =>
      simp only [onOf, decide_eq_true_eq] at hon ⊢
      rcases h.cause d rfl with hc | hc
      · exact .inl hc.1
      · exact .inr ⟨d, hon, Nat.le_refl _, hc⟩

/-- mutual exclusion -/
theorem exclusion {o : Obj S I Q R} {spec : Bool → I → R} {P : S → Prop} {Mid : I → S → Prop} {be : Bool} {prog : Nat → List (Op I)} {c : Option Nat}
    {g : G S I Q R} (h : Inv o spec P Mid be prog c g) {t t' : Nat} (h1 : (g.thr t).pc.inside = true) (h2 : (g.thr t').pc.inside = true) : t = t' := by
  cases hl : g.locked with
  | false => rw [(h.free hl).2 t] at h1; simp at h1
  | true =>
    obtain ⟨t0, _, h3, _⟩ := h.held hl
    have e1 : t = t0 := Decidable.byContradiction fun hne => by rw [h3 t hne] at h1; simp at h1
    have e2 : t' = t0 := Decidable.byContradiction fun hne => by rw [h3 t' hne] at h2; simp at h2
    rw [e1, e2]

/-- no deadlock: if some goroutine has calls left, or is in one, some goroutine can make a step -/
theorem progress {o : Obj S I Q R} {spec : Bool → I → R} {P : S → Prop} {Mid : I → S → Prop} {be : Bool} {prog : Nat → List (Op I)} {c : Option Nat}
    {g : G S I Q R} (h : Inv o spec P Mid be prog c g) (hn : ∃ t, (g.thr t).pc.current ++ (g.thr t).todo ≠ []) : ∃ t g', Step o t g g' := by
  have hin : ∀ t, (g.thr t).pc.inside = true → ∃ t g', Step o t g g' := by
    intro t ht
    cases hh : (g.thr t).pc with
    | locked i a => exact ⟨t, _, .begin_ hh⟩
    | running i a =>
      cases hm : o.micro g.mem with
      | inl s => exact ⟨t, _, .micro hh hm⟩
      | inr x => obtain ⟨s, r⟩ := x; exact ⟨t, _, .stop hh hm⟩
    | stopped i a q => exact ⟨t, _, .inner hh⟩
    | returned i a r => exact ⟨t, _, .outer hh⟩
    | leaving i a r => exact ⟨t, _, .unlock hh⟩
    | _ => rw [hh] at ht; simp [PC.inside] at ht
  obtain ⟨t, ht⟩ := hn
  cases hh : (g.thr t).pc with
  | idle =>
    rw [hh] at ht
    cases ho : (g.thr t).todo with
    | nil => rw [ho] at ht; simp [PC.current] at ht
    | cons op ops => exact ⟨t, _, .call hh ho⟩
  | waiting i a =>
    cases hl : g.locked with
    | false => exact ⟨t, _, .lock hh hl⟩
    | true => obtain ⟨t0, h2, -, -⟩ := h.held hl; exact hin t0 h2
  | left i a r => exact ⟨t, _, .ret hh⟩
  | enabling a => exact ⟨t, _, .enable hh⟩
  | enabled a => exact ⟨t, _, .enabled hh⟩
  | asking a => exact ⟨t, _, .ask hh⟩
  | asked a b => exact ⟨t, _, .answer hh⟩
  | _ => exact hin t (by rw [hh]; rfl)

/-! ## an automaton as such an object -/

/-- what an assignment to a variable that no action reads does to the run -/
def onStep {M : Type} (f : M → M) : Fsm.Step M → Fsm.Step M
  | .next m => .next (f m)
  | .jump m s => .jump (f m) s
  | .panic => .panic

def onRes {M : Type} (f : M → M) : Fsm.Res M → Fsm.Res M
  | .done cs m => .done cs (f m)
  | .panic => .panic
  | .loop => .loop

section
variable {A M : Type} {T : Nat → Fsm.Row A} {act : A → M → Fsm.Step M} {adv : M → M} {f : M → M}

theorem runActs_map (ha : ∀ a m, act a (f m) = onStep f (act a m)) : ∀ (as : List A) (m : M), Fsm.runActs act as (f m) = onStep f (Fsm.runActs act as m) := by
  intro as
  induction as with
  | nil => intro m; rfl
  | cons a as ih =>
    intro m
    simp only [Fsm.runActs, ha]
    cases act a m with
    | next m' => exact ih m'
    | jump m' s => rfl
    | panic => rfl

theorem stepByte_map (ha : ∀ a m, act a (f m) = onStep f (act a m)) (hadv : ∀ m, adv (f m) = f (adv m)) (b : UInt8) :
    ∀ (fuel cs : Nat) (m : M), Fsm.stepByte T act adv b fuel cs (f m) = onRes f (Fsm.stepByte T act adv b fuel cs m) := by
  intro fuel
  induction fuel with
  | zero => intro cs m; rfl
  | succ fuel ih =>
    intro cs m
    simp only [Fsm.stepByte, runActs_map ha]
    cases Fsm.runActs act (T cs).frm m with
    | panic => rfl
    | jump m' s => exact ih s m'
    | next m' =>
      simp only [onStep, runActs_map ha]
      cases Fsm.runActs act ((T cs).dispatch b.toNat).acts m' with
      | panic => rfl
      | jump m' s => exact ih s m'
      | next m'' =>
        simp only [onStep]
        split
        · rfl
        · rw [hadv]; rfl

theorem runEof_map (ha : ∀ a m, act a (f m) = onStep f (act a m)) :
    ∀ (fuel cs : Nat) (m : M), Fsm.runEof T act fuel cs (f m) = onRes f (Fsm.runEof T act fuel cs m) := by
  intro fuel
  induction fuel with
  | zero => intro cs m; rfl
  | succ fuel ih =>
    intro cs m
    simp only [Fsm.runEof, runActs_map ha]
    cases Fsm.runActs act (T cs).eof m with
    | panic => rfl
    | jump m' s => exact ih s m'
    | next m' => rfl

theorem run_map (ha : ∀ a m, act a (f m) = onStep f (act a m)) (hadv : ∀ m, adv (f m) = f (adv m)) :
    ∀ (bs : Bytes) (cs : Nat) (m : M), Fsm.run T act adv bs cs (f m) = onRes f (Fsm.run T act adv bs cs m) := by
  intro bs
  induction bs with
  | nil => intro cs m; exact runEof_map ha _ cs m
  | cons b bs ih =>
    intro cs m
    simp only [Fsm.run, stepByte_map ha hadv]
    cases Fsm.stepByte T act adv b Fsm.jumpFuel cs m with
    | panic => rfl
    | loop => rfl
    | done cs' m' =>
      cases cs' with
      | zero => rfl
      | succ cs' => exact ih _ m'
end

end Verif.Conc.Flag
