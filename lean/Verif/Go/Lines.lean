import Verif.Go.Ragel
import Verif.Gen.GoLines
import Verif.NonTransparent.Model

/-!
# `Exec` of `nontransparent/parser.go` as it is written

The meaning of the statements of `Verif.Gen.GoLines.prog` and the proof that the program does what `Verif.NonTransparent.exec` says.
-/

namespace Verif.Go.RL
open Verif.NonTransparent (Machine TrailerType LF NUL widec next23 stepByte execLoop)
open Verif.Gen.GoLines (A C R K prog)

/-- The receiver, and the parameter `s`: what `s.Get` returns and `s.Set` stores (the data are `GS.input`). -/
structure V where
  m : Machine := {}
  scs : Nat := 0
  sp : Int := 0
  spe : Int := 0
  seof : Int := 0

/-- The statements (their Go text is at the constructors of `Verif.Gen.GoLines.A`). -/
def stmt : A → GS V → Option (GS V)
  | .get, g => some { g with cs := g.x.scs, p := g.x.sp, pe := g.x.spe, eof := g.x.seof, data := g.input }
  | .set, g => some { g with x := { g.x with scs := g.cs, sp := g.p, spe := g.pe, seof := g.eof } }
  | .process, g => g.x.m.process.map fun m => { g with x := { g.x with m := m } }
  | .candidateNew, g => some { g with x := { g.x with m := { g.x.m with candidate := [] } } }
  | .candidateAppend, g => some { g with x := { g.x with m := { g.x.m with candidate := g.x.m.candidate ++ g.data } } }

/-- The conditions. -/
def cond : C → GS V → Option Bool
  | .hasCandidate, g => some (0 < g.x.m.candidate.length)
  | .isLF, g => some (g.x.m.trailertyp = LF)
  | .isNUL, g => some (g.x.m.trailertyp = NUL)

/-- The meaning of the statements of the program (nontransparent/parser.go:28-169). -/
def sem : Sem A C V := ⟨stmt, cond⟩

/-! ## The dispatch on the current byte -/

/-- the values of the conditions on the trailer -/
def env (lf nul : Bool) : C → Option Bool
  | .hasCandidate => none
  | .isLF => some lf
  | .isNUL => some nul

/-- `widec` by the values of the conditions -/
def wide (lf nul : Bool) (b : Nat) : Nat :=
  if b > 0 then if 10 ≤ b ∧ b ≤ 10 then 256 + b + (if lf then 256 else 0) else b else 768 + b + (if nul then 256 else 0)

theorem widec_eq (t : TrailerType) (b : UInt8) : widec t b = wide (decide (t = LF)) (decide (t = NUL)) b.toNat := by
  simp only [widec, wide, decide_eq_true_eq]

/-- the label of a target of `next23` -/
def lbl : Option Nat → Lbl
  | none => .tr 3
  | some n => .st n

/-- the label state `cs` goes to with byte `b` -/
def target (lf nul : Bool) (cs b : Nat) : Lbl :=
  if cs = 1 then (if b = 60 then .tr 0 else .st 0)
  else if cs = 2 then lbl (next23 (wide lf nul b))
  else if wide lf nul b = 60 then .tr 0 else lbl (next23 (wide lf nul b))

/-- the statements at `stCaseN` -/
def dispatch : Nat → K
  | 1 => Gen.GoLines.stCase1.1
  | 2 => Gen.GoLines.stCase2.1
  | _ => Gen.GoLines.stCase3.1

theorem pick_ok : ∀ lf nul : Bool, ∀ b : Nat, b < 256 → ∀ cs : Nat, cs < 3 →
    pick (env lf nul) b (dispatch (cs + 1)) none = .lands (target lf nul (cs + 1) b) := by decide +kernel

/-- the variables during the run: `rest` is what has not been read -/
structure Rel (data : Bytes) (rest : Bytes) (m : Machine) (g : GS V) : Prop where
  dat : g.data = data
  p : g.p = (data.length - rest.length : Nat)
  len : rest.length ≤ data.length
  drop : data.drop (data.length - rest.length) = rest
  pe : g.pe = data.length
  m : g.x.m = m

theorem Rel.byte {data rest : Bytes} {b : UInt8} {m : Machine} {g : GS V} (h : Rel data (b :: rest) m g) : g.byte = some b := by
  have hp := h.p
  have hl := h.len
  have hd := h.drop
  have hlt : data.length - (b :: rest).length < data.length := by simp only [List.length_cons] at hl ⊢; omega
  unfold GS.byte
  rw [if_pos (by rw [hp]; exact Int.natCast_nonneg _), hp, h.dat, Int.toNat_natCast]
  rw [List.drop_eq_getElem_cons hlt] at hd
  rw [List.getElem?_eq_getElem hlt]
  simp only [List.cons.injEq] at hd
  exact congrArg some hd.1

theorem Rel.tail {data rest : Bytes} {b : UInt8} {m : Machine} {g : GS V} (h : Rel data (b :: rest) m g) (g' : GS V) (hd : g'.data = g.data)
    (hp : g'.p = g.p + 1) (hpe : g'.pe = g.pe) (m' : Machine) (hm : g'.x.m = m') : Rel data rest m' g' := by
  have hl := h.len
  simp only [List.length_cons] at hl
  have e : data.length - (b :: rest).length + 1 = data.length - rest.length := by simp only [List.length_cons]; omega
  refine ⟨by rw [hd, h.dat], ?_, by omega, ?_, by rw [hpe, h.pe], hm⟩
  · rw [hp, h.p, ← e]; rfl
  · rw [← e, ← List.drop_drop, h.drop]; rfl

/-- one block, from `stCaseN` to where the dispatch goes -/
theorem dispatches {data rest : Bytes} {b : UInt8} {m : Machine} {g : GS V} {cs : Nat} (h1 : 1 ≤ cs) (h3 : cs ≤ 3) (h : Rel data (b :: rest) m g) :
    ∃ w, sem.Goes prog 1 (.stCase cs) g (target (decide (m.trailertyp = LF)) (decide (m.trailertyp = NUL)) cs b.toNat) { g with widec := w } := by
  have hp := pick_ok (decide (m.trailertyp = LF)) (decide (m.trailertyp = NUL)) b.toNat (by have := b.toNat_lt; omega) (cs - 1) (by omega)
  rw [Nat.sub_add_cancel h1] at hp
  obtain ⟨w, hw⟩ := (exec_pick (S := sem) (b := b) (dispatch cs) g none h.byte (fun c v w' hc => by
    have hm := h.m
    cases c with
    | hasCandidate => cases hc
    | isLF => simp only [env] at hc; simp only [sem, cond, hm]; exact hc
    | isNUL => simp only [env] at hc; simp only [sem, cond, hm]; exact hc) (fun n hn => by cases hn)).1 _ hp
  refine ⟨w, ?_⟩
  rcases (by omega : cs = 1 ∨ cs = 2 ∨ cs = 3) with rfl | rfl | rfl
  · exact Goes.goto' (cn := Gen.GoLines.stCase1) rfl hw
  · exact Goes.goto' (cn := Gen.GoLines.stCase2) rfl hw
  · exact Goes.goto' (cn := Gen.GoLines.stCase3) rfl hw

/-- how a run ends: at the end of the function, in state `cs`, with or without having read everything -/
def Ends (bound : Nat) (l : Lbl) (g : GS V) : Option (Nat × Bool × Machine) → Prop
  | some (cs, ok, m) => ∃ k g', k ≤ bound ∧ sem.Goes prog k l g .out g' ∧ g'.cs = cs ∧ decide (g'.p = g'.pe) = ok ∧ g'.x.m = m
  | none => ∃ k, k ≤ bound ∧ ∀ fuel, sem.run prog (k + fuel) l g = .panics

theorem Ends.after {l l' : Lbl} {g g' : GS V} {res : Option (Nat × Bool × Machine)} {n bound : Nat} (h : Ends bound l' g' res)
    (hg : sem.Goes prog n l g l' g') : Ends (n + bound) l g res := by
  cases res with
  | none =>
    obtain ⟨k, hk, h⟩ := h
    exact ⟨n + k, by omega, fun fuel => by rw [Nat.add_assoc, hg]; exact h fuel⟩
  | some r =>
    obtain ⟨k, g'', hk, h1, h2⟩ := h
    exact ⟨n + k, g'', by omega, Goes.trans hg h1, h2⟩

theorem Ends.mono {l : Lbl} {g : GS V} {res : Option (Nat × Bool × Machine)} {n bound : Nat} (h : Ends n l g res) (hb : n ≤ bound) :
    Ends bound l g res := by
  cases res with
  | none =>
    obtain ⟨k, hk, h⟩ := h
    exact ⟨k, by omega, h⟩
  | some r =>
    obtain ⟨k, g'', hk, h⟩ := h
    exact ⟨k, g'', by omega, h⟩

/-- `tr0:` does what `Machine.tr0` does -/
theorem tr0_exec (g : GS V) : sem.exec Gen.GoLines.tr0.1 g =
    match g.x.m.tr0 with
    | none => .panic
    | some m => .goto (.st 2) { g with x := { g.x with m := m } } := by
  simp only [Gen.GoLines.tr0, Sem.exec, Sem.simple, Sem.test, sem, cond, Machine.tr0]
  by_cases hc : g.x.m.candidate.length > 0
  · have hc' : decide (0 < g.x.m.candidate.length) = true := by simpa using hc
    rw [if_pos hc, hc']
    simp only [stmt]
    cases g.x.m.process <;> rfl
  · have hc' : decide (0 < g.x.m.candidate.length) = false := by simpa using hc
    rw [if_neg hc, hc']
    rfl

/-- the end of the input in state `cs` -/
theorem at_end {data : Bytes} {b : UInt8} {m m' : Machine} {g g' : GS V} {cs : Nat} (h : cs = 2 ∨ cs = 3) (hr : Rel data [b] m g) (hd : g'.data = g.data)
    (hp : g'.p = g.p) (hpe : g'.pe = g.pe) (hm : g'.x.m = m') : Ends 3 (.st cs) g' (some (cs, true, m')) := by
  have hpp : g'.p + 1 = g'.pe := by
    have := hr.p; have := hr.pe; have := hr.len
    simp only [List.length_cons, List.length_nil] at *
    rw [hp, hpe]; omega
  have hdec : decide (g'.p + 1 = g'.pe) = true := by simpa using hpp
  rcases h with rfl | rfl
  · exact ⟨3, { g' with p := g'.p + 1, cs := 2 }, by omega,
      Goes.trans (n := 2) (n' := 1) (Goes.trans (n := 1) (n' := 1) (Goes.goto' (cn := Gen.GoLines.st2) (l' := .testEofN 2) (g' := { g' with p := g'.p + 1 }) rfl
        (by simp only [Gen.GoLines.st2, Sem.exec, Sem.simple, Sem.test, hdec]))
        (Goes.goto' (cn := Gen.GoLines.testEof2) (l' := .testEof) rfl rfl)) (Goes.fall rfl rfl), rfl, hdec, hm⟩
  · exact ⟨3, { g' with p := g'.p + 1, cs := 3 }, by omega,
      Goes.trans (n := 2) (n' := 1) (Goes.trans (n := 1) (n' := 1) (Goes.goto' (cn := Gen.GoLines.st3) (l' := .testEofN 3) (g' := { g' with p := g'.p + 1 }) rfl
        (by simp only [Gen.GoLines.st3, Sem.exec, Sem.simple, Sem.test, hdec]))
        (Goes.goto' (cn := Gen.GoLines.testEof3) (l' := .testEof) rfl rfl)) (Goes.fall rfl rfl), rfl, hdec, hm⟩

/-- on to the next byte in state `cs` -/
theorem at_next {data rest : Bytes} {b b' : UInt8} {m m' : Machine} {g g' : GS V} {cs : Nat} (h : cs = 2 ∨ cs = 3) (hr : Rel data (b :: b' :: rest) m g)
    (hd : g'.data = g.data) (hp : g'.p = g.p) (hpe : g'.pe = g.pe) (hm : g'.x.m = m') :
    ∃ g'', sem.Goes prog 1 (.st cs) g' (.stCase cs) g'' ∧ Rel data (b' :: rest) m' g'' := by
  have hpp : ¬ g'.p + 1 = g'.pe := by
    have := hr.p; have := hr.pe; have := hr.len
    simp only [List.length_cons] at *
    rw [hp, hpe]; omega
  have hdec : decide (g'.p + 1 = g'.pe) = false := by simpa using hpp
  refine ⟨{ g' with p := g'.p + 1 }, ?_, hr.tail { g' with p := g'.p + 1 } hd (by rw [← hp]) hpe m' hm⟩
  rcases h with rfl | rfl
  · exact Goes.fall (c := Gen.GoLines.st2.1) rfl (by simp only [Gen.GoLines.st2, Sem.exec, Sem.simple, Sem.test, hdec])
  · exact Goes.fall (c := Gen.GoLines.st3.1) rfl (by simp only [Gen.GoLines.st3, Sem.exec, Sem.simple, Sem.test, hdec])

/-- the error state -/
theorem at_error {data rest : Bytes} {b : UInt8} {m : Machine} {g g' : GS V} (hr : Rel data (b :: rest) m g) (hp : g'.p = g.p) (hpe : g'.pe = g.pe) :
    Ends 1 (.st 0) g' (some (0, false, g'.x.m)) := by
  have hpp : ¬ g'.p = g'.pe := by
    have := hr.p; have := hr.pe; have := hr.len
    simp only [List.length_cons] at *
    rw [hp, hpe]; omega
  exact ⟨1, { g' with cs := 0 }, by omega, Goes.goto' (cn := Gen.GoLines.st0) rfl rfl, rfl, by simpa using hpp, rfl⟩

/-- what follows `stCaseN` on byte `b`: the label of the next state after at most two blocks, or a panic -/
theorem one_byte {data rest : Bytes} {b : UInt8} {m : Machine} {g : GS V} {cs : Nat} (h1 : 1 ≤ cs) (h3 : cs ≤ 3) (h : Rel data (b :: rest) m g) :
    match stepByte data cs b m with
    | none => ∃ k, k ≤ 2 ∧ ∀ fuel, sem.run prog (k + fuel) (.stCase cs) g = .panics
    | some (cs', m') => (cs' = 0 ∨ cs' = 2 ∨ cs' = 3) ∧ ∃ k g', k ≤ 2 ∧ sem.Goes prog k (.stCase cs) g (.st cs') g' ∧ g'.data = g.data ∧ g'.p = g.p ∧
        g'.pe = g.pe ∧ g'.x.m = m' := by
  obtain ⟨w, hw⟩ := dispatches h1 h3 h
  have hm := h.m
  have hdat := h.dat
  -- `tr0`
  have via0 : sem.Goes prog 1 (.stCase cs) g (.tr 0) { g with widec := w } →
      match m.tr0.map fun m => (2, m) with
      | none => ∃ k, k ≤ 2 ∧ ∀ fuel, sem.run prog (k + fuel) (.stCase cs) g = .panics
      | some (cs', m') => (cs' = 0 ∨ cs' = 2 ∨ cs' = 3) ∧ ∃ k g', k ≤ 2 ∧ sem.Goes prog k (.stCase cs) g (.st cs') g' ∧ g'.data = g.data ∧ g'.p = g.p ∧
          g'.pe = g.pe ∧ g'.x.m = m' := by
    intro hgo
    have ht := tr0_exec { g with widec := w }
    rw [show ({ g with widec := w } : GS V).x.m = m from hm] at ht
    cases ht0 : m.tr0 with
    | none =>
      rw [ht0] at ht
      refine ⟨2, by omega, fun fuel => ?_⟩
      rw [show 2 + fuel = 1 + (1 + fuel) by omega, hgo]
      exact Setup.panic_at (c := Gen.GoLines.tr0.1) (nx := Gen.GoLines.tr0.2) rfl ht fuel
    | some m' =>
      rw [ht0] at ht
      exact ⟨.inr (.inl rfl), 2, _, by omega, Goes.trans (n := 1) (n' := 1) hgo (Goes.goto' (cn := Gen.GoLines.tr0) rfl ht), rfl, rfl, rfl, rfl⟩
  -- the transitions of states 2 and 3 other than `tr0`
  have via23 : sem.Goes prog 1 (.stCase cs) g (lbl (next23 (widec m.trailertyp b))) { g with widec := w } →
      match (match next23 (widec m.trailertyp b) with
        | none => some (3, { m with candidate := m.candidate ++ data })
        | some n => some (n, m) : Option (Nat × Machine)) with
      | none => ∃ k, k ≤ 2 ∧ ∀ fuel, sem.run prog (k + fuel) (.stCase cs) g = .panics
      | some (cs', m') => (cs' = 0 ∨ cs' = 2 ∨ cs' = 3) ∧ ∃ k g', k ≤ 2 ∧ sem.Goes prog k (.stCase cs) g (.st cs') g' ∧ g'.data = g.data ∧ g'.p = g.p ∧
          g'.pe = g.pe ∧ g'.x.m = m' := by
    intro hgo
    cases hn : next23 (widec m.trailertyp b) with
    | none =>
      rw [hn] at hgo
      refine ⟨.inr (.inr rfl), 2, { g with widec := w, x := { g.x with m := { g.x.m with candidate := g.x.m.candidate ++ g.data } } }, by omega,
        Goes.trans (n := 1) (n' := 1) hgo (Goes.goto' (cn := Gen.GoLines.tr3) rfl rfl), rfl, rfl, rfl, ?_⟩
      simp only [hm, hdat]
    | some n =>
      rw [hn] at hgo
      refine ⟨?_, 1, { g with widec := w }, by omega, hgo, rfl, rfl, rfl, hm⟩
      revert hn
      unfold next23
      intro hn
      split at hn
      · cases hn; omega
      split at hn
      · cases hn
      split at hn
      · cases hn; omega
      split at hn
      · cases hn
      split at hn
      · split at hn <;> cases hn <;> omega
      split at hn <;> cases hn <;> omega
  unfold stepByte
  unfold target at hw
  by_cases c1 : cs = 1
  · rw [if_pos c1] at hw ⊢
    by_cases hb : b = 60
    · rw [if_pos (by rw [hb]; rfl)] at hw
      rw [if_pos hb]
      exact via0 hw
    · rw [if_neg (show ¬ b.toNat = 60 from fun h => hb (UInt8.toNat_inj.mp h))] at hw
      rw [if_neg hb]
      exact ⟨.inl rfl, 1, _, by omega, hw, rfl, rfl, rfl, hm⟩
  · rw [if_neg c1] at hw ⊢
    by_cases c2 : cs = 2
    · rw [if_pos c2] at hw ⊢
      rw [← widec_eq] at hw
      exact via23 hw
    · rw [if_neg c2] at hw ⊢
      rw [if_pos (by omega)]
      rw [← widec_eq] at hw
      by_cases c60 : widec m.trailertyp b = 60
      · rw [if_pos c60] at hw ⊢
        exact via0 hw
      · rw [if_neg c60] at hw ⊢
        exact via23 hw

/-- All bytes. -/
theorem sim {data : Bytes} : ∀ (rest : Bytes) (b : UInt8) (cs : Nat) (m : Machine) (g : GS V), 1 ≤ cs → cs ≤ 3 → Rel data (b :: rest) m g →
    Ends (3 * (b :: rest).length + 2) (.stCase cs) g (execLoop data (b :: rest) cs m) := by
  intro rest
  induction rest with
  | nil =>
    intro b cs m g h1 h3 h
    have ho := one_byte h1 h3 h
    simp only [execLoop]
    cases hs : stepByte data cs b m with
    | none =>
      rw [hs] at ho
      obtain ⟨k, hk, ho⟩ := ho
      exact ⟨k, by simp only [List.length_cons]; omega, ho⟩
    | some r =>
      obtain ⟨cs', m'⟩ := r
      rw [hs] at ho
      obtain ⟨hcs, k, g', hk, hgo, hd, hp, hpe, hm⟩ := ho
      by_cases h0 : cs' = 0
      · subst h0
        subst hm
        exact (((at_error h hp hpe)).after hgo).mono (by simp only [List.length_cons]; omega)
      · simp only [if_neg h0]
        exact ((at_end (by omega) h hd hp hpe hm).after hgo).mono (by simp only [List.length_cons, List.length_nil]; omega)
  | cons b' rest ih =>
    intro b cs m g h1 h3 h
    have ho := one_byte h1 h3 h
    rw [execLoop]
    cases hs : stepByte data cs b m with
    | none =>
      rw [hs] at ho
      obtain ⟨k, hk, ho⟩ := ho
      exact ⟨k, by simp only [List.length_cons]; omega, ho⟩
    | some r =>
      obtain ⟨cs', m'⟩ := r
      rw [hs] at ho
      obtain ⟨hcs, k, g', hk, hgo, hd, hp, hpe, hm⟩ := ho
      by_cases h0 : cs' = 0
      · subst h0
        subst hm
        exact (((at_error h hp hpe)).after hgo).mono (by simp only [List.length_cons]; omega)
      · simp only [if_neg h0]
        obtain ⟨g'', hgo', hr'⟩ := at_next (cs := cs') (by omega) h hd hp hpe hm
        exact ((ih b' cs' m' g'' (by omega) (by omega) hr').after (Goes.trans hgo hgo')).mono (by simp only [List.length_cons]; omega)

/-! ## The whole function -/

/-- the variables at the start of a call: `s` holds the chunk, from its first byte to its end, and the state -/
structure Starts (data : Bytes) (cs : Nat) (m : Machine) (g : GS V) : Prop where
  input : g.input = data
  scs : g.x.scs = cs
  sp : g.x.sp = 0
  spe : g.x.spe = data.length
  m : g.x.m = m

/-- A call of `Exec`: what the model says, within a linear number of blocks. -/
theorem run_exec {data : Bytes} {cs : Nat} {m : Machine} {g : GS V} (hg : Starts data cs m g) (hcs : cs ≤ 3) (fuel : Nat)
    (hf : 3 * data.length + 5 ≤ fuel) :
    match NonTransparent.exec data cs m with
    | none => sem.run prog fuel .entry g = .panics
    | some (cs', ok, m') => ∃ g', sem.run prog fuel .entry g = .returned .pPe g' ∧ g'.x.scs = cs' ∧ decide (g'.x.sp = g'.x.spe) = ok ∧ g'.x.m = m' := by
  obtain ⟨i1, i2, i3, i4, i5⟩ := hg
  obtain ⟨g0, hg0⟩ : ∃ g0, g0 = ({ g with cs := g.x.scs, p := g.x.sp, pe := g.x.spe, eof := g.x.seof, data := g.input, widec := 0 } : GS V) := ⟨_, rfl⟩
  have key : Ends (3 * data.length + 4) .entry g (NonTransparent.exec data cs m) := by
    unfold NonTransparent.exec
    cases data with
    | nil =>
      refine ⟨2, g0, by simp, Goes.trans (n := 1) (n' := 1) (Goes.goto' (cn := Gen.GoLines.entry) (l' := .testEof) (g' := g0) rfl ?_) (Goes.fall rfl rfl), ?_, ?_, ?_⟩
      · have : decide (g.x.sp = g.x.spe) = true := by rw [i3, i4]; rfl
        simp only [Gen.GoLines.entry, Sem.exec, Sem.simple, Sem.test, sem, stmt, this, hg0]
      · rw [hg0]; exact i2
      · rw [hg0]; simp only [i3, i4]; rfl
      · rw [hg0]; exact i5
    | cons b rest =>
      have hne : decide (g.x.sp = g.x.spe) = false := by rw [i3, i4]; simp only [List.length_cons, decide_eq_false_iff_not]; omega
      have hrel : Rel (b :: rest) (b :: rest) m g0 := by
        refine ⟨by rw [hg0]; exact i1, ?_, Nat.le_refl _, by rw [Nat.sub_self]; rfl, by rw [hg0]; exact i4, by rw [hg0]; exact i5⟩
        rw [hg0, Nat.sub_self]; exact i3
      have hgo : sem.Goes prog 1 .entry g (.stCase cs) g0 := by
        refine Goes.goto' (cn := Gen.GoLines.entry) rfl ?_
        simp only [Gen.GoLines.entry, Sem.exec, Sem.simple, Sem.test, sem, stmt, hne]
        rw [i2]
        rw [i2] at hg0
        rcases (by omega : cs = 0 ∨ cs = 1 ∨ cs = 2 ∨ cs = 3) with rfl | rfl | rfl | rfl <;> rw [hg0] <;> rfl
      by_cases h0 : cs = 0
      · subst h0
        have hst : execLoop (b :: rest) (b :: rest) 0 m = some (0, false, m) := rfl
        rw [hst]
        have he := at_error (g' := g0) hrel rfl rfl
        rw [hrel.m] at he
        exact ((he.after (Goes.fall (l := .stCase 0) (c := Gen.GoLines.stCase0.1) rfl rfl)).after hgo).mono (by simp only [List.length_cons]; omega)
      · exact ((sim rest b cs m g0 (by omega) hcs hrel).after hgo).mono (by simp only [List.length_cons]; omega)
  revert key
  cases NonTransparent.exec data cs m with
  | none =>
    intro ⟨k, hk, h⟩
    obtain ⟨f, rfl⟩ : ∃ f, fuel = k + f := ⟨fuel - k, by omega⟩
    exact h f
  | some r =>
    obtain ⟨cs', ok, m'⟩ := r
    intro ⟨k, g', hk, h1, h2, h3, h4⟩
    obtain ⟨f, rfl⟩ : ∃ f, fuel = k + (f + 1) := ⟨fuel - k - 1, by omega⟩
    refine ⟨{ g' with x := { g'.x with scs := g'.cs, sp := g'.p, spe := g'.pe, seof := g'.eof } }, ?_, h2, h3, h4⟩
    rw [h1 (f + 1)]
    exact run_ret (cn := Gen.GoLines.out) rfl rfl f

/-- the states of the automaton are 0 to 3 -/
theorem step_state {data : Bytes} {cs cs' : Nat} {b : UInt8} {m m' : Machine} (h : stepByte data cs b m = some (cs', m')) : cs' ≤ 3 := by
  have h23 : ∀ w n, next23 w = some n → n ≤ 3 := by
    intro w n hn
    unfold next23 at hn
    split at hn
    · cases hn; omega
    split at hn
    · cases hn
    split at hn
    · cases hn; omega
    split at hn
    · cases hn
    split at hn
    · split at hn <;> cases hn <;> omega
    split at hn <;> cases hn <;> omega
  have h0 : ∀ (o : Option Machine), o.map (fun m => (2, m)) = some (cs', m') → cs' ≤ 3 := by
    intro o ho
    cases o with
    | none => cases ho
    | some x => cases ho; omega
  have hx : ∀ w, (match next23 w with
      | none => some (3, { m with candidate := m.candidate ++ data })
      | some n => some (n, m) : Option (Nat × Machine)) = some (cs', m') → cs' ≤ 3 := by
    intro w hw
    cases hn : next23 w with
    | none => rw [hn] at hw; cases hw; omega
    | some n => rw [hn] at hw; cases hw; exact h23 w _ hn
  unfold stepByte at h
  split at h
  · split at h
    · exact h0 _ h
    · cases h; omega
  split at h
  · exact hx _ h
  split at h
  · split at h
    · exact h0 _ h
    · exact hx _ h
  · cases h; omega

theorem loop_state {data : Bytes} : ∀ (rest : Bytes) {cs cs' : Nat} {ok : Bool} {m m' : Machine}, cs ≤ 3 →
    execLoop data rest cs m = some (cs', ok, m') → cs' ≤ 3 := by
  intro rest
  induction rest with
  | nil => intro cs cs' ok m m' hc h; cases h; exact hc
  | cons b rest ih =>
    intro cs cs' ok m m' hc h
    rw [execLoop] at h
    cases hs : stepByte data cs b m with
    | none => rw [hs] at h; cases h
    | some r =>
      obtain ⟨c1, m1⟩ := r
      rw [hs] at h
      simp only at h
      split at h
      · cases h; omega
      · exact ih (step_state hs) h

theorem exec_state {data : Bytes} {cs cs' : Nat} {ok : Bool} {m m' : Machine} (hc : cs ≤ 3) (h : NonTransparent.exec data cs m = some (cs', ok, m')) :
    cs' ≤ 3 := loop_state data hc h

end Verif.Go.RL
