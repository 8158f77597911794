import Verif.NonTransparent.Open

/-!
# Listeners that call the non-transparent parser

The functions of `Model.lean` that emit results, with the listener as a parameter: `emit r m` is the call of the listener with the result
`r`; it may call `Parse` of the same parser (nontransparent/parser.go:186-195, 262-272). `Machine.out` has all results the listener has got.
-/

namespace Verif.NonTransparent

/-- a call of the listener: what it leaves of the parser; `none` is a panic -/
abbrev Emit := Result → Machine → Option Machine

/-- the listener of `Model.lean`: it only listens -/
def emit0 : Emit := fun r m => some { m with out := m.out ++ [r] }

/-- `process` (nontransparent/parser.go:262-272) -/
def Machine.processL (emit : Emit) (m : Machine) : Option Machine :=
  match m.candidate.getLast? with
  | none => none
  | some lastByte =>
    let m := if lastByte = m.trailer then { m with candidate := m.candidate.dropLast } else m
    match m.parseMsg m.candidate with
    | none => none
    | some (res, err, m) => emit ⟨res, err.map .message⟩ m

/-- `tr0` (nontransparent/parser.go:57-64) -/
def Machine.tr0L (emit : Emit) (m : Machine) : Option Machine :=
  if m.candidate.length > 0 then
    match m.processL emit with
    | none => none
    | some m => some { m with candidate := [] }
  else some { m with candidate := [] }

/-- one round of `Exec` (nontransparent/parser.go:36-149) -/
def stepByteL (emit : Emit) (data : Bytes) (cs : Nat) (b : UInt8) (m : Machine) : Option (Nat × Machine) :=
  if cs = 1 then
    if b = 60 then (m.tr0L emit).map fun m => (2, m) else some (0, m)
  else if cs = 2 then
    match next23 (widec m.trailertyp b) with
    | none => some (3, { m with candidate := m.candidate ++ data })
    | some n => some (n, m)
  else if cs = 3 then
    if widec m.trailertyp b = 60 then (m.tr0L emit).map fun m => (2, m)
    else
      match next23 (widec m.trailertyp b) with
      | none => some (3, { m with candidate := m.candidate ++ data })
      | some n => some (n, m)
  else some (0, m)

/-- the bytes of `Exec` (nontransparent/parser.go:28-169) -/
def execLoopL (emit : Emit) (data : Bytes) : Bytes → Nat → Machine → Option (Nat × Bool × Machine)
  | [], cs, m => some (cs, true, m)
  | b :: rest, cs, m =>
    match stepByteL emit data cs b m with
    | none => none
    | some (cs', m') => if cs' = 0 then some (0, false, m') else execLoopL emit data rest cs' m'

/-- `Exec` (nontransparent/parser.go:28-169). Its variables `cs`, `p`, `pe` are local, so a nested call does not change them. -/
def execL (emit : Emit) (data : Bytes) (cs : Nat) (m : Machine) : Option (Nat × Bool × Machine) := execLoopL emit data data cs m

/-- `OnCompletion` (nontransparent/parser.go:180-195) -/
def Machine.onCompletionL (emit : Emit) (m : Machine) : Option Machine :=
  match (if m.candidate.length > 0 then m.processL emit else some m) with
  | none => none
  | some m =>
    match m.readError with
    | some re =>
      if m.lastChunk.length > 0 then
        match m.parseMsg m.lastChunk with
        | none => none
        | some (res, err, m) => emit ⟨res, match err with | none => some (.reading re) | some e => some (.message e)⟩ m
      else some m
    | none => some m

/-- the loop over the chunks (external, as `drive`) -/
def driveL (emit : Emit) (d : Driver) (end_ : ReadErr) (last : Bytes) : List Bytes → Nat → Machine → Option Machine
  | [], cs, m =>
    if last = [] then some (if d.errOnEmpty then m.onErr [] end_ else m.onEOF [])
    else if d.execLast then
      match execL emit last cs m with
      | none => none
      | some (_, _, m) => some (m.onErr last end_)
    else some (m.onErr last end_)
  | c :: rest, cs, m =>
    match execL emit c cs m with
    | none => none
    | some (cs', ok, m') => if ok = false ∧ d.stopOnFail = true then some m' else driveL emit d end_ last rest cs' m'

/-- `machine.Parse` (nontransparent/parser.go:257-260). Every call makes its own reader and its own loop. -/
def Machine.parseL (emit : Emit) (d : Driver) (m : Machine) (bytes : Bytes) (end_ : ReadErr := .unexpectedEOF) : Option Machine :=
  match driveL emit d end_ (chunks m.trailer bytes).2 (chunks m.trailer bytes).1 1 m with
  | none => none
  | some m => m.onCompletionL emit

/-- the calls a listener can make -/
inductive Do where
  | withBestEffort
  | parse (bytes : Bytes) (end_ : ReadErr)

/-- what a listener does when it has got these results, the last one just now -/
abbrev Listener := List Result → List Do

/-- the calls of the listener, one after the other -/
def performN (d : Driver) (emit : Emit) : List Do → Machine → Option Machine
  | [], m => some m
  | .withBestEffort :: as, m => performN d emit as { m with bestEffort := true }
  | .parse bytes e :: as, m =>
    match m.parseL emit d bytes e with
    | none => none
    | some m => performN d emit as m

/-- the listener gets a result and does its calls, nested at most `depth` deep -/
def emitN (d : Driver) (L : Listener) : Nat → Emit
  | 0, _, _ => none
  | depth + 1, r, m => performN d (emitN d L depth) (L (m.out ++ [r])) { m with out := m.out ++ [r] }

/-- `Parse` with a listener; `out` is what the listener has got when it returns -/
def Machine.HearsL (d : Driver) (L : Listener) (m : Machine) (bytes : Bytes) (e : ReadErr) (out : List Result) : Prop :=
  ∃ depth m', { m with out := [] }.parseL (emitN d L depth) d bytes e = some m' ∧ m'.out = out

/-! ## Two listeners that do the same -/

/-- `emit'` does what `emit` does, where `emit` ends -/
def Le (emit emit' : Emit) : Prop := ∀ r m x, emit r m = some x → emit' r m = some x

section
variable {emit emit' : Emit} (h : Le emit emit')
include h

theorem processL_le {m x : Machine} (hx : m.processL emit = some x) : m.processL emit' = some x := by
  simp only [Machine.processL] at hx ⊢
  cases hl : m.candidate.getLast? with
  | none => rw [hl] at hx; simp at hx
  | some l =>
    rw [hl] at hx
    simp only [] at hx ⊢
    generalize (if l = m.trailer then { m with candidate := m.candidate.dropLast } else m) = m1 at *
    cases hp : m1.parseMsg m1.candidate with
    | none => rw [hp] at hx; simp at hx
    | some y =>
      rw [hp] at hx
      exact h _ _ _ hx

theorem tr0L_le {m x : Machine} (hx : m.tr0L emit = some x) : m.tr0L emit' = some x := by
  simp only [Machine.tr0L] at hx ⊢
  by_cases c : m.candidate.length > 0
  · rw [if_pos c] at hx ⊢
    cases hp : m.processL emit with
    | none => rw [hp] at hx; simp at hx
    | some y => rw [hp] at hx; rw [processL_le h hp]; exact hx
  · rw [if_neg c] at hx ⊢; exact hx

theorem stepByteL_le {data : Bytes} {cs : Nat} {b : UInt8} {m : Machine} {x : Nat × Machine} (hx : stepByteL emit data cs b m = some x) :
    stepByteL emit' data cs b m = some x := by
  have key : ∀ y, (m.tr0L emit).map (fun m => ((2 : Nat), m)) = some y → (m.tr0L emit').map (fun m => ((2 : Nat), m)) = some y := by
    intro y hy
    cases ht : m.tr0L emit with
    | none => rw [ht] at hy; simp at hy
    | some z => rw [ht] at hy; rw [tr0L_le h ht]; exact hy
  unfold stepByteL at hx ⊢
  by_cases c1 : cs = 1
  · rw [if_pos c1] at hx ⊢
    by_cases c : b = 60
    · rw [if_pos c] at hx ⊢; exact key _ hx
    · rw [if_neg c] at hx ⊢; exact hx
  · rw [if_neg c1] at hx ⊢
    by_cases c2 : cs = 2
    · rw [if_pos c2] at hx ⊢; exact hx
    · rw [if_neg c2] at hx ⊢
      by_cases c3 : cs = 3
      · rw [if_pos c3] at hx ⊢
        by_cases c : widec m.trailertyp b = 60
        · rw [if_pos c] at hx ⊢; exact key _ hx
        · rw [if_neg c] at hx ⊢; exact hx
      · rw [if_neg c3] at hx ⊢; exact hx

theorem execLoopL_le {data : Bytes} (bs : Bytes) {cs : Nat} {m : Machine} {x : Nat × Bool × Machine} (hx : execLoopL emit data bs cs m = some x) :
    execLoopL emit' data bs cs m = some x := by
  induction bs generalizing cs m with
  | nil => exact hx
  | cons b bs ih =>
    simp only [execLoopL] at hx ⊢
    cases hs : stepByteL emit data cs b m with
    | none => rw [hs] at hx; simp at hx
    | some y =>
      rw [hs] at hx
      rw [stepByteL_le h hs]
      simp only [] at hx ⊢
      by_cases c : y.1 = 0
      · rw [if_pos c] at hx ⊢; exact hx
      · rw [if_neg c] at hx ⊢; exact ih hx

theorem onCompletionL_le {m x : Machine} (hx : m.onCompletionL emit = some x) : m.onCompletionL emit' = some x := by
  simp only [Machine.onCompletionL] at hx ⊢
  have key : ∀ y, (if m.candidate.length > 0 then m.processL emit else some m) = some y →
      (if m.candidate.length > 0 then m.processL emit' else some m) = some y := by
    intro y hy
    by_cases c : m.candidate.length > 0
    · rw [if_pos c] at hy ⊢; exact processL_le h hy
    · rw [if_neg c] at hy ⊢; exact hy
  cases hp : (if m.candidate.length > 0 then m.processL emit else some m) with
  | none => rw [hp] at hx; simp at hx
  | some m1 =>
    rw [hp] at hx
    rw [key _ hp]
    simp only [] at hx ⊢
    cases hr : m1.readError with
    | none => rw [hr] at hx; exact hx
    | some re =>
      rw [hr] at hx
      simp only [] at hx ⊢
      by_cases c : m1.lastChunk.length > 0
      · rw [if_pos c] at hx ⊢
        cases hm : m1.parseMsg m1.lastChunk with
        | none => rw [hm] at hx; simp at hx
        | some y => rw [hm] at hx; exact h _ _ _ hx
      · rw [if_neg c] at hx ⊢; exact hx

theorem driveL_le {d : Driver} {e : ReadErr} {last : Bytes} (ls : List Bytes) {cs : Nat} {m x : Machine}
    (hx : driveL emit d e last ls cs m = some x) : driveL emit' d e last ls cs m = some x := by
  induction ls generalizing cs m with
  | nil =>
    simp only [driveL] at hx ⊢
    by_cases c : last = []
    · rw [if_pos c] at hx ⊢; exact hx
    · rw [if_neg c] at hx ⊢
      by_cases c2 : d.execLast = true
      · rw [if_pos c2] at hx ⊢
        cases hs : execL emit last cs m with
        | none => rw [hs] at hx; simp at hx
        | some y =>
          rw [hs] at hx
          rw [show execL emit' last cs m = some y from execLoopL_le h _ hs]
          exact hx
      · rw [if_neg c2] at hx ⊢; exact hx
  | cons l ls ih =>
    simp only [driveL] at hx ⊢
    cases hs : execL emit l cs m with
    | none => rw [hs] at hx; simp at hx
    | some y =>
      rw [hs] at hx
      rw [show execL emit' l cs m = some y from execLoopL_le h _ hs]
      simp only [] at hx ⊢
      by_cases c : y.2.1 = false ∧ d.stopOnFail = true
      · rw [if_pos c] at hx ⊢; exact hx
      · rw [if_neg c] at hx ⊢; exact ih hx

theorem parseL_le {d : Driver} {m x : Machine} {bytes : Bytes} {e : ReadErr} (hx : m.parseL emit d bytes e = some x) :
    m.parseL emit' d bytes e = some x := by
  simp only [Machine.parseL] at hx ⊢
  cases hs : driveL emit d e (chunks m.trailer bytes).2 (chunks m.trailer bytes).1 1 m with
  | none => rw [hs] at hx; simp at hx
  | some y =>
    rw [hs] at hx
    rw [driveL_le h _ hs]
    exact onCompletionL_le h hx

theorem performN_le {d : Driver} (as : List Do) {m x : Machine} (hx : performN d emit as m = some x) : performN d emit' as m = some x := by
  induction as generalizing m with
  | nil => exact hx
  | cons a as ih =>
    cases a with
    | withBestEffort => exact ih hx
    | parse bytes e =>
      simp only [performN] at hx ⊢
      cases hs : m.parseL emit d bytes e with
      | none => rw [hs] at hx; simp at hx
      | some y =>
        rw [hs] at hx
        rw [parseL_le h hs]
        exact ih hx

end

theorem emitN_succ (d : Driver) (L : Listener) (n : Nat) : Le (emitN d L n) (emitN d L (n + 1)) := by
  induction n with
  | zero => intro r m x hx; simp [emitN] at hx
  | succ n ih =>
    intro r m x hx
    rw [emitN] at hx ⊢
    exact performN_le ih _ hx

theorem emitN_le (d : Driver) (L : Listener) {n n' : Nat} (hle : n ≤ n') : Le (emitN d L n) (emitN d L n') := by
  induction hle with
  | refl => exact fun _ _ _ h => h
  | step _ ih => exact fun r m x h => emitN_succ d L _ r m x (ih r m x h)

theorem hearsL_unique {d : Driver} {L : Listener} {m : Machine} {bytes : Bytes} {e : ReadErr} {out out' : List Result}
    (h : m.HearsL d L bytes e out) (h' : m.HearsL d L bytes e out') : out = out' := by
  obtain ⟨n, x, h1, rfl⟩ := h
  obtain ⟨n', x', h2, rfl⟩ := h'
  have a := parseL_le (emitN_le d L (Nat.le_max_left n n')) h1
  have b := parseL_le (emitN_le d L (Nat.le_max_right n n')) h2
  rw [a] at b
  rw [Option.some.inj b]

/-! ## Listening only is the model of `Model.lean` -/

theorem processL_emit0 (m : Machine) : m.processL emit0 = m.process := by
  simp only [Machine.processL, Machine.process]
  cases m.candidate.getLast? with
  | none => rfl
  | some l =>
    simp only []
    generalize (if l = m.trailer then { m with candidate := m.candidate.dropLast } else m) = m1
    cases m1.parseMsg m1.candidate with
    | none => rfl
    | some y => rfl

theorem tr0L_emit0 (m : Machine) : m.tr0L emit0 = m.tr0 := by
  simp only [Machine.tr0L, Machine.tr0, processL_emit0]
  rfl

theorem stepByteL_emit0 (data : Bytes) (cs : Nat) (b : UInt8) (m : Machine) : stepByteL emit0 data cs b m = stepByte data cs b m := by
  simp only [stepByteL, stepByte, tr0L_emit0]
  rfl

theorem execLoopL_emit0 (data : Bytes) (bs : Bytes) (cs : Nat) (m : Machine) : execLoopL emit0 data bs cs m = execLoop data bs cs m := by
  induction bs generalizing cs m with
  | nil => rfl
  | cons b bs ih => simp only [execLoopL, execLoop, stepByteL_emit0, ih]; rfl

theorem execL_emit0 (data : Bytes) (cs : Nat) (m : Machine) : execL emit0 data cs m = exec data cs m := execLoopL_emit0 _ _ _ _

theorem onCompletionL_emit0 (m : Machine) : m.onCompletionL emit0 = m.onCompletion := by
  simp only [Machine.onCompletionL, Machine.onCompletion, processL_emit0]
  rfl

theorem driveL_emit0 (d : Driver) (e : ReadErr) (last : Bytes) (ls : List Bytes) (cs : Nat) (m : Machine) :
    driveL emit0 d e last ls cs m = drive d e last ls cs m := by
  induction ls generalizing cs m with
  | nil => simp only [driveL, drive, execL_emit0]; rfl
  | cons l ls ih => simp only [driveL, drive, execL_emit0, ih]; rfl

theorem parseL_emit0 (d : Driver) (m : Machine) (bytes : Bytes) (e : ReadErr) : m.parseL emit0 d bytes e = m.parse d bytes e := by
  simp only [Machine.parseL, Machine.parse, driveL_emit0, onCompletionL_emit0]
  rfl

end Verif.NonTransparent
