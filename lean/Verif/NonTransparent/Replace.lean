import Verif.NonTransparent.Listener
import Verif.Ears

/-!
# Listeners that install another listener, non-transparent framing

The field `emit` is read at every report (nontransparent/parser.go:190, 268), and `WithListener` writes it (nontransparent/parser.go:250-252), also when a listener
calls it while `Parse` runs. As in `NonTransparent/Model.lean` otherwise; the field `out` of the model has all results.
-/

namespace Verif.NonTransparent
open Verif.Spec

/-- the listeners and the parser -/
abbrev Heard := Ears Result × Machine

/-- `process` (nontransparent/parser.go:262-272) -/
def Machine.processR (f : Installs Result) (e : Ears Result) (m : Machine) : Option Heard :=
  match m.candidate.getLast? with
  | none => none
  | some lastByte =>
    let m := if lastByte = m.trailer then { m with candidate := m.candidate.dropLast } else m
    match m.parseMsg m.candidate with
    | none => none
    | some (res, err, m) => some (e.hear f ⟨res, err.map .message⟩, { m with out := m.out ++ [⟨res, err.map .message⟩] })

/-- `tr0` (nontransparent/parser.go:57-64) -/
def Machine.tr0R (f : Installs Result) (e : Ears Result) (m : Machine) : Option Heard :=
  if m.candidate.length > 0 then
    match m.processR f e with
    | none => none
    | some (e, m) => some (e, { m with candidate := [] })
  else some (e, { m with candidate := [] })

/-- one round of `Exec` (nontransparent/parser.go:36-149) -/
def stepByteR (f : Installs Result) (data : Bytes) (cs : Nat) (b : UInt8) (e : Ears Result) (m : Machine) : Option (Nat × Heard) :=
  if cs = 1 then
    if b = 60 then (m.tr0R f e).map fun x => (2, x) else some (0, e, m)
  else if cs = 2 then
    match next23 (widec m.trailertyp b) with
    | none => some (3, e, { m with candidate := m.candidate ++ data })
    | some n => some (n, e, m)
  else if cs = 3 then
    if widec m.trailertyp b = 60 then (m.tr0R f e).map fun x => (2, x)
    else
      match next23 (widec m.trailertyp b) with
      | none => some (3, e, { m with candidate := m.candidate ++ data })
      | some n => some (n, e, m)
  else some (0, e, m)

/-- the bytes of `Exec` (nontransparent/parser.go:28-169) -/
def execLoopR (f : Installs Result) (data : Bytes) : Bytes → Nat → Ears Result → Machine → Option (Nat × Bool × Heard)
  | [], cs, e, m => some (cs, true, e, m)
  | b :: rest, cs, e, m =>
    match stepByteR f data cs b e m with
    | none => none
    | some (cs', e', m') => if cs' = 0 then some (0, false, e', m') else execLoopR f data rest cs' e' m'

/-- `OnCompletion` (nontransparent/parser.go:180-195) -/
def Machine.onCompletionR (f : Installs Result) (e : Ears Result) (m : Machine) : Option Heard :=
  match (if m.candidate.length > 0 then m.processR f e else some (e, m)) with
  | none => none
  | some (e, m) =>
    match m.readError with
    | some re =>
      if m.lastChunk.length > 0 then
        match m.parseMsg m.lastChunk with
        | none => none
        | some (res, err, m) =>
          let r : Result := ⟨res, match err with | none => some (.reading re) | some err => some (.message err)⟩
          some (e.hear f r, { m with out := m.out ++ [r] })
      else some (e, m)
    | none => some (e, m)

/-- the loop over the chunks (external, as `drive`) -/
def driveR (f : Installs Result) (d : Driver) (end_ : ReadErr) (last : Bytes) : List Bytes → Nat → Ears Result → Machine → Option Heard
  | [], cs, e, m =>
    if last = [] then some (e, if d.errOnEmpty then m.onErr [] end_ else m.onEOF [])
    else if d.execLast then
      match execLoopR f last last cs e m with
      | none => none
      | some (_, _, e, m) => some (e, m.onErr last end_)
    else some (e, m.onErr last end_)
  | c :: rest, cs, e, m =>
    match execLoopR f c c cs e m with
    | none => none
    | some (cs', ok, e', m') => if ok = false ∧ d.stopOnFail = true then some (e', m') else driveR f d end_ last rest cs' e' m'

/-- `machine.Parse` (nontransparent/parser.go:257-260) -/
def Machine.parseR (f : Installs Result) (d : Driver) (e : Ears Result) (m : Machine) (bytes : Bytes) (end_ : ReadErr) : Option Heard :=
  match driveR f d end_ (chunks m.trailer bytes).2 (chunks m.trailer bytes).1 1 e m with
  | none => none
  | some (e, m) => m.onCompletionR f e

/-! ## The same results -/

/-- two outcomes: both fail, or the parser is the same and the listeners heard what was reported, one result after the other -/
def Agree (f : Installs Result) (e : Ears Result) (m : Machine) (x : Option Heard) (y : Option Machine) : Prop :=
  (x = none ∧ y = none) ∨ ∃ n rs, y = some n ∧ n.out = m.out ++ rs ∧ x = some (rs.foldl (Ears.hear f) e, n)

/-- the same, with a value -/
def AgreeV {α : Type} (f : Installs Result) (e : Ears Result) (m : Machine) (x : Option (α × Heard)) (y : Option (α × Machine)) : Prop :=
  (x = none ∧ y = none) ∨ ∃ a n rs, y = some (a, n) ∧ n.out = m.out ++ rs ∧ x = some (a, rs.foldl (Ears.hear f) e, n)

variable (f : Installs Result)

theorem parseMsg_out {m m' : Machine} {inp : Bytes} {res : Option Rfc5424.SyslogMessage} {err : Option Rfc5424.Err} (h : m.parseMsg inp = some (res, err, m')) : m'.out = m.out := by
  simp only [Machine.parseMsg] at h
  split at h
  · cases h
  · injection h with h; injection h with _ h; injection h with _ h; rw [← h]

theorem processR_eq (e : Ears Result) (m : Machine) : Agree f e m (m.processR f e) m.process := by
  simp only [Machine.processR, Machine.process]
  cases m.candidate.getLast? with
  | none => exact Or.inl ⟨rfl, rfl⟩
  | some l =>
    simp only []
    have ho : (if l = m.trailer then { m with candidate := m.candidate.dropLast } else m).out = m.out := by split <;> rfl
    generalize (if l = m.trailer then { m with candidate := m.candidate.dropLast } else m) = m1 at *
    cases hp : m1.parseMsg m1.candidate with
    | none => exact Or.inl ⟨rfl, rfl⟩
    | some y =>
      obtain ⟨res, err, m2⟩ := y
      have h2 := parseMsg_out hp
      exact Or.inr ⟨_, [⟨res, err.map .message⟩], rfl, by rw [← ho, ← h2], rfl⟩

theorem tr0R_eq (e : Ears Result) (m : Machine) : Agree f e m (m.tr0R f e) m.tr0 := by
  simp only [Machine.tr0R, Machine.tr0]
  by_cases c : m.candidate.length > 0
  · rw [if_pos c, if_pos c]
    rcases processR_eq f e m with ⟨h1, h2⟩ | ⟨n, rs, h1, h2, h3⟩
    · rw [h1, h2]; exact Or.inl ⟨rfl, rfl⟩
    · rw [h1, h3]; exact Or.inr ⟨_, rs, rfl, h2, rfl⟩
  · rw [if_neg c, if_neg c]; exact Or.inr ⟨_, [], rfl, by simp, rfl⟩

theorem tr0R_map (e : Ears Result) (m : Machine) (k : Nat) : AgreeV f e m ((m.tr0R f e).map fun x => (k, x)) (m.tr0.map fun n => (k, n)) := by
  rcases tr0R_eq f e m with ⟨h1, h2⟩ | ⟨n, rs, h1, h2, h3⟩
  · rw [h1, h2]; exact Or.inl ⟨rfl, rfl⟩
  · rw [h1, h3]; exact Or.inr ⟨_, _, rs, rfl, h2, rfl⟩

theorem still {α : Type} {e : Ears Result} {m n : Machine} (h : n.out = m.out) (a : α) : AgreeV f e m (some (a, e, n)) (some (a, n)) :=
  Or.inr ⟨a, n, [], rfl, by rw [h]; simp, rfl⟩

theorem stepByteR_eq (data : Bytes) (cs : Nat) (b : UInt8) (e : Ears Result) (m : Machine) : AgreeV f e m (stepByteR f data cs b e m) (stepByte data cs b m) := by
  simp only [stepByteR, stepByte]
  by_cases c1 : cs = 1
  · rw [if_pos c1, if_pos c1]
    by_cases h : b = 60
    · rw [if_pos h, if_pos h]; exact tr0R_map f e m 2
    · rw [if_neg h, if_neg h]; exact still f rfl _
  rw [if_neg c1, if_neg c1]
  by_cases c2 : cs = 2
  · rw [if_pos c2, if_pos c2]
    cases next23 (widec m.trailertyp b) with
    | none => exact still f rfl _
    | some n => exact still f rfl _
  rw [if_neg c2, if_neg c2]
  by_cases c3 : cs = 3
  · rw [if_pos c3, if_pos c3]
    by_cases h : widec m.trailertyp b = 60
    · rw [if_pos h, if_pos h]; exact tr0R_map f e m 2
    · rw [if_neg h, if_neg h]
      cases next23 (widec m.trailertyp b) with
      | none => exact still f rfl _
      | some n => exact still f rfl _
  · rw [if_neg c3, if_neg c3]; exact still f rfl _

theorem execLoopR_eq (data : Bytes) (bs : Bytes) (cs : Nat) (e : Ears Result) (m : Machine) :
    (execLoopR f data bs cs e m = none ∧ execLoop data bs cs m = none) ∨
    ∃ cs' ok n rs, execLoop data bs cs m = some (cs', ok, n) ∧ n.out = m.out ++ rs ∧ execLoopR f data bs cs e m = some (cs', ok, rs.foldl (Ears.hear f) e, n) := by
  induction bs generalizing cs e m with
  | nil => exact Or.inr ⟨_, _, _, [], rfl, by simp, rfl⟩
  | cons b bs ih =>
    rw [execLoopR, execLoop]
    rcases stepByteR_eq f data cs b e m with ⟨h1, h2⟩ | ⟨a, n, rs, h1, h2, h3⟩
    · rw [h1, h2]; exact Or.inl ⟨rfl, rfl⟩
    · rw [h1, h3]
      simp only []
      by_cases c : a = 0
      · rw [if_pos c, if_pos c]; exact Or.inr ⟨_, _, _, rs, rfl, h2, rfl⟩
      · rw [if_neg c, if_neg c]
        rcases ih a (rs.foldl (Ears.hear f) e) n with ⟨g1, g2⟩ | ⟨cs', ok, n', rs', g1, g2, g3⟩
        · exact Or.inl ⟨g1, g2⟩
        · exact Or.inr ⟨cs', ok, n', rs ++ rs', g1, by rw [g2, h2, List.append_assoc], by rw [g3, List.foldl_append]⟩

theorem onCompletionR_eq (e : Ears Result) (m : Machine) : Agree f e m (m.onCompletionR f e) m.onCompletion := by
  simp only [Machine.onCompletionR, Machine.onCompletion]
  have h0 : Agree f e m (if m.candidate.length > 0 then m.processR f e else some (e, m)) (if m.candidate.length > 0 then m.process else some m) := by
    by_cases c : m.candidate.length > 0
    · rw [if_pos c, if_pos c]; exact processR_eq f e m
    · rw [if_neg c, if_neg c]; exact Or.inr ⟨_, [], rfl, by simp, rfl⟩
  rcases h0 with ⟨h1, h2⟩ | ⟨n, rs, h1, h2, h3⟩
  · rw [h1, h2]; exact Or.inl ⟨rfl, rfl⟩
  · rw [h1, h3]
    simp only []
    cases n.readError with
    | none => exact Or.inr ⟨n, rs, rfl, h2, rfl⟩
    | some re =>
      simp only []
      by_cases c : n.lastChunk.length > 0
      · rw [if_pos c, if_pos c]
        cases hp : n.parseMsg n.lastChunk with
        | none => exact Or.inl ⟨rfl, rfl⟩
        | some y =>
          obtain ⟨res, err, m2⟩ := y
          have h4 := parseMsg_out hp
          simp only []
          cases err with
          | none => exact Or.inr ⟨_, rs ++ [⟨res, some (.reading re)⟩], rfl, by simp only [h4, h2, List.append_assoc], by rw [List.foldl_append]; rfl⟩
          | some x => exact Or.inr ⟨_, rs ++ [⟨res, some (.message x)⟩], rfl, by simp only [h4, h2, List.append_assoc], by rw [List.foldl_append]; rfl⟩
      · rw [if_neg c, if_neg c]; exact Or.inr ⟨n, rs, rfl, h2, rfl⟩

theorem driveR_eq (d : Driver) (end_ : ReadErr) (last : Bytes) (l : List Bytes) (cs : Nat) (e : Ears Result) (m : Machine) :
    Agree f e m (driveR f d end_ last l cs e m) (drive d end_ last l cs m) := by
  induction l generalizing cs e m with
  | nil =>
    rw [driveR, drive]
    by_cases c : last = []
    · rw [if_pos c, if_pos c]; exact Or.inr ⟨_, [], rfl, by split <;> simp [Machine.onErr, Machine.onEOF], rfl⟩
    rw [if_neg c, if_neg c]
    by_cases c2 : d.execLast = true
    · rw [if_pos c2, if_pos c2]
      rcases execLoopR_eq f last last cs e m with ⟨h1, h2⟩ | ⟨cs', ok, n, rs, h1, h2, h3⟩
      · rw [h1, exec, h2]; exact Or.inl ⟨rfl, rfl⟩
      · rw [h3, exec, h1]; exact Or.inr ⟨_, rs, rfl, h2, rfl⟩
    · rw [if_neg c2, if_neg c2]; exact Or.inr ⟨_, [], rfl, by simp [Machine.onErr], rfl⟩
  | cons c l ih =>
    rw [driveR, drive]
    rcases execLoopR_eq f c c cs e m with ⟨h1, h2⟩ | ⟨cs', ok, n, rs, h1, h2, h3⟩
    · rw [h1, exec, h2]; exact Or.inl ⟨rfl, rfl⟩
    · rw [h3, exec, h1]
      simp only []
      by_cases c2 : ok = false ∧ d.stopOnFail = true
      · rw [if_pos c2, if_pos c2]; exact Or.inr ⟨_, rs, rfl, h2, rfl⟩
      · rw [if_neg c2, if_neg c2]
        rcases ih cs' (rs.foldl (Ears.hear f) e) n with ⟨g1, g2⟩ | ⟨n', rs', g1, g2, g3⟩
        · exact Or.inl ⟨g1, g2⟩
        · exact Or.inr ⟨n', rs ++ rs', g1, by rw [g2, h2, List.append_assoc], by rw [g3, List.foldl_append]⟩

/-- `Parse` reports the same results, to whoever is the listener. -/
theorem parseR_eq (d : Driver) (e : Ears Result) (m : Machine) (bytes : Bytes) (end_ : ReadErr) :
    Agree f e m (m.parseR f d e bytes end_) (m.parse d bytes end_) := by
  simp only [Machine.parseR, Machine.parse]
  rcases driveR_eq f d end_ (chunks m.trailer bytes).2 (chunks m.trailer bytes).1 1 e m with ⟨h1, h2⟩ | ⟨n, rs, h1, h2, h3⟩
  · rw [h1, h2]; exact Or.inl ⟨rfl, rfl⟩
  · rw [h1, h3]
    simp only []
    rcases onCompletionR_eq f (rs.foldl (Ears.hear f) e) n with ⟨g1, g2⟩ | ⟨n', rs', g1, g2, g3⟩
    · exact Or.inl ⟨g1, g2⟩
    · exact Or.inr ⟨n', rs ++ rs', g1, by rw [g2, h2, List.append_assoc], by rw [g3, List.foldl_append]⟩

end Verif.NonTransparent
