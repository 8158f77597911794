import Verif.Rfc5424.DescentHdr

/-! # `parse` in terms of `descend` -/

namespace Verif.Fsm

/-- an invariant of all actions and of `p++` is an invariant of the automaton -/
def Step.All {M : Type} (P : M → Prop) : Step M → Prop
  | .next m => P m
  | .jump m _ => P m
  | .panic => True

def Res.All {M : Type} (P : M → Prop) : Res M → Prop
  | .done _ m => P m
  | _ => True

variable {A M : Type} {T : Nat → Row A} {act : A → M → Step M} {adv : M → M}

theorem runActs_all {P : M → Prop} (ha : ∀ a m, P m → (act a m).All P) (as : List A) (m : M) (h : P m) :
    (runActs act as m).All P := by
  induction as generalizing m with
  | nil => exact h
  | cons a as ih =>
    have h1 := ha a m h
    simp only [runActs]
    cases hh : act a m with
    | next m' => rw [hh] at h1; exact ih m' h1
    | jump m' s => rw [hh] at h1; exact h1
    | panic => trivial

theorem stepByte_all {P : M → Prop} (ha : ∀ a m, P m → (act a m).All P) (hv : ∀ m, P m → P (adv m)) (b : UInt8)
    (fuel cs : Nat) (m : M) (h : P m) : (stepByte T act adv b fuel cs m).All P := by
  induction fuel generalizing cs m with
  | zero => trivial
  | succ fuel ih =>
    simp only [stepByte]
    have h1 := runActs_all ha (T cs).frm m h
    cases hh : runActs act (T cs).frm m with
    | panic => trivial
    | jump m' s => rw [hh] at h1; exact ih s m' h1
    | next m' =>
      rw [hh] at h1
      have h2 := runActs_all ha ((T cs).dispatch b.toNat).acts m' h1
      simp only []
      cases hh2 : runActs act ((T cs).dispatch b.toNat).acts m' with
      | panic => trivial
      | jump m'' s => rw [hh2] at h2; exact ih s m'' h2
      | next m'' =>
        rw [hh2] at h2
        simp only []
        split
        · exact h2
        · exact hv _ h2

theorem runEof_all {P : M → Prop} (ha : ∀ a m, P m → (act a m).All P)
    (fuel cs : Nat) (m : M) (h : P m) : (runEof T act fuel cs m).All P := by
  induction fuel generalizing cs m with
  | zero => trivial
  | succ fuel ih =>
    simp only [runEof]
    have h1 := runActs_all ha (T cs).eof m h
    cases hh : runActs act (T cs).eof m with
    | panic => trivial
    | jump m' s => rw [hh] at h1; exact ih s m' h1
    | next m' => rw [hh] at h1; exact h1

theorem run_all {P : M → Prop} (ha : ∀ a m, P m → (act a m).All P) (hv : ∀ m, P m → P (adv m)) (bs : List UInt8)
    (cs : Nat) (m : M) (h : P m) : (run T act adv bs cs m).All P := by
  induction bs generalizing cs m with
  | nil => exact runEof_all ha _ _ _ h
  | cons b bs ih =>
    simp only [run]
    have h1 := stepByte_all (T := T) ha hv b jumpFuel cs m h
    cases hh : stepByte T act adv b jumpFuel cs m with
    | panic => trivial
    | loop => trivial
    | done cs' m' =>
      rw [hh] at h1
      cases cs' with
      | zero => exact h1
      | succ cs' => exact ih _ _ h1

end Verif.Fsm

namespace Verif.Rfc5424
open Verif.Fsm Verif.Gen.Rfc5424

/-- the options (and the input) are the ones at the start -/
def Same (be co : Bool) (data : Bytes) (m : M) : Prop := m.bestEffort = be ∧ m.compliantMsg = co ∧ m.data = data

theorem withText_all {P : M → Prop} {m : M} {f : Bytes → Step M} (h : ∀ t, (f t).All P) : (withText m f).All P := by
  unfold withText
  cases m.text with
  | none => trivial
  | some t => exact h t

theorem act_same (be co : Bool) (data : Bytes) (a : Act) (m : M) (h : Same be co data m) : (act a m).All (Same be co data) := by
  cases a <;> simp only [act, fail] <;> try exact h
  case selectMsgMode => split <;> exact h
  case setPrival => exact withText_all fun t => h
  case setVersion => exact withText_all fun t => h
  case setTimestamp => exact withText_all fun t => by split <;> exact h
  case setHostname => exact withText_all fun t => h
  case setAppname => exact withText_all fun t => h
  case setProcid => exact withText_all fun t => h
  case setMsgid => exact withText_all fun t => h
  case setMsg => exact withText_all fun t => h
  case setParamname => exact withText_all fun t => h
  case setId =>
    refine withText_all fun t => ?_
    split
    · trivial
    · split <;> exact h
  case setParamvalue =>
    split
    · refine withText_all fun t => ?_
      split
      · trivial
      · split
        · trivial
        · split
          · trivial
          · exact h
    · exact h
  case errMsg =>
    split
    · split
      · trivial
      · exact h
    · exact h

/-- the result of `Parse` from the outcome of `descend` -/
def resultOf (be : Bool) : Fin → Result
  | .ok out => ⟨some out.export, none⟩
  | .err e part => ⟨if be then part.map Out.export else none, some e⟩

theorem parse_eq (m : M) (input : Bytes) : ∃ m', parse m input = some (resultOf m.bestEffort (descend m.compliantMsg input), m') ∧
    m'.bestEffort = m.bestEffort ∧ m'.compliantMsg = m.compliantMsg := by
  have h1 := run_descend m input
  have h2 := run_all (T := T) (adv := adv) (act_same m.bestEffort m.compliantMsg input) (fun m h => h) input 1 (reset m input) ⟨rfl, rfl, rfl⟩
  cases hd : descend m.compliantMsg input with
  | ok out =>
    rw [hd] at h1
    obtain ⟨cs, m', h3, h4, h5⟩ := h1
    rw [h3] at h2
    refine ⟨m', ?_, h2.1, h2.2.1⟩
    simp only [parse, h3, finish, if_neg h4, resultOf, h5]
  | err e part =>
    rw [hd] at h1
    obtain ⟨cs, m', h3, h4, h5, h6⟩ := h1
    rw [h3] at h2
    refine ⟨m', ?_, h2.1, h2.2.1⟩
    simp only [parse, h3, finish, if_pos h4, resultOf, h5, ← h6, partOf, h2.1]
    cases m.bestEffort <;> cases m'.out.minimal <;> simp

theorem parse1_eq (o : Opts) (input : Bytes) : parse1 o input = some (resultOf o.bestEffort (descend o.compliantMsg input)) := by
  obtain ⟨m', h, _⟩ := parse_eq (newMachine o) input
  rw [parse1, h]; rfl

end Verif.Rfc5424
