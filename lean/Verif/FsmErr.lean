import Verif.FsmLemmas

/-! # Only the fail state is reached with an error -/

namespace Verif.Fsm

variable {A M E : Type} {T : Nat → Row A} {act : A → M → Step M} {adv : M → M} {err : M → Option E} {fs : Nat}

/-- an action either leaves the error alone or goes to the fail state -/
def StepErr (err : M → Option E) (fs : Nat) (m : M) : Step M → Prop
  | .next m' => err m' = err m
  | .jump m' s => s = fs ∨ err m' = err m
  | .panic => True

theorem runActs_err (h : ∀ a m, StepErr err fs m (act a m)) (as : List A) (m : M) : StepErr err fs m (runActs act as m) := by
  induction as generalizing m with
  | nil => rfl
  | cons a as ih =>
    have h1 := h a m
    simp only [runActs]
    cases hh : act a m with
    | panic => trivial
    | jump m' s => rw [hh] at h1; exact h1
    | next m' =>
      rw [hh] at h1
      have h2 := ih m'
      simp only []
      cases hr : runActs act as m' with
      | panic => trivial
      | next m'' => rw [hr] at h2; exact Eq.trans h2 h1
      | jump m'' s => rw [hr] at h2; exact h2.imp id fun e => e.trans h1

/-- the outcome of an execution: an error only in the fail state or after it -/
def ResErr (err : M → Option E) (fs : Nat) : Res M → Prop
  | .done cs m => err m = none ∨ cs = 0 ∨ cs = fs
  | _ => True

structure FailState (T : Nat → Row A) (fs : Nat) : Prop where
  frm : (T fs).frm = []
  eof : (T fs).eof = []
  acts : ∀ b : UInt8, ((T fs).dispatch b.toNat).acts = []
  tgt : ∀ b : UInt8, ((T fs).dispatch b.toNat).tgt = 0 ∨ ((T fs).dispatch b.toNat).tgt = fs

theorem stepByte_err (h : ∀ a m, StepErr err fs m (act a m)) (ha : ∀ m, err (adv m) = err m) (hf : FailState T fs) (b : UInt8) :
    ∀ (fuel cs : Nat) (m : M), (err m = none ∨ cs = fs) → ResErr err fs (stepByte T act adv b fuel cs m) := by
  intro fuel
  induction fuel with
  | zero => intro cs m _; trivial
  | succ fuel ih =>
    intro cs m hm
    by_cases hcs : cs = fs
    · subst hcs
      simp only [stepByte, hf.frm, runActs, hf.acts]
      rcases hf.tgt b with e | e
      · rw [if_pos e]; exact Or.inr (Or.inl rfl)
      · split
        · exact Or.inr (Or.inl rfl)
        · exact Or.inr (Or.inr e)
    · have hm : err m = none := hm.resolve_right hcs
      simp only [stepByte]
      have h1 := runActs_err h (T cs).frm m
      cases hr : runActs act (T cs).frm m with
      | panic => trivial
      | jump m' s =>
        rw [hr] at h1
        exact ih s m' (h1.elim Or.inr fun e => Or.inl (e.trans hm))
      | next m' =>
        rw [hr] at h1
        have hm' : err m' = none := Eq.trans h1 hm
        simp only []
        have h2 := runActs_err h ((T cs).dispatch b.toNat).acts m'
        cases hr2 : runActs act ((T cs).dispatch b.toNat).acts m' with
        | panic => trivial
        | jump m'' s =>
          rw [hr2] at h2
          exact ih s m'' (h2.elim Or.inr fun e => Or.inl (e.trans hm'))
        | next m'' =>
          rw [hr2] at h2
          simp only []
          split
          · exact Or.inr (Or.inl rfl)
          · exact Or.inl (by rw [ha]; exact Eq.trans h2 hm')

theorem runEof_err (h : ∀ a m, StepErr err fs m (act a m)) (hf : FailState T fs) :
    ∀ (fuel cs : Nat) (m : M), (err m = none ∨ cs = fs) → ResErr err fs (runEof T act fuel cs m) := by
  intro fuel
  induction fuel with
  | zero => intro cs m _; trivial
  | succ fuel ih =>
    intro cs m hm
    simp only [runEof]
    by_cases hcs : cs = fs
    · subst hcs
      rw [hf.eof]
      exact Or.inr (Or.inr rfl)
    · have hm : err m = none := hm.resolve_right hcs
      have h1 := runActs_err h (T cs).eof m
      cases hr : runActs act (T cs).eof m with
      | panic => trivial
      | jump m' s =>
        rw [hr] at h1
        exact ih s m' (h1.elim Or.inr fun e => Or.inl (e.trans hm))
      | next m' =>
        rw [hr] at h1
        exact Or.inl (Eq.trans h1 hm)

theorem run_err (h : ∀ a m, StepErr err fs m (act a m)) (ha : ∀ m, err (adv m) = err m) (hf : FailState T fs) :
    ∀ (bs : List UInt8) (cs : Nat) (m : M), (err m = none ∨ cs = fs) → ResErr err fs (run T act adv bs cs m) := by
  intro bs
  induction bs with
  | nil => intro cs m hm; exact runEof_err h hf _ cs m hm
  | cons b bs ih =>
    intro cs m hm
    simp only [run]
    have h1 := stepByte_err h ha hf b jumpFuel cs m hm
    cases hr : stepByte T act adv b jumpFuel cs m with
    | panic => trivial
    | loop => trivial
    | done cs' m' =>
      rw [hr] at h1
      cases cs' with
      | zero => exact Or.inr (Or.inl rfl)
      | succ k =>
        refine ih (k + 1) m' ?_
        rcases h1 with e | e | e
        · exact Or.inl e
        · omega
        · exact Or.inr e

end Verif.Fsm
