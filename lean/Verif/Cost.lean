import Verif.FsmLemmas

/-!
# The work done by the automata

Counts what a run of `Verif.Fsm.run` does: 1 for every dispatch on a byte (`stCaseN:`) or end-of-input switch, 1 for every action executed,
and for each action the number of bytes it reads or copies, which is a parameter (`ac`).
The definitions follow `runActs`, `stepByte`, `runEof` and `run` line by line.
-/

namespace Verif.Fsm

variable {A M : Type}

/-- the work of a list of actions (`runActs`; the `trK:` labels of rfc5424/machine.go:123-12031) -/
def costActs (act : A → M → Step M) (ac : A → M → Nat) : List A → M → Nat
  | [], _ => 0
  | a :: as, m =>
    1 + ac a m +
    match act a m with
    | .next m' => costActs act ac as m'
    | .jump _ _ => 0
    | .panic => 0

/-- the work done for one byte (`stepByte`; one `stCaseN:` block of rfc5424/machine.go:123-12031) -/
def costByte (T : Nat → Row A) (act : A → M → Step M) (ac : A → M → Nat) (b : UInt8) : Nat → Nat → M → Nat
  | 0, _, _ => 0
  | fuel + 1, cs, m =>
    1 + costActs act ac (T cs).frm m +
    match runActs act (T cs).frm m with
    | .panic => 0
    | .jump m' s => costByte T act ac b fuel s m'
    | .next m' =>
      costActs act ac ((T cs).dispatch b.toNat).acts m' +
      match runActs act ((T cs).dispatch b.toNat).acts m' with
      | .panic => 0
      | .jump m'' s => costByte T act ac b fuel s m''
      | .next _ => 0

/-- the work of the end-of-input switch (`runEof`; the `_testEof:` switch of rfc5424/machine.go:11687-12031) -/
def costEof (T : Nat → Row A) (act : A → M → Step M) (ac : A → M → Nat) : Nat → Nat → M → Nat
  | 0, _, _ => 0
  | fuel + 1, cs, m =>
    1 + costActs act ac (T cs).eof m +
    match runActs act (T cs).eof m with
    | .panic => 0
    | .jump m' s => costEof T act ac fuel s m'
    | .next _ => 0

/-- the work of the whole automaton (`run`) -/
def costRun (T : Nat → Row A) (act : A → M → Step M) (adv : M → M) (ac : A → M → Nat) : List UInt8 → Nat → M → Nat
  | [], cs, m => costEof T act ac jumpFuel cs m
  | b :: bs, cs, m =>
    costByte T act ac b jumpFuel cs m +
    match stepByte T act adv b jumpFuel cs m with
    | .panic => 0
    | .loop => 0
    | .done 0 _ => 0
    | .done (cs' + 1) m' => costRun T act adv ac bs (cs' + 1) m'

variable {T : Nat → Row A} {act : A → M → Step M} {adv : M → M} {ac : A → M → Nat}

/-- The potential method. `Ψ` is the potential, `I k cs m` an invariant of the state when `k` bytes are left, `bud b` what a byte `b`
pays in addition to the constant `K`. -/
structure Potential (T : Nat → Row A) (act : A → M → Step M) (adv : M → M) (ac : A → M → Nat)
    (I : Nat → Nat → M → Prop) (Ψ : Nat → M → Nat) (K : Nat) (bud : UInt8 → Nat) : Prop where
  frm : ∀ k cs m, I k cs m →
    match runActs act (T cs).frm m with
    | .next m' => ∀ b, k ≠ 0 →
      match runActs act ((T cs).dispatch b).acts m' with
      | .next m'' => b < 256 →
        costActs act ac (T cs).frm m + costActs act ac ((T cs).dispatch b).acts m' +
          (if ((T cs).dispatch b).tgt = 0 then 0 else Ψ ((T cs).dispatch b).tgt (adv m'')) ≤ Ψ cs m + K + bud (UInt8.ofNat b) ∧
        (((T cs).dispatch b).tgt ≠ 0 → I (k - 1) ((T cs).dispatch b).tgt (adv m''))
      | .jump m'' s =>
        costActs act ac (T cs).frm m + costActs act ac ((T cs).dispatch b).acts m' + Ψ s m'' ≤ Ψ cs m + K ∧ I k s m''
      | .panic => b < 256 →
        costActs act ac (T cs).frm m + costActs act ac ((T cs).dispatch b).acts m' ≤ Ψ cs m + K + bud (UInt8.ofNat b)
    | .jump m' s => costActs act ac (T cs).frm m + Ψ s m' ≤ Ψ cs m + K ∧ I k s m'
    | .panic => costActs act ac (T cs).frm m ≤ Ψ cs m + K
  eof : ∀ cs m, I 0 cs m →
    match runActs act (T cs).eof m with
    | .next _ => costActs act ac (T cs).eof m ≤ Ψ cs m + K
    | .jump m' s => costActs act ac (T cs).eof m + Ψ s m' ≤ Ψ cs m + K ∧ I 0 s m'
    | .panic => costActs act ac (T cs).eof m ≤ Ψ cs m + K

variable {I : Nat → Nat → M → Prop} {Ψ : Nat → M → Nat} {K : Nat} {bud : UInt8 → Nat}

theorem Potential.byte (h : Potential T act adv ac I Ψ K bud) (b : UInt8) (k : Nat) (hk : k ≠ 0) : ∀ (fuel cs : Nat) (m : M), I k cs m →
    match stepByte T act adv b fuel cs m with
    | .done 0 _ => costByte T act ac b fuel cs m ≤ Ψ cs m + fuel * (K + 1) + bud b
    | .done (cs' + 1) m' => costByte T act ac b fuel cs m + Ψ (cs' + 1) m' ≤ Ψ cs m + fuel * (K + 1) + bud b ∧ I (k - 1) (cs' + 1) m'
    | .panic => costByte T act ac b fuel cs m ≤ Ψ cs m + fuel * (K + 1) + bud b
    | .loop => costByte T act ac b fuel cs m ≤ Ψ cs m + fuel * (K + 1) + bud b := by
  intro fuel
  induction fuel with
  | zero => intro cs m _; simp [stepByte, costByte]
  | succ fuel ih =>
    intro cs m hi
    have hf := h.frm k cs m hi
    have hmul : (fuel + 1) * (K + 1) = fuel * (K + 1) + K + 1 := by rw [Nat.add_mul]; omega
    rw [hmul]
    generalize fuel * (K + 1) = F at *
    simp only [stepByte, costByte]
    cases h1 : runActs act (T cs).frm m with
    | panic => rw [h1] at hf; simp only [] at hf ⊢; omega
    | jump m' s =>
      rw [h1] at hf
      simp only [] at hf ⊢
      have := ih s m' hf.2
      revert this
      generalize stepByte T act adv b fuel s m' = r
      rcases r with ⟨_ | cs', m2⟩ | _ | _ <;> simp only [] <;> intro this
      · omega
      · exact ⟨by omega, this.2⟩
      · omega
      · omega
    | next m' =>
      rw [h1] at hf
      have hf := hf b.toNat hk
      simp only []
      cases h2 : runActs act ((T cs).dispatch b.toNat).acts m' with
      | panic => rw [h2] at hf; have hf := hf b.toNat_lt; simp only [UInt8.ofNat_toNat] at hf ⊢; omega
      | jump m'' s =>
        rw [h2] at hf
        simp only [] at hf ⊢
        have := ih s m'' hf.2
        revert this
        generalize stepByte T act adv b fuel s m'' = r
        rcases r with ⟨_ | cs', m2⟩ | _ | _ <;> simp only [] <;> intro this
        · omega
        · exact ⟨by omega, this.2⟩
        · omega
        · omega
      | next m'' =>
        rw [h2] at hf
        have hf := hf b.toNat_lt
        simp only [UInt8.ofNat_toNat] at hf ⊢
        by_cases ht : ((T cs).dispatch b.toNat).tgt = 0
        · rw [if_pos ht] at hf ⊢; simp only []; omega
        · rw [if_neg ht] at hf ⊢
          obtain ⟨t, ht'⟩ := Nat.exists_eq_succ_of_ne_zero ht
          rw [ht'] at hf ⊢
          exact ⟨by have := hf.1; simp only [Nat.succ_eq_add_one] at *; omega, hf.2 (by omega)⟩

theorem Potential.end (h : Potential T act adv ac I Ψ K bud) : ∀ (fuel cs : Nat) (m : M), I 0 cs m →
    costEof T act ac fuel cs m ≤ Ψ cs m + fuel * (K + 1) := by
  intro fuel
  induction fuel with
  | zero => intro cs m _; simp [costEof]
  | succ fuel ih =>
    intro cs m hi
    have hf := h.eof cs m hi
    have hmul : (fuel + 1) * (K + 1) = fuel * (K + 1) + K + 1 := by rw [Nat.add_mul]; omega
    rw [hmul]
    generalize fuel * (K + 1) = F at *
    simp only [costEof]
    cases h1 : runActs act (T cs).eof m with
    | panic => rw [h1] at hf; simp only [] at hf ⊢; omega
    | next m' => rw [h1] at hf; simp only [] at hf ⊢; omega
    | jump m' s =>
      rw [h1] at hf
      simp only [] at hf ⊢
      have := ih s m' hf.2
      omega

theorem Potential.run (h : Potential T act adv ac I Ψ K bud) : ∀ (bs : List UInt8) (cs : Nat) (m : M), I bs.length cs m →
    costRun T act adv ac bs cs m ≤ Ψ cs m + jumpFuel * (K + 1) * (bs.length + 1) + (bs.map bud).sum := by
  intro bs
  induction bs with
  | nil =>
    intro cs m hi
    have := h.end jumpFuel cs m hi
    simpa [costRun] using this
  | cons b bs ih =>
    intro cs m hi
    have hb := h.byte b (b :: bs).length (by simp) jumpFuel cs m hi
    simp only [costRun, List.map_cons, List.sum_cons, List.length_cons]
    rw [Nat.mul_add _ (bs.length + 1) 1, Nat.mul_one]
    generalize hJ : jumpFuel * (K + 1) = J at *
    revert hb
    generalize stepByte T act adv b jumpFuel cs m = r
    have : 0 ≤ J * (bs.length + 1) := Nat.zero_le _
    rcases r with ⟨_ | cs', m2⟩ | _ | _ <;> simp only [] <;> intro hb
    · omega
    · have := ih (cs' + 1) m2 (by simpa using hb.2)
      omega
    · omega
    · omega

/-- the state after some bytes; `none` if the automaton stopped before -/
def after (T : Nat → Row A) (act : A → M → Step M) (adv : M → M) : List UInt8 → Nat → M → Option (Nat × M)
  | [], cs, m => some (cs, m)
  | b :: bs, cs, m =>
    match stepByte T act adv b jumpFuel cs m with
    | .done (cs' + 1) m' => after T act adv bs (cs' + 1) m'
    | _ => none

theorem after_append (u v : List UInt8) : ∀ {cs : Nat} {m : M},
    after T act adv (u ++ v) cs m = (after T act adv u cs m).bind fun x => after T act adv v x.1 x.2 := by
  induction u with
  | nil => intro cs m; rfl
  | cons b u ih =>
    intro cs m
    simp only [List.cons_append, after]
    generalize stepByte T act adv b jumpFuel cs m = r
    rcases r with ⟨_ | cs', m'⟩ | _ | _
    · rfl
    · exact ih
    · rfl
    · rfl

theorem run_after {u v : List UInt8} : ∀ {cs cs' : Nat} {m m' : M}, after T act adv u cs m = some (cs', m') →
    run T act adv (u ++ v) cs m = run T act adv v cs' m' := by
  induction u with
  | nil => intro cs cs' m m' h; simp only [after, Option.some.injEq, Prod.mk.injEq] at h; rw [h.1, h.2]; rfl
  | cons b u ih =>
    intro cs cs' m m' h
    simp only [after] at h
    simp only [List.cons_append, run]
    revert h
    generalize stepByte T act adv b jumpFuel cs m = r
    rcases r with ⟨_ | cs1, m1⟩ | _ | _ <;> simp only [] <;> intro h
    · simp at h
    · exact ih h
    · simp at h
    · simp at h

/-- the work done after a point of the run is part of the work of the run -/
theorem costRun_after {u v : List UInt8} : ∀ {cs cs' : Nat} {m m' : M}, after T act adv u cs m = some (cs', m') →
    costRun T act adv ac v cs' m' ≤ costRun T act adv ac (u ++ v) cs m := by
  induction u with
  | nil => intro cs cs' m m' h; simp only [after, Option.some.injEq, Prod.mk.injEq] at h; rw [h.1, h.2]; exact Nat.le_refl _
  | cons b u ih =>
    intro cs cs' m m' h
    simp only [after] at h
    simp only [List.cons_append, costRun]
    revert h
    generalize stepByte T act adv b jumpFuel cs m = r
    rcases r with ⟨_ | cs1, m1⟩ | _ | _ <;> simp only [] <;> intro h
    · simp at h
    · exact Nat.le_trans (ih h) (Nat.le_add_left _ _)
    · simp at h
    · simp at h

theorem after_next {b : UInt8} {bs : List UInt8} {cs t : Nat} {m m1 m2 : M} {acts : List A}
    (hd : (T cs).dispatch b.toNat = ⟨acts, t + 1⟩)
    (h1 : runActs act (T cs).frm m = .next m1) (h2 : runActs act acts m1 = .next m2) :
    after T act adv (b :: bs) cs m = after T act adv bs (t + 1) (adv m2) := by
  simp only [after, show jumpFuel = 3 + 1 from rfl, stepByte_next hd h1 h2]

/-- what the first dispatch does is part of the work -/
theorem costRun_first {b : UInt8} {bs : List UInt8} {cs : Nat} {m m1 : M} (h1 : runActs act (T cs).frm m = .next m1) :
    costActs act ac ((T cs).dispatch b.toNat).acts m1 ≤ costRun T act adv ac (b :: bs) cs m := by
  rw [costRun, show jumpFuel = 3 + 1 from rfl, costByte, h1]
  exact Nat.le_trans (Nat.le_add_right _ _) (Nat.le_trans (Nat.le_add_left _ _) (Nat.le_add_right _ _))

/-! ## A counter in the state

The definitions above compute the work beside the run. Here the automaton itself runs with a counter as one more variable, incremented by
every action; the work computed beside the run is what the counter shows, up to the dispatches. -/

/-- an action that also increments the counter -/
def actCount (act : A → M → Step M) (ac : A → M → Nat) (a : A) (s : M × Nat) : Step (M × Nat) :=
  match act a s.1 with
  | .next m' => .next (m', s.2 + (1 + ac a s.1))
  | .jump m' t => .jump (m', s.2 + (1 + ac a s.1)) t
  | .panic => .panic

/-- `p++` -/
def advCount (adv : M → M) (s : M × Nat) : M × Nat := (adv s.1, s.2)

theorem runActs_count (as : List A) : ∀ (m : M) (c : Nat),
    runActs (actCount act ac) as (m, c) =
      match runActs act as m with
      | .next m' => .next (m', c + costActs act ac as m)
      | .jump m' t => .jump (m', c + costActs act ac as m) t
      | .panic => .panic := by
  induction as with
  | nil => intro m c; rfl
  | cons a as ih =>
    intro m c
    simp only [runActs, costActs, actCount]
    cases act a m with
    | panic => rfl
    | jump m' t => simp only [Nat.add_zero]
    | next m' =>
      simp only [ih]
      cases runActs act as m' <;> simp only [Nat.add_assoc]

theorem stepByte_count (b : UInt8) : ∀ (fuel cs : Nat) (m : M) (c : Nat),
    match stepByte T act adv b fuel cs m with
    | .done cs' m' => ∃ c', stepByte T (actCount act ac) (advCount adv) b fuel cs (m, c) = .done cs' (m', c') ∧
        c' ≤ c + costByte T act ac b fuel cs m ∧ c + costByte T act ac b fuel cs m ≤ c' + fuel
    | .panic => stepByte T (actCount act ac) (advCount adv) b fuel cs (m, c) = .panic
    | .loop => stepByte T (actCount act ac) (advCount adv) b fuel cs (m, c) = .loop := by
  intro fuel
  induction fuel with
  | zero => intro cs m c; rfl
  | succ fuel ih =>
    intro cs m c
    simp only [stepByte, costByte, runActs_count]
    cases runActs act (T cs).frm m with
    | panic => rfl
    | jump m' t =>
      simp only []
      have := ih t m' (c + costActs act ac (T cs).frm m)
      revert this
      cases stepByte T act adv b fuel t m' with
      | panic => exact id
      | loop => exact id
      | done cs' m'' => rintro ⟨c', h1, h2, h3⟩; exact ⟨c', h1, by omega, by omega⟩
    | next m' =>
      simp only [runActs_count]
      cases runActs act ((T cs).dispatch b.toNat).acts m' with
      | panic => rfl
      | jump m2 t =>
        simp only []
        have := ih t m2 (c + costActs act ac (T cs).frm m + costActs act ac ((T cs).dispatch b.toNat).acts m')
        revert this
        cases stepByte T act adv b fuel t m2 with
        | panic => exact id
        | loop => exact id
        | done cs' m'' => rintro ⟨c', h1, h2, h3⟩; exact ⟨c', h1, by omega, by omega⟩
      | next m2 =>
        simp only []
        by_cases ht : ((T cs).dispatch b.toNat).tgt = 0
        · simp only [if_pos ht]; exact ⟨_, rfl, by omega, by omega⟩
        · simp only [if_neg ht]; exact ⟨_, rfl, by omega, by omega⟩

theorem runEof_count : ∀ (fuel cs : Nat) (m : M) (c : Nat),
    match runEof T act fuel cs m with
    | .done cs' m' => ∃ c', runEof T (actCount act ac) fuel cs (m, c) = .done cs' (m', c') ∧
        c' ≤ c + costEof T act ac fuel cs m ∧ c + costEof T act ac fuel cs m ≤ c' + fuel
    | .panic => runEof T (actCount act ac) fuel cs (m, c) = .panic
    | .loop => runEof T (actCount act ac) fuel cs (m, c) = .loop := by
  intro fuel
  induction fuel with
  | zero => intro cs m c; rfl
  | succ fuel ih =>
    intro cs m c
    simp only [runEof, costEof, runActs_count]
    cases runActs act (T cs).eof m with
    | panic => rfl
    | next m' => exact ⟨_, rfl, by simp only []; omega, by simp only []; omega⟩
    | jump m' t =>
      simp only []
      have := ih t m' (c + costActs act ac (T cs).eof m)
      revert this
      cases runEof T act fuel t m' with
      | panic => exact id
      | loop => exact id
      | done cs' m'' => rintro ⟨c', h1, h2, h3⟩; exact ⟨c', h1, by omega, by omega⟩

/-- The run with a counter ends in the same state, and the counter shows the work, up to the (at most 4 per byte) dispatches. -/
theorem run_count : ∀ (bs : List UInt8) (cs : Nat) (m : M) (c : Nat) {cs' : Nat} {m' : M},
    run T act adv bs cs m = .done cs' m' →
    ∃ c', run T (actCount act ac) (advCount adv) bs cs (m, c) = .done cs' (m', c') ∧
      c' ≤ c + costRun T act adv ac bs cs m ∧ c + costRun T act adv ac bs cs m ≤ c' + jumpFuel * (bs.length + 1) := by
  intro bs
  induction bs with
  | nil =>
    intro cs m c cs' m' h
    have hk := runEof_count (T := T) (act := act) (ac := ac) jumpFuel cs m c
    rw [run] at h
    rw [h] at hk
    obtain ⟨c', h1, h2, h3⟩ := hk
    exact ⟨c', h1, h2, by simp only [costRun, List.length_nil]; omega⟩
  | cons b bs ih =>
    intro cs m c cs' m' h
    have hk := stepByte_count (T := T) (act := act) (adv := adv) (ac := ac) b jumpFuel cs m c
    simp only [run, costRun, List.length_cons] at h ⊢
    revert h hk
    cases stepByte T act adv b jumpFuel cs m with
    | panic => intro h; simp at h
    | loop => intro h; simp at h
    | done c1 m1 =>
      cases c1 with
      | zero =>
        rintro h ⟨c', h1, h2, h3⟩
        simp only [Res.done.injEq] at h
        obtain ⟨rfl, rfl⟩ := h
        rw [h1]
        exact ⟨c', rfl, by simp only []; omega, by simp only [Nat.mul_add]; omega⟩
      | succ c1 =>
        rintro h ⟨c', h1, h2, h3⟩
        obtain ⟨c2, k1, k2, k3⟩ := ih (c1 + 1) m1 c' h
        rw [h1]
        exact ⟨c2, k1, by simp only []; omega, by simp only [Nat.mul_add] at k3 ⊢; omega⟩

end Verif.Fsm
