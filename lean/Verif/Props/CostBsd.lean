import Verif.Rfc3164.Cost
import Verif.Rfc3164.DescentHdr
import Verif.Bytes

/-!
# C78: the work of parsing an RFC 3164 message
-/

namespace Verif.Props.Bsd
open Verif.Rfc3164 Verif.Fsm

/-- C78: on a machine left by any earlier calls, with any options, for every input: the work of `Parse` is at most linear in the length of
the input plus the length of the input for every `]` in it. -/
theorem C78_bound (o : Opts) (m : M) (input : Bytes) :
    parseCost o m input ≤ 69 * (input.length + 1) + input.length * input.count 93 :=
  parseCost_le o m input

/-- C78: with at most `k` closing brackets it is linear. -/
theorem C78_linear (o : Opts) (m : M) (input : Bytes) (k : Nat) (h : input.count 93 ≤ k) :
    parseCost o m input ≤ (69 + k) * (input.length + 1) := by
  have h1 := C78_bound o m input
  have h2 : input.length * input.count 93 ≤ input.length * k := Nat.mul_le_mul_left _ h
  rw [Nat.add_mul]
  have h3 : k * (input.length + 1) = input.length * k + k := by rw [Nat.mul_add, Nat.mul_comm, Nat.mul_one]
  omega

/-- C78: the work is what a counter shows that every action increments, beside at most 4 dispatches for every byte; the run with the counter
ends as the run without. -/
theorem C78_counter (o : Opts) (m : M) (input : Bytes) : ∃ cs m' c, run (T o) (act o) adv input 1 (reset m input) = .done cs m' ∧
    run (T o) (actCount (act o) (work o)) (advCount adv) input 1 (reset m input, 0) = .done cs (m', c) ∧
    c ≤ parseCost o m input ∧ parseCost o m input ≤ c + 4 * (input.length + 1) := by
  have h := parse_eq o m input
  unfold parse at h
  revert h
  cases hr : run (T o) (act o) adv input 1 (reset m input) with
  | panic => intro h; simp at h
  | loop => intro h; simp at h
  | done cs m' =>
    intro _
    obtain ⟨c, h1, h2, h3⟩ := run_count (ac := work o) input 1 (reset m input) 0 hr
    exact ⟨cs, m', c, rfl, h1, by unfold parseCost; omega, by unfold parseCost; rw [show jumpFuel = 4 from rfl] at h3; omega⟩

/-- an input in the domain of `C78_linear` with `k = 1`: `<1>Oct 11 22:14:15 h a[7]: x` -/
example : ([60, 49, 62, 79, 99, 116, 32, 49, 49, 32, 50, 50, 58, 49, 52, 58, 49, 53, 32, 104, 32, 97, 91, 55, 93, 58, 32, 120] : Bytes).count 93
    ≤ 1 := by decide

/-! ## brackets -/

/-- `<1>Oct 11 22:14:15 h a[` -/
def bracketsHead : Bytes := [60, 49, 62, 79, 99, 116, 32, 49, 49, 32, 50, 50, 58, 49, 52, 58, 49, 53, 32, 104, 32, 97, 91]

/-- `<1>Oct 11 22:14:15 h a[]]]...]` -/
def brackets (k : Nat) : Bytes := bracketsHead ++ List.replicate k 93

def setData (d : Bytes) (m : M) : M := { m with data := d }

def mapStep (f : M → M) : Step M → Step M
  | .next m => .next (f m)
  | .jump m s => .jump (f m) s
  | .panic => .panic

def mapRes (f : M → M) : Res M → Res M
  | .done cs m => .done cs (f m)
  | .panic => .panic
  | .loop => .loop

theorem slice_prefix {w x : Bytes} {a b : Nat} (h : b ≤ w.length) : slice (w ++ x) a b = slice w a b := by
  unfold slice
  by_cases h1 : a ≤ b
  · rw [if_pos ⟨h1, by simp; omega⟩, if_pos ⟨h1, h⟩, List.drop_append_of_le_length (by omega),
      List.take_append_of_le_length (by simp; omega)]
  · rw [if_neg (fun h' => h1 h'.1), if_neg (fun h' => h1 h'.1)]

theorem act_data {o : Opts} {w x : Bytes} (a : Gen.Rfc3164.Act) {m : M} (hd : m.data = w) (hp : m.p ≤ w.length) :
    act o a (setData (w ++ x) m) = mapStep (setData (w ++ x)) (act o a m) := by
  have ht : (setData (w ++ x) m).text = m.text := by
    simp only [M.text, setData, hd, slice_prefix hp]
  cases a <;> simp only [act, withText, ht] <;> first | rfl | skip
  all_goals
    generalize m.text = r
    cases r with
    | none => rfl
    | some t => first
      | rfl
      | (simp only []; split <;> rfl)

/-- actions do not move -/
def Keeps (m : M) : Step M → Prop
  | .next m' => m'.p = m.p ∧ m'.data = m.data
  | .jump m' _ => m'.p = m.p ∧ m'.data = m.data
  | .panic => True

theorem act_keeps (o : Opts) (a : Gen.Rfc3164.Act) (m : M) : Keeps m (act o a m) := by
  cases a <;> simp only [act, withText] <;> first | exact ⟨rfl, rfl⟩ | skip
  all_goals
    generalize m.text = r
    cases r with
    | none => trivial
    | some t => first
      | exact ⟨rfl, rfl⟩
      | (simp only []; generalize parseStamp t = q; cases q <;> exact ⟨rfl, rfl⟩)
      | (simp only []; generalize GoTime.parseRFC3339Micro t = q; cases q <;> exact ⟨rfl, rfl⟩)

theorem runActs_keeps (o : Opts) (as : List Gen.Rfc3164.Act) (m : M) : Keeps m (runActs (act o) as m) := by
  induction as generalizing m with
  | nil => exact ⟨rfl, rfl⟩
  | cons a as ih =>
    have h := act_keeps o a m
    simp only [runActs]
    cases hr : act o a m with
    | panic => trivial
    | jump m' s => rw [hr] at h; exact h
    | next m' =>
      rw [hr] at h
      have h2 := ih m'
      simp only []
      cases hr2 : runActs (act o) as m' with
      | panic => trivial
      | jump m2 s => rw [hr2] at h2; exact ⟨h2.1.trans h.1, h2.2.trans h.2⟩
      | next m2 => rw [hr2] at h2; exact ⟨h2.1.trans h.1, h2.2.trans h.2⟩

theorem runActs_data {o : Opts} {w x : Bytes} (as : List Gen.Rfc3164.Act) {m : M} (hd : m.data = w) (hp : m.p ≤ w.length) :
    runActs (act o) as (setData (w ++ x) m) = mapStep (setData (w ++ x)) (runActs (act o) as m) := by
  induction as generalizing m with
  | nil => rfl
  | cons a as ih =>
    have h := act_keeps o a m
    simp only [runActs, act_data a hd hp]
    cases hr : act o a m with
    | panic => rfl
    | jump m' s => rfl
    | next m' =>
      rw [hr] at h
      exact ih (h.2.trans hd) (by rw [h.1]; exact hp)

theorem stepByte_data {o : Opts} {w x : Bytes} {b : UInt8} : ∀ (fuel cs : Nat) (m : M), m.data = w → m.p ≤ w.length →
    stepByte (T o) (act o) adv b fuel cs (setData (w ++ x) m) = mapRes (setData (w ++ x)) (stepByte (T o) (act o) adv b fuel cs m) ∧
    ∀ cs' m', stepByte (T o) (act o) adv b fuel cs m = .done (cs' + 1) m' → m'.p = m.p + 1 ∧ m'.data = m.data := by
  intro fuel
  induction fuel with
  | zero => intro cs m _ _; exact ⟨rfl, fun _ _ h => by simp [stepByte] at h⟩
  | succ fuel ih =>
    intro cs m hd hp
    simp only [stepByte, runActs_data (x := x) (T o cs).frm hd hp]
    have h1 := runActs_keeps o (T o cs).frm m
    revert h1
    cases runActs (act o) (T o cs).frm m with
    | panic => intro _; exact ⟨rfl, fun _ _ h => by simp at h⟩
    | jump m1 s =>
      intro h1
      have := ih s m1 (h1.2.trans hd) (by rw [h1.1]; exact hp)
      exact ⟨this.1, fun cs' m' h => by have := this.2 cs' m' h; rw [h1.1, h1.2] at this; exact this⟩
    | next m1 =>
      intro h1
      have hd1 := h1.2.trans hd
      have hp1 : m1.p ≤ w.length := by rw [h1.1]; exact hp
      simp only [mapStep, runActs_data (x := x) ((T o cs).dispatch b.toNat).acts hd1 hp1]
      have h2 := runActs_keeps o ((T o cs).dispatch b.toNat).acts m1
      revert h2
      cases runActs (act o) ((T o cs).dispatch b.toNat).acts m1 with
      | panic => intro _; exact ⟨rfl, fun _ _ h => by simp at h⟩
      | jump m2 s =>
        intro h2
        have := ih s m2 (h2.2.trans hd1) (by rw [h2.1]; exact hp1)
        exact ⟨this.1, fun cs' m' h => by have := this.2 cs' m' h; rw [h2.1, h2.2, h1.1, h1.2] at this; exact this⟩
      | next m2 =>
        intro h2
        simp only [mapStep]
        by_cases ht : ((T o cs).dispatch b.toNat).tgt = 0
        · rw [if_pos ht, if_pos ht]; exact ⟨rfl, fun _ _ h => by simp at h⟩
        · rw [if_neg ht, if_neg ht]
          refine ⟨rfl, fun cs' m' h => ?_⟩
          simp only [Res.done.injEq] at h
          obtain ⟨-, rfl⟩ := h
          exact ⟨by simp only [adv]; rw [h2.1, h1.1], by simp only [adv]; rw [h2.2, h1.2]⟩

/-- the state after some bytes does not depend on what follows -/
theorem after_data {o : Opts} (w x : Bytes) : ∀ (v : Bytes) (cs cs' : Nat) (m m' : M), m.data = w → m.p + v.length ≤ w.length →
    after (T o) (act o) adv v cs m = some (cs', m') →
    after (T o) (act o) adv v cs (setData (w ++ x) m) = some (cs', setData (w ++ x) m') := by
  intro v
  induction v with
  | nil =>
    intro cs cs' m m' _ _ h
    simp only [after, Option.some.injEq, Prod.mk.injEq] at h ⊢
    exact ⟨h.1, by rw [h.2]⟩
  | cons b v ih =>
    intro cs cs' m m' hd hp h
    simp only [List.length_cons] at hp
    obtain ⟨h1, h2⟩ := stepByte_data (o := o) (x := x) (b := b) jumpFuel cs m hd (by omega)
    simp only [after] at h ⊢
    rw [h1]
    revert h h2
    cases stepByte (T o) (act o) adv b jumpFuel cs m with
    | panic => intro h; simp at h
    | loop => intro h; simp at h
    | done c1 m1 =>
      cases c1 with
      | zero => intro h; simp at h
      | succ c1 =>
        simp only [mapRes]
        intro h h2
        obtain ⟨k1, k2⟩ := h2 c1 m1 rfl
        exact ih _ _ _ _ (k2.trans hd) (by rw [k1]; omega) h

/-- the machine after `<1>Oct 11 22:14:15 h a[` -/
def atPid (data : Bytes) : M :=
  { data := data, p := 23, pb := 21
    out := { prioritySet := true, timestampSet := true, priority := 1, timestamp := ⟨0, 10, 11, 22, 14, 15, 0, 0⟩, hostname := [104]
             tag := [97] } }

theorem at_pid (x : Bytes) :
    after (T {}) (act {}) adv bracketsHead 1 (reset {} (bracketsHead ++ x)) = some (368, atPid (bracketsHead ++ x)) := by
  have h : after (T {}) (act {}) adv bracketsHead 1 (reset {} bracketsHead) = some (368, atPid bracketsHead) := by decide +kernel
  exact after_data bracketsHead x bracketsHead 1 368 (reset {} bracketsHead) _ rfl (by decide) h

theorem T_368 : (T {} 368).frm = [] ∧ (T {} 368).dispatch 93 = ⟨[.mark, .setContent], 370⟩ := by decide +kernel
theorem T_370 : (T {} 370).frm = [] ∧ (T {} 370).dispatch 93 = ⟨[.setContent], 370⟩ ∧ (T {} 370).eof = [.setMessage] := by decide +kernel

theorem slice_brackets {k i : Nat} (h : i ≤ k) : slice (brackets k) 23 (23 + i) = some (List.replicate i 93) := by
  unfold slice brackets
  rw [if_pos ⟨by omega, by simp [bracketsHead]; omega⟩, show (23 : Nat) = bracketsHead.length from rfl, List.drop_left,
    List.take_replicate]
  congr 2; omega

/-- after the header and `i` brackets -/
def inPid (k i : Nat) (w : Bytes) : M := { atPid (brackets k) with pb := 23, p := 23 + i, out := { (atPid []).out with content := w } }

/-- the work for a byte without a jump -/
theorem costRun_next {A M : Type} {T : Nat → Row A} {act : A → M → Step M} {adv : M → M} {ac : A → M → Nat}
    {b : UInt8} {bs : List UInt8} {cs : Nat} {m m1 m2 : M} {acts : List A} {t : Nat}
    (hd : (T cs).dispatch b.toNat = ⟨acts, t + 1⟩) (h1 : runActs act (T cs).frm m = .next m1) (h2 : runActs act acts m1 = .next m2) :
    costRun T act adv ac (b :: bs) cs m =
      1 + costActs act ac (T cs).frm m + costActs act ac acts m1 + costRun T act adv ac bs (t + 1) (adv m2) := by
  simp only [costRun, show jumpFuel = 3 + 1 from rfl, stepByte_next hd h1 h2, costByte, h1, hd, h2, Nat.add_zero, Nat.add_assoc]

/-- the rest: `j` brackets more -/
theorem brackets_rest (k : Nat) : ∀ (j i : Nat), i + j = k → ∀ w,
    (∃ m', run (T {}) (act {}) adv (List.replicate j 93) 370 (inPid k i w) = .done 370 m' ∧ m'.err = none) ∧
    2 * (j * i) + j * j ≤ 2 * costRun (T {}) (act {}) adv (work {}) (List.replicate j 93) 370 (inPid k i w) := by
  intro j
  induction j with
  | zero =>
    intro i hi w
    refine ⟨?_, by omega⟩
    refine ⟨{ inPid k i w with out := { (inPid k i w).out with message := List.replicate i 93 } }, ?_, rfl⟩
    have : (inPid k i w).text = some (List.replicate i 93) := slice_brackets (by omega)
    simp only [List.replicate_zero, run, jumpFuel, runEof, T_370.2.2, runActs, act, withText, this]
  | succ j ih =>
    intro i hi w
    have ht : (inPid k i w).text = some (List.replicate i 93) := slice_brackets (by omega)
    have h2 : runActs (act {}) [.setContent] (inPid k i w) = .next (inPid k i (List.replicate i 93)) := by
      simp only [runActs, act, withText, ht]; rfl
    have ha : adv (inPid k i (List.replicate i 93)) = inPid k (i + 1) (List.replicate i 93) := rfl
    obtain ⟨⟨m', h3, h4⟩, h5⟩ := ih (i + 1) (by omega) (List.replicate i 93)
    rw [List.replicate_succ]
    constructor
    · refine ⟨m', ?_, h4⟩
      rw [run_next (t := 369) (m1 := inPid k i w) T_370.2.1 (by rw [T_370.1]; rfl) h2, ha]
      exact h3
    · rw [costRun_next (t := 369) (m1 := inPid k i w) T_370.2.1 (by rw [T_370.1]; rfl) h2, ha]
      have e : costActs (act {}) (work {}) [.setContent] (inPid k i w) = 1 + i := by
        have : (inPid k i w).p - (inPid k i w).pb = i := by show 23 + i - 23 = i; omega
        simp only [costActs, work, this, act, withText, ht, Nat.add_zero]
      rw [e, show 369 + 1 = 370 from rfl]
      have e1 : (j + 1) * i = j * i + i := by rw [Nat.add_mul, Nat.one_mul]
      have e2 : (j + 1) * (j + 1) = j * j + j + j + 1 := by rw [Nat.add_mul, Nat.mul_add]; omega
      have e3 : j * (i + 1) = j * i + j := by rw [Nat.mul_add, Nat.mul_one]
      omega

/-- C78: the bound is reached. A message of `23 + k` bytes, with `k` closing brackets, is accepted after at least `k²/2` bytes have been
copied. -/
theorem C78_quadratic (k : Nat) : (brackets k).length = 23 + k ∧ k * k ≤ 2 * parseCost {} {} (brackets k) ∧
    ∃ msg, parse1 {} (brackets k) = some ⟨some msg, none⟩ := by
  refine ⟨by simp [brackets, bracketsHead]; omega, ?_⟩
  have h0 := at_pid (List.replicate k 93)
  have hr : reset {} (bracketsHead ++ List.replicate k 93) = reset {} (brackets k) := rfl
  cases k with
  | zero =>
    refine ⟨by omega, ?_⟩
    have h : (parse1 {} (brackets 0)).map (fun r => (r.msg.isSome, r.err)) = some (true, none) := by decide +kernel
    revert h
    generalize parse1 {} (brackets 0) = r
    intro h
    rcases r with _ | ⟨_ | msg, e⟩
    · simp at h
    · simp at h
    · simp only [Option.map_some, Option.some.injEq, Prod.mk.injEq] at h
      exact ⟨msg, by rw [h.2]⟩
  | succ k =>
    obtain ⟨⟨m', h3, h4⟩, h5⟩ := brackets_rest (k + 1) k 1 (by omega) []
    have h1 : runActs (act {}) [.mark, .setContent] (atPid (brackets (k + 1))) =
        .next { inPid (k + 1) 0 [] with pb := 23 } := by
      have : ({ atPid (brackets (k + 1)) with pb := (atPid (brackets (k + 1))).p } : M).text = some [] :=
        slice_brackets (k := k + 1) (i := 0) (by omega)
      simp only [runActs, act, withText, this]
      rfl
    have ha : adv { inPid (k + 1) 0 [] with pb := 23 } = inPid (k + 1) 1 [] := rfl
    have hf : runActs (act {}) (T {} 368).frm (atPid (brackets (k + 1))) = .next (atPid (brackets (k + 1))) := by rw [T_368.1]; rfl
    constructor
    · have hc := costRun_after (ac := work {}) (v := List.replicate (k + 1) 93) h0
      have hn := costRun_next (adv := adv) (ac := work {}) (bs := List.replicate k 93) (b := 93) (t := 369) T_368.2 hf h1
      rw [ha] at hn
      change costRun (T {}) (act {}) adv (work {}) (93 :: List.replicate k 93) 368 (atPid (brackets (k + 1))) ≤
        parseCost {} {} (brackets (k + 1)) at hc
      rw [hn, show 369 + 1 = 370 from rfl] at hc
      have e2 : (k + 1) * (k + 1) = k * k + k + k + 1 := by rw [Nat.add_mul, Nat.mul_add]; omega
      omega
    · have hc := run_after (v := List.replicate (k + 1) 93) h0
      have hn := run_next (adv := adv) (bs := List.replicate k 93) (b := 93) (t := 369) T_368.2 hf h1
      rw [ha, show 369 + 1 = 370 from rfl, h3] at hn
      refine ⟨m'.out.export, ?_⟩
      change run (T {}) (act {}) adv (brackets (k + 1)) 1 (reset {} (brackets (k + 1))) =
        run (T {}) (act {}) adv (93 :: List.replicate k 93) 368 (atPid (brackets (k + 1))) at hc
      rw [hn] at hc
      simp only [parse1, parse, hc, Option.map_some, finish]
      rw [if_neg (by omega)]

end Verif.Props.Bsd
