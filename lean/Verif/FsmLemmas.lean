import Verif.Fsm
import Verif.Bytes

/-! # Generic lemmas about the automaton interpreter -/

namespace Verif.Fsm

variable {A M : Type} {T : Nat → Row A} {act : A → M → Step M} {adv : M → M}

theorem stepByte_next {b : UInt8} {fuel cs : Nat} {m m1 m2 : M} {acts : List A} {t : Nat}
    (hd : (T cs).dispatch b.toNat = ⟨acts, t + 1⟩)
    (h1 : runActs act (T cs).frm m = .next m1) (h2 : runActs act acts m1 = .next m2) :
    stepByte T act adv b (fuel + 1) cs m = .done (t + 1) (adv m2) := by
  simp [stepByte, h1, hd, h2]

theorem stepByte_stop {b : UInt8} {fuel cs : Nat} {m m1 m2 : M} {acts : List A}
    (hd : (T cs).dispatch b.toNat = ⟨acts, 0⟩)
    (h1 : runActs act (T cs).frm m = .next m1) (h2 : runActs act acts m1 = .next m2) :
    stepByte T act adv b (fuel + 1) cs m = .done 0 m2 := by
  simp [stepByte, h1, hd, h2]

theorem stepByte_jump {b : UInt8} {fuel cs : Nat} {m m1 m2 : M} {s : Nat}
    (h1 : runActs act (T cs).frm m = .next m1)
    (h2 : runActs act ((T cs).dispatch b.toNat).acts m1 = .jump m2 s) :
    stepByte T act adv b (fuel + 1) cs m = stepByte T act adv b fuel s m2 := by
  simp [stepByte, h1, h2]

theorem run_cons {b : UInt8} {bs : List UInt8} {cs : Nat} {m : M} :
    run T act adv (b :: bs) cs m =
      match stepByte T act adv b jumpFuel cs m with
      | .panic => .panic
      | .loop => .loop
      | .done 0 m' => .done 0 m'
      | .done (cs' + 1) m' => run T act adv bs (cs' + 1) m' := rfl

/-- one byte without jump -/
theorem run_next {b : UInt8} {bs : List UInt8} {cs : Nat} {m m1 m2 : M} {acts : List A} {t : Nat}
    (hd : (T cs).dispatch b.toNat = ⟨acts, t + 1⟩)
    (h1 : runActs act (T cs).frm m = .next m1) (h2 : runActs act acts m1 = .next m2) :
    run T act adv (b :: bs) cs m = run T act adv bs (t + 1) (adv m2) := by
  rw [run_cons, show jumpFuel = 3 + 1 from rfl, stepByte_next hd h1 h2]

/-- a byte leading to state 0 stops the automaton -/
theorem run_stop {b : UInt8} {bs : List UInt8} {cs : Nat} {m m1 m2 : M} {acts : List A}
    (hd : (T cs).dispatch b.toNat = ⟨acts, 0⟩)
    (h1 : runActs act (T cs).frm m = .next m1) (h2 : runActs act acts m1 = .next m2) :
    run T act adv (b :: bs) cs m = .done 0 m2 := by
  rw [run_cons, show jumpFuel = 3 + 1 from rfl, stepByte_stop hd h1 h2]

/-- one byte without any action -/
theorem run_simple {b : UInt8} {bs : List UInt8} {cs : Nat} {m : M} {t : Nat}
    (hf : (T cs).frm = []) (hd : (T cs).dispatch b.toNat = ⟨[], t + 1⟩) :
    run T act adv (b :: bs) cs m = run T act adv bs (t + 1) (adv m) :=
  run_next (m1 := m) hd (by simp [hf, runActs]) (by simp [runActs])

/-- `n` times `p++` -/
def advN (adv : M → M) : Nat → M → M
  | 0, m => m
  | n + 1, m => advN adv n (adv m)

/-- Looping through a chain of states `f 0, f 1, ...` on bytes of a class. -/
theorem run_loop (f : Nat → Nat) (n : Nat) (cls : UInt8 → Bool)
    (hf : ∀ k, k < n → (T (f k)).frm = [])
    (hd : ∀ k, k < n → ∀ b : UInt8, cls b = true → (T (f k)).dispatch b.toNat = ⟨[], f (k + 1)⟩)
    (h0 : ∀ k, f k ≠ 0) (rest : List UInt8) :
    ∀ (w : List UInt8) (k : Nat) (m : M), (∀ b ∈ w, cls b = true) → k + w.length ≤ n →
      run T act adv (w ++ rest) (f k) m = run T act adv rest (f (k + w.length)) (advN adv w.length m) := by
  intro w
  induction w with
  | nil => intro k m _ _; rfl
  | cons b bs ih =>
    intro k m hw hk
    simp only [List.length_cons] at hk
    obtain ⟨t, ht⟩ := Nat.exists_eq_succ_of_ne_zero (h0 (k + 1))
    rw [List.cons_append, run_simple (hf k (by omega)) (t := t)
      (by rw [hd k (by omega) b (hw b (by simp)), ht]), ← Nat.succ_eq_add_one, ← ht,
      ih (k + 1) (adv m) (fun b hb => hw b (by simp [hb])) (by omega)]
    simp only [List.length_cons, advN]
    rw [show k + 1 + bs.length = k + (bs.length + 1) by omega]

/-- Looping in one state on bytes of a class. -/
theorem run_stay (cs : Nat) (cls : UInt8 → Bool) (hf : (T cs).frm = [])
    (hd : ∀ b : UInt8, cls b = true → (T cs).dispatch b.toNat = ⟨[], cs⟩) (h0 : cs ≠ 0) (rest : List UInt8)
    (w : List UInt8) (m : M) (hw : ∀ b ∈ w, cls b = true) :
    run T act adv (w ++ rest) cs m = run T act adv rest cs (advN adv w.length m) := by
  have := run_loop (T := T) (act := act) (adv := adv) (fun _ => cs) w.length cls (fun _ _ => hf)
    (fun _ _ b hb => hd b hb) (fun _ => h0) rest w 0 m hw (by omega)
  simpa using this

end Verif.Fsm

namespace Verif

/-- The longest prefix of at most `n` bytes of a class, and the rest. -/
def spanN (cls : UInt8 → Bool) : Nat → Bytes → Bytes × Bytes
  | 0, l => ([], l)
  | _ + 1, [] => ([], [])
  | n + 1, b :: l => if cls b then (b :: (spanN cls n l).1, (spanN cls n l).2) else ([], b :: l)

theorem spanN_append (cls : UInt8 → Bool) (n : Nat) (l : Bytes) :
    (spanN cls n l).1 ++ (spanN cls n l).2 = l := by
  fun_induction spanN cls n l with
  | case1 l => rfl
  | case2 n => rfl
  | case3 n b l h ih => simp only [List.cons_append, ih]
  | case4 n b l h => rfl

theorem spanN_all (cls : UInt8 → Bool) (n : Nat) (l : Bytes) : ∀ b ∈ (spanN cls n l).1, cls b = true := by
  fun_induction spanN cls n l with
  | case1 l => simp
  | case2 n => simp
  | case3 n b l h ih => intro c hc; simp at hc; exact hc.elim (fun hc => hc ▸ h) (ih c)
  | case4 n b l h => simp

theorem spanN_length (cls : UInt8 → Bool) (n : Nat) (l : Bytes) : (spanN cls n l).1.length ≤ n := by
  fun_induction spanN cls n l <;> simp_all

/-- maximality: the rest is empty, starts outside the class, or the bound is reached -/
theorem spanN_max (cls : UInt8 → Bool) (n : Nat) (l : Bytes) :
    (spanN cls n l).1.length = n ∨ (spanN cls n l).2 = [] ∨
      ∃ b r, (spanN cls n l).2 = b :: r ∧ cls b = false := by
  fun_induction spanN cls n l with
  | case1 l => simp
  | case2 n => simp
  | case3 n b l h ih =>
    rcases ih with ih | ih | ih
    · left; simp [ih]
    · right; left; exact ih
    · right; right; exact ih
  | case4 n b l h => right; right; exact ⟨b, l, rfl, by simpa using h⟩

theorem spanN_eq (cls : UInt8 → Bool) {n : Nat} {w rest : Bytes} (hw : ∀ b ∈ w, cls b = true)
    (hl : w.length ≤ n) (hr : rest = [] ∨ ∃ b r, rest = b :: r ∧ cls b = false) :
    spanN cls n (w ++ rest) = (w, rest) := by
  induction w generalizing n with
  | nil =>
    rcases hr with hr | ⟨b, r, hr, hb⟩
    · subst hr; cases n <;> rfl
    · subst hr; cases n <;> simp [spanN, hb]
  | cons b bs ih =>
    cases n with
    | zero => simp at hl
    | succ n =>
      have hb := hw b (by simp)
      have := ih (n := n) (fun b hb => hw b (by simp [hb])) (by simpa using hl)
      simp [spanN, hb, this]

end Verif
