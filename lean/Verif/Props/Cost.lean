import Verif.Rfc5424.Cost
import Verif.Rfc5424.Prefix
import Verif.Props.Rfc5424

/-!
# C77: the work of parsing an RFC 5424 message
-/

namespace Verif.Props
open Verif.Spec Verif.Rfc5424 Verif.Fsm

/-- C77: on a machine left by any earlier calls, in any mode, for every input: the work of `Parse` is at most linear in the length of the
input plus the length of the input for every backslash in it. -/
theorem C77_bound (m : M) (input : Bytes) : parseCost m input ≤ 77 * (input.length + 1) + input.length * input.count 92 :=
  parseCost_le m input

/-- C77: without escapes it is linear. -/
theorem C77_linear_without_escapes (m : M) (input : Bytes) (h : 92 ∉ input) : parseCost m input ≤ 77 * (input.length + 1) := by
  have := C77_bound m input
  rw [List.count_eq_zero.mpr h] at this
  omega

/-- C77: the work is what a counter shows that every action increments, beside at most 4 dispatches for every byte; the run with the counter
ends as the run without. -/
theorem C77_counter (m : M) (input : Bytes) : ∃ cs m' c, run T act adv input 1 (reset m input) = .done cs m' ∧
    run T (actCount act work) (advCount adv) input 1 (reset m input, 0) = .done cs (m', c) ∧
    c ≤ parseCost m input ∧ parseCost m input ≤ c + 4 * (input.length + 1) := by
  obtain ⟨m1, h, -⟩ := parse_eq m input
  unfold parse at h
  revert h
  cases hr : run T act adv input 1 (reset m input) with
  | panic => intro h; simp at h
  | loop => intro h; simp at h
  | done cs m' =>
    intro _
    obtain ⟨c, h1, h2, h3⟩ := run_count (ac := work) input 1 (reset m input) 0 hr
    exact ⟨cs, m', c, rfl, h1, by unfold parseCost; omega, by unfold parseCost; rw [show jumpFuel = 4 from rfl] at h3; omega⟩

/-- The loop of `RemoveBytes` (common/functions.go:23-26) with a counter: `append(cp[:at], cp[(at+1):]...)` moves the bytes after `at`. -/
def removeCount : List Int → Int → Int → Bytes → Nat → Option (Bytes × Nat)
  | [], _, _, cp, n => some (cp, n)
  | pos :: ps, i, offset, cp, n =>
    if 0 ≤ pos - i - offset ∧ pos - i - offset + 1 ≤ cp.length then
      removeCount ps (i + 1) offset (cp.take (pos - i - offset).toNat ++ cp.drop ((pos - i - offset).toNat + 1))
        (n + (cp.drop ((pos - i - offset).toNat + 1)).length)
    else none

/-- C77: whenever `RemoveBytes` does not panic, the bytes it moves are those counted in the work of a parameter value. -/
theorem C77_removed (data : Bytes) (positions : List Int) (offset : Int) {res : Bytes}
    (h : Common.removeBytes data positions offset = some res) :
    removeCount positions 0 offset data 0 = some (res, removeMoves positions 0 offset data.length) := by
  have gen : ∀ (ps : List Int) (i : Int) (cp : Bytes) (n : Nat), Common.removeBytesLoop ps i offset cp = some res →
      removeCount ps i offset cp n = some (res, n + removeMoves ps i offset cp.length) := by
    intro ps
    induction ps with
    | nil => intro i cp n h; simp only [Common.removeBytesLoop, Option.some.injEq] at h; simp [removeCount, removeMoves, h]
    | cons pos ps ih =>
      intro i cp n h
      simp only [Common.removeBytesLoop, removeCount, removeMoves] at h ⊢
      by_cases hc : 0 ≤ pos - i - offset ∧ pos - i - offset + 1 ≤ cp.length
      · rw [if_pos hc] at h ⊢
        rw [if_pos hc, ih _ _ _ h]
        have e : (cp.take (pos - i - offset).toNat ++ cp.drop ((pos - i - offset).toNat + 1)).length = cp.length - 1 := by
          simp only [List.length_append, List.length_take, List.length_drop]; omega
        rw [e, List.length_drop, Nat.add_assoc]
      · rw [if_neg hc] at h; simp at h
  have := gen positions 0 data 0 h
  rwa [Nat.zero_add] at this

/-- a value in which two backslashes are removed: 5 + 2 bytes are moved -/
example : Common.removeBytes [97, 92, 34, 98, 92, 34, 99] [11, 14] 10 = some [97, 34, 98, 34, 99] ∧
    removeMoves [11, 14] 0 10 7 = 7 := by decide

/-- a message without escapes -/
example : (92 : UInt8) ∉ ([60, 49, 62, 49, 32, 45, 32, 45, 32, 45, 32, 45, 32, 45, 32, 45] : Bytes) := by decide

/-! ## escapes -/

/-- `<1>1 - - - - - [a b="\"\"...\""]` with `k` escaped quotes -/
def quotes (k : Nat) : Parts :=
  { pri := 1, version := 1, timestamp := none, hostname := none, appname := none, procID := none, msgID := none
    sd := [⟨[97], [⟨[98], List.replicate k 34⟩]⟩], msg := none }

theorem stepByte_p {b : UInt8} : ∀ (fuel cs : Nat) (m : M) {cs' : Nat} {m' : M},
    stepByte T act adv b fuel cs m = .done (cs' + 1) m' → m'.p = m.p + 1 ∧ m'.data = m.data := by
  intro fuel
  induction fuel with
  | zero => intro cs m cs' m' h; simp [stepByte] at h
  | succ fuel ih =>
    intro cs m cs' m' h
    simp only [stepByte] at h
    have h1 := runActs_ok (T cs).frm m
    revert h h1
    cases runActs act (T cs).frm m with
    | panic => intro h; simp at h
    | jump m1 s => intro h h1; have := ih s m1 h; exact ⟨by rw [this.1, h1.1], by rw [this.2, h1.2.1]⟩
    | next m1 =>
      simp only []
      intro h h1
      have h2 := runActs_ok ((T cs).dispatch b.toNat).acts m1
      revert h h2
      cases runActs act ((T cs).dispatch b.toNat).acts m1 with
      | panic => intro h; simp at h
      | jump m2 s => intro h h2; have := ih s m2 h; exact ⟨by rw [this.1, h2.1, h1.1], by rw [this.2, h2.2.1, h1.2.1]⟩
      | next m2 =>
        simp only []
        intro h h2
        split at h
        · simp at h
        · simp only [Res.done.injEq] at h
          obtain ⟨-, rfl⟩ := h
          simp only [adv]
          exact ⟨by rw [h2.1, h1.1], by rw [h2.2.1, h1.2.1]⟩

/-- the state after some bytes does not depend on what follows -/
theorem after_data : ∀ (w pre x : Bytes) (cs cs' : Nat) (m m' : M), m.data = pre ++ w → m.p = pre.length →
    after T act adv w cs m = some (cs', m') →
    after T act adv w cs (setData (pre ++ (w ++ x)) m) = some (cs', setData (pre ++ (w ++ x)) m') := by
  intro w
  induction w with
  | nil =>
    intro pre x cs cs' m m' _ _ h
    simp only [after, Option.some.injEq, Prod.mk.injEq] at h ⊢
    exact ⟨h.1, by rw [h.2]⟩
  | cons b w ih =>
    intro pre x cs cs' m m' hd hp h
    simp only [after] at h ⊢
    rw [stepByte_data (pre := pre) (x := b :: w ++ x) jumpFuel cs m ⟨⟨_, hd⟩, hp⟩]
    have hk := @stepByte_p b jumpFuel cs m
    revert h hk
    cases stepByte T act adv b jumpFuel cs m with
    | panic => intro h; simp at h
    | loop => intro h; simp at h
    | done c1 m1 =>
      intro h hk
      cases c1 with
      | zero => simp at h
      | succ c1 =>
        simp only [mapRes] at h ⊢
        obtain ⟨k1, k2⟩ := hk rfl
        have := ih (pre ++ [b]) x (c1 + 1) cs' m1 m' (by rw [k2, hd]; simp) (by rw [k1, hp]; simp) h
        simpa using this

/-- `<1>1 - - - - - [a b="` -/
def quotesHead : Bytes := [60, 49, 62, 49, 32, 45, 32, 45, 32, 45, 32, 45, 32, 45, 32, 91, 97, 32, 98, 61, 34]

/-- `\"` `k` times -/
def escs : Nat → Bytes
  | 0 => []
  | k + 1 => 92 :: 34 :: escs k

theorem escs_length (k : Nat) : (escs k).length = 2 * k := by
  induction k with
  | zero => rfl
  | succ k ih => simp only [escs, List.length_cons, ih]; omega

theorem quotes_render (k : Nat) : (quotes k).render = quotesHead ++ (escs k ++ [34, 93]) := by
  have he : ∀ k, escape (List.replicate k 34) = escs k := by
    intro k
    induction k with
    | zero => rfl
    | succ k ih => rw [List.replicate_succ, escs, ← ih]; rfl
  have : (quotes k).render = quotesHead ++ ((escape (List.replicate k 34) ++ [34]) ++ [93]) := by
    have h1 : dec 1 = [49] := by decide +kernel
    simp [Parts.render, Parts.head, quotes, sdText, Elem.render, Param.render, tsText, fieldText, msgText, quotesHead, h1]
  rw [this, he]
  simp

/-- the machine after `<1>1 - - - - - [a b="` -/
def atValue (o : Opts) (data : Bytes) : M :=
  { data := data, p := 21, pb := 18, currentelem := [97], currentparam := [98], bestEffort := o.bestEffort, compliantMsg := o.compliantMsg
    out := { prioritySet := true, hasElements := true, priority := 1, version := 1, hostname := [45], appname := [45], procID := [45]
             msgID := [45], structuredData := some [([97], [])] } }

theorem at_value (o : Opts) (x : Bytes) :
    after T act adv quotesHead 1 (reset (newMachine o) (quotesHead ++ x)) = some (53, atValue o (quotesHead ++ x)) := by
  have h : after T act adv quotesHead 1 (reset (newMachine o) quotesHead) = some (53, atValue o quotesHead) := by
    obtain ⟨be, co⟩ := o
    cases be <;> cases co <;> decide +kernel
  exact after_data quotesHead [] x 1 53 (reset (newMachine o) quotesHead) _ rfl rfl h

theorem T_53 : (T 53).frm = [] ∧ (T 53).dispatch 92 = ⟨[.mark, .addSlash], 56⟩ := by decide +kernel
theorem T_54 : (T 54).frm = [] ∧ (T 54).dispatch 92 = ⟨[.addSlash], 56⟩ ∧ (T 54).dispatch 34 = ⟨[.setParamvalue], 55⟩ := by decide +kernel
theorem T_56 : (T 56).frm = [] ∧ (T 56).dispatch 34 = ⟨[], 54⟩ := by decide +kernel

/-- `k` positions, two apart -/
def twos : Nat → Nat → List Nat
  | 0, _ => []
  | k + 1, p => p :: twos k (p + 2)

theorem after_escs (k : Nat) : ∀ m : M,
    after T act adv (escs k) 54 m = some (54, { m with p := m.p + 2 * k, backslashat := m.backslashat ++ twos k m.p }) := by
  induction k with
  | zero => intro m; simp [escs, after, twos]
  | succ k ih =>
    intro m
    rw [escs, after_next (t := 55) (m1 := m) (m2 := { m with backslashat := m.backslashat ++ [m.p] }) T_54.2.1
      (by rw [T_54.1]; rfl) rfl, after_next (t := 53) (T_56.2) (by rw [T_56.1]; rfl) rfl, ih]
    simp only [adv, twos, List.append_assoc, List.singleton_append]
    rw [show m.p + 1 + 1 + 2 * k = m.p + 2 * (k + 1) by omega, show m.p + 1 + 1 = m.p + 2 by omega]

theorem moves_twos (k : Nat) : ∀ (i pb : Nat) (offset : Nat), pb = offset + 2 * i →
    removeMoves ((twos k pb).map Int.ofNat) i offset (2 * k + i) = k * k := by
  induction k with
  | zero => intro i pb o h; simp [twos, removeMoves]
  | succ k ih =>
    intro i pb o h
    have e : (Int.ofNat pb - (i : Int) - (o : Int)) = (i : Int) := by simp only [Int.ofNat_eq_natCast]; omega
    simp only [twos, List.map_cons, removeMoves, e]
    rw [if_pos (by omega), show (i : Int) + 1 = ((i + 1 : Nat) : Int) by omega,
      show 2 * (k + 1) + i - 1 = 2 * k + (i + 1) by omega, ih (i + 1) (pb + 2) o (by omega), Nat.add_mul k 1 (k + 1), Nat.mul_add k k 1, Nat.one_mul, Nat.mul_one]
    simp only [Int.toNat_natCast]
    omega

/-- C77: the bound is reached. A message of `23 + 2k` bytes, with a value of `k` escaped quotes, is accepted in every mode after at least
`k²` bytes have been moved. -/
theorem C77_quadratic (o : Opts) (k : Nat) : (quotes k).render.length = 2 * k + 23 ∧
    k * k ≤ parseCost (newMachine o) (quotes k).render ∧
    parse1 o (quotes k).render = some ⟨some (quotes k).toMessage, none⟩ := by
  refine ⟨?_, ?_, ?_⟩
  · rw [quotes_render]; simp [quotesHead, escs_length]
  · cases k with
    | zero => simp
    | succ k =>
      rw [parseCost, quotes_render]
      refine Nat.le_trans ?_ (costRun_after (at_value o _))
      -- the first escape sets the mark
      have h1 : after T act adv (escs (k + 1)) 53 (atValue o (quotesHead ++ (escs (k + 1) ++ [34, 93]))) =
          some (54, { atValue o (quotesHead ++ (escs (k + 1) ++ [34, 93])) with
            pb := 21, p := 21 + 2 * (k + 1), backslashat := twos (k + 1) 21 }) := by
        generalize quotesHead ++ (escs (k + 1) ++ [34, 93]) = d
        rw [escs, after_next (t := 55) (m1 := atValue o d) (m2 := { atValue o d with pb := 21, backslashat := [21] }) T_53.2
          (by rw [T_53.1]; rfl) rfl, after_next (t := 53) (T_56.2) (by rw [T_56.1]; rfl) rfl, after_escs]
        simp only [adv, twos, atValue, List.singleton_append]
        rw [show 21 + 1 + 1 + 2 * k = 21 + 2 * (k + 1) by omega]
      refine Nat.le_trans ?_ (costRun_after h1)
      refine Nat.le_trans ?_ (costRun_first (m1 := { atValue o (quotesHead ++ (escs (k + 1) ++ [34, 93])) with
            pb := 21, p := 21 + 2 * (k + 1), backslashat := twos (k + 1) 21 }) (by rw [T_54.1]; rfl))
      rw [show (34 : UInt8).toNat = 34 from rfl, T_54.2.2]
      simp only [costActs, work, atValue, if_true]
      rw [if_pos (by simp [twos])]
      have := moves_twos (k + 1) 0 21 21 rfl
      simp only [Nat.add_zero] at this
      rw [show 21 + 2 * (k + 1) - 21 = 2 * (k + 1) by omega]
      have e : removeMoves ((twos (k + 1) 21).map Int.ofNat) 0 ((21 : Nat) : Int) (2 * (k + 1)) = (k + 1) * (k + 1) := this
      rw [e]
      refine Nat.le_trans ?_ (Nat.le_add_right _ _)
      omega
  · have hwf : (quotes k).WF := by
      have hu : Utf8 (List.replicate k 34) := by
        induction k with
        | zero => exact .nil
        | succ k ih => exact .cons (.u1 (by decide)) ih
      have hn : ∀ b : UInt8, b = 97 ∨ b = 98 → SdNameWF [b] := by
        rintro b (rfl | rfl) <;> refine ⟨by simp, by simp, ?_⟩ <;> decide
      refine ⟨by simp [quotes], by simp [quotes], by simp [quotes], by simp [quotes, FieldWF], by simp [quotes, FieldWF],
        by simp [quotes, FieldWF], by simp [quotes, FieldWF], ?_, by simp [quotes]⟩
      intro e he
      have he : e = ⟨[97], [⟨[98], List.replicate k 34⟩]⟩ := by simpa [quotes] using he
      subst he
      refine ⟨hn 97 (Or.inl rfl), ?_⟩
      intro p hp
      have hp : p = ⟨[98], List.replicate k 34⟩ := by simpa using hp
      subst hp
      exact ⟨hn 98 (Or.inr rfl), hu⟩
    rw [parse1_eq, Option.some.injEq, resultOf_ok]
    exact ⟨outOf (quotes k), descend_iff.mpr ⟨quotes k, hwf, fun w h => by simp [quotes] at h, rfl, rfl⟩, export_outOf hwf⟩

end Verif.Props
