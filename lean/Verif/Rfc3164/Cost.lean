import Verif.Cost
import Verif.Rfc3164.Machine

/-!
# The work of `rfc3164` parsing

`work` is the number of bytes that the actions of the automaton read or copy.
-/

namespace Verif.Rfc3164
open Verif.Fsm Verif.Gen.Rfc3164

/-- The bytes that an action reads or copies. PRI is read once; a timestamp is copied to a string, which is then parsed, and both again for
`ParseInLocation` (rfc3164/machine.go:1161-1197); the other fields are copied (rfc3164/machine.go:1975-2120). -/
def work (o : Opts) : Act → M → Nat
  | .setPrival, m => m.p - m.pb
  | .setTimestamp, m => if o.timezone.isSome then 4 * (m.p - m.pb) else 2 * (m.p - m.pb)
  | .setRfc3339, m => 2 * (m.p - m.pb)
  | .setHostname, m | .setTag, m | .setContent, m | .setMessage, m => m.p - m.pb
  | _, _ => 0

/-- the work of a call of `Parse` (rfc3164/machine.go:97-7263) -/
def parseCost (o : Opts) (m : M) (input : Bytes) : Nat := costRun (T o) (act o) adv (work o) input 1 (reset m input)

namespace Cost

/-- What is known about a state. `mkd`: the mark is that of a text that is not yet used; `sl`: the current list of actions has a `setContent`;
`fin`: the message is stored, or there was an error; `dst`: the text has at most so many bytes (4: unknown). -/
structure Abs where
  mkd : Bool
  sl : Bool
  fin : Bool
  dst : Nat
  deriving DecidableEq

def absAct : Act → Abs → Option Abs
  | .mark, a => some { a with mkd := true, dst := 0 }
  | .setContent, a => if a.sl then none else some { a with sl := true }
  | .setPrival, a => if a.dst ≤ 3 then some a else none
  | .setHostname, a | .setTag, a => if a.mkd then some { a with mkd := false } else none
  | .setTimestamp, a | .setRfc3339, a => if a.mkd && !a.sl then some { a with mkd := false } else none
  | .setMessage, a => if a.fin then none else some { a with fin := true }
  | _, a => if a.sl then none else some a

def absActs : List Act → Abs → Option Abs
  | [], a => some a
  | x :: xs, a => (absAct x a).bind (absActs xs)

/-- the states of the automaton -/
def attr (cs : Nat) : Abs where
  mkd := (3 ≤ cs && cs ≤ 19) || cs == 21 || (23 ≤ cs && cs ≤ 332) || (334 ≤ cs && cs ≤ 365) || (369 ≤ cs && cs ≤ 372)
  sl := false
  fin := cs == 373
  dst := if cs = 3 then 3 else if cs = 330 then 1 else if cs = 331 then 2 else if cs = 332 then 2 else 4

/-- `b` promises at least as much as `a` -/
def Abs.le (a b : Abs) : Bool := (!a.mkd || b.mkd) && (a.fin || !b.fin) && decide (min 4 b.dst ≤ a.dst)

def labelOk (a : Abs) (l : Label Act) (esc : Bool) : Bool :=
  decide (l.acts.length ≤ 2) &&
  match absActs l.acts a with
  | none => false
  | some a' => (esc || !a'.sl) && (l.tgt == 0 || ((attr l.tgt).le { a' with dst := a'.dst + 1 } && decide (l.tgt < 374)))

def rowOk (r : Row Act) (cs : Nat) : Bool :=
  decide (r.frm.length ≤ 1) && decide (r.eof.length ≤ 3) && (absActs r.eof (attr cs)).any (fun a => !a.sl) &&
  match absActs r.frm (attr cs) with
  | none => false
  | some a => !a.sl && labelOk a r.dflt false && r.rng.all fun x => labelOk a x.2.2 (x.1 == 93 && x.2.1 == 93)

theorem table_ok : (List.range 374).all (fun cs => rowOk (table.getD cs ⟨[], [], ⟨[], 0⟩, []⟩) cs) = true := by decide +kernel
theorem tableR_ok : (List.range 374).all (fun cs => rowOk (tableR.getD cs ⟨[], [], ⟨[], 0⟩, []⟩) cs) = true := by decide +kernel

theorem rows_ok (o : Opts) (cs : Nat) (h : cs < 374) : rowOk (T o cs) cs = true := by
  unfold T
  cases o.rfc3339
  · exact List.all_eq_true.mp table_ok cs (List.mem_range.mpr h)
  · exact List.all_eq_true.mp tableR_ok cs (List.mem_range.mpr h)

/-! ## Soundness -/

/-- the potential; `n` is the length of the input -/
def phi (n : Nat) (a : Abs) (m : M) : Nat := (if a.mkd then 4 * (m.p - m.pb) else 0) + (if a.fin then 0 else n)

def Near (a : Abs) (m : M) : Prop := a.dst ≤ 3 → m.p - m.pb ≤ a.dst

/-- what is to be shown of one action -/
def Sound (o : Opts) (n : Nat) (x : Act) (a a' : Abs) (m : M) : Prop :=
  match act o x m with
  | .next m' => work o x m + phi n a' m' ≤ phi n a m + 3 + (if a'.sl && !a.sl then n else 0) ∧ Near a' m' ∧ m'.p = m.p
  | .jump m' s => a.sl = false ∧ s = 373 ∧ work o x m ≤ phi n a m + 3 ∧ m'.p = m.p
  | .panic => work o x m ≤ phi n a m + 3 + (if a'.sl && !a.sl then n else 0)

/-- an action that uses up the text -/
theorem sound_set {o : Opts} {n : Nat} {x : Act} {a : Abs} {m : M} (hmk : a.mkd = true) (hd : Near a m)
    (hw : work o x m ≤ 4 * (m.p - m.pb))
    (hx : (∃ m', act o x m = .next m' ∧ m'.p = m.p ∧ m'.pb = m.pb) ∨ act o x m = .panic ∨
      (a.sl = false ∧ ∃ m', act o x m = .jump m' 373 ∧ m'.p = m.p)) :
    Sound o n x a { a with mkd := false } m := by
  unfold Sound
  rcases hx with ⟨m', h, h1, h2⟩ | h | ⟨hs, m', h, h1⟩
  · rw [h]
    refine ⟨?_, ?_, h1⟩
    · simp only [phi, hmk, if_true, Bool.false_eq_true, if_false]; omega
    · intro hk; rw [h1, h2]; exact hd hk
  · rw [h]; simp only [phi, hmk, if_true]; omega
  · rw [h]
    refine ⟨hs, rfl, ?_, h1⟩
    simp only [phi, hmk, if_true]; omega

theorem text_cases (m : M) : m.text = none ∨ ∃ t, m.text = some t := by
  cases m.text with
  | none => exact Or.inl rfl
  | some t => exact Or.inr ⟨t, rfl⟩

theorem act_sound {o : Opts} {n : Nat} {x : Act} {a a' : Abs} {m : M} (h : absAct x a = some a') (hd : Near a m) (hp : m.p ≤ n) :
    Sound o n x a a' m := by
  cases x
  case mark =>
    simp only [absAct, Option.some.injEq] at h
    subst h
    refine ⟨?_, ?_, rfl⟩
    · simp only [work, phi]; split <;> omega
    · intro _; simp
  case setPrival =>
    simp only [absAct] at h
    split at h
    · rename_i hk
      simp only [Option.some.injEq] at h
      subst h
      have := hd hk
      unfold Sound
      simp only [act, withText]
      rcases text_cases m with ht | ⟨t, ht⟩
      · rw [ht]; simp only [work]; omega
      · rw [ht]
        refine ⟨?_, hd, rfl⟩
        simp only [work, phi]; omega
    · exact absurd h (by simp)
  case setHostname | setTag =>
    all_goals
      simp only [absAct] at h
      split at h
      · rename_i hk
        simp only [Option.some.injEq] at h
        subst h
        refine sound_set hk hd (by simp only [work]; omega) ?_
        simp only [act, withText]
        rcases text_cases m with ht | ⟨t, ht⟩
        · rw [ht]; exact Or.inr (Or.inl rfl)
        · rw [ht]; exact Or.inl ⟨_, rfl, rfl, rfl⟩
      · exact absurd h (by simp)
  case setTimestamp =>
    simp only [absAct] at h
    split at h
    · rename_i hk
      simp only [Bool.and_eq_true, Bool.not_eq_true'] at hk
      simp only [Option.some.injEq] at h
      subst h
      refine sound_set hk.1 hd (by simp only [work]; split <;> omega) ?_
      simp only [act, withText]
      rcases text_cases m with ht | ⟨t, ht⟩
      · rw [ht]; exact Or.inr (Or.inl rfl)
      · rw [ht]
        simp only []
        cases parseStamp t with
        | none => exact Or.inr (Or.inr ⟨hk.2, _, rfl, rfl⟩)
        | some tm => exact Or.inl ⟨_, rfl, rfl, rfl⟩
    · exact absurd h (by simp)
  case setRfc3339 =>
    simp only [absAct] at h
    split at h
    · rename_i hk
      simp only [Bool.and_eq_true, Bool.not_eq_true'] at hk
      simp only [Option.some.injEq] at h
      subst h
      refine sound_set hk.1 hd (by simp only [work]; omega) ?_
      simp only [act, withText]
      rcases text_cases m with ht | ⟨t, ht⟩
      · rw [ht]; exact Or.inr (Or.inl rfl)
      · rw [ht]
        simp only []
        cases GoTime.parseRFC3339Micro t with
        | none => exact Or.inr (Or.inr ⟨hk.2, _, rfl, rfl⟩)
        | some tm => exact Or.inl ⟨_, rfl, rfl, rfl⟩
    · exact absurd h (by simp)
  case setContent =>
    simp only [absAct] at h
    split at h
    · exact absurd h (by simp)
    · rename_i hs
      simp only [Option.some.injEq] at h
      subst h
      unfold Sound
      simp only [act, withText]
      rcases text_cases m with ht | ⟨t, ht⟩
      · rw [ht]; simp only [work, hs, Bool.not_false, Bool.and_true, if_true]; omega
      · rw [ht]
        refine ⟨?_, hd, rfl⟩
        simp only [work, phi, hs, Bool.not_false, Bool.and_true, if_true]; omega
  case setMessage =>
    simp only [absAct] at h
    split at h
    · exact absurd h (by simp)
    · rename_i hs
      simp only [Option.some.injEq] at h
      subst h
      unfold Sound
      simp only [act, withText]
      rcases text_cases m with ht | ⟨t, ht⟩
      · rw [ht]; simp only [work, phi, hs, Bool.false_eq_true, if_false]; omega
      · rw [ht]
        refine ⟨?_, hd, rfl⟩
        simp only [work, phi, hs, Bool.false_eq_true, if_false, if_true]; omega
  all_goals
    simp only [absAct] at h
    split at h
    · exact absurd h (by simp)
    · rename_i hs
      simp only [Option.some.injEq] at h
      subst h
      exact ⟨by simpa using hs, rfl, by simp only [work]; omega, rfl⟩

theorem absAct_sl {x : Act} {a a' : Abs} (h : absAct x a = some a') (hs : a.sl = true) : a'.sl = true := by
  cases x <;> simp only [absAct] at h <;> (try split at h) <;> simp_all <;> subst h <;> simp_all

theorem absActs_sl : ∀ {xs : List Act} {a a' : Abs}, absActs xs a = some a' → a.sl = true → a'.sl = true := by
  intro xs
  induction xs with
  | nil => intro a a' h hs; simp only [absActs, Option.some.injEq] at h; rw [← h]; exact hs
  | cons x xs ih =>
    intro a a' h hs
    simp only [absActs] at h
    cases hx : absAct x a with
    | none => rw [hx] at h; simp at h
    | some a1 => rw [hx] at h; exact ih h (absAct_sl hx hs)

/-- a list of actions -/
theorem acts_sound {o : Opts} {n : Nat} : ∀ (xs : List Act) {a a' : Abs} {m : M}, absActs xs a = some a' → Near a m → m.p ≤ n →
    match runActs (act o) xs m with
    | .next m' => costActs (act o) (work o) xs m + phi n a' m' ≤ phi n a m + 4 * xs.length + (if a'.sl && !a.sl then n else 0) ∧
        Near a' m' ∧ m'.p = m.p
    | .jump m' s => a.sl = false ∧ s = 373 ∧ costActs (act o) (work o) xs m ≤ phi n a m + 4 * xs.length ∧ m'.p = m.p
    | .panic => costActs (act o) (work o) xs m ≤ phi n a m + 4 * xs.length + (if a'.sl && !a.sl then n else 0) := by
  intro xs
  induction xs with
  | nil =>
    intro a a' m h hd hp
    simp only [absActs, Option.some.injEq] at h
    subst h
    simp only [runActs, costActs, List.length_nil]
    exact ⟨by omega, hd, trivial⟩
  | cons x xs ih =>
    intro a a' m h hd hp
    simp only [absActs] at h
    cases hx : absAct x a with
    | none => rw [hx] at h; simp at h
    | some a1 =>
      rw [hx] at h
      simp only [Option.bind_some] at h
      have hs := act_sound (o := o) (n := n) hx hd hp
      unfold Sound at hs
      simp only [runActs, costActs, List.length_cons]
      have m1 : a.sl = true → a1.sl = true := absAct_sl hx
      have m2 : a1.sl = true → a'.sl = true := absActs_sl h
      revert hs
      cases hr : act o x m with
      | panic =>
        intro hs
        simp only [] at hs ⊢
        have : (if (a1.sl && !a.sl) = true then n else 0) ≤ (if (a'.sl && !a.sl) = true then n else 0) := by
          cases ha : a.sl <;> cases ha1 : a1.sl <;> cases ha2 : a'.sl <;> simp_all
        omega
      | jump m1' s =>
        intro hs
        simp only [] at hs ⊢
        obtain ⟨h1, h2, h3, h4⟩ := hs
        exact ⟨h1, h2, by omega, h4⟩
      | next m1' =>
        intro hs
        simp only [] at hs ⊢
        obtain ⟨h1, h2, h3⟩ := hs
        have := ih (m := m1') h h2 (by omega)
        revert this
        cases hr2 : runActs (act o) xs m1' with
        | panic =>
          intro this
          simp only [] at this ⊢
          cases ha : a.sl <;> cases ha1 : a1.sl <;> cases ha2 : a'.sl <;> simp_all <;> omega
        | jump m2' s =>
          intro this
          simp only [] at this ⊢
          have hf : a.sl = false := by
            cases ha : a.sl with
            | false => rfl
            | true => have := m1 ha; simp_all
          refine ⟨hf, this.2.1, ?_, by omega⟩
          have h5 := this.2.2.1
          rw [this.1, hf] at h1
          simp only [Bool.false_and, Bool.false_eq_true, if_false] at h1
          omega
        | next m2' =>
          intro this
          simp only [] at this ⊢
          refine ⟨?_, this.2.1, by omega⟩
          have := this.1
          cases ha : a.sl <;> cases ha1 : a1.sl <;> cases ha2 : a'.sl <;> simp_all <;> omega

theorem lookup_mem {A : Type} (b : Nat) (rng : List (Nat × Nat × Label A)) (d : Label A) :
    lookup b rng d = d ∨ ∃ x ∈ rng, x.1 ≤ b ∧ b ≤ x.2.1 ∧ lookup b rng d = x.2.2 := by
  induction rng with
  | nil => exact Or.inl rfl
  | cons x rng ih =>
    obtain ⟨lo, hi, l⟩ := x
    simp only [lookup]
    split
    · rename_i h; exact Or.inr ⟨(lo, hi, l), by simp, h.1, h.2, rfl⟩
    · rcases ih with h | ⟨y, hy, h1, h2, h3⟩
      · exact Or.inl h
      · exact Or.inr ⟨y, by simp [hy], h1, h2, h3⟩

/-- what `rowOk` says about the label taken by a byte -/
theorem label_of_row {o : Opts} {cs b : Nat} {a : Abs} (hc : cs < 374) (ha : absActs (T o cs).frm (attr cs) = some a) :
    labelOk a ((T o cs).dispatch b) (decide (b = 93)) = true := by
  have hr := rows_ok o cs hc
  simp only [rowOk, ha, Bool.and_eq_true, List.all_eq_true] at hr
  obtain ⟨-, ⟨-, hd⟩, hall⟩ := hr
  have weaken : ∀ l e, labelOk a l false = true → labelOk a l e = true := by
    intro l e h
    simp only [labelOk] at h ⊢
    cases hx : absActs l.acts a with
    | none => rw [hx] at h; simp at h
    | some a' =>
      rw [hx] at h
      simp only [Bool.and_eq_true, Bool.false_or] at h ⊢
      exact ⟨h.1, by rw [h.2.1]; simp, h.2.2⟩
  unfold Row.dispatch
  rcases lookup_mem b (T o cs).rng (T o cs).dflt with h | ⟨x, hx, h1, h2, h3⟩
  · rw [h]; exact weaken _ _ hd
  · rw [h3]
    have := hall x hx
    by_cases he : (x.1 == 93 && x.2.1 == 93) = true
    · rw [he] at this
      simp only [Bool.and_eq_true, beq_iff_eq] at he
      rw [show decide (b = 93) = true by simp; omega]
      exact this
    · rw [Bool.not_eq_true] at he
      rw [he] at this; exact weaken _ _ this

/-- the invariant: `k` bytes are left of `n` -/
def CInv (n k cs : Nat) (m : M) : Prop := cs < 374 ∧ m.p + k = n ∧ Near (attr cs) m

theorem phi_mono {n : Nat} {a b : Abs} {m : M} (h : a.le b = true) : phi n a m ≤ phi n b m := by
  simp only [Abs.le, Bool.and_eq_true, Bool.or_eq_true, Bool.not_eq_true'] at h
  obtain ⟨⟨h1, h2⟩, -⟩ := h
  unfold phi
  cases ha : a.mkd <;> cases hb : b.mkd <;> cases hc : a.fin <;> cases hd : b.fin <;> simp_all <;> omega

theorem near_mono {a b : Abs} {m : M} (h : a.le b = true) (hn : Near b m) : Near a m := by
  simp only [Abs.le, Bool.and_eq_true, decide_eq_true_eq] at h
  intro h3
  have := hn (by omega)
  omega

theorem phi_373 (n : Nat) (m : M) : phi n (attr 373) m = 0 := by simp [phi, attr]

theorem cinv_373 {n k : Nat} {m : M} (hp : m.p + k = n) : CInv n k 373 m := ⟨by omega, hp, by intro h; simp [attr] at h⟩

theorem potential (o : Opts) (n : Nat) :
    Potential (T o) (act o) adv (work o) (CInv n) (fun cs m => phi n (attr cs) m) 16 (fun b => if b = 93 then n else 0) where
  frm := by
    intro k cs m ⟨hc, hp, hd⟩
    have hr := rows_ok o cs hc
    simp only [rowOk, Bool.and_eq_true] at hr
    obtain ⟨⟨⟨hl1, -⟩, -⟩, hr⟩ := hr
    cases ha : absActs (T o cs).frm (attr cs) with
    | none => rw [ha] at hr; simp at hr
    | some a =>
      rw [ha] at hr
      simp only [Bool.and_eq_true, decide_eq_true_eq, Bool.not_eq_true'] at hr hl1
      have hsl : a.sl = false := hr.1.1
      have hs := acts_sound (o := o) (n := n) (T o cs).frm ha hd (by omega)
      rw [hsl] at hs
      simp only [Bool.false_and, Bool.false_eq_true, if_false] at hs
      revert hs
      cases hrun : runActs (act o) (T o cs).frm m with
      | panic => simp only []; intro hs; omega
      | jump m' s =>
        simp only []
        intro hs
        obtain ⟨-, rfl, h2, h3⟩ := hs
        rw [phi_373]
        exact ⟨by omega, cinv_373 (by omega)⟩
      | next m' =>
        simp only []
        intro ⟨h1, h2, h3⟩ b hk
        have hlab := label_of_row (b := b) hc ha
        simp only [labelOk, Bool.and_eq_true, decide_eq_true_eq] at hlab
        obtain ⟨hl2, hlab⟩ := hlab
        cases ha2 : absActs ((T o cs).dispatch b).acts a with
        | none => rw [ha2] at hlab; simp at hlab
        | some a' =>
          rw [ha2] at hlab
          simp only [Bool.and_eq_true, Bool.or_eq_true, Bool.not_eq_true', decide_eq_true_eq, beq_iff_eq] at hlab
          obtain ⟨hesc, htgt⟩ := hlab
          have hs2 := acts_sound (o := o) (n := n) ((T o cs).dispatch b).acts ha2 h2 (by omega)
          rw [hsl] at hs2
          have hbud : b < 256 → (if (a'.sl && !false) = true then n else 0) ≤ (if UInt8.ofNat b = 93 then n else 0) := by
            intro hb
            rcases hesc with h | h
            · subst h; rw [if_pos (by decide : UInt8.ofNat 93 = 93)]; split <;> omega
            · rw [h]; simp
          revert hs2
          cases hrun2 : runActs (act o) ((T o cs).dispatch b).acts m' with
          | panic => simp only []; intro hs2 hb; have := hbud hb; omega
          | jump m'' s =>
            simp only []
            intro hs2
            obtain ⟨-, rfl, h4, h5⟩ := hs2
            rw [phi_373]
            exact ⟨by omega, cinv_373 (by omega)⟩
          | next m'' =>
            simp only []
            intro hs2 hb
            have hbud := hbud hb
            by_cases ht : ((T o cs).dispatch b).tgt = 0
            · rw [if_pos ht]; exact ⟨by omega, fun h => absurd ht h⟩
            · rw [if_neg ht]
              have htgt := htgt.resolve_left ht
              have e1 : phi n { a' with dst := a'.dst + 1 } (adv m'') ≤ phi n a' m'' + 4 := by
                simp only [phi, adv]; split <;> omega
              have e2 := phi_mono (n := n) (m := adv m'') htgt.1
              refine ⟨by omega, fun _ => ⟨htgt.2, ?_, near_mono htgt.1 ?_⟩⟩
              · simp only [adv]; omega
              · intro h
                simp only [] at h
                have := hs2.2.1 (by omega)
                simp only [adv]; omega
  eof := by
    intro cs m ⟨hc, hp, hd⟩
    have hr := rows_ok o cs hc
    simp only [rowOk, Bool.and_eq_true] at hr
    obtain ⟨⟨⟨-, hl1⟩, he⟩, -⟩ := hr
    cases ha : absActs (T o cs).eof (attr cs) with
    | none => rw [ha] at he; simp at he
    | some a =>
      simp only [decide_eq_true_eq] at hl1
      have hs := acts_sound (o := o) (n := n) (T o cs).eof ha hd (by omega)
      rw [ha] at he
      simp only [Option.any_some, Bool.not_eq_true'] at he
      rw [he] at hs
      simp only [Bool.false_and, Bool.false_eq_true, if_false] at hs
      revert hs
      cases hrun : runActs (act o) (T o cs).eof m with
      | panic => simp only []; intro hs; omega
      | jump m' s =>
        simp only []
        intro hs
        obtain ⟨-, rfl, h2, h3⟩ := hs
        rw [phi_373]
        exact ⟨by omega, cinv_373 (by omega)⟩
      | next m' => simp only []; intro hs; omega

end Cost
open Cost

/-- the work of `Parse`: linear in the length of the input, plus the length of the input for every `]` in it -/
theorem parseCost_le (o : Opts) (m : M) (input : Bytes) :
    parseCost o m input ≤ 69 * (input.length + 1) + input.length * input.count 93 := by
  have h := (potential o input.length).run input 1 (reset m input) ⟨by omega, by simp [reset], by intro h; simp [attr] at h⟩
  have h0 : phi input.length (attr 1) (reset m input) = input.length := by simp [phi, attr]
  have hs : ∀ l : Bytes, (l.map fun b => if b = 93 then input.length else 0).sum = input.length * l.count 93 := by
    intro l
    induction l with
    | nil => simp
    | cons b l ih =>
      rw [List.map_cons, List.sum_cons, ih, List.count_cons, Nat.mul_add, Nat.add_comm]
      congr 1
      by_cases hb : b = 93 <;> simp [hb]
  simp only [h0] at h
  rw [hs] at h
  have hj : jumpFuel * (16 + 1) = 68 := rfl
  rw [hj] at h
  unfold parseCost
  omega

end Verif.Rfc3164
