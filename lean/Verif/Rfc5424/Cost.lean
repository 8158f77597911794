import Verif.Cost
import Verif.Rfc5424.Machine

/-!
# The work of `rfc5424` parsing

`work` is the number of bytes that the actions of the automaton read or copy. `text` itself costs nothing: `m.data[m.pb:m.p]` is a slice.
-/

namespace Verif.Rfc5424
open Verif.Fsm Verif.Gen.Rfc5424

/-- the bytes moved by the loop of `RemoveBytes` (common/functions.go:23-26) on a slice of `len` bytes: each
`append(cp[:at], cp[(at+1):]...)` moves what is after `at` -/
def removeMoves : List Int → Int → Int → Nat → Nat
  | [], _, _, _ => 0
  | pos :: ps, i, offset, len =>
    if 0 ≤ pos - i - offset ∧ pos - i - offset + 1 ≤ len then
      len - ((pos - i - offset).toNat + 1) + removeMoves ps (i + 1) offset (len - 1)
    else 0 -- panic

/-- The bytes that an action reads or copies. Numbers are read once; the timestamp is copied to a string, which is then parsed; an SD-ID is
hashed and copied (rfc5424/machine.go:1559-1569); the other fields are copied (rfc5424/machine.go:1830-1940); a parameter value is copied,
and if it has escapes it is first copied and compacted by `RemoveBytes` (rfc5424/machine.go:2812-2823); a message cut off by an error is
copied (rfc5424/machine.go:11000-11010). Simplification: a map access and an `append` to `m.backslashat` count as no work beyond the 1 of
the action. -/
def work : Act → M → Nat
  | .setPrival, m | .setVersion, m => m.p - m.pb
  | .setTimestamp, m | .setId, m => (m.p - m.pb) + (m.p - m.pb)
  | .setHostname, m | .setAppname, m | .setProcid, m | .setMsgid, m | .setParamname, m | .setMsg, m => m.p - m.pb
  | .setParamvalue, m =>
    if m.out.hasElements then
      if m.backslashat.length > 0 then
        (m.p - m.pb) + removeMoves (m.backslashat.map Int.ofNat) 0 m.pb (m.p - m.pb) + (m.p - m.pb - m.backslashat.length)
      else m.p - m.pb
    else 0
  | .errMsg, m => if m.msgat > 0 then m.p - m.msgat else 0
  | .mark, _ | .markmsg, _ | .selectMsgMode, _ | .iniElements, _ | .iniSdparam, _ | .addSlash, _ => 0
  | .errPrival, _ | .errPri, _ | .errVersion, _ | .errTimestamp, _ | .errHostname, _ | .errAppname, _ | .errProcid, _ | .errMsgid, _
  | .errStructureddata, _ | .errSdid, _ | .errSdparam, _ | .errEscape, _ | .errParse, _ => 0

/-- the work of a call of `Parse` (rfc5424/machine.go:113-12044) on a machine left in state `m` by earlier calls -/
def parseCost (m : M) (input : Bytes) : Nat := costRun T act adv work input 1 (reset m input)

theorem removeMoves_le (ps : List Int) (i offset : Int) (len : Nat) : removeMoves ps i offset len ≤ ps.length * len := by
  induction ps generalizing i len with
  | nil => simp [removeMoves]
  | cons p ps ih =>
    simp only [removeMoves, List.length_cons, Nat.add_mul, Nat.one_mul]
    split
    · have h1 := ih (i + 1) (len - 1)
      have h2 : ps.length * (len - 1) ≤ ps.length * len := Nat.mul_le_mul_left _ (by omega)
      omega
    · omega

/-! ## Abstract interpretation -/

namespace Cost

/-- What is known about a state. `mkd`: the mark is that of a text that is not yet used; `iv`: inside a parameter value; `sl`: an escape was
recorded by the current list of actions; `dst`: the text has at most so many bytes (4: unknown). -/
structure Abs where
  mkd : Bool
  iv : Bool
  sl : Bool
  dst : Nat
  deriving DecidableEq

def absAct : Act → Abs → Option Abs
  | .mark, a => some { a with mkd := true, dst := 0 }
  | .iniSdparam, a => some { a with iv := true }
  | .addSlash, a => if a.sl then none else some { a with sl := true }
  | .setPrival, a | .setVersion, a => if a.dst ≤ 3 then some a else none
  | .setHostname, a | .setAppname, a | .setProcid, a | .setMsgid, a | .setParamname, a | .setMsg, a =>
    if a.mkd then some { a with mkd := false } else none
  | .setTimestamp, a | .setId, a => if a.mkd && !a.sl then some { a with mkd := false } else none
  | .setParamvalue, a => if a.mkd && a.iv then some { a with mkd := false, iv := false } else none
  | .markmsg, a | .iniElements, a => some a
  | _, a => if a.sl then none else some a

def absActs : List Act → Abs → Option Abs
  | [], a => some a
  | x :: xs, a => (absAct x a).bind (absActs xs)

/-- the states of the automaton -/
def attr (cs : Nat) : Abs where
  mkd := (3 ≤ cs && cs ≤ 7) || cs == 9 || cs == 11 || cs == 13 || cs == 15 || cs == 18 || (20 ≤ cs && cs ≤ 51) || cs == 54 ||
    (56 ≤ cs && cs ≤ 602) || cs == 608 || (610 ≤ cs && cs ≤ 613)
  iv := (20 ≤ cs && cs ≤ 54) || (56 ≤ cs && cs ≤ 63)
  sl := false
  dst := if cs = 3 then 3 else if cs = 5 then 1 else if cs = 591 then 2 else if cs = 592 then 3 else if cs = 593 then 1 else
    if cs = 594 then 2 else if cs = 595 then 2 else 4

/-- `b` promises at least as much as `a` -/
def Abs.le (a b : Abs) : Bool := (!a.mkd || b.mkd) && (!a.iv || b.iv) && decide (min 4 b.dst ≤ a.dst)

def labelOk (a : Abs) (l : Label Act) (esc : Bool) : Bool :=
  decide (l.acts.length ≤ 3) &&
  match absActs l.acts a with
  | none => false
  | some a' => (esc || !a'.sl) && (l.tgt == 0 || ((attr l.tgt).le { a' with dst := a'.dst + 1 } && decide (l.tgt < 615)))

def rowOk (cs : Nat) : Bool :=
  cs == 614 ||
  (decide ((T cs).frm.length ≤ 1) && decide ((T cs).eof.length ≤ 3) && (absActs (T cs).eof (attr cs)).any (fun a => !a.sl) &&
  match absActs (T cs).frm (attr cs) with
  | none => false
  | some a => !a.sl && labelOk a (T cs).dflt false && (T cs).rng.all fun x => labelOk a x.2.2 (x.1 == 92 && x.2.1 == 92))

theorem rows_ok : ∀ cs, cs < 615 → rowOk cs = true := by
  intro cs h
  have : (List.range 615).all rowOk = true := by decide +kernel
  exact List.all_eq_true.mp this cs (List.mem_range.mpr h)


/-! ## Soundness -/

/-- the potential of the text since the mark and of the escapes found in the current value; `n` is the length of the input -/
def phi (n : Nat) (a : Abs) (m : M) : Nat :=
  (if a.mkd then 2 * (m.p - m.pb) else 0) + (if a.iv then n * m.backslashat.length else 0)

def Near (a : Abs) (m : M) : Prop := a.dst ≤ 3 → m.p - m.pb ≤ a.dst

def Psi (n cs : Nat) (m : M) : Nat := phi n (attr cs) m + (if cs = 614 then 0 else n)

/-- what is to be shown of one action -/
def Sound (n : Nat) (x : Act) (a a' : Abs) (m : M) : Prop :=
  match act x m with
  | .next m' => work x m + phi n a' m' ≤ phi n a m + 3 + (if a'.sl && !a.sl then n else 0) ∧ Near a' m' ∧ m'.p = m.p ∧
      (a.sl = true → a'.sl = true)
  | .jump m' s => a.sl = false ∧ (s = 614 ∨ s = 607 ∨ s = 609) ∧ work x m + (if s = 614 then 0 else n) ≤ phi n a m + n + 3 ∧ m'.p = m.p
  | .panic => work x m ≤ phi n a m + n + 3

/-- an action that uses up the text -/
theorem sound_set {n : Nat} {x : Act} {a : Abs} {m : M} (hmk : a.mkd = true) (hd : Near a m)
    (hw : work x m ≤ 2 * (m.p - m.pb))
    (hx : (∃ m', act x m = .next m' ∧ m'.p = m.p ∧ m'.pb = m.pb ∧ m'.backslashat = m.backslashat) ∨ act x m = .panic ∨
      (a.sl = false ∧ ∃ m', act x m = .jump m' 614 ∧ m'.p = m.p)) :
    Sound n x a { a with mkd := false } m := by
  unfold Sound
  rcases hx with ⟨m', h, h1, h2, h3⟩ | h | ⟨hs, m', h, h1⟩
  · rw [h]
    refine ⟨?_, ?_, h1, fun h => h⟩
    · simp only [phi, hmk, h1, h2, h3, if_true, Bool.false_eq_true, if_false]; omega
    · intro hk; rw [h1, h2]; exact hd hk
  · rw [h]; simp only [phi, hmk, if_true]; omega
  · rw [h]
    refine ⟨hs, Or.inl rfl, ?_, h1⟩
    simp only [phi, hmk, if_true]; omega

theorem sound_err {n : Nat} {x : Act} {a : Abs} {m : M} (hs : a.sl = false) (hw : work x m ≤ n)
    (hx : (∃ m', act x m = .jump m' 614 ∧ m'.p = m.p) ∨ act x m = .panic) :
    Sound n x a a m := by
  unfold Sound
  rcases hx with ⟨m', h, h1⟩ | h
  · rw [h]; exact ⟨hs, Or.inl rfl, by rw [if_pos rfl]; omega, h1⟩
  · rw [h]; simp only []; omega

theorem text_cases (m : M) : m.text = none ∨ ∃ t, m.text = some t := by
  cases m.text with
  | none => exact Or.inl rfl
  | some t => exact Or.inr ⟨t, rfl⟩

theorem act_sound {n : Nat} {x : Act} {a a' : Abs} {m : M} (h : absAct x a = some a') (hd : Near a m) (hp : m.p ≤ n) :
    Sound n x a a' m := by
  cases x
  case mark =>
    simp only [absAct, Option.some.injEq] at h
    subst h
    refine ⟨?_, ?_, rfl, fun h => h⟩
    · simp only [work, phi]; split <;> omega
    · intro _; simp
  case markmsg | iniElements =>
    all_goals
      simp only [absAct, Option.some.injEq] at h
      subst h
      refine ⟨?_, hd, rfl, fun h => h⟩
      simp only [work, phi]; omega
  case selectMsgMode =>
    simp only [absAct] at h
    split at h
    · exact absurd h (by simp)
    · rename_i hs
      simp only [Option.some.injEq] at h
      subst h
      simp only [Sound, act, work]
      by_cases hc : m.compliantMsg = true
      · rw [if_pos hc]; refine ⟨by simpa using hs, by simp, ?_, rfl⟩; simp; omega
      · rw [if_neg hc]; refine ⟨by simpa using hs, by simp, ?_, rfl⟩; simp; omega
  case setPrival | setVersion =>
    all_goals
      simp only [absAct] at h
      split at h
      · rename_i hk
        simp only [Option.some.injEq] at h
        subst h
        have := hd hk
        unfold Sound
        simp only [act, withText]
        rcases text_cases m with ht | ⟨t, ht⟩
        · rw [ht]; simp only [work]; omega
        · rw [ht]
          refine ⟨?_, hd, rfl, fun h => h⟩
          simp only [work, phi]; omega
      · exact absurd h (by simp)
  case setHostname | setAppname | setProcid | setMsgid | setParamname | setMsg =>
    all_goals
      simp only [absAct] at h
      split at h
      · rename_i hk
        simp only [Option.some.injEq] at h
        subst h
        refine sound_set hk hd (by simp only [work]; omega) ?_
        simp only [act, withText]
        rcases text_cases m with ht | ⟨t, ht⟩
        · rw [ht]; exact Or.inr (Or.inl rfl)
        · rw [ht]; exact Or.inl ⟨_, rfl, rfl, rfl, rfl⟩
      · exact absurd h (by simp)
  case setTimestamp =>
    simp only [absAct] at h
    split at h
    · rename_i hk
      simp only [Bool.and_eq_true, Bool.not_eq_true'] at hk
      simp only [Option.some.injEq] at h
      subst h
      refine sound_set hk.1 hd (by simp only [work]; omega) ?_
      simp only [act, withText]
      rcases text_cases m with ht | ⟨t, ht⟩
      · rw [ht]; exact Or.inr (Or.inl rfl)
      · rw [ht]
        simp only []
        cases GoTime.parseRFC3339Micro t with
        | none => exact Or.inr (Or.inr ⟨hk.2, _, rfl, rfl⟩)
        | some tm => exact Or.inl ⟨_, rfl, rfl, rfl, rfl⟩
    · exact absurd h (by simp)
  case setId =>
    simp only [absAct] at h
    split at h
    · rename_i hk
      simp only [Bool.and_eq_true, Bool.not_eq_true'] at hk
      simp only [Option.some.injEq] at h
      subst h
      refine sound_set hk.1 hd (by simp only [work]; omega) ?_
      simp only [act, withText]
      rcases text_cases m with ht | ⟨t, ht⟩
      · rw [ht]; exact Or.inr (Or.inl rfl)
      · rw [ht]
        simp only []
        cases m.out.structuredData with
        | none => exact Or.inr (Or.inl rfl)
        | some sd =>
          simp only []
          cases sd.find t with
          | some _ => exact Or.inr (Or.inr ⟨hk.2, _, rfl, rfl⟩)
          | none => exact Or.inl ⟨_, rfl, rfl, rfl, rfl⟩
    · exact absurd h (by simp)
  case iniSdparam =>
    simp only [absAct, Option.some.injEq] at h
    subst h
    refine ⟨?_, hd, rfl, fun h => h⟩
    simp only [work, phi]; simp; split <;> omega
  case addSlash =>
    simp only [absAct] at h
    split at h
    · exact absurd h (by simp)
    · rename_i hs
      simp only [Option.some.injEq] at h
      subst h
      refine ⟨?_, hd, rfl, fun h => rfl⟩
      simp only [work, phi, List.length_append, List.length_singleton, Nat.mul_add, Nat.mul_one]
      simp only [hs, Bool.not_false, Bool.and_true, if_true]
      split <;> split <;> omega
  case setParamvalue =>
    simp only [absAct] at h
    split at h
    · rename_i hk
      simp only [Bool.and_eq_true] at hk
      simp only [Option.some.injEq] at h
      subst h
      have hw : work .setParamvalue m ≤ phi n a m := by
        simp only [work, phi, hk.1, hk.2, if_true]
        split
        · split
          · have h1 := removeMoves_le (m.backslashat.map Int.ofNat) 0 m.pb (m.p - m.pb)
            rw [List.length_map, Nat.mul_comm] at h1
            have h2 : (m.p - m.pb) * m.backslashat.length ≤ n * m.backslashat.length := Nat.mul_le_mul_right _ (by omega)
            omega
          · omega
        · omega
      have key : (∃ m', act .setParamvalue m = .next m' ∧ m'.p = m.p ∧ m'.pb = m.pb) ∨ act .setParamvalue m = .panic := by
        simp only [act, withText]
        split
        · rcases text_cases m with ht | ⟨t, ht⟩
          · rw [ht]; exact Or.inr rfl
          · rw [ht]
            simp only []
            generalize (if m.backslashat.length > 0 then
              Common.removeBytes t (m.backslashat.map Int.ofNat) m.pb else some t) = r
            cases r with
            | none => exact Or.inr rfl
            | some text =>
              simp only []
              cases m.out.structuredData with
              | none => exact Or.inr rfl
              | some sd =>
                simp only []
                cases sd.find m.currentelem with
                | none => exact Or.inr rfl
                | some ps => exact Or.inl ⟨_, rfl, rfl, rfl⟩
        · exact Or.inl ⟨_, rfl, rfl, rfl⟩
      unfold Sound
      rcases key with ⟨m', h, h1, h2⟩ | h
      · rw [h]
        refine ⟨?_, ?_, h1, fun h => h⟩
        · have : phi n { a with mkd := false, iv := false } m' = 0 := by simp [phi]
          rw [this]; omega
        · intro hk; rw [h1, h2]; exact hd hk
      · rw [h]; simp only []; omega
    · exact absurd h (by simp)
  case errMsg =>
    simp only [absAct] at h
    split at h
    · exact absurd h (by simp)
    · rename_i hs
      simp only [Option.some.injEq] at h
      subst h
      refine sound_err (by simpa using hs) (by simp only [work]; split <;> omega) ?_
      simp only [act]
      split
      · cases slice m.data m.msgat m.p with
        | none => exact Or.inr rfl
        | some t => exact Or.inl ⟨_, rfl, rfl⟩
      · exact Or.inl ⟨_, rfl, rfl⟩
  all_goals
    simp only [absAct] at h
    split at h
    · exact absurd h (by simp)
    · rename_i hs
      simp only [Option.some.injEq] at h
      subst h
      exact sound_err (by simpa using hs) (by simp only [work]; omega) (Or.inl ⟨_, rfl, rfl⟩)

theorem absAct_sl {x : Act} {a a' : Abs} (h : absAct x a = some a') (hs : a.sl = true) : a'.sl = true := by
  cases x <;> simp only [absAct] at h <;> (try split at h) <;> simp_all <;> subst h <;> simp_all

theorem absActs_sl : ∀ {xs : List Act} {a a' : Abs}, absActs xs a = some a' → a.sl = true → a'.sl = true := by
  intro xs
  induction xs with
  | nil => intro a a' h hs; simp only [absActs, Option.some.injEq] at h; rw [← h]; exact hs
  | cons x xs ih =>
    intro a a' h hs
    simp only [absActs] at h
    cases hx : absAct x a with
    | none => rw [hx] at h; simp at h
    | some a1 => rw [hx] at h; exact ih h (absAct_sl hx hs)

/-- a list of actions -/
theorem acts_sound {n : Nat} : ∀ (xs : List Act) {a a' : Abs} {m : M}, absActs xs a = some a' → Near a m → m.p ≤ n →
    match runActs act xs m with
    | .next m' => costActs act work xs m + phi n a' m' ≤ phi n a m + 4 * xs.length + (if a'.sl && !a.sl then n else 0) ∧ Near a' m' ∧
        m'.p = m.p
    | .jump m' s => a.sl = false ∧ (s = 614 ∨ s = 607 ∨ s = 609) ∧
        costActs act work xs m + (if s = 614 then 0 else n) ≤ phi n a m + n + 4 * xs.length ∧ m'.p = m.p
    | .panic => costActs act work xs m ≤ phi n a m + n + 4 * xs.length + (if a'.sl && !a.sl then n else 0) := by
  intro xs
  induction xs with
  | nil =>
    intro a a' m h hd hp
    simp only [absActs, Option.some.injEq] at h
    subst h
    simp only [runActs, costActs, List.length_nil]
    exact ⟨by omega, hd, trivial⟩
  | cons x xs ih =>
    intro a a' m h hd hp
    simp only [absActs] at h
    cases hx : absAct x a with
    | none => rw [hx] at h; simp at h
    | some a1 =>
      rw [hx] at h
      simp only [Option.bind_some] at h
      have hs := act_sound (n := n) hx hd hp
      unfold Sound at hs
      simp only [runActs, costActs, List.length_cons]
      have m1 : a.sl = true → a1.sl = true := absAct_sl hx
      have m2 : a1.sl = true → a'.sl = true := absActs_sl h
      revert hs
      cases hr : act x m with
      | panic =>
        intro hs
        simp only [] at hs ⊢
        omega
      | jump m1' s =>
        intro hs
        simp only [] at hs ⊢
        obtain ⟨h1, h2, h3, h4⟩ := hs
        exact ⟨h1, h2, by omega, h4⟩
      | next m1' =>
        intro hs
        simp only [] at hs ⊢
        obtain ⟨h1, h2, h3, h4⟩ := hs
        have := ih (m := m1') h h2 (by omega)
        revert this
        cases hr2 : runActs act xs m1' with
        | panic =>
          intro this
          simp only [] at this ⊢
          cases ha : a.sl <;> cases ha1 : a1.sl <;> cases ha2 : a'.sl <;> simp_all <;> omega
        | jump m2' s =>
          intro this
          simp only [] at this ⊢
          have hf : a.sl = false := by
            cases ha : a.sl with
            | false => rfl
            | true => have := h4 ha; simp_all
          refine ⟨hf, this.2.1, ?_, by omega⟩
          have h5 := this.2.2.1
          rw [this.1, hf] at h1
          simp only [Bool.false_and, Bool.false_eq_true, if_false] at h1
          omega
        | next m2' =>
          intro this
          simp only [] at this ⊢
          refine ⟨?_, this.2.1, by omega⟩
          have := this.1
          cases ha : a.sl <;> cases ha1 : a1.sl <;> cases ha2 : a'.sl <;> simp_all <;> omega

theorem lookup_mem {A : Type} (b : Nat) (rng : List (Nat × Nat × Label A)) (d : Label A) :
    lookup b rng d = d ∨ ∃ x ∈ rng, x.1 ≤ b ∧ b ≤ x.2.1 ∧ lookup b rng d = x.2.2 := by
  induction rng with
  | nil => exact Or.inl rfl
  | cons x rng ih =>
    obtain ⟨lo, hi, l⟩ := x
    simp only [lookup]
    split
    · rename_i h; exact Or.inr ⟨(lo, hi, l), by simp, h.1, h.2, rfl⟩
    · rcases ih with h | ⟨y, hy, h1, h2, h3⟩
      · exact Or.inl h
      · exact Or.inr ⟨y, by simp [hy], h1, h2, h3⟩

/-- what `rowOk` says about the label taken by a byte -/
theorem label_of_row {cs b : Nat} {a : Abs} (hc : cs < 615) (h4 : cs ≠ 614) (ha : absActs (T cs).frm (attr cs) = some a) :
    labelOk a ((T cs).dispatch b) (decide (b = 92)) = true := by
  have hr := rows_ok cs hc
  have h4' : (cs == 614) = false := by simp [h4]
  simp only [rowOk, h4', Bool.false_or, ha, Bool.and_eq_true, List.all_eq_true] at hr
  obtain ⟨-, ⟨-, hd⟩, hall⟩ := hr
  have weaken : ∀ l e, labelOk a l false = true → labelOk a l e = true := by
    intro l e h
    simp only [labelOk] at h ⊢
    cases hx : absActs l.acts a with
    | none => rw [hx] at h; simp at h
    | some a' =>
      rw [hx] at h
      simp only [Bool.and_eq_true, Bool.false_or] at h ⊢
      exact ⟨h.1, by rw [h.2.1]; simp, h.2.2⟩
  unfold Row.dispatch
  rcases lookup_mem b (T cs).rng (T cs).dflt with h | ⟨x, hx, h1, h2, h3⟩
  · rw [h]; exact weaken _ _ hd
  · rw [h3]
    have := hall x hx
    by_cases he : (x.1 == 92 && x.2.1 == 92) = true
    · rw [he] at this
      simp only [Bool.and_eq_true, beq_iff_eq] at he
      rw [show decide (b = 92) = true by simp; omega]
      exact this
    · rw [Bool.not_eq_true] at he
      rw [he] at this; exact weaken _ _ this

/-- the invariant: `k` bytes are left of `n` -/
def CInv (n k cs : Nat) (m : M) : Prop := cs < 615 ∧ m.p + k = n ∧ Near (attr cs) m

theorem phi_mono {n : Nat} {a b : Abs} {m : M} (h : a.le b = true) : phi n a m ≤ phi n b m := by
  simp only [Abs.le, Bool.and_eq_true, Bool.or_eq_true, Bool.not_eq_true'] at h
  obtain ⟨⟨h1, h2⟩, -⟩ := h
  unfold phi
  cases ha : a.mkd <;> cases hb : b.mkd <;> cases hc : a.iv <;> cases hd : b.iv <;> simp_all <;> omega

theorem near_mono {a b : Abs} {m : M} (h : a.le b = true) (hn : Near b m) : Near a m := by
  simp only [Abs.le, Bool.and_eq_true, decide_eq_true_eq] at h
  intro h3
  have := hn (by omega)
  omega

theorem psi_jump {n s : Nat} (m : M) (hs : s = 614 ∨ s = 607 ∨ s = 609) : Psi n s m = if s = 614 then 0 else n := by
  rcases hs with rfl | rfl | rfl <;> simp [Psi, phi, attr]

theorem cinv_jump {n k s : Nat} {m : M} (hp : m.p + k = n) (hs : s = 614 ∨ s = 607 ∨ s = 609) : CInv n k s m := by
  refine ⟨by omega, hp, ?_⟩
  rcases hs with rfl | rfl | rfl <;> (intro h; simp [attr] at h)

theorem T_614_row : T 614 = r614 := by decide +kernel

theorem potential (n : Nat) :
    Potential T act adv work (CInv n) (Psi n) 18 (fun b => if b = 92 then n else 0) where
  frm := by
    intro k cs m ⟨hc, hp, hd⟩
    by_cases h4 : cs = 614
    · subst h4
      rw [T_614_row, show r614.frm = [] from rfl]
      intro b hk
      have hdis : r614.dispatch b = ⟨[], 0⟩ ∨ r614.dispatch b = ⟨[], 614⟩ := by
        show lookup b r614.rng r614.dflt = _ ∨ lookup b r614.rng r614.dflt = _
        simp only [r614, lookup]
        split
        · exact Or.inl rfl
        · split
          · exact Or.inl rfl
          · exact Or.inr rfl
      rcases hdis with h | h <;> rw [h]
      · intro _
        exact ⟨by simp [costActs], fun h => absurd rfl h⟩
      · intro _
        refine ⟨?_, fun _ => cinv_jump (by simp only [adv]; omega) (Or.inl rfl)⟩
        rw [if_neg (by simp), psi_jump _ (Or.inl rfl)]
        simp [costActs]
    have hr := rows_ok cs hc
    have h4' : (cs == 614) = false := by simp [h4]
    simp only [rowOk, h4', Bool.false_or, Bool.and_eq_true] at hr
    obtain ⟨⟨⟨hl1, -⟩, -⟩, hr⟩ := hr
    cases ha : absActs (T cs).frm (attr cs) with
    | none => rw [ha] at hr; simp at hr
    | some a =>
      rw [ha] at hr
      simp only [Bool.and_eq_true, decide_eq_true_eq, Bool.not_eq_true'] at hr hl1
      have hsl : a.sl = false := hr.1.1
      have hs := acts_sound (n := n) (T cs).frm ha hd (by omega)
      have hPsi : Psi n cs m = phi n (attr cs) m + n := by simp [Psi, h4]
      rw [hsl] at hs
      simp only [Bool.false_and, Bool.false_eq_true, if_false] at hs
      rw [hPsi]
      revert hs
      cases hrun : runActs act (T cs).frm m with
      | panic => simp only []; intro hs; omega
      | jump m' s =>
        simp only []
        intro hs
        rw [psi_jump m' hs.2.1]
        exact ⟨by omega, cinv_jump (by omega) hs.2.1⟩
      | next m' =>
        simp only []
        intro ⟨h1, h2, h3⟩ b hk
        have hlab := label_of_row (b := b) hc h4 ha
        simp only [labelOk, Bool.and_eq_true, decide_eq_true_eq] at hlab
        obtain ⟨hl2, hlab⟩ := hlab
        cases ha2 : absActs ((T cs).dispatch b).acts a with
        | none => rw [ha2] at hlab; simp at hlab
        | some a' =>
          rw [ha2] at hlab
          simp only [Bool.and_eq_true, Bool.or_eq_true, Bool.not_eq_true', decide_eq_true_eq, beq_iff_eq] at hlab
          obtain ⟨hesc, htgt⟩ := hlab
          have hs2 := acts_sound (n := n) ((T cs).dispatch b).acts ha2 h2 (by omega)
          rw [hsl] at hs2
          have hbud : b < 256 → (if (a'.sl && !false) = true then n else 0) ≤ (if UInt8.ofNat b = 92 then n else 0) := by
            intro hb
            rcases hesc with h | h
            · subst h; rw [if_pos (by decide : UInt8.ofNat 92 = 92)]; split <;> omega
            · rw [h]; simp
          revert hs2
          cases hrun2 : runActs act ((T cs).dispatch b).acts m' with
          | panic => simp only []; intro hs2 hb; have := hbud hb; omega
          | jump m'' s =>
            simp only []
            intro hs2
            rw [psi_jump m'' hs2.2.1]
            exact ⟨by omega, cinv_jump (by omega) hs2.2.1⟩
          | next m'' =>
            simp only []
            intro hs2 hb
            have hbud := hbud hb
            by_cases ht : ((T cs).dispatch b).tgt = 0
            · rw [if_pos ht]; exact ⟨by omega, fun h => absurd ht h⟩
            · rw [if_neg ht]
              have htgt := htgt.resolve_left ht
              have e1 : phi n { a' with dst := a'.dst + 1 } (adv m'') ≤ phi n a' m'' + 2 := by
                simp only [phi, adv]; split <;> omega
              have e2 := phi_mono (n := n) (m := adv m'') htgt.1
              have e3 : Psi n ((T cs).dispatch b).tgt (adv m'') ≤ phi n (attr ((T cs).dispatch b).tgt) (adv m'') + n := by
                unfold Psi; split <;> omega
              refine ⟨by omega, fun _ => ⟨htgt.2, ?_, near_mono htgt.1 ?_⟩⟩
              · simp only [adv]; omega
              · intro h
                simp only [] at h
                have := hs2.2.1 (by omega)
                simp only [adv]; omega
  eof := by
    intro cs m ⟨hc, hp, hd⟩
    by_cases h4 : cs = 614
    · subst h4
      rw [T_614_row, show r614.eof = [] from rfl]
      simp [runActs, costActs]
    have hr := rows_ok cs hc
    have h4' : (cs == 614) = false := by simp [h4]
    simp only [rowOk, h4', Bool.false_or, Bool.and_eq_true] at hr
    obtain ⟨⟨⟨-, hl1⟩, he⟩, -⟩ := hr
    cases ha : absActs (T cs).eof (attr cs) with
    | none => rw [ha] at he; simp at he
    | some a =>
      simp only [decide_eq_true_eq] at hl1
      have hs := acts_sound (n := n) (T cs).eof ha hd (by omega)
      have hPsi : Psi n cs m = phi n (attr cs) m + n := by simp [Psi, h4]
      rw [hPsi]
      rw [ha] at he
      simp only [Option.any_some, Bool.not_eq_true'] at he
      rw [he] at hs
      simp only [Bool.false_and, Bool.false_eq_true, if_false] at hs
      revert hs
      cases hrun : runActs act (T cs).eof m with
      | panic => simp only []; intro hs; omega
      | jump m' s =>
        simp only []
        intro hs
        rw [psi_jump m' hs.2.1]
        exact ⟨by omega, cinv_jump (by omega) hs.2.1⟩
      | next m' => simp only []; intro hs; omega

end Cost
open Cost

/-- the work of `Parse`: linear in the length of the input, plus the length of the input for every backslash in it -/
theorem parseCost_le (m : M) (input : Bytes) :
    parseCost m input ≤ 77 * (input.length + 1) + input.length * input.count 92 := by
  have h := (potential input.length).run input 1 (reset m input) ⟨by omega, by simp [reset], by intro h; simp [attr] at h⟩
  have h0 : Psi input.length 1 (reset m input) = input.length := by simp [Psi, phi, attr]
  have hs : ∀ l : Bytes, (l.map fun b => if b = 92 then input.length else 0).sum = input.length * l.count 92 := by
    intro l
    induction l with
    | nil => simp
    | cons b l ih =>
      rw [List.map_cons, List.sum_cons, ih, List.count_cons, Nat.mul_add, Nat.add_comm]
      congr 1
      by_cases hb : b = 92 <;> simp [hb]
  rw [hs, h0] at h
  have hj : jumpFuel * (18 + 1) = 76 := rfl
  rw [hj] at h
  unfold parseCost
  omega

end Verif.Rfc5424
