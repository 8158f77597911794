import Verif.Rfc5424.Wrap

/-! # Errors are decided by the prefix of the input up to the reported column -/

namespace Verif.Rfc5424
open Verif.Fsm Verif.Gen.Rfc5424

def setData (d : Bytes) (m : M) : M := { m with data := d }

def mapStep (f : M → M) : Step M → Step M
  | .next m => .next (f m)
  | .jump m s => .jump (f m) s
  | .panic => .panic

def mapRes (f : M → M) : Res M → Res M
  | .done cs m => .done cs (f m)
  | .panic => .panic
  | .loop => .loop

theorem slice_prefix {pre x : Bytes} {a : Nat} : slice (pre ++ x) a pre.length = slice pre a pre.length := by
  unfold slice
  by_cases h : a ≤ pre.length
  · rw [if_pos ⟨h, by simp⟩, if_pos ⟨h, by simp⟩, List.drop_append_of_le_length h, List.take_append_of_le_length (by simp)]
  · rw [if_neg (fun h' => h h'.1), if_neg (fun h' => h h'.1)]

/-- the machine has read exactly `pre` of its input -/
def Read (pre : Bytes) (m : M) : Prop := (∃ x, m.data = pre ++ x) ∧ m.p = pre.length

theorem withText_data {pre x : Bytes} {m : M} {f f' : Bytes → Step M} (h : Read pre m)
    (hf : ∀ t, f' t = mapStep (setData (pre ++ x)) (f t)) :
    withText (setData (pre ++ x) m) f' = mapStep (setData (pre ++ x)) (withText m f) := by
  obtain ⟨⟨y, h1⟩, h2⟩ := h
  have e : (setData (pre ++ x) m).text = m.text := by
    simp only [M.text, setData, h1, h2, slice_prefix]
  unfold withText
  rw [e]
  cases m.text with
  | none => rfl
  | some t => exact hf t

theorem act_data {pre x : Bytes} (a : Act) {m : M} (h : Read pre m) :
    act a (setData (pre ++ x) m) = mapStep (setData (pre ++ x)) (act a m) := by
  cases a <;> try rfl
  case selectMsgMode =>
    obtain ⟨data, p, pb, err, ce, cp, ma, bs, be, co, out⟩ := m
    cases co <;> rfl
  case setPrival => exact withText_data h fun t => rfl
  case setVersion => exact withText_data h fun t => rfl
  case setTimestamp =>
    refine withText_data h fun t => ?_
    cases GoTime.parseRFC3339Micro t <;> rfl
  case setHostname => exact withText_data h fun t => rfl
  case setAppname => exact withText_data h fun t => rfl
  case setProcid => exact withText_data h fun t => rfl
  case setMsgid => exact withText_data h fun t => rfl
  case setMsg => exact withText_data h fun t => rfl
  case setParamname => exact withText_data h fun t => rfl
  case setId =>
    refine withText_data h fun t => ?_
    simp only [setData]
    cases m.out.structuredData with
    | none => rfl
    | some sd =>
      simp only []
      cases sd.find t <;> rfl
  case setParamvalue =>
    simp only [act]
    rw [show (setData (pre ++ x) m).out.hasElements = m.out.hasElements from rfl]
    split
    · refine withText_data h fun t => ?_
      generalize hx : (if m.backslashat.length > 0 then
            Common.removeBytes t (m.backslashat.map Int.ofNat) m.pb else some t) = tx
      have hy : (if (setData (pre ++ x) m).backslashat.length > 0 then
            Common.removeBytes t ((setData (pre ++ x) m).backslashat.map Int.ofNat) (setData (pre ++ x) m).pb else some t) = tx := hx
      rw [hy]
      cases tx with
      | none => rfl
      | some text =>
        simp only [setData]
        cases m.out.structuredData with
        | none => rfl
        | some sd =>
          simp only []
          cases sd.find m.currentelem <;> rfl
    · rfl
  case errMsg =>
    obtain ⟨⟨y, h1⟩, h2⟩ := h
    obtain ⟨data, p, pb, err, ce, cp, ma, bs, be, co, out⟩ := m
    simp only at h1 h2
    subst h1 h2
    simp only [act, setData, slice_prefix]
    split
    · split <;> rfl
    · rfl

/-- what a single action does to position and error -/
def StepOk (m : M) : Step M → Prop
  | .next m' => m'.p = m.p ∧ m'.data = m.data ∧ m'.err = m.err
  | .jump m' s => m'.p = m.p ∧ m'.data = m.data ∧
      ((s = 614 ∧ ∃ k, m'.err = some ⟨k, m.p⟩) ∨ ((s = 607 ∨ s = 609) ∧ m'.err = m.err))
  | .panic => True

theorem stepOk_fail {m m' : M} {k : ErrKind} (h1 : m'.p = m.p) (h2 : m'.data = m.data) : StepOk m (fail k m') := by
  refine ⟨h1, h2, Or.inl ⟨rfl, k, ?_⟩⟩
  simp [h1]

theorem stepOk_text {m : M} {f : Bytes → Step M} (h : ∀ t, StepOk m (f t)) : StepOk m (withText m f) := by
  unfold withText
  cases m.text with
  | none => trivial
  | some t => exact h t

theorem act_ok (a : Act) (m : M) : StepOk m (act a m) := by
  have hn : ∀ o : Out, StepOk m (.next { m with out := o }) := fun o => ⟨rfl, rfl, rfl⟩
  cases a <;> simp only [act] <;> try first | exact stepOk_fail rfl rfl | exact ⟨rfl, rfl, rfl⟩
  case selectMsgMode =>
    split
    · exact ⟨rfl, rfl, Or.inr ⟨Or.inr rfl, rfl⟩⟩
    · exact ⟨rfl, rfl, Or.inr ⟨Or.inl rfl, rfl⟩⟩
  case setPrival => exact stepOk_text fun t => hn _
  case setVersion => exact stepOk_text fun t => hn _
  case setTimestamp =>
    refine stepOk_text fun t => ?_
    split
    · exact stepOk_fail rfl rfl
    · exact hn _
  case setHostname => exact stepOk_text fun t => hn _
  case setAppname => exact stepOk_text fun t => hn _
  case setProcid => exact stepOk_text fun t => hn _
  case setMsgid => exact stepOk_text fun t => hn _
  case setMsg => exact stepOk_text fun t => hn _
  case setParamname => exact stepOk_text fun t => ⟨rfl, rfl, rfl⟩
  case setId =>
    refine stepOk_text fun t => ?_
    split
    · trivial
    · split
      · exact stepOk_fail rfl rfl
      · exact ⟨rfl, rfl, rfl⟩
  case setParamvalue =>
    split
    · refine stepOk_text fun t => ?_
      split
      · trivial
      · split
        · trivial
        · split
          · trivial
          · exact hn _
    · exact ⟨rfl, rfl, rfl⟩
  case errMsg =>
    split
    · split
      · trivial
      · exact stepOk_fail rfl rfl
    · exact stepOk_fail rfl rfl

theorem runActs_ok (as : List Act) (m : M) : StepOk m (runActs act as m) := by
  induction as generalizing m with
  | nil => exact ⟨rfl, rfl, rfl⟩
  | cons a as ih =>
    have h1 := act_ok a m
    simp only [runActs]
    cases hh : act a m with
    | panic => trivial
    | jump m' s => rw [hh] at h1; exact h1
    | next m' =>
      rw [hh] at h1
      obtain ⟨e1, e2, e3⟩ := h1
      have h2 := ih m'
      simp only []
      cases hr : runActs act as m' with
      | panic => trivial
      | next m'' => rw [hr] at h2; exact ⟨h2.1.trans e1, h2.2.1.trans e2, h2.2.2.trans e3⟩
      | jump m'' s =>
        rw [hr] at h2
        refine ⟨h2.1.trans e1, h2.2.1.trans e2, ?_⟩
        rcases h2.2.2 with ⟨h, k, hk⟩ | ⟨h, hk⟩
        · exact Or.inl ⟨h, k, by rw [hk, e1]⟩
        · exact Or.inr ⟨h, hk.trans e3⟩

theorem runActs_data {pre x : Bytes} (as : List Act) {m : M} (h : Read pre m) :
    runActs act as (setData (pre ++ x) m) = mapStep (setData (pre ++ x)) (runActs act as m) := by
  induction as generalizing m with
  | nil => rfl
  | cons a as ih =>
    have h1 := act_ok a m
    simp only [runActs, act_data a h]
    cases hh : act a m with
    | panic => rfl
    | jump m' s => rfl
    | next m' =>
      rw [hh] at h1
      exact ih ⟨by rw [h1.2.1]; exact h.1, by rw [h1.1]; exact h.2⟩

/-- actions that never fall through -/
def jumps : Act → Bool
  | .selectMsgMode | .errPrival | .errPri | .errVersion | .errTimestamp | .errHostname | .errAppname | .errProcid | .errMsgid
  | .errStructureddata | .errSdid | .errSdparam | .errMsg | .errEscape | .errParse => true
  | _ => false

theorem act_jumps {a : Act} (h : jumps a = true) (m m' : M) : act a m ≠ .next m' := by
  cases a <;> simp [jumps] at h <;> simp only [act, fail] <;> try simp
  case selectMsgMode => split <;> simp
  case errMsg =>
    split
    · split <;> simp
    · simp

theorem runActs_jumps {as : List Act} (h : as.any jumps = true) (m m' : M) : runActs act as m ≠ .next m' := by
  induction as generalizing m with
  | nil => simp at h
  | cons a as ih =>
    simp only [runActs]
    cases hh : act a m with
    | panic => simp
    | jump m' s => simp
    | next m1 =>
      simp only []
      apply ih
      cases hj : jumps a with
      | true => exact absurd hh (act_jumps hj m m1)
      | false => simpa [hj] using h

/-- a state in which no error has happened -/
def Live (cs : Nat) : Prop := cs ≠ 0 ∧ cs ≠ 614 ∧ cs < 615

def labelOk (l : Label Act) : Bool := l.acts.any jumps || (l.tgt != 0 && l.tgt != 614 && decide (l.tgt < 615))

theorem rows_ok : ∀ n, n < 615 → n ≠ 0 → n ≠ 614 → ((T n).rng.all fun x => labelOk x.2.2) = true ∧ labelOk (T n).dflt = true := by
  decide +kernel

theorem lookup_ok {b : Nat} {r : List (Nat × Nat × Label Act)} {d : Label Act} (h1 : (r.all fun x => labelOk x.2.2) = true)
    (h2 : labelOk d = true) : labelOk (lookup b r d) = true := by
  induction r with
  | nil => exact h2
  | cons x r ih =>
    simp only [List.all_cons, Bool.and_eq_true] at h1
    simp only [lookup]
    split
    · exact h1.1
    · exact ih h1.2

/-- outcome of reading one byte -/
def ByteOk (m : M) : Res M → Prop
  | .done cs' m' => m'.data = m.data ∧
      ((Live cs' ∧ m'.p = m.p + 1 ∧ m'.err = none) ∨ ((cs' = 0 ∨ cs' = 614) ∧ ∃ k, m'.err = some ⟨k, m.p⟩))
  | _ => True

theorem step614 {b : UInt8} {fuel : Nat} {m : M} :
    stepByte T act adv b (fuel + 1) 614 m = .done 0 m ∨ stepByte T act adv b (fuel + 1) 614 m = .done 614 (adv m) := by
  by_cases h : b.toNat = 10 ∨ b.toNat = 13
  · left
    have : (T 614).dispatch b.toNat = st 0 := by
      rcases h with h | h <;> simp [T_614, Row.dispatch, lookup, h]
    simp only [stepByte, this]
    rw [T_614]; rfl
  · right
    have : (T 614).dispatch b.toNat = st 614 := by
      have h1 : ¬(10 ≤ b.toNat ∧ b.toNat ≤ 10) := by omega
      have h2 : ¬(13 ≤ b.toNat ∧ b.toNat ≤ 13) := by omega
      simp only [T_614, Row.dispatch, lookup, h1, h2]; rfl
    simp only [stepByte, this]
    rw [T_614]; rfl

theorem step614_ok {b : UInt8} {fuel : Nat} {m m' : M} {k : ErrKind} (hd : m'.data = m.data) (hk : m'.err = some ⟨k, m.p⟩) :
    ByteOk m (stepByte T act adv b fuel 614 m') := by
  cases fuel with
  | zero => trivial
  | succ fuel =>
    have := step614 (b := b) (fuel := fuel) (m := m')
    generalize stepByte T act adv b (fuel + 1) 614 m' = r at this ⊢
    rcases this with rfl | rfl
    · exact ⟨hd, Or.inr ⟨Or.inl rfl, k, hk⟩⟩
    · exact ⟨hd, Or.inr ⟨Or.inr rfl, k, hk⟩⟩

theorem stepByte_ok {b : UInt8} : ∀ (fuel cs : Nat) (m : M), Live cs → m.err = none → ByteOk m (stepByte T act adv b fuel cs m) := by
  intro fuel
  induction fuel with
  | zero => intros; trivial
  | succ fuel ih =>
    intro cs m hl he
    have jmp : ∀ (m0 m' : M) (s : Nat), m0.p = m.p → m0.data = m.data → m0.err = none → StepOk m0 (.jump m' s) →
        ByteOk m (stepByte T act adv b fuel s m') := by
      intro m0 m' s e1 e2 e3 ⟨h1, h2, h3⟩
      rcases h3 with ⟨rfl, k, hk⟩ | ⟨hs, hk⟩
      · exact step614_ok (h2.trans e2) (hk.trans (by rw [e1]))
      · have hl' : Live s := by unfold Live; omega
        have := ih s m' hl' (hk.trans e3)
        cases hr : stepByte T act adv b fuel s m' with
        | panic => trivial
        | loop => trivial
        | done cs' m'' =>
          rw [hr] at this
          refine ⟨this.1.trans (h2.trans e2), ?_⟩
          rw [← e1, ← h1]; exact this.2
    simp only [stepByte]
    have h1 := runActs_ok (T cs).frm m
    cases hh : runActs act (T cs).frm m with
    | panic => trivial
    | jump m' s => rw [hh] at h1; exact jmp m m' s rfl rfl he h1
    | next m' =>
      rw [hh] at h1
      have h2 := runActs_ok ((T cs).dispatch b.toNat).acts m'
      simp only []
      cases hh2 : runActs act ((T cs).dispatch b.toNat).acts m' with
      | panic => trivial
      | jump m'' s => rw [hh2] at h2; exact jmp m' m'' s h1.1 h1.2.1 (h1.2.2.trans he) h2
      | next m'' =>
        rw [hh2] at h2
        have hrow := rows_ok cs hl.2.2 hl.1 hl.2.1
        have hlab : labelOk ((T cs).dispatch b.toNat) = true := lookup_ok (b := b.toNat) hrow.1 hrow.2
        have hnj : ((T cs).dispatch b.toNat).acts.any jumps = false := by
          cases hj : ((T cs).dispatch b.toNat).acts.any jumps with
          | false => rfl
          | true => exact absurd hh2 (runActs_jumps hj _ _)
        simp only [labelOk, hnj, Bool.false_or, Bool.and_eq_true, bne_iff_ne, decide_eq_true_eq] at hlab
        simp only []
        rw [if_neg hlab.1.1]
        exact ⟨h2.2.1.trans h1.2.1, Or.inl ⟨⟨hlab.1.1, hlab.1.2, hlab.2⟩, by simp only [adv]; rw [h2.1, h1.1],
          h2.2.2.trans (h1.2.2.trans he)⟩⟩

theorem stepByte_data {pre x : Bytes} {b : UInt8} : ∀ (fuel cs : Nat) (m : M), Read pre m →
    stepByte T act adv b fuel cs (setData (pre ++ x) m) = mapRes (setData (pre ++ x)) (stepByte T act adv b fuel cs m) := by
  intro fuel
  induction fuel with
  | zero => intros; rfl
  | succ fuel ih =>
    intro cs m hr
    simp only [stepByte, runActs_data _ hr]
    have h1 := runActs_ok (T cs).frm m
    cases hh : runActs act (T cs).frm m with
    | panic => rfl
    | jump m' s =>
      rw [hh] at h1
      exact ih s m' ⟨by rw [h1.2.1]; exact hr.1, by rw [h1.1]; exact hr.2⟩
    | next m' =>
      rw [hh] at h1
      have hr' : Read pre m' := ⟨by rw [h1.2.1]; exact hr.1, by rw [h1.1]; exact hr.2⟩
      have h2 := runActs_ok ((T cs).dispatch b.toNat).acts m'
      simp only [mapStep, runActs_data _ hr']
      cases hh2 : runActs act ((T cs).dispatch b.toNat).acts m' with
      | panic => rfl
      | jump m'' s =>
        rw [hh2] at h2
        exact ih s m'' ⟨by rw [h2.2.1]; exact hr'.1, by rw [h2.1]; exact hr'.2⟩
      | next m'' =>
        simp only [mapStep]
        split <;> rfl

theorem runEof_ok : ∀ (fuel cs : Nat) (m : M), m.err = none → ∀ cs' m', runEof T act fuel cs m = .done cs' m' →
    ∀ e, m'.err = some e → e.col = m.p := by
  intro fuel
  induction fuel with
  | zero => intro cs m _ cs' m' h; simp [runEof] at h
  | succ fuel ih =>
    intro cs m he cs' m' h e hm
    simp only [runEof] at h
    have h1 := runActs_ok (T cs).eof m
    cases hh : runActs act (T cs).eof m with
    | panic => rw [hh] at h; simp at h
    | next m1 =>
      rw [hh] at h h1
      simp only [Res.done.injEq] at h
      rw [← h.2, h1.2.2, he] at hm
      simp at hm
    | jump m1 s =>
      rw [hh] at h h1
      simp only [] at h
      rcases h1.2.2 with ⟨rfl, k, hk⟩ | ⟨hs, hk⟩
      · cases fuel with
        | zero => simp [runEof] at h
        | succ fuel =>
          simp only [runEof, T_614, runActs, Res.done.injEq] at h
          rw [← h.2, hk] at hm
          simp only [Option.some.injEq] at hm
          rw [← hm]
      · rw [← h1.1]; exact ih s m1 (hk.trans he) cs' m' h e hm

/-- The column of an error is in the input, and the prefix up to it decides the outcome. -/
theorem run_prefix : ∀ (bs : Bytes) (pre : Bytes) (cs : Nat) (m : M), Live cs → m.err = none → m.data = pre ++ bs →
    m.p = pre.length → ∀ cs' m' e, go bs cs m = .done cs' m' → m'.err = some e →
    e.col = pre.length + bs.length ∨
    ∃ com b r, bs = com ++ b :: r ∧ e.col = pre.length + com.length ∧
      ∀ r2, ∃ cs2 m2, go (com ++ b :: r2) cs (setData (pre ++ (com ++ b :: r2)) m) = .done cs2 m2 ∧ (cs2 = 0 ∨ cs2 = 614) ∧
        m2.err = some e ∧ m2.out = m'.out := by
  intro bs
  induction bs with
  | nil =>
    intro pre cs m hl he hd hp cs' m' e h hm
    left
    rw [runEof_ok _ _ _ he cs' m' h e hm, hp]; simp
  | cons b bs ih =>
    intro pre cs m hl he hd hp cs' m' e h hm
    have hread : Read pre m := ⟨⟨_, hd⟩, hp⟩
    have h1 := stepByte_ok (b := b) jumpFuel cs m hl he
    simp only [go, run] at h
    cases hs : stepByte T act adv b jumpFuel cs m with
    | panic => rw [hs] at h; simp at h
    | loop => rw [hs] at h; simp at h
    | done cs1 m1 =>
      rw [hs] at h h1
      obtain ⟨hd1, h1⟩ := h1
      rcases h1 with ⟨hl1, hp1, he1⟩ | ⟨hc, k, hk⟩
      · -- no error yet
        cases cs1 with
        | zero => exact absurd rfl hl1.1
        | succ n =>
          simp only [] at h
          have := ih (pre ++ [b]) (n + 1) m1 hl1 he1 (by rw [hd1, hd]; simp) (by rw [hp1, hp]; simp) cs' m' e h hm
          rcases this with hcol | ⟨com, b', r, rfl, hcol, hall⟩
          · left; rw [hcol]; simp; omega
          · right
            refine ⟨b :: com, b', r, rfl, by rw [hcol]; simp; omega, fun r2 => ?_⟩
            obtain ⟨cs2, m2, g1, g2, g3, g4⟩ := hall r2
            refine ⟨cs2, m2, ?_, g2, g3, g4⟩
            rw [← g1]
            simp only [go, List.cons_append, run, stepByte_data jumpFuel cs m hread, hs, mapRes]
            simp
      · -- the error happens at this byte
        right
        have he' : ∀ e' : Err, m1.err = some e' → e' = ⟨k, m.p⟩ := by intro e' h; rw [hk] at h; simpa using h.symm
        rcases hc with rfl | rfl
        · simp only [Res.done.injEq] at h
          obtain ⟨-, rfl⟩ := h
          refine ⟨[], b, bs, rfl, by rw [he' e hm]; simp [hp], fun r2 => ?_⟩
          refine ⟨0, setData (pre ++ (b :: r2)) m1, ?_, Or.inl rfl, hm, rfl⟩
          simp only [go, List.nil_append, run, stepByte_data jumpFuel cs m hread, hs, mapRes]
        · simp only [] at h
          obtain ⟨cs2, m2, g1, g2, g3, g4⟩ := run614 bs m1
          rw [show run T act adv bs (613 + 1) m1 = go bs 614 m1 from rfl, g1] at h
          simp only [Res.done.injEq] at h
          obtain ⟨-, rfl⟩ := h
          rw [g3] at hm
          refine ⟨[], b, bs, rfl, by rw [he' e hm]; simp [hp], fun r2 => ?_⟩
          obtain ⟨cs3, m3, k1, k2, k3, k4⟩ := run614 r2 (setData (pre ++ (b :: r2)) m1)
          refine ⟨cs3, m3, ?_, k2, by rw [k3]; exact hm, by rw [k4, g4]; rfl⟩
          simp only [go, List.nil_append, run, stepByte_data jumpFuel cs m hread, hs, mapRes]
          exact k1

theorem descend_prefix {c : Bool} {input : Bytes} {e : Err} {part : Option Out} (h : descend c input = .err e part) :
    e.col = input.length ∨ e.col < input.length ∧
    ∀ input2, input2.take (e.col + 1) = input.take (e.col + 1) → descend c input2 = .err e part := by
  have h1 := run_descend { compliantMsg := c } input
  rw [show (M.compliantMsg { compliantMsg := c }) = c from rfl, h] at h1
  obtain ⟨cs, m', h2, h3, h4, h5⟩ := h1
  rcases run_prefix input [] 1 (reset { compliantMsg := c } input) ⟨by decide, by decide, by decide⟩ rfl rfl rfl cs m' e h2 h4 with
    h | ⟨com, b, r, rfl, hcol, hall⟩
  · left; simpa using h
  · right
    simp only [List.length_nil, Nat.zero_add] at hcol
    refine ⟨by rw [hcol]; simp, fun input2 ht => ?_⟩
    have hin : ∃ r2, input2 = com ++ b :: r2 := by
      rw [hcol] at ht
      have e1 : List.take (com.length + 1) (com ++ b :: r) = com ++ [b] := by
        rw [List.take_append, List.take_of_length_le (by omega)]; simp
      rw [e1] at ht
      refine ⟨input2.drop (com.length + 1), ?_⟩
      have := List.take_append_drop (com.length + 1) input2
      rw [ht] at this
      simpa using this.symm
    obtain ⟨r2, rfl⟩ := hin
    obtain ⟨cs2, m2, g1, g2, g3, g4⟩ := hall r2
    have h6 := run_descend { compliantMsg := c } (com ++ b :: r2)
    have g1' : run T act adv (com ++ b :: r2) 1 (reset { compliantMsg := c } (com ++ b :: r2)) = .done cs2 m2 := g1
    rw [g1'] at h6
    rw [show (M.compliantMsg { compliantMsg := c }) = c from rfl] at h6
    cases hd : descend c (com ++ b :: r2) with
    | ok o =>
      rw [hd] at h6
      obtain ⟨cs3, m3, k1, k2, k3⟩ := h6
      simp only [Res.done.injEq] at k1
      omega
    | err e2 part2 =>
      rw [hd] at h6
      obtain ⟨cs3, m3, k1, k2, k3, k4⟩ := h6
      simp only [Res.done.injEq] at k1
      rw [← k1.2] at k3 k4
      rw [g3] at k3
      rw [g4, h5] at k4
      simp only [Option.some.injEq] at k3
      rw [k3, k4]

end Verif.Rfc5424
