import Verif.Rfc3164.Descent
import Verif.Rfc5424.DescentHdr

/-! # The automaton computes `descend` -/

namespace Verif.Rfc3164
open Verif.Fsm Verif.Gen.Rfc3164
open Verif.Rfc5424 (isGraph priScan priStep PriSt slice_of_drop drop_add isGraph_iff isGraph_false toNat_eq forall_byte priStep_ne)

/-- the run ends with this observable outcome -/
def Ends (r : Res M) : Fin → Prop
  | .ok out => ∃ cs m, r = .done cs m ∧ ¬(cs < 333 ∨ cs = 373) ∧ m.out = out
  | .stop e out => ∃ cs m, r = .done cs m ∧ (cs < 333 ∨ cs = 373) ∧ m.err = e ∧ m.out = out

abbrev go (o : Opts) (bs : Bytes) (cs : Nat) (m : M) : Res M := run (T o) (act o) adv bs cs m

/-- the rows -/
def TB (b : Bool) (n : Nat) : Row Act := (if b then tableR else table).getD n ⟨[], [], ⟨[], 0⟩, []⟩

theorem T_TB (o : Opts) (n : Nat) : T o n = TB o.rfc3339 n := rfl

/-- the machine is about to read `rest` and has no error -/
structure At (m : M) (rest : Bytes) : Prop where
  le : m.p ≤ m.data.length
  eq : m.data.drop m.p = rest
  err : m.err = none

theorem At.adv {m : M} {b : UInt8} {r : Bytes} (h : At m (b :: r)) : At (adv m) r := by
  have hlen : m.data.length - m.p = r.length + 1 := by have := congrArg List.length h.eq; simpa using this
  refine ⟨by simp only [Rfc3164.adv]; omega, ?_, h.err⟩
  have : m.data.drop (m.p + 1) = (m.data.drop m.p).drop 1 := by rw [List.drop_drop]
  simp only [Rfc3164.adv, this, h.eq, List.drop_succ_cons, List.drop_zero]

theorem slice_eq (d : Bytes) (a b : Nat) : slice d a b = Rfc5424.slice d a b := rfl

theorem text_of {m : M} {w rest : Bytes} (ha : m.pb ≤ m.data.length) (h : m.data.drop m.pb = w ++ rest) (hp : m.p = m.pb + w.length) :
    m.text = some w := by
  rw [M.text, hp, slice_eq]; exact slice_of_drop ha h

theorem text_snoc {m : M} {w r : Bytes} {b : UInt8} (h : m.text = some w) (hat : At m (b :: r)) :
    (adv m).text = some (w ++ [b]) := by
  simp only [M.text, slice] at h ⊢
  split at h
  · rename_i hle
    simp only [Option.some.injEq] at h
    have hat' := hat.adv
    have h1 := hat'.le
    rw [if_pos ⟨by simp only [adv]; omega, h1⟩]
    simp only [adv] at h1 ⊢
    have hdd : (m.data.drop m.pb).drop (m.p - m.pb) = b :: r := by
      rw [List.drop_drop, show m.pb + (m.p - m.pb) = m.p by omega, hat.eq]
    rw [show m.p + 1 - m.pb = (m.p - m.pb) + 1 by omega, List.take_add, h, hdd]
    rfl
  · simp at h

theorem advN_eq (n : Nat) (m : M) : advN adv n m = { m with p := m.p + n } := by
  induction n generalizing m with
  | zero => rfl
  | succ n ih => simp only [advN, ih, adv]; congr 1; omega

theorem At.addn {m : M} {w rest : Bytes} (h : At m (w ++ rest)) : At { m with p := m.p + w.length } rest := by
  have hlen := congrArg List.length h.eq
  simp only [List.length_drop, List.length_append] at hlen
  have := h.le
  exact ⟨by simp only []; omega, drop_add h.eq, h.err⟩

theorem T_373 (o : Opts) : T o 373 = ⟨[], [(10, 10, st 0), (13, 13, st 0)], st 373, []⟩ :=
  (by decide +kernel : ∀ b, TB b 373 = _) o.rfc3339

theorem run373 (o : Opts) (bs : Bytes) (m : M) : ∃ cs m', go o bs 373 m = .done cs m' ∧ (cs = 0 ∨ cs = 373) ∧
    m'.err = m.err ∧ m'.out = m.out := by
  induction bs generalizing m with
  | nil => exact ⟨373, m, by simp [go, run, runEof, jumpFuel, T_373, runActs], Or.inr rfl, rfl, rfl⟩
  | cons b bs ih =>
    by_cases h : b.toNat = 10 ∨ b.toNat = 13
    · refine ⟨0, m, ?_, Or.inl rfl, rfl, rfl⟩
      have : (T o 373).dispatch b.toNat = st 0 := by
        rcases h with h | h <;> simp [T_373, Row.dispatch, lookup, h]
      exact run_stop this (m1 := m) (by rw [T_373]; rfl) rfl
    · have : (T o 373).dispatch b.toNat = ⟨[], 372 + 1⟩ := by
        have h1 : ¬(10 ≤ b.toNat ∧ b.toNat ≤ 10) := by omega
        have h2 : ¬(13 ≤ b.toNat ∧ b.toNat ≤ 13) := by omega
        simp only [T_373, Row.dispatch, lookup, h1, h2]; rfl
      rw [go, run_simple (by rw [T_373]) this]
      obtain ⟨cs, m', h1, h2, h3, h4⟩ := ih (adv m)
      exact ⟨cs, m', h1, h2, h3, h4⟩

theorem ends373 (o : Opts) (bs : Bytes) (m : M) : Ends (go o bs 373 m) (.stop m.err m.out) := by
  obtain ⟨cs, m', h1, h2, h3, h4⟩ := run373 o bs m
  exact ⟨cs, m', h1, by omega, h3, h4⟩

theorem go_jump373 {o : Opts} {b : UInt8} {bs : Bytes} {cs : Nat} {m m1 m2 : M}
    (h1 : runActs (act o) (T o cs).frm m = .next m1)
    (h2 : runActs (act o) ((T o cs).dispatch b.toNat).acts m1 = .jump m2 373) : go o (b :: bs) cs m = go o (b :: bs) 373 m2 := by
  simp only [go, run_cons, show jumpFuel = 3 + 1 from rfl]
  rw [stepByte_jump h1 h2]
  by_cases h : b.toNat = 10 ∨ b.toNat = 13
  · have : (T o 373).dispatch b.toNat = st 0 := by
      rcases h with h | h <;> simp [T_373, Row.dispatch, lookup, h]
    rw [stepByte_stop this (m1 := m2) (m2 := m2) (by rw [T_373]; rfl) rfl,
      stepByte_stop this (m1 := m2) (m2 := m2) (by rw [T_373]; rfl) rfl]
  · have : (T o 373).dispatch b.toNat = ⟨[], 372 + 1⟩ := by
      have h1 : ¬(10 ≤ b.toNat ∧ b.toNat ≤ 10) := by omega
      have h2 : ¬(13 ≤ b.toNat ∧ b.toNat ≤ 13) := by omega
      simp only [T_373, Row.dispatch, lookup, h1, h2]; rfl
    rw [stepByte_next this (m1 := m2) (m2 := m2) (by rw [T_373]; rfl) rfl,
      stepByte_next this (m1 := m2) (m2 := m2) (by rw [T_373]; rfl) rfl]

/-- an error raised while reading a byte -/
theorem ends_fail {o : Opts} {b : UInt8} {bs : Bytes} {cs : Nat} {m m1 m2 : M} {k : ErrKind}
    (h1 : runActs (act o) (T o cs).frm m = .next m1)
    (h2 : runActs (act o) ((T o cs).dispatch b.toNat).acts m1 = fail k m2) :
    Ends (go o (b :: bs) cs m) (mkErr k m2.p m2.out) := by
  rw [go_jump373 h1 (m2 := { m2 with err := some ⟨k, m2.p⟩ }) h2]
  exact ends373 o _ _

/-- an error raised at the end of the input -/
theorem ends_fail_eof {o : Opts} {cs : Nat} {m m2 : M} {k : ErrKind}
    (h2 : runActs (act o) (T o cs).eof m = fail k m2) :
    Ends (go o [] cs m) (mkErr k m2.p m2.out) := by
  have : go o [] cs m = go o [] 373 { m2 with err := some ⟨k, m2.p⟩ } := by
    simp only [go, run, runEof, jumpFuel, h2, fail, T_373, runActs]
  rw [this]
  exact ends373 o _ _

/-- success at the end of the input -/
theorem ends_ok_eof {o : Opts} {cs : Nat} {m m2 : M} (hcs : ¬(cs < 333 ∨ cs = 373))
    (h2 : runActs (act o) (T o cs).eof m = .next m2) : Ends (go o [] cs m) (.ok m2.out) :=
  ⟨cs, m2, by simp only [go, run, runEof, jumpFuel, h2], hcs, rfl⟩

/-- stuck at the end of the input -/
theorem ends_stop_eof {o : Opts} {cs : Nat} {m : M} (hcs : cs < 333) (he : m.err = none)
    (h2 : (T o cs).eof = []) : Ends (go o [] cs m) (.stop none m.out) :=
  ⟨cs, m, by simp only [go, run, runEof, jumpFuel, h2, runActs], Or.inl hcs, he, rfl⟩

/-- stuck on a byte -/
theorem ends_stop {o : Opts} {b : UInt8} {bs : Bytes} {cs : Nat} {m : M} (he : m.err = none)
    (h1 : (T o cs).frm = []) (h2 : (T o cs).dispatch b.toNat = ⟨[], 0⟩) : Ends (go o (b :: bs) cs m) (.stop none m.out) :=
  ⟨0, m, run_stop h2 (m1 := m) (by rw [h1]; rfl) rfl, Or.inl (by omega), he, rfl⟩

theorem dispatch_cons_in {lo hi n : Nat} {l d : Label Act} {frm : List Act} {eof : List Act}
    {r : List (Nat × Nat × Label Act)} (h : lo ≤ n ∧ n ≤ hi) :
    Row.dispatch ⟨frm, (lo, hi, l) :: r, d, eof⟩ n = l := by simp [Row.dispatch, lookup, h]

theorem dispatch_cons_out {lo hi n : Nat} {l d : Label Act} {frm : List Act} {eof : List Act}
    {r : List (Nat × Nat × Label Act)} (h : ¬(lo ≤ n ∧ n ≤ hi)) :
    Row.dispatch ⟨frm, (lo, hi, l) :: r, d, eof⟩ n = Row.dispatch ⟨frm, r, d, eof⟩ n := by
  simp only [Row.dispatch, lookup, if_neg h]

theorem dispatch_nil {n : Nat} {d : Label Act} {frm : List Act} {eof : List Act} :
    Row.dispatch ⟨frm, [], d, eof⟩ n = d := rfl

/-! ## text up to the end (state 333) -/

theorem isCtl_iff {b : UInt8} : isCtl b = true ↔ b.toNat ≤ 31 ∨ b.toNat = 127 := by simp [isCtl]
theorem isCtl_false {b : UInt8} : isCtl b = false ↔ ¬(b.toNat ≤ 31 ∨ b.toNat = 127) := by rw [← isCtl_iff]; simp

theorem T_333 (o : Opts) : T o 333 = ⟨[], [(0, 31, st 0), (127, 127, st 0)], st 333, [.setMessage]⟩ :=
  (by decide +kernel : ∀ b, TB b 333 = _) o.rfc3339

theorem disp_333 (o : Opts) (b : UInt8) : (T o 333).dispatch b.toNat = if isCtl b then st 0 else st 333 := by
  rw [T_333]
  by_cases h : isCtl b = true
  · rw [if_pos h]
    by_cases h1 : b.toNat ≤ 31
    · rw [dispatch_cons_in (by omega)]
    · rw [dispatch_cons_out (by omega), dispatch_cons_in (by have := isCtl_iff.mp h; omega)]
  · rw [if_neg h]
    have := isCtl_false.mp (by simpa using h)
    rw [dispatch_cons_out (by omega), dispatch_cons_out (by omega), dispatch_nil]

/-- in state 333, with `w` read since the mark -/
theorem text_phase (o : Opts) : ∀ (rest : Bytes) (w : Bytes) (m : M), At m rest → m.text = some w →
    Ends (go o rest 333 m) (dText (w ++ rest) rest m.out) := by
  intro rest
  induction rest with
  | nil =>
    intro w m hat htx
    have := ends_ok_eof (o := o) (cs := 333) (m := m) (m2 := { m with out := { m.out with message := w } }) (by omega)
      (by rw [T_333]; simp only [runActs, act, withText, htx])
    simpa [dText] using this
  | cons b r ih =>
    intro w m hat htx
    by_cases hb : isCtl b = true
    · have : dText (w ++ b :: r) (b :: r) m.out = .stop none m.out := by simp [dText, hb]
      rw [this]
      exact ends_stop hat.err (by rw [T_333]) (by rw [disp_333, if_pos hb])
    · have hstep : go o (b :: r) 333 m = go o r 333 (adv m) :=
        run_simple (by rw [T_333]) (by rw [disp_333, if_neg hb])
      rw [hstep]
      have := ih (w ++ [b]) (adv m) hat.adv (text_snoc htx hat)
      have e : dText (w ++ b :: r) (b :: r) m.out = dText ((w ++ [b]) ++ r) r (adv m).out := by
        simp [dText, hb, adv]
      rw [e]; exact this

/-! ## `tag[...` -/

theorem T_cont (o : Opts) : T o 23 = ⟨[], [(93, 93, ⟨[.setContent], 24⟩)], st 23, []⟩ ∧
    T o 24 = ⟨[], [(58, 58, st 25), (93, 93, ⟨[.setContent], 24⟩)], st 23, []⟩ ∧
    T o 25 = ⟨[], [(32, 32, st 26), (93, 93, ⟨[.setContent], 24⟩)], st 23, []⟩ ∧
    T o 26 = ⟨[], [(0, 31, st 23), (93, 93, ⟨[.setContent, .mark], 370⟩), (127, 127, st 23)], ⟨[.mark], 369⟩, []⟩ ∧
    T o 368 = ⟨[], [(0, 31, ⟨[.mark], 23⟩), (93, 93, ⟨[.mark, .setContent], 370⟩), (127, 127, ⟨[.mark], 23⟩)], ⟨[.mark], 369⟩, [.setMessage]⟩ ∧
    T o 369 = ⟨[], [(0, 31, st 23), (93, 93, ⟨[.setContent], 370⟩), (127, 127, st 23)], st 369, [.setMessage]⟩ ∧
    T o 370 = ⟨[], [(0, 31, st 23), (58, 58, st 371), (93, 93, ⟨[.setContent], 370⟩), (127, 127, st 23)], st 369, [.setMessage]⟩ ∧
    T o 371 = ⟨[], [(0, 31, st 23), (32, 32, st 372), (93, 93, ⟨[.setContent], 370⟩), (127, 127, st 23)], st 369, [.setMessage]⟩ ∧
    T o 372 = ⟨[], [(0, 31, st 23), (93, 93, ⟨[.setContent, .mark], 370⟩), (127, 127, st 23)], ⟨[.mark], 369⟩, [.setMessage]⟩ :=
  (by decide +kernel : ∀ b, TB b 23 = _ ∧ TB b 24 = _ ∧ TB b 25 = _ ∧ TB b 26 = _ ∧ TB b 368 = _ ∧ TB b 369 = _ ∧ TB b 370 = _ ∧
    TB b 371 = _ ∧ TB b 372 = _) o.rfc3339

/-- state number of `dCont clean k` -/
def contSt (clean : Bool) (k : Nat) : Nat := (if clean then 369 else 23) + k

/-- the label of `dCont clean k` on a byte -/
def contLabel (clean : Bool) (k : Nat) (b : UInt8) : Label Act :=
  if b.toNat = 93 then (if k = 3 then ⟨[.setContent, .mark], 370⟩ else ⟨[.setContent], contSt clean 1⟩)
  else if isCtl b then st 23
  else if k = 3 then ⟨[.mark], 369⟩
  else st (contSt clean (if k = 1 ∧ b.toNat = 58 then 2 else if k = 2 ∧ b.toNat = 32 then 3 else 0))

theorem cont_disp (o : Opts) (clean : Bool) {k : Nat} (hk : k ≤ 3) (b : UInt8) :
    (T o (contSt clean k)).dispatch b.toNat = contLabel clean k b := by
  have : ∀ f c : Bool, ∀ k : _root_.Fin 4, ∀ n : _root_.Fin 256, (TB f (contSt c k.val)).dispatch (UInt8.ofNat n.val).toNat = contLabel c k.val (UInt8.ofNat n.val) := by
    decide +kernel
  have hb := this o.rfc3339 clean ⟨k, by omega⟩ ⟨b.toNat, b.toNat_lt⟩
  simpa [T_TB] using hb

theorem cont_row (o : Opts) (clean : Bool) {k : Nat} (hk : k ≤ 3) :
    (T o (contSt clean k)).frm = [] ∧ (T o (contSt clean k)).eof = if clean then [.setMessage] else [] := by
  have : ∀ f c : Bool, ∀ k : _root_.Fin 4, (TB f (contSt c k.val)).frm = [] ∧ (TB f (contSt c k.val)).eof = if c then [.setMessage] else [] := by
    decide +kernel
  exact this o.rfc3339 clean ⟨k, by omega⟩

theorem cont_phase (o : Opts) : ∀ (rest : Bytes) (clean : Bool) (k : Nat) (acc : Bytes) (m : M), k ≤ 3 → At m rest →
    m.text = some acc → Ends (go o rest (contSt clean k) m) (dCont clean k acc rest m.out) := by
  intro rest
  induction rest with
  | nil =>
    intro clean k acc m hk hat htx
    obtain ⟨h1, h2⟩ := cont_row o clean hk
    cases clean with
    | true =>
      have := ends_ok_eof (o := o) (cs := contSt true k) (m := m) (m2 := { m with out := { m.out with message := acc } })
        (by simp only [contSt, if_true]; omega) (by rw [h2]; simp only [if_true, runActs, act, withText, htx])
      simpa [dCont] using this
    | false =>
      have := ends_stop_eof (o := o) (cs := contSt false k) (m := m) (by simp only [contSt]; simp; omega) hat.err (by rw [h2]; rfl)
      simpa [dCont] using this
  | cons b r ih =>
    intro clean k acc m hk hat htx
    obtain ⟨h1, h2⟩ := cont_row o clean hk
    have hd := cont_disp o clean hk b
    have hfrm : runActs (act o) (T o (contSt clean k)).frm m = .next m := by rw [h1]; rfl
    have hmark : At { m with pb := m.p } (b :: r) := ⟨hat.le, hat.eq, hat.err⟩
    have hmt : ({ m with pb := m.p } : M).text = some [] := by
      simp [M.text, slice, hat.le]
    have hmt1 : (adv { m with pb := m.p }).text = some [b] := text_snoc hmt hmark
    simp only [dCont]
    simp only [contLabel] at hd
    by_cases h93 : b.toNat = 93
    · rw [if_pos h93] at hd ⊢
      by_cases hk3 : k = 3
      · rw [if_pos hk3] at hd ⊢
        have hstep : go o (b :: r) (contSt clean k) m = go o r (contSt true 1) (adv { m with out := { m.out with content := acc }, pb := m.p }) :=
          run_next hd hfrm (by simp only [runActs, act, withText, htx])
        rw [hstep, show (clean || decide (k = 3)) = true by simp [hk3]]
        exact ih true 1 [b] _ (by omega) ⟨hat.adv.le, hat.adv.eq, hat.adv.err⟩ hmt1
      · rw [if_neg hk3] at hd ⊢
        have hstep : go o (b :: r) (contSt clean k) m = go o r (contSt clean 1) (adv { m with out := { m.out with content := acc } }) := by
          obtain ⟨t, ht⟩ : ∃ t, contSt clean 1 = t + 1 := ⟨_, rfl⟩
          rw [ht] at hd ⊢
          exact run_next hd hfrm (by simp only [runActs, act, withText, htx])
        rw [hstep, show (clean || decide (k = 3)) = clean by simp [hk3]]
        exact ih clean 1 (acc ++ [b]) _ (by omega) ⟨hat.adv.le, hat.adv.eq, hat.adv.err⟩
          (text_snoc (m := { m with out := { m.out with content := acc } }) htx ⟨hat.le, hat.eq, hat.err⟩)
    · rw [if_neg h93] at hd ⊢
      by_cases hc : isCtl b = true
      · rw [if_pos hc] at hd ⊢
        have hstep : go o (b :: r) (contSt clean k) m = go o r (contSt false 0) (adv m) := run_simple h1 hd
        rw [hstep]
        exact ih false 0 (acc ++ [b]) (adv m) (by omega) hat.adv (text_snoc htx hat)
      · rw [if_neg hc] at hd ⊢
        by_cases hk3 : k = 3
        · rw [if_pos hk3] at hd ⊢
          have hstep : go o (b :: r) (contSt clean k) m = go o r (contSt true 0) (adv { m with pb := m.p }) :=
            run_next hd hfrm rfl
          rw [hstep]
          exact ih true 0 [b] _ (by omega) ⟨hat.adv.le, hat.adv.eq, hat.adv.err⟩ hmt1
        · rw [if_neg hk3] at hd ⊢
          obtain ⟨k', hk'⟩ : ∃ k', k' = (if k = 1 ∧ b.toNat = 58 then 2 else if k = 2 ∧ b.toNat = 32 then 3 else 0) := ⟨_, rfl⟩
          rw [← hk'] at hd ⊢
          have hk'3 : k' ≤ 3 := by rw [hk']; (repeat' split) <;> omega
          have hstep : go o (b :: r) (contSt clean k) m = go o r (contSt clean k') (adv m) := by
            obtain ⟨t, ht⟩ : ∃ t, contSt clean k' = t + 1 := ⟨contSt clean k' - 1, by simp only [contSt]; split <;> omega⟩
            rw [ht] at hd ⊢
            exact run_simple h1 hd
          rw [hstep]
          exact ih clean k' (acc ++ [b]) (adv m) hk'3 hat.adv (text_snoc htx hat)

theorem open_phase (o : Opts) (whole rest : Bytes) (m : M) (hat : At m rest) (htx : rest = [] → m.text = some whole) :
    Ends (go o rest 368 m) (dOpen whole rest m.out) := by
  have hrow := (T_cont o).2.2.2.2.1
  cases rest with
  | nil =>
    have := ends_ok_eof (o := o) (cs := 368) (m := m) (m2 := { m with out := { m.out with message := whole } }) (by omega)
      (by rw [hrow]; simp only [runActs, act, withText, htx rfl])
    exact this
  | cons b r =>
    have hmark : At { m with pb := m.p } (b :: r) := ⟨hat.le, hat.eq, hat.err⟩
    have hmt : ({ m with pb := m.p } : M).text = some [] := by
      simp [M.text, slice, hat.le]
    have hmt1 : (adv { m with pb := m.p }).text = some [b] := text_snoc hmt hmark
    have hfrm : runActs (act o) (T o 368).frm m = .next m := by rw [hrow]; rfl
    simp only [dOpen, dCont]
    by_cases h93 : b.toNat = 93
    · rw [if_pos h93]
      have hd : (T o 368).dispatch b.toNat = ⟨[.mark, .setContent], 370⟩ := by
        rw [hrow, dispatch_cons_out (by omega), dispatch_cons_in (by omega)]
      have hstep : go o (b :: r) 368 m = go o r (contSt true 1) (adv { m with out := { m.out with content := [] }, pb := m.p }) :=
        run_next hd hfrm (by
          have := hmt
          simp only [runActs, act, withText, this])
      rw [hstep]
      exact cont_phase o r true 1 [b] _ (by omega) ⟨hat.adv.le, hat.adv.eq, hat.adv.err⟩ hmt1
    · rw [if_neg h93]
      by_cases hc : isCtl b = true
      · rw [if_pos hc]
        have hd : (T o 368).dispatch b.toNat = ⟨[.mark], 23⟩ := by
          rw [hrow]
          by_cases h31 : b.toNat ≤ 31
          · rw [dispatch_cons_in (by omega)]
          · rw [dispatch_cons_out (by omega), dispatch_cons_out (by omega), dispatch_cons_in (by have := isCtl_iff.mp hc; omega)]
        have hstep : go o (b :: r) 368 m = go o r (contSt false 0) (adv { m with pb := m.p }) := run_next hd hfrm rfl
        rw [hstep]
        exact cont_phase o r false 0 [b] _ (by omega) ⟨hat.adv.le, hat.adv.eq, hat.adv.err⟩ hmt1
      · rw [if_neg hc, if_pos trivial]
        have hc' := isCtl_false.mp (by simpa using hc)
        have hd : (T o 368).dispatch b.toNat = ⟨[.mark], 369⟩ := by
          rw [hrow, dispatch_cons_out (by omega), dispatch_cons_out (by omega), dispatch_cons_out (by omega), dispatch_nil]
        have hstep : go o (b :: r) 368 m = go o r (contSt true 0) (adv { m with pb := m.p }) := run_next hd hfrm rfl
        rw [hstep]
        exact cont_phase o r true 0 [b] _ (by omega) ⟨hat.adv.le, hat.adv.eq, hat.adv.err⟩ hmt1

/-! ## `tag:...` -/

theorem T_366 (o : Opts) : T o 366 = ⟨[], [(0, 31, st 0), (32, 32, st 367), (127, 127, st 0)], st 333, [.setMessage]⟩ ∧
    T o 367 = ⟨[], [(0, 31, st 0), (127, 127, st 0)], ⟨[.mark], 333⟩, [.setMessage]⟩ :=
  (by decide +kernel : ∀ b, TB b 366 = _ ∧ TB b 367 = _) o.rfc3339

theorem colon_phase (o : Opts) (w rest : Bytes) (m : M) (hat : At m rest) (htx : m.text = some w) :
    Ends (go o rest 366 m) (dColon (w ++ rest) rest m.out) := by
  have hr6 := (T_366 o).1
  have hr7 := (T_366 o).2
  cases rest with
  | nil =>
    have := ends_ok_eof (o := o) (cs := 366) (m := m) (m2 := { m with out := { m.out with message := w } }) (by omega)
      (by rw [hr6]; simp only [runActs, act, withText, htx])
    simpa [dColon, dText] using this
  | cons b r =>
    by_cases h32 : b.toNat = 32
    · have hb : b = 32 := (toNat_eq (n := 32) (by omega)).mp h32
      subst hb
      have hstep : go o (32 :: r) 366 m = go o r 367 (adv m) :=
        run_simple (by rw [hr6]) (by rw [hr6, dispatch_cons_out (by decide), dispatch_cons_in (by decide)])
      rw [hstep]
      have htx1 := text_snoc htx hat
      have hat1 := hat.adv
      cases r with
      | nil =>
        have := ends_ok_eof (o := o) (cs := 367) (m := adv m) (m2 := { adv m with out := { m.out with message := w ++ [32] } }) (by omega)
          (by rw [hr7]; simp only [runActs, act, withText, htx1]; rfl)
        have e : dColon (w ++ [32]) [32] m.out = .ok { m.out with message := w ++ [32] } := by
          simp [dColon, dText, isCtl]
        rw [e]; exact this
      | cons c r' =>
        simp only [dColon]
        by_cases hc : isCtl c = true
        · rw [if_pos hc]
          refine ends_stop hat1.err (by rw [hr7]) ?_
          rw [hr7]
          by_cases h31 : c.toNat ≤ 31
          · rw [dispatch_cons_in (by omega)]
          · rw [dispatch_cons_out (by omega), dispatch_cons_in (by have := isCtl_iff.mp hc; omega)]
        · rw [if_neg hc]
          have hc' := isCtl_false.mp (by simpa using hc)
          have hstep : go o (c :: r') 367 (adv m) = go o r' 333 (adv { adv m with pb := (adv m).p }) :=
            run_next (acts := [.mark]) (m1 := adv m) (by
              rw [hr7, dispatch_cons_out (by omega), dispatch_cons_out (by omega), dispatch_nil]) (by rw [hr7]; rfl) rfl
          rw [hstep]
          have hmt : ({ adv m with pb := (adv m).p } : M).text = some [] := by
            have := hat1.le
            simp [M.text, slice, this]
          exact text_phase o r' [c] _ ⟨hat1.adv.le, hat1.adv.eq, hat1.adv.err⟩ (text_snoc hmt ⟨hat1.le, hat1.eq, hat1.err⟩)
    · have e : dColon (w ++ b :: r) (b :: r) m.out = dText (w ++ b :: r) (b :: r) m.out := by
        unfold dColon
        split
        · rename_i heq; simp at heq; exact absurd (by rw [heq.1]; rfl) h32
        · rfl
      rw [e]
      by_cases hc : isCtl b = true
      · have : dText (w ++ b :: r) (b :: r) m.out = .stop none m.out := by simp [dText, hc]
        rw [this]
        refine ends_stop hat.err (by rw [hr6]) ?_
        rw [hr6]
        by_cases h31 : b.toNat ≤ 31
        · rw [dispatch_cons_in (by omega)]
        · rw [dispatch_cons_out (by omega), dispatch_cons_out (by omega), dispatch_cons_in (by have := isCtl_iff.mp hc; omega)]
      · have hc' := isCtl_false.mp (by simpa using hc)
        have hstep : go o (b :: r) 366 m = go o r 333 (adv m) :=
          run_simple (by rw [hr6]) (by
            rw [hr6, dispatch_cons_out (by omega), dispatch_cons_out (by omega), dispatch_cons_out (by omega), dispatch_nil])
        have e2 : dText (w ++ b :: r) (b :: r) m.out = dText ((w ++ [b]) ++ r) r (adv m).out := by
          simp [dText, hc, adv]
        rw [hstep, e2]
        exact text_phase o r (w ++ [b]) (adv m) hat.adv (text_snoc htx hat)

/-! ## the tag -/

theorem isTag_iff {b : UInt8} : isTag b = true ↔ (33 ≤ b.toNat ∧ b.toNat ≤ 126) ∧ b.toNat ≠ 58 ∧ b.toNat ≠ 91 := by
  simp [isTag, isGraph, and_assoc]

/-- the label of state `334 + j` -/
def tagLabel (j : Nat) (b : UInt8) : Label Act :=
  if isCtl b then st 0 else if b.toNat = 58 then ⟨[.setTag], 366⟩ else if b.toNat = 91 then ⟨[.setTag], 368⟩
  else if isTag b && decide (j < 31) then st (334 + (j + 1)) else st 333

theorem tag_disp (o : Opts) {j : Nat} (hj : j ≤ 31) (b : UInt8) : (T o (334 + j)).dispatch b.toNat = tagLabel j b := by
  have : ∀ f : Bool, ∀ j : _root_.Fin 32, ∀ n : _root_.Fin 256,
      (TB f (334 + j.val)).dispatch (UInt8.ofNat n.val).toNat = tagLabel j.val (UInt8.ofNat n.val) := by
    decide +kernel
  have hb := this o.rfc3339 ⟨j, by omega⟩ ⟨b.toNat, b.toNat_lt⟩
  simpa [T_TB] using hb

theorem tag_row (o : Opts) {j : Nat} (hj : j ≤ 31) : (T o (334 + j)).frm = [] ∧ (T o (334 + j)).eof = [.setMessage] := by
  have : ∀ f : Bool, ∀ j : _root_.Fin 32, (TB f (334 + j.val)).frm = [] ∧ (TB f (334 + j.val)).eof = [.setMessage] := by
    decide +kernel
  exact this o.rfc3339 ⟨j, by omega⟩

theorem dTag_other {whole w t : Bytes} {out : Out} (h1 : ∀ r, t ≠ 58 :: r) (h2 : ∀ r, t ≠ 91 :: r) :
    dTag whole w t out = dText whole t out := by
  unfold dTag
  split
  · exact absurd rfl (h1 _)
  · exact absurd rfl (h2 _)
  · rfl

theorem T_22 (o : Opts) (b : UInt8) : (T o 22).dispatch b.toNat =
    if isCtl b then ⟨[.errTag], 0⟩ else if isTag b then ⟨[.mark], 334⟩ else ⟨[.mark], 333⟩ := by
  have : ∀ f : Bool, ∀ n : _root_.Fin 256, (TB f 22).dispatch (UInt8.ofNat n.val).toNat =
      if isCtl (UInt8.ofNat n.val) then ⟨[.errTag], 0⟩ else if isTag (UInt8.ofNat n.val) then ⟨[.mark], 334⟩ else ⟨[.mark], 333⟩ := by
    decide +kernel
  have hb := this o.rfc3339 ⟨b.toNat, b.toNat_lt⟩
  simpa [T_TB] using hb

theorem T_22' (o : Opts) : (T o 22).frm = [] ∧ (T o 22).eof = [.errTag] :=
  (by decide +kernel : ∀ b, (TB b 22).frm = [] ∧ (TB b 22).eof = [.errTag]) o.rfc3339

theorem msg_phase (o : Opts) (m : M) (rest : Bytes) (hat : At m rest) : Ends (go o rest 22 m) (dMsg m.p rest m.out) := by
  obtain ⟨hf22, he22⟩ := T_22' o
  cases rest with
  | nil => exact ends_fail_eof (m2 := m) (by rw [he22]; rfl)
  | cons b r =>
    have hd := T_22 o b
    have hfrm : runActs (act o) (T o 22).frm m = .next m := by rw [hf22]; rfl
    have hmark : At { m with pb := m.p } (b :: r) := ⟨hat.le, hat.eq, hat.err⟩
    have hmt : ({ m with pb := m.p } : M).text = some [] := by
      simp [M.text, slice, hat.le]
    have hmt1 : (adv { m with pb := m.p }).text = some [b] := text_snoc hmt hmark
    simp only [dMsg]
    by_cases hc : isCtl b = true
    · rw [if_pos hc] at hd ⊢
      exact ends_fail (m1 := m) (m2 := m) hfrm (by rw [hd]; rfl)
    rw [if_neg hc] at hd ⊢
    by_cases ht : isTag b = true
    case neg =>
      rw [if_neg ht] at hd ⊢
      have hstep : go o (b :: r) 22 m = go o r 333 (adv { m with pb := m.p }) := run_next hd hfrm rfl
      rw [hstep]
      exact text_phase o r [b] _ hmark.adv hmt1
    rw [if_pos ht] at hd ⊢
    have hstep : go o (b :: r) 22 m = go o r 334 (adv { m with pb := m.p }) := run_next hd hfrm rfl
    rw [hstep]
    obtain ⟨w, hw⟩ : ∃ w, (spanN isTag 31 r).1 = w := ⟨_, rfl⟩
    obtain ⟨t, hr⟩ : ∃ t, (spanN isTag 31 r).2 = t := ⟨_, rfl⟩
    have happ := spanN_append isTag 31 r
    have hall := spanN_all isTag 31 r
    have hlen := spanN_length isTag 31 r
    have hmax := spanN_max isTag 31 r
    have hspan : spanN isTag 32 (b :: r) = (b :: w, t) := by
      simp only [spanN, if_pos ht, hw, hr]
    rw [hw, hr] at happ
    rw [hw] at hall hlen hmax
    rw [hr] at hmax
    rw [hspan]
    obtain ⟨m1, hm1⟩ : ∃ m1 : M, m1 = { m with pb := m.p, p := m.p + 1 + w.length } := ⟨_, rfl⟩
    have hloop : go o r 334 (adv { m with pb := m.p }) = go o t (334 + w.length) m1 := by
      rw [← happ, go, show (334 : Nat) = (fun j => 334 + j) 0 from rfl]
      rw [run_loop (fun j => 334 + j) 31 isTag (fun k h => (tag_row o (by omega)).1)
        (fun k h c hcl => by
          rw [tag_disp o (by omega)]
          have := isTag_iff.mp hcl
          have hcc : ¬ isCtl c = true := by rw [isCtl_iff]; omega
          rw [tagLabel, if_neg hcc, if_neg (by omega), if_neg (by omega), if_pos (by simp [hcl, h])])
        (fun k => by omega) t w 0 _ hall (by omega)]
      rw [advN_eq, Nat.zero_add, hm1]; rfl
    rw [hloop]
    have hat1 : At m1 t := by
      have h1 : At m ((b :: w) ++ t) := by rw [List.cons_append, happ]; exact hat
      have h2 := h1.addn
      rw [hm1]
      refine ⟨by have := h2.le; simp at this ⊢; omega, ?_, hat.err⟩
      have := h2.eq; simp only [List.length_cons] at this ⊢; rw [← this]; congr 1; omega
    have htx1 : m1.text = some (b :: w) := by
      rw [hm1]
      exact text_of (w := b :: w) (rest := t) hat.le (by rw [hat.eq, List.cons_append, happ]) (by simp only [List.length_cons]; omega)
    have hout : m1.out = m.out := by rw [hm1]
    obtain ⟨hfj, hej⟩ := tag_row o (j := w.length) (by omega)
    have hfrm1 : runActs (act o) (T o (334 + w.length)).frm m1 = .next m1 := by rw [hfj]; rfl
    have hwhole : b :: r = (b :: w) ++ t := by rw [List.cons_append, happ]
    rw [hwhole, ← hout]
    simp only
    cases t with
    | nil =>
      rw [dTag_other (by simp) (by simp)]
      have := ends_ok_eof (o := o) (cs := 334 + w.length) (m := m1) (m2 := { m1 with out := { m1.out with message := b :: w } })
        (by omega) (by rw [hej]; simp only [runActs, act, withText, htx1])
      simpa [dText] using this
    | cons x t' =>
      have hdx := tag_disp o (j := w.length) (by omega) x
      rw [tagLabel] at hdx
      have hset : ∀ (h : True), runActs (act o) [.setTag] m1 = .next { m1 with out := { m1.out with tag := b :: w } } := by
        intro _; simp only [runActs, act, withText, htx1]
      have hat2 : At { m1 with out := { m1.out with tag := b :: w } } (x :: t') := ⟨hat1.le, hat1.eq, hat1.err⟩
      have htx2 := text_snoc (m := { m1 with out := { m1.out with tag := b :: w } }) htx1 hat2
      by_cases hcx : isCtl x = true
      · rw [if_pos hcx] at hdx
        have h1 : x.toNat ≠ 58 := by have := isCtl_iff.mp hcx; omega
        have h2 : x.toNat ≠ 91 := by have := isCtl_iff.mp hcx; omega
        rw [dTag_other (by intro r h; simp at h; exact h1 (by rw [h.1]; rfl)) (by intro r h; simp at h; exact h2 (by rw [h.1]; rfl))]
        have : dText (b :: w ++ x :: t') (x :: t') m1.out = .stop none m1.out := by simp [dText, hcx]
        rw [this]
        exact ends_stop hat1.err hfj hdx
      rw [if_neg hcx] at hdx
      by_cases h58 : x.toNat = 58
      · rw [if_pos h58] at hdx
        have hx : x = 58 := (toNat_eq (n := 58) (by omega)).mp h58
        subst hx
        have hstep : go o (58 :: t') (334 + w.length) m1 = go o t' 366 (adv { m1 with out := { m1.out with tag := b :: w } }) :=
          run_next hdx hfrm1 (hset trivial)
        rw [hstep]
        have := colon_phase o ((b :: w) ++ [58]) t' _ hat2.adv htx2
        rw [List.append_assoc] at this
        exact this
      rw [if_neg h58] at hdx
      by_cases h91 : x.toNat = 91
      · rw [if_pos h91] at hdx
        have hx : x = 91 := (toNat_eq (n := 91) (by omega)).mp h91
        subst hx
        have hstep : go o (91 :: t') (334 + w.length) m1 = go o t' 368 (adv { m1 with out := { m1.out with tag := b :: w } }) :=
          run_next hdx hfrm1 (hset trivial)
        rw [hstep]
        have := open_phase o ((b :: w) ++ 91 :: t') t' _ hat2.adv (by rintro rfl; exact htx2)
        exact this
      rw [if_neg h91] at hdx
      have hnx : ¬ (isTag x && decide (w.length < 31)) = true := by
        intro hh
        simp only [Bool.and_eq_true, decide_eq_true_eq] at hh
        rcases hmax with h | h | ⟨b', r', h, h'⟩
        · omega
        · simp at h
        · simp at h; rw [h.1] at hh; simp [h'] at hh
      rw [if_neg hnx] at hdx
      rw [dTag_other (by intro r h; simp at h; exact h58 (by rw [h.1]; rfl)) (by intro r h; simp at h; exact h91 (by rw [h.1]; rfl))]
      have hstep : go o (x :: t') (334 + w.length) m1 = go o t' 333 (adv m1) := run_simple hfj hdx
      have e2 : dText ((b :: w) ++ x :: t') (x :: t') m1.out = dText (((b :: w) ++ [x]) ++ t') t' (adv m1).out := by
        simp [dText, hcx, adv]
      rw [hstep, e2]
      exact text_phase o t' _ (adv m1) hat1.adv (text_snoc htx1 hat1)

end Verif.Rfc3164
