import Verif.NonTransparent.Run
import Verif.Rfc5424.Cost

/-!
# The work of non-transparent framing

Counts what the functions of `Verif/NonTransparent/Model.lean` do: 1 for every call and every byte looked at, and the bytes they copy, with the
work of the message parser. Each definition follows the function of `Model.lean` it counts. Simplifications: `append` counts the bytes
appended (amortised); the external loop counts 1 for every byte it reads and every chunk it hands over; the listener's own work is not counted.
-/

namespace Verif.NonTransparent

/-- `process` (nontransparent/parser.go:262-272) -/
def Machine.costProcess (m : Machine) : Nat := 1 + Rfc5424.parseCost m.internal (strip m.trailer m.candidate)

/-- `tr0` (nontransparent/parser.go:57-64) -/
def Machine.costTr0 (m : Machine) : Nat := 1 + if m.candidate.length > 0 then m.costProcess else 0

/-- one round of `Exec` (nontransparent/parser.go:36-149) -/
def costStep (data : Bytes) (cs : Nat) (b : UInt8) (m : Machine) : Nat :=
  1 +
  if cs = 1 then
    if b = 60 then m.costTr0 else 0
  else if cs = 2 then
    match next23 (widec m.trailertyp b) with
    | none => data.length
    | some _ => 0
  else if cs = 3 then
    if widec m.trailertyp b = 60 then m.costTr0
    else
      match next23 (widec m.trailertyp b) with
      | none => data.length
      | some _ => 0
  else 0

/-- the bytes of `Exec` (nontransparent/parser.go:28-169) -/
def costExecLoop (data : Bytes) : Bytes → Nat → Machine → Nat
  | [], _, _ => 0
  | b :: rest, cs, m =>
    costStep data cs b m +
    match stepByte data cs b m with
    | none => 0
    | some (cs', m') => if cs' = 0 then 0 else costExecLoop data rest cs' m'

/-- `Exec` (nontransparent/parser.go:28-169) -/
def costExec (data : Bytes) (cs : Nat) (m : Machine) : Nat := 1 + costExecLoop data data cs m

/-- `OnCompletion` (nontransparent/parser.go:180-195) -/
def Machine.costCompletion (m : Machine) : Nat :=
  1 + (if m.candidate.length > 0 then m.costProcess else 0) +
  match (if m.candidate.length > 0 then m.process else some m) with
  | none => 0
  | some m =>
    match m.readError with
    | some _ => if m.lastChunk.length > 0 then Rfc5424.parseCost m.internal m.lastChunk else 0
    | none => 0

/-- the loop over the chunks (external) -/
def costDrive (d : Driver) (last : Bytes) : List Bytes → Nat → Machine → Nat
  | [], cs, m => 1 + if last = [] then 0 else if d.execLast then costExec last cs m else 0
  | c :: rest, cs, m =>
    1 + costExec c cs m +
    match exec c cs m with
    | none => 0
    | some (cs', ok, m') => if ok = false ∧ d.stopOnFail = true then 0 else costDrive d last rest cs' m'

/-- `machine.Parse` (nontransparent/parser.go:257-260) -/
def Machine.parseCost (d : Driver) (m : Machine) (bytes : Bytes) (end_ : ReadErr := .unexpectedEOF) : Nat :=
  1 + bytes.length + costDrive d (chunks m.trailer bytes).2 (chunks m.trailer bytes).1 1 m +
  match drive d end_ (chunks m.trailer bytes).2 (chunks m.trailer bytes).1 1 m with
  | none => 0
  | some m => m.costCompletion

/-! ## Bounds -/

/-- what has to be paid for a candidate: `L` bounds its length -/
def due (L : Nat) (c : Bytes) : Nat := 160 * c.length + L * c.count 92

theorem due_append (L : Nat) (a b : Bytes) : due L (a ++ b) = due L a + due L b := by
  simp only [due, List.length_append, List.count_append, Nat.mul_add]; omega

theorem strip_prefix (t : UInt8) (w : Bytes) : strip t w <+: w := by
  unfold strip; split
  · exact List.dropLast_prefix w
  · exact List.prefix_refl _

theorem msg_due (L : Nat) (i : Rfc5424.M) (w : Bytes) (hl : w.length ≤ L) (hne : 1 ≤ w.length) : Rfc5424.parseCost i w + 6 * w.length ≤ due L w := by
  have h := Rfc5424.parseCost_le i w
  have := Nat.mul_le_mul_right (w.count 92) hl
  unfold due; omega

theorem process_due (L : Nat) (m : Machine) (hl : m.candidate.length ≤ L) (hne : 1 ≤ m.candidate.length) : m.costProcess ≤ due L m.candidate := by
  have h := Rfc5424.parseCost_le m.internal (strip m.trailer m.candidate)
  have hp := strip_prefix m.trailer m.candidate
  have h1 := hp.length_le
  have h2 := hp.sublist.count_le 92
  have := Nat.mul_le_mul (Nat.le_trans h1 hl) h2
  unfold Machine.costProcess due
  omega

theorem tr0_due (L : Nat) (m : Machine) (hl : m.candidate.length ≤ L) : m.costTr0 ≤ 1 + due L m.candidate := by
  unfold Machine.costTr0
  by_cases h : m.candidate.length > 0
  · rw [if_pos h]; have := process_due L m hl h; omega
  · rw [if_neg h]; omega

/-- the bytes of a chunk -/
theorem execLoop_due {be : Bool} {t : UInt8} (L : Nat) (data rest : Bytes) (cs : Nat) (m : Machine) (h : Inv be t m)
    (hl : m.candidate.length + rest.count t * data.length ≤ L) :
    ∃ cs' ok m', execLoop data rest cs m = some (cs', ok, m') ∧ Inv be t m' ∧ m'.lastChunk = m.lastChunk ∧ m'.readError = m.readError ∧
      m'.candidate.length ≤ m.candidate.length + rest.count t * data.length ∧
      m'.candidate.count 92 ≤ m.candidate.count 92 + rest.count t * data.count 92 ∧
      costExecLoop data rest cs m + due L m'.candidate ≤ due L m.candidate + 2 * rest.length + rest.count t * (data.length + due L data) := by
  induction rest generalizing cs m with
  | nil => exact ⟨cs, true, m, rfl, h, rfl, rfl, by omega, by omega, by simp [costExecLoop]⟩
  | cons b rest ih =>
    -- what a byte does
    have key : ∃ cs1 m1, stepByte data cs b m = some (cs1, m1) ∧ Inv be t m1 ∧ m1.lastChunk = m.lastChunk ∧ m1.readError = m.readError ∧
        m1.candidate.length ≤ m.candidate.length + (if b = t then data.length else 0) ∧
        m1.candidate.count 92 ≤ m.candidate.count 92 + (if b = t then data.count 92 else 0) ∧
        costStep data cs b m + due L m1.candidate ≤ due L m.candidate + 2 + (if b = t then data.length + due L data else 0) := by
      have hc : m.candidate.length ≤ L := by omega
      obtain ⟨m0, z1, z2, z3, -, z5, z6⟩ := tr0_spec h
      have hz := tr0_due L m hc
      have d0 : due L [] = 0 := by simp [due]
      unfold stepByte costStep
      -- the effect of a byte that is not the first of a message
      have inner : ∃ cs1 m1, (match next23 (widec m.trailertyp b) with
            | none => some (3, { m with candidate := m.candidate ++ data })
            | some n => some (n, m)) = some (cs1, m1) ∧ Inv be t m1 ∧ m1.lastChunk = m.lastChunk ∧ m1.readError = m.readError ∧
          m1.candidate.length ≤ m.candidate.length + (if b = t then data.length else 0) ∧
          m1.candidate.count 92 ≤ m.candidate.count 92 + (if b = t then data.count 92 else 0) ∧
          (1 + match next23 (widec m.trailertyp b) with | none => data.length | some _ => 0) + due L m1.candidate ≤
            due L m.candidate + 2 + (if b = t then data.length + due L data else 0) := by
        by_cases hb : b = t
        · subst hb
          rw [(widec_trailer h).1]
          refine ⟨3, _, rfl, ⟨h.tr, h.typ, h.ibe, h.ico⟩, rfl, rfl, by simp, by simp [List.count_append], ?_⟩
          simp only [if_true, due_append]; omega
        · rw [(widec_other h b hb).1]
          exact ⟨2, m, rfl, h, rfl, rfl, by omega, by omega, by simp only []; omega⟩
      by_cases c1 : cs = 1
      · simp only [if_pos c1]
        by_cases hb : b = 60
        · simp only [if_pos hb, z1, Option.map_some]
          exact ⟨2, m0, rfl, z2, z6, z5, by rw [z3]; simp, by rw [z3]; simp, by rw [z3, d0]; omega⟩
        · simp only [if_neg hb]
          exact ⟨0, m, rfl, h, rfl, rfl, by omega, by omega, by omega⟩
      · simp only [if_neg c1]
        by_cases c2 : cs = 2
        · simp only [if_pos c2]; exact inner
        · simp only [if_neg c2]
          by_cases c3 : cs = 3
          · simp only [if_pos c3]
            by_cases hb : widec m.trailertyp b = 60
            · simp only [if_pos hb, z1, Option.map_some]
              exact ⟨2, m0, rfl, z2, z6, z5, by rw [z3]; simp, by rw [z3]; simp, by rw [z3, d0]; omega⟩
            · simp only [if_neg hb]; exact inner
          · simp only [if_neg c3]
            exact ⟨0, m, rfl, h, rfl, rfl, by omega, by omega, by omega⟩
    obtain ⟨cs1, m1, k1, k2, k3, k4, k5, k6, k7⟩ := key
    have hcount : ∀ x : Nat, (b :: rest).count t * x = rest.count t * x + if b = t then x else 0 := by
      intro x
      rw [List.count_cons]
      by_cases hb : b = t
      · simp [hb, Nat.add_mul]
      · simp [hb]
    rw [hcount] at hl
    simp only [execLoop, costExecLoop, k1, hcount]
    by_cases c0 : cs1 = 0
    · rw [if_pos c0, if_pos c0]
      refine ⟨0, false, m1, rfl, k2, k3, k4, by omega, by omega, ?_⟩
      simp only [List.length_cons]; omega
    · rw [if_neg c0, if_neg c0]
      obtain ⟨cs', ok, m', i1, i2, i3, i4, i5, i6, i7⟩ := ih cs1 m1 k2 (by omega)
      refine ⟨cs', ok, m', i1, i2, i3.trans k3, i4.trans k4, by omega, by omega, ?_⟩
      simp only [List.length_cons]; omega

theorem line_count {t : UInt8} {l : Bytes} (h : IsLine t l) : l.count t = 1 := by
  obtain ⟨body, rfl, hb⟩ := h
  simp [List.count_append, List.count_eq_zero.mpr hb]

/-- the chunks -/
theorem drive_due {be : Bool} {t : UInt8} (d : Driver) (e : ReadErr) (L : Nat) (last : Bytes) (hlast : t ∉ last) (cs : List Bytes) (hcs : ∀ c ∈ cs, IsLine t c)
    (st : Nat) (m : Machine) (h : Inv be t m) (hl : m.candidate.length + cs.flatten.length ≤ L) :
    ∃ m', drive d e last cs st m = some m' ∧ Inv be t m' ∧ m'.candidate.length ≤ m.candidate.length + cs.flatten.length ∧
      m'.candidate.count 92 ≤ m.candidate.count 92 + cs.flatten.count 92 ∧ (m'.lastChunk = m.lastChunk ∨ m'.lastChunk = last) ∧
      costDrive d last cs st m + due L m'.candidate ≤ due L m.candidate + 5 * cs.flatten.length + due L cs.flatten + 2 * last.length + 2 := by
  induction cs generalizing st m with
  | nil =>
    simp only [drive, costDrive, List.flatten_nil, List.length_nil]
    by_cases h0 : last = []
    · simp only [if_pos h0]
      cases hd : d.errOnEmpty with
      | true =>
        refine ⟨_, rfl, ⟨h.tr, h.typ, h.ibe, h.ico⟩, Nat.le_refl _, Nat.le_refl _, Or.inr h0.symm, ?_⟩
        show 1 + 0 + due L m.candidate ≤ _
        omega
      | false =>
        refine ⟨_, rfl, h, Nat.le_refl _, Nat.le_refl _, Or.inl rfl, ?_⟩
        show 1 + 0 + due L m.candidate ≤ _
        omega
    · simp only [if_neg h0]
      cases hd : d.execLast with
      | true =>
        have hz : last.count t = 0 := List.count_eq_zero.mpr hlast
        obtain ⟨cs', ok, m', i1, i2, i3, i4, i5, i6, i7⟩ := execLoop_due L last last st m h (by rw [hz]; omega)
        rw [hz] at i5 i7
        simp only [if_true, exec, i1]
        refine ⟨_, rfl, ⟨i2.tr, i2.typ, i2.ibe, i2.ico⟩, by show m'.candidate.length ≤ _; omega, by show m'.candidate.count 92 ≤ _; rw [hz] at i6; simp only [List.count_nil]; omega, Or.inr rfl, ?_⟩
        show 1 + costExec last st m + due L m'.candidate ≤ _
        unfold costExec
        omega
      | false =>
        simp only [Bool.false_eq_true, if_false]
        refine ⟨_, rfl, ⟨h.tr, h.typ, h.ibe, h.ico⟩, Nat.le_refl _, Nat.le_refl _, Or.inr rfl, ?_⟩
        show 1 + 0 + due L m.candidate ≤ _
        omega
  | cons c cs ih =>
    have hc1 := line_count (hcs c (by simp))
    have hcl : 1 ≤ c.length := by
      obtain ⟨body, rfl, -⟩ := hcs c (by simp); simp
    simp only [List.flatten_cons, List.length_append, due_append] at hl ⊢
    obtain ⟨cs', ok, m', i1, i2, i3, i4, i5, i6, i7⟩ := execLoop_due L c c st m h (by rw [hc1]; omega)
    rw [hc1] at i5 i6 i7
    simp only [drive, costDrive, exec, costExec, i1]
    by_cases hs : ok = false ∧ d.stopOnFail = true
    · rw [if_pos hs, if_pos hs]
      refine ⟨m', rfl, i2, by omega, by rw [List.count_append]; omega, Or.inl i3, ?_⟩
      omega
    · rw [if_neg hs, if_neg hs]
      obtain ⟨m'', j1, j2, j3, j6, j4, j5⟩ := ih (fun x hx => hcs x (by simp [hx])) cs' m' i2 (by omega)
      refine ⟨m'', j1, j2, by omega, by rw [List.count_append]; omega, by rwa [i3] at j4, ?_⟩
      omega

/-- a call of `Parse` -/
theorem parseCost_due {be : Bool} {t : UInt8} (d : Driver) (e : ReadErr) (m : Machine) (h : Inv be t m) (bytes : Bytes) :
    m.parseCost d bytes e ≤ 170 * (m.candidate.length + m.lastChunk.length + bytes.length) +
      (m.candidate.length + m.lastChunk.length + bytes.length) * (m.candidate.count 92 + m.lastChunk.count 92 + bytes.count 92) + 100 := by
  obtain ⟨s1, s2, s3⟩ := chunks_spec t bytes
  unfold Machine.parseCost
  rw [h.tr]
  generalize (chunks t bytes).1 = cs at *
  generalize (chunks t bytes).2 = last at *
  have hlen : bytes.length = cs.flatten.length + last.length := by rw [s1, List.length_append]
  have hcnt : bytes.count 92 = cs.flatten.count 92 + last.count 92 := by
    conv => lhs; rw [s1]
    rw [List.count_append]
  generalize hL : m.candidate.length + m.lastChunk.length + bytes.length = L
  obtain ⟨m', j1, j2, j3, -, j4, j5⟩ := drive_due d e L last s3 cs s2 1 m h (by omega)
  rw [j1]
  simp only []
  have j3 : m'.candidate.length ≤ L := by omega
  -- the end
  have hend : m'.costCompletion ≤ 1 + due L m'.candidate + (77 * (m'.lastChunk.length + 1) + m'.lastChunk.length * m'.lastChunk.count 92) := by
    unfold Machine.costCompletion
    have ha : (if m'.candidate.length > 0 then m'.costProcess else 0) ≤ due L m'.candidate := by
      split
      · next hp => exact process_due L m' j3 hp
      · omega
    have hb : (match (if m'.candidate.length > 0 then m'.process else some m') with
        | none => 0
        | some m => match m.readError with
          | some _ => if m.lastChunk.length > 0 then Rfc5424.parseCost m.internal m.lastChunk else 0
          | none => 0) ≤ 77 * (m'.lastChunk.length + 1) + m'.lastChunk.length * m'.lastChunk.count 92 := by
      have hx : ∃ m1, (if m'.candidate.length > 0 then m'.process else some m') = some m1 ∧ m1.lastChunk = m'.lastChunk := by
        by_cases hp : m'.candidate.length > 0
        · rw [if_pos hp]
          obtain ⟨i, a1, -, -⟩ := process_spec j2 (List.length_pos_iff.mp hp)
          exact ⟨_, a1, rfl⟩
        · rw [if_neg hp]; exact ⟨_, rfl, rfl⟩
      obtain ⟨m1, x1, x2⟩ := hx
      rw [x1]
      simp only []
      cases m1.readError with
      | none => simp
      | some r =>
        simp only [x2]
        split
        · exact Rfc5424.parseCost_le _ _
        · omega
    omega
  have hlast : 77 * m'.lastChunk.length + m'.lastChunk.length * m'.lastChunk.count 92 ≤
      77 * m.lastChunk.length + L * m.lastChunk.count 92 + (77 * last.length + L * last.count 92) := by
    rcases j4 with j4 | j4
    · rw [j4]
      have := Nat.mul_le_mul_right (m.lastChunk.count 92) (show m.lastChunk.length ≤ L by omega)
      omega
    · rw [j4]
      have := Nat.mul_le_mul_right (last.count 92) (show last.length ≤ L by omega)
      omega
  rw [hcnt]
  simp only [due, Nat.mul_add] at *
  omega

/-- what a call of `Parse` leaves behind -/
theorem parse_held {be : Bool} {t : UInt8} (d : Driver) (e : ReadErr) (m m' : Machine) (h : Inv be t m) (bytes : Bytes) (hp : m.parse d bytes e = some m') :
    Inv be t m' ∧ m'.candidate.length ≤ m.candidate.length + bytes.length ∧ m'.candidate.count 92 ≤ m.candidate.count 92 + bytes.count 92 ∧
    m'.lastChunk.length ≤ m.lastChunk.length + bytes.length ∧ m'.lastChunk.count 92 ≤ m.lastChunk.count 92 + bytes.count 92 := by
  obtain ⟨s1, s2, s3⟩ := chunks_spec t bytes
  unfold Machine.parse at hp
  rw [h.tr] at hp
  generalize (chunks t bytes).1 = cs at *
  generalize (chunks t bytes).2 = last at *
  have hlen : bytes.length = cs.flatten.length + last.length := by rw [s1, List.length_append]
  have hcnt : bytes.count 92 = cs.flatten.count 92 + last.count 92 := by
    conv => lhs; rw [s1]
    rw [List.count_append]
  obtain ⟨m1, j1, j2, j3, j6, j4, -⟩ := drive_due d e _ last s3 cs s2 1 m h (Nat.le_refl _)
  rw [j1] at hp
  simp only at hp
  obtain ⟨m2, k1, k2, -, k4, -, k6⟩ := onCompletion_spec j2
  rw [k1] at hp
  simp only [Option.some.injEq] at hp
  subst hp
  have hpre := strip_prefix t m1.candidate
  have h1 := hpre.length_le
  have h2 := hpre.sublist.count_le 92
  rw [k4, k6]
  refine ⟨k2, by omega, by omega, ?_, ?_⟩
  · rcases j4 with j4 | j4 <;> rw [j4] <;> omega
  · rcases j4 with j4 | j4 <;> rw [j4] <;> omega

/-- the first line of a fresh parser -/
theorem exec_first {be : Bool} {t : UInt8} {m : Machine} (h : Inv be t m) (hc : m.candidate = []) {l : Bytes} (hl : IsLine t l) (h60 : l.head? = some 60) :
    exec l 1 m = some (3, true, { m with candidate := l }) := by
  obtain ⟨body, rfl, hb⟩ := hl
  have hlt := lt_ne h
  obtain ⟨q, rfl⟩ : ∃ q, body = 60 :: q := by
    cases body with
    | nil => simp at h60; exact absurd h60.symm hlt
    | cons c q => simp at h60; exact ⟨q, by rw [h60]⟩
  have hq : t ∉ q := by intro hh; exact hb (by simp [hh])
  have h1 : m.tr0 = some m := by
    obtain ⟨typ, tr, cand, b, i, re, lc, out⟩ := m
    simp only at hc
    subst hc
    rfl
  have hstep : ∀ data, stepByte data 1 60 m = some (2, m) := by intro data; simp [stepByte, h1]
  rw [exec]
  generalize hd : 60 :: q ++ [t] = data
  conv => lhs; arg 2; rw [← hd]
  simp only [List.cons_append, execLoop, hstep, show (2 : Nat) ≠ 0 by decide, if_false]
  rw [execLoop_two h _ _ _ hq, execLoop_end h _ _ (Or.inl rfl), hc, List.nil_append]

end Verif.NonTransparent
