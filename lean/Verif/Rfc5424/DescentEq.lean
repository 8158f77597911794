import Verif.Rfc5424.Descent

/-! # The automaton computes `descend` (header part and generic lemmas) -/

namespace Verif.Rfc5424
open Verif.Fsm Verif.Gen.Rfc5424

/-- the run ends with this observable outcome -/
def Ends (r : Res M) : Fin → Prop
  | .ok out => ∃ cs m, r = .done cs m ∧ ¬(cs < 603 ∨ cs = 614) ∧ m.out = out
  | .err e part => ∃ cs m, r = .done cs m ∧ (cs < 603 ∨ cs = 614) ∧ m.err = some e ∧ partOf m.out = part

abbrev go (bs : Bytes) (cs : Nat) (m : M) : Res M := run T act adv bs cs m

/-- the machine is about to read `rest` -/
structure At (m : M) (rest : Bytes) : Prop where
  le : m.p ≤ m.data.length
  eq : m.data.drop m.p = rest

theorem At.adv {m : M} {b : UInt8} {r : Bytes} (h : At m (b :: r)) : At (adv m) r := by
  have hlen : m.data.length - m.p = r.length + 1 := by have := congrArg List.length h.eq; simpa using this
  refine ⟨by simp only [Rfc5424.adv]; omega, ?_⟩
  have : m.data.drop (m.p + 1) = (m.data.drop m.p).drop 1 := by rw [List.drop_drop]
  simp only [Rfc5424.adv, this, h.eq, List.drop_succ_cons, List.drop_zero]

theorem slice_of_drop {data w rest : Bytes} {a : Nat} (ha : a ≤ data.length) (h : data.drop a = w ++ rest) :
    slice data a (a + w.length) = some w := by
  have hlen := congrArg List.length h
  simp only [List.length_drop, List.length_append] at hlen
  rw [slice, if_pos ⟨by omega, by omega⟩, h]
  simp

theorem drop_add {data w rest : Bytes} {a : Nat} (h : data.drop a = w ++ rest) : data.drop (a + w.length) = rest := by
  rw [← List.drop_drop, h]; simp

theorem advN_eq (n : Nat) (m : M) : advN adv n m = { m with p := m.p + n } := by
  induction n generalizing m with
  | zero => rfl
  | succ n ih => simp only [advN, ih, adv]; congr 1; omega

theorem At.addn {m : M} {w rest : Bytes} (h : At m (w ++ rest)) : At { m with p := m.p + w.length } rest := by
  have hlen := congrArg List.length h.eq
  simp only [List.length_drop, List.length_append] at hlen
  have := h.le
  exact ⟨by simp only []; omega, drop_add h.eq⟩

theorem T_614 : T 614 = ⟨[], [(10, 10, st 0), (13, 13, st 0)], st 614, []⟩ := by decide +kernel

theorem run614 (bs : Bytes) (m : M) : ∃ cs m', go bs 614 m = .done cs m' ∧ (cs = 0 ∨ cs = 614) ∧
    m'.err = m.err ∧ m'.out = m.out := by
  induction bs generalizing m with
  | nil => exact ⟨614, m, by simp [go, run, runEof, jumpFuel, T_614, runActs], Or.inr rfl, rfl, rfl⟩
  | cons b bs ih =>
    by_cases h : b.toNat = 10 ∨ b.toNat = 13
    · refine ⟨0, m, ?_, Or.inl rfl, rfl, rfl⟩
      have : (T 614).dispatch b.toNat = st 0 := by
        rcases h with h | h <;> simp [T_614, Row.dispatch, lookup, h]
      exact run_stop this (m1 := m) (by rw [T_614]; rfl) rfl
    · have : (T 614).dispatch b.toNat = ⟨[], 613 + 1⟩ := by
        have h1 : ¬(10 ≤ b.toNat ∧ b.toNat ≤ 10) := by omega
        have h2 : ¬(13 ≤ b.toNat ∧ b.toNat ≤ 13) := by omega
        simp only [T_614, Row.dispatch, lookup, h1, h2]; rfl
      rw [go, run_simple (by rw [T_614]) this]
      obtain ⟨cs, m', h1, h2, h3, h4⟩ := ih (adv m)
      exact ⟨cs, m', h1, h2, h3, h4⟩

theorem ends614 (bs : Bytes) (m : M) {e : Err} (h : m.err = some e) :
    Ends (go bs 614 m) (.err e (partOf m.out)) := by
  obtain ⟨cs, m', h1, h2, h3, h4⟩ := run614 bs m
  exact ⟨cs, m', h1, by omega, h3.trans h, by rw [h4]⟩

/-- jump into another state, byte available: the rest of the run is as if started there (one jump less) -/
theorem go_jump614 {b : UInt8} {bs : Bytes} {cs : Nat} {m m1 m2 : M}
    (h1 : runActs act (T cs).frm m = .next m1)
    (h2 : runActs act ((T cs).dispatch b.toNat).acts m1 = .jump m2 614) : go (b :: bs) cs m = go (b :: bs) 614 m2 := by
  simp only [go, run_cons, show jumpFuel = 3 + 1 from rfl]
  rw [stepByte_jump h1 h2]
  by_cases h : b.toNat = 10 ∨ b.toNat = 13
  · have : (T 614).dispatch b.toNat = st 0 := by
      rcases h with h | h <;> simp [T_614, Row.dispatch, lookup, h]
    rw [stepByte_stop this (m1 := m2) (m2 := m2) (by rw [T_614]; rfl) rfl,
      stepByte_stop this (m1 := m2) (m2 := m2) (by rw [T_614]; rfl) rfl]
  · have : (T 614).dispatch b.toNat = ⟨[], 613 + 1⟩ := by
      have h1 : ¬(10 ≤ b.toNat ∧ b.toNat ≤ 10) := by omega
      have h2 : ¬(13 ≤ b.toNat ∧ b.toNat ≤ 13) := by omega
      simp only [T_614, Row.dispatch, lookup, h1, h2]; rfl
    rw [stepByte_next this (m1 := m2) (m2 := m2) (by rw [T_614]; rfl) rfl,
      stepByte_next this (m1 := m2) (m2 := m2) (by rw [T_614]; rfl) rfl]

/-- an error raised while reading a byte -/
theorem ends_fail {b : UInt8} {bs : Bytes} {cs : Nat} {m m1 m2 : M} {k : ErrKind}
    (h1 : runActs act (T cs).frm m = .next m1)
    (h2 : runActs act ((T cs).dispatch b.toNat).acts m1 = fail k m2) :
    Ends (go (b :: bs) cs m) (mkErr k m2.p m2.out) := by
  rw [go_jump614 h1 (m2 := { m2 with err := some ⟨k, m2.p⟩ }) h2]
  exact ends614 _ _ rfl

/-- an error raised at the end of the input -/
theorem ends_fail_eof {cs : Nat} {m m2 : M} {k : ErrKind}
    (h2 : runActs act (T cs).eof m = fail k m2) :
    Ends (go [] cs m) (mkErr k m2.p m2.out) := by
  have : go [] cs m = go [] 614 { m2 with err := some ⟨k, m2.p⟩ } := by
    simp only [go, run, runEof, jumpFuel, h2, fail, T_614, runActs]
  rw [this]
  exact ends614 _ _ rfl

/-- success at the end of the input -/
theorem ends_ok_eof {cs : Nat} {m m2 : M} (hcs : ¬(cs < 603 ∨ cs = 614))
    (h2 : runActs act (T cs).eof m = .next m2) : Ends (go [] cs m) (.ok m2.out) :=
  ⟨cs, m2, by simp only [go, run, runEof, jumpFuel, h2], hcs, rfl⟩

theorem dispatch_cons_in {lo hi n : Nat} {l d : Label Act} {frm : List Act} {eof : List Act}
    {r : List (Nat × Nat × Label Act)} (h : lo ≤ n ∧ n ≤ hi) :
    Row.dispatch ⟨frm, (lo, hi, l) :: r, d, eof⟩ n = l := by simp [Row.dispatch, lookup, h]

theorem dispatch_cons_out {lo hi n : Nat} {l d : Label Act} {frm : List Act} {eof : List Act}
    {r : List (Nat × Nat × Label Act)} (h : ¬(lo ≤ n ∧ n ≤ hi)) :
    Row.dispatch ⟨frm, (lo, hi, l) :: r, d, eof⟩ n = Row.dispatch ⟨frm, r, d, eof⟩ n := by
  simp only [Row.dispatch, lookup, if_neg h]

theorem dispatch_nil {n : Nat} {d : Label Act} {frm : List Act} {eof : List Act} :
    Row.dispatch ⟨frm, [], d, eof⟩ n = d := rfl

theorem isGraph_iff {b : UInt8} : isGraph b = true ↔ 33 ≤ b.toNat ∧ b.toNat ≤ 126 := by simp [isGraph]

theorem isGraph_false {b : UInt8} : isGraph b = false ↔ ¬(33 ≤ b.toNat ∧ b.toNat ≤ 126) := by
  rw [← isGraph_iff]; simp

theorem toNat_eq {b : UInt8} {n : Nat} (hn : n < 256) : b.toNat = n ↔ b = UInt8.ofNat n := by
  constructor
  · intro h; apply UInt8.toNat_inj.mp; rw [UInt8.toNat_ofNat']; omega
  · intro h; rw [h, UInt8.toNat_ofNat']; omega

theorem dField_ok {max pos : Nat} {kind : ErrKind} {k : Bytes → Nat → Bytes → Fin} {rest w t : Bytes} {out : Out}
    (h : spanN isGraph max rest = (w, 32 :: t)) (hw : w ≠ []) :
    dField max kind k pos rest out = k w (pos + w.length + 1) t := by
  simp [dField, h, hw]

theorem dField_bad {max pos : Nat} {kind : ErrKind} {k : Bytes → Nat → Bytes → Fin} {rest w r : Bytes} {out : Out}
    (h : spanN isGraph max rest = (w, r)) (hr : w = [] ∨ ∀ t, r ≠ 32 :: t) :
    dField max kind k pos rest out = mkErr kind (pos + w.length) out := by
  simp only [dField, h]
  split
  · rename_i t
    rcases hr with hr | hr
    · simp [hr]
    · exact absurd rfl (hr t)
  · rfl

/-- One of the four name fields: states `f 0 .. f n` (`j` characters after the first one read). -/
theorem field_phase {start nxt n : Nat} {f : Nat → Nat} {set : Act} {errs0 eofs0 errs eofs : List Act}
    {kind : ErrKind} {setO : Out → Bytes → Out} {c : Bool} (kk : Nat → Bytes → Out → Fin)
    (hf0 : ∀ k, f k ≠ 0)
    (h0 : T start = ⟨[], [(33, 126, ⟨[.mark], f 0⟩)], ⟨errs0, 0⟩, eofs0⟩)
    (hk : ∀ k, k < n → T (f k) = ⟨[], [(32, 32, ⟨[set], nxt + 1⟩), (33, 126, st (f (k + 1)))], ⟨errs, 0⟩, eofs⟩)
    (hn : T (f n) = ⟨[], [(32, 32, ⟨[set], nxt + 1⟩)], ⟨errs, 0⟩, eofs⟩)
    (he0 : ∀ m, runActs act errs0 m = fail kind m) (he0' : ∀ m, runActs act eofs0 m = fail kind m)
    (he : ∀ m, runActs act errs m = fail kind m) (he' : ∀ m, runActs act eofs m = fail kind m)
    (hset : ∀ m, act set m = withText m fun t => .next { m with out := setO m.out t })
    (hel : ∀ o t, (setO o t).hasElements = o.hasElements)
    (hnext : ∀ (m : M) (t : Bytes), At m t → m.compliantMsg = c → m.out.hasElements = false → Ends (go t (nxt + 1) m) (kk m.p t m.out))
    (m : M) (rest : Bytes) (hat : At m rest) (hc : m.compliantMsg = c)
    (hh : m.out.hasElements = false) :
    Ends (go rest start m) (dField (n + 1) kind (fun w p t => kk p t (setO m.out w)) m.p rest m.out) := by
  cases rest with
  | nil =>
    have : dField (n + 1) kind (fun w p t => kk p t (setO m.out w)) m.p [] m.out = mkErr kind m.p m.out := by
      simp [dField, spanN]
    rw [this]
    exact ends_fail_eof (by rw [h0]; exact he0' m)
  | cons b bs =>
    by_cases hb : isGraph b = true
    case neg =>
      have : dField (n + 1) kind (fun w p t => kk p t (setO m.out w)) m.p (b :: bs) m.out = mkErr kind m.p m.out := by
        simp only [dField, spanN, if_neg hb]
        split <;> simp
      rw [this]
      refine ends_fail (m1 := m) (by rw [h0]; rfl) ?_
      have hb' := isGraph_false.mp (by simpa using hb)
      rw [h0, dispatch_cons_out hb', dispatch_nil]
      exact he0 m
    case pos =>
      have hb' := isGraph_iff.mp hb
      obtain ⟨t0, ht0⟩ := Nat.exists_eq_succ_of_ne_zero (hf0 0)
      have hstep : go (b :: bs) start m = go bs (f 0) (adv { m with pb := m.p }) := by
        rw [ht0]
        refine run_next (acts := [.mark]) (m1 := m) (m2 := { m with pb := m.p }) ?_ (by rw [h0]; rfl) rfl
        rw [h0, dispatch_cons_in hb', ht0]
      rw [hstep]
      -- the remaining characters of the field
      obtain ⟨w, hw⟩ : ∃ w, (spanN isGraph n bs).1 = w := ⟨_, rfl⟩
      obtain ⟨r, hr⟩ : ∃ r, (spanN isGraph n bs).2 = r := ⟨_, rfl⟩
      have happ := spanN_append isGraph n bs
      have hall := spanN_all isGraph n bs
      have hlen := spanN_length isGraph n bs
      have hmax := spanN_max isGraph n bs
      rw [hw, hr] at happ
      rw [hw] at hall hlen hmax
      rw [hr] at hmax
      have hloop : go bs (f 0) (adv { m with pb := m.p }) =
          go r (f w.length) { m with pb := m.p, p := m.p + 1 + w.length } := by
        rw [← happ, go, run_loop f n isGraph (fun k h => by rw [hk k h])
          (fun k h c hc => by
            have hc' := isGraph_iff.mp hc
            rw [hk k h, dispatch_cons_out (by omega), dispatch_cons_in hc'])
          hf0 r w 0 _ hall (by omega)]
        rw [advN_eq, Nat.zero_add]; rfl
      rw [hloop]
      have htext : slice m.data m.p (m.p + 1 + w.length) = some (b :: w) := by
        have := slice_of_drop (w := b :: w) (rest := r) hat.le (by rw [hat.eq, List.cons_append, happ])
        rw [← this]; simp; congr 1; omega
      have hat' : At { m with pb := m.p, p := m.p + 1 + w.length } r := by
        have h1 : At m ((b :: w) ++ r) := by rw [List.cons_append, happ]; exact hat
        have h2 := h1.addn
        simp only [List.length_cons] at h2
        exact ⟨by have := h2.le; simp at this ⊢; omega, by
          have := h2.eq; simp only at this ⊢; rw [← this]; congr 1; omega⟩
      have hspan : spanN isGraph (n + 1) (b :: bs) = (b :: w, r) := by
        simp only [spanN, if_pos hb, hw, hr]
      have hrow : ∃ extra, T (f w.length) =
          ⟨[], (32, 32, ⟨[set], nxt + 1⟩) :: extra, ⟨errs, 0⟩, eofs⟩ ∧
          (extra = [] ∨ (w.length < n ∧ extra = [(33, 126, st (f (w.length + 1)))])) := by
        rcases Nat.lt_or_ge w.length n with h | h
        · exact ⟨_, hk _ h, Or.inr ⟨h, rfl⟩⟩
        · have : w.length = n := by omega
          rw [this]; exact ⟨_, hn, Or.inl rfl⟩
      obtain ⟨extra, hrow, hextra⟩ := hrow
      cases r with
      | nil =>
        rw [dField_bad hspan (Or.inr (by simp))]
        refine ends_fail_eof (m2 := { m with pb := m.p, p := m.p + (b :: w).length }) ?_
        rw [hrow]
        simp only [he', List.length_cons, Nat.add_assoc, Nat.add_comm 1]
      | cons x xs =>
        by_cases hx : x.toNat = 32
        · have hx' : x = 32 := (toNat_eq (n := 32) (by omega)).mp hx
          subst hx'
          rw [dField_ok hspan (by simp)]
          have : go (32 :: xs) (f w.length) { m with pb := m.p, p := m.p + 1 + w.length } =
              go xs (nxt + 1) { m with pb := m.p, p := m.p + 1 + w.length + 1, out := setO m.out (b :: w) } := by
            refine run_next (acts := [set]) (m1 := { m with pb := m.p, p := m.p + 1 + w.length })
              (m2 := { m with pb := m.p, p := m.p + 1 + w.length, out := setO m.out (b :: w) }) ?_ ?_ ?_
            · rw [hrow, dispatch_cons_in (by decide)]
            · rw [hrow]; rfl
            · simp only [runActs, hset, withText, M.text, htext]
          rw [this]
          have hat2 := hat'.adv
          have := hnext { m with pb := m.p, p := m.p + 1 + w.length + 1, out := setO m.out (b :: w) } xs
            ⟨hat2.le, hat2.eq⟩ hc ((hel _ _).trans hh)
          simp only at this ⊢
          rw [show m.p + (b :: w).length + 1 = m.p + 1 + w.length + 1 by simp; omega]
          exact this
        · have hx' : ¬ x = 32 := fun h => hx (by rw [h]; rfl)
          rw [dField_bad hspan (Or.inr (by simp [hx']))]
          have := ends_fail (b := x) (bs := xs) (cs := f w.length) (k := kind)
            (m := { m with pb := m.p, p := m.p + 1 + w.length }) (m1 := { m with pb := m.p, p := m.p + 1 + w.length })
            (m2 := { m with pb := m.p, p := m.p + 1 + w.length }) (by rw [hrow]; rfl) (by
              rw [hrow, dispatch_cons_out (by omega)]
              rcases hextra with rfl | ⟨hlt, rfl⟩
              · rw [dispatch_nil]; exact he _
              · have hg : isGraph x = false := by
                  rcases hmax with h | h | ⟨b', r', h, h'⟩
                  · omega
                  · simp at h
                  · simp at h; rw [h.1]; exact h'
                rw [dispatch_cons_out (isGraph_false.mp hg), dispatch_nil]; exact he _)
          rw [show m.p + (b :: w).length = m.p + 1 + w.length by simp; omega]
          exact this

end Verif.Rfc5424
