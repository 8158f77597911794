import Verif.NonTransparent.Listener

/-! # Listeners that call the non-transparent parser: while they only listen -/

namespace Verif.NonTransparent

/-- the listener only listens while it has between `lo` and `hi` results -/
def Quiet (emit : Emit) (lo hi : Nat) : Prop := ∀ r m, lo ≤ m.out.length → m.out.length + 1 < hi → emit r m = emit0 r m

theorem prefix_len {a b : List Result} (h : a <+: b) : a.length ≤ b.length := h.length_le

section
variable {emit : Emit} {lo hi : Nat} (h : Quiet emit lo hi)
include h

theorem process_q {m x : Machine} (hlo : lo ≤ m.out.length) (hx : m.process = some x) (hhi : x.out.length < hi) : m.processL emit = some x := by
  rw [← processL_emit0] at hx
  simp only [Machine.processL] at hx ⊢
  cases hl : m.candidate.getLast? with
  | none => rw [hl] at hx; simp at hx
  | some l =>
    rw [hl] at hx
    simp only [] at hx ⊢
    generalize hq : (if l = m.trailer then { m with candidate := m.candidate.dropLast } else m) = m1 at *
    have ho : m1.out = m.out := by rw [← hq]; split <;> rfl
    simp only [Machine.parseMsg] at hx ⊢
    cases hp : Rfc5424.parse m1.internal m1.candidate with
    | none => rw [hp] at hx; simp at hx
    | some y =>
      rw [hp] at hx
      simp only [] at hx ⊢
      rw [h]
      · exact hx
      · simp only [ho]; exact hlo
      · simp only [emit0, Option.some.injEq] at hx
        rw [← hx] at hhi
        simpa using hhi

theorem tr0_q {m x : Machine} (hlo : lo ≤ m.out.length) (hx : m.tr0 = some x) (hhi : x.out.length < hi) : m.tr0L emit = some x := by
  simp only [Machine.tr0, Machine.tr0L] at hx ⊢
  by_cases c : m.candidate.length > 0
  · rw [if_pos c] at hx ⊢
    cases hp : m.process with
    | none => rw [hp] at hx; simp at hx
    | some y =>
      rw [hp] at hx
      simp only [Option.some.injEq] at hx
      rw [process_q h hlo hp (by rw [← hx] at hhi; exact hhi), ← hx]
  · rw [if_neg c] at hx ⊢; exact hx

theorem stepByte_q {data : Bytes} {cs : Nat} {b : UInt8} {m : Machine} {x : Nat × Machine} (hlo : lo ≤ m.out.length)
    (hx : stepByte data cs b m = some x) (hhi : x.2.out.length < hi) : stepByteL emit data cs b m = some x := by
  have key : (m.tr0).map (fun m => ((2 : Nat), m)) = some x → (m.tr0L emit).map (fun m => ((2 : Nat), m)) = some x := by
    intro hy
    cases ht : m.tr0 with
    | none => rw [ht] at hy; simp at hy
    | some z =>
      rw [ht] at hy
      rw [tr0_q h hlo ht (by simp only [Option.map_some, Option.some.injEq] at hy; rw [← hy] at hhi; exact hhi)]
      exact hy
  unfold stepByte at hx
  unfold stepByteL
  by_cases c1 : cs = 1
  · rw [if_pos c1] at hx ⊢
    by_cases c : b = 60
    · rw [if_pos c] at hx ⊢; exact key hx
    · rw [if_neg c] at hx ⊢; exact hx
  · rw [if_neg c1] at hx ⊢
    by_cases c2 : cs = 2
    · rw [if_pos c2] at hx ⊢; exact hx
    · rw [if_neg c2] at hx ⊢
      by_cases c3 : cs = 3
      · rw [if_pos c3] at hx ⊢
        by_cases c : widec m.trailertyp b = 60
        · rw [if_pos c] at hx ⊢; exact key hx
        · rw [if_neg c] at hx ⊢; exact hx
      · rw [if_neg c3] at hx ⊢; exact hx

theorem execLoop_q {data : Bytes} (bs : Bytes) {cs : Nat} {m : Machine} {x : Nat × Bool × Machine} (hlo : lo ≤ m.out.length)
    (hx : execLoop data bs cs m = some x) (hhi : x.2.2.out.length < hi) : execLoopL emit data bs cs m = some x := by
  induction bs generalizing cs m with
  | nil => exact hx
  | cons b bs ih =>
    simp only [execLoop, execLoopL] at hx ⊢
    cases hs : stepByte data cs b m with
    | none => rw [hs] at hx; simp at hx
    | some y =>
      obtain ⟨cs', m'⟩ := y
      rw [hs] at hx
      simp only [] at hx
      have hle := prefix_len (stepByte_out hs)
      by_cases c : cs' = 0
      · rw [if_pos c] at hx
        simp only [Option.some.injEq] at hx
        rw [stepByte_q h hlo hs (by rw [← hx] at hhi; exact hhi)]
        simp only []
        rw [if_pos c, hx]
      · rw [if_neg c] at hx
        have := prefix_len (execLoop_out bs cs' m' (cs' := x.1) (ok := x.2.1) (m' := x.2.2) hx)
        rw [stepByte_q h hlo hs (by simp only []; omega)]
        simp only []
        rw [if_neg c]
        exact ih (by omega) hx

theorem onCompletion_q {m x : Machine} (hlo : lo ≤ m.out.length) (hx : m.onCompletion = some x) (hhi : x.out.length < hi) :
    m.onCompletionL emit = some x := by
  rw [← onCompletionL_emit0] at hx
  simp only [Machine.onCompletionL] at hx ⊢
  rw [processL_emit0] at hx
  cases hp : (if m.candidate.length > 0 then m.process else some m) with
  | none => rw [hp] at hx; simp at hx
  | some m1 =>
    rw [hp] at hx
    simp only [] at hx
    have hle : m.out.length ≤ m1.out.length ∧ (m1.out.length < hi → (if m.candidate.length > 0 then m.processL emit else some m) = some m1) := by
      by_cases c : m.candidate.length > 0
      · rw [if_pos c] at hp ⊢
        exact ⟨prefix_len (process_out hp), process_q h hlo hp⟩
      · rw [if_neg c] at hp ⊢
        simp only [Option.some.injEq] at hp
        rw [hp]
        exact ⟨Nat.le_refl _, fun _ => rfl⟩
    have hout : m1.out.length ≤ x.out.length := by
      cases hr : m1.readError with
      | none => rw [hr] at hx; simp only [Option.some.injEq] at hx; rw [hx]; exact Nat.le_refl _
      | some re =>
        rw [hr] at hx
        simp only [Machine.parseMsg] at hx
        by_cases c : m1.lastChunk.length > 0
        · rw [if_pos c] at hx
          cases hm : Rfc5424.parse m1.internal m1.lastChunk with
          | none => rw [hm] at hx; simp at hx
          | some y =>
            rw [hm] at hx
            simp only [emit0, Option.some.injEq] at hx
            rw [← hx]; simp
        · rw [if_neg c] at hx
          simp only [Option.some.injEq] at hx; rw [hx]; exact Nat.le_refl _
    rw [hle.2 (by omega)]
    simp only []
    cases hr : m1.readError with
    | none => rw [hr] at hx; exact hx
    | some re =>
      rw [hr] at hx
      simp only [Machine.parseMsg] at hx ⊢
      by_cases c : m1.lastChunk.length > 0
      · rw [if_pos c] at hx ⊢
        cases hm : Rfc5424.parse m1.internal m1.lastChunk with
        | none => rw [hm] at hx; simp at hx
        | some y =>
          rw [hm] at hx
          simp only [] at hx ⊢
          rw [h]
          · exact hx
          · simp only []; omega
          · simp only [emit0, Option.some.injEq] at hx
            rw [← hx] at hhi
            simpa using hhi
      · rw [if_neg c] at hx ⊢; exact hx

theorem drive_q {d : Driver} {e : ReadErr} {last : Bytes} (ls : List Bytes) {cs : Nat} {m x : Machine} (hlo : lo ≤ m.out.length)
    (hx : drive d e last ls cs m = some x) (hhi : x.out.length < hi) : driveL emit d e last ls cs m = some x := by
  induction ls generalizing cs m with
  | nil =>
    simp only [drive, driveL] at hx ⊢
    by_cases c : last = []
    · rw [if_pos c] at hx ⊢; exact hx
    · rw [if_neg c] at hx ⊢
      by_cases c2 : d.execLast = true
      · rw [if_pos c2] at hx ⊢
        cases hs : exec last cs m with
        | none => rw [hs] at hx; simp at hx
        | some y =>
          rw [hs] at hx
          simp only [Option.some.injEq] at hx
          rw [show execL emit last cs m = some y from execLoop_q h _ hlo hs (by rw [← hx] at hhi; exact hhi)]
          simp only []
          rw [hx]
      · rw [if_neg c2] at hx ⊢; exact hx
  | cons l ls ih =>
    simp only [drive, driveL] at hx ⊢
    cases hs : exec l cs m with
    | none => rw [hs] at hx; simp at hx
    | some y =>
      obtain ⟨y1, y2, y3⟩ := y
      rw [hs] at hx
      simp only [] at hx
      have hle := prefix_len (execLoop_out _ _ _ hs)
      by_cases c : y2 = false ∧ d.stopOnFail = true
      · rw [if_pos c] at hx
        simp only [Option.some.injEq] at hx
        rw [show execL emit l cs m = some (y1, y2, y3) from execLoop_q h _ hlo hs (by simp only []; rw [hx]; exact hhi)]
        simp only []
        rw [if_pos c, hx]
      · rw [if_neg c] at hx
        have := prefix_len (drive_out _ _ _ hx)
        rw [show execL emit l cs m = some (y1, y2, y3) from execLoop_q h _ hlo hs (by simp only []; omega)]
        simp only []
        rw [if_neg c]
        exact ih (by omega) hx

theorem parse_q {d : Driver} {m x : Machine} {bytes : Bytes} {e : ReadErr} (hlo : lo ≤ m.out.length) (hx : m.parse d bytes e = some x)
    (hhi : x.out.length < hi) : m.parseL emit d bytes e = some x := by
  simp only [Machine.parse, Machine.parseL] at hx ⊢
  cases hs : drive d e (chunks m.trailer bytes).2 (chunks m.trailer bytes).1 1 m with
  | none => rw [hs] at hx; simp at hx
  | some y =>
    rw [hs] at hx
    have h1 := prefix_len (drive_out _ _ _ hs)
    have h2 := prefix_len (onCompletion_out hx)
    rw [drive_q h _ hlo hs (by omega)]
    exact onCompletion_q h (by omega) hx hhi

/-- the loop over some chunks, and then the others -/
theorem feed_q {d : Driver} {e : ReadErr} {last : Bytes} (a b : List Bytes) {cs cs' : Nat} {m m' : Machine} (hlo : lo ≤ m.out.length)
    (hx : feed d a cs m = some (cs', true, m')) (hhi : m'.out.length < hi) :
    driveL emit d e last (a ++ b) cs m = driveL emit d e last b cs' m' := by
  induction a generalizing cs m with
  | nil =>
    simp only [feed, Option.some.injEq, Prod.mk.injEq, true_and] at hx
    rw [hx.1, hx.2]; rfl
  | cons l ls ih =>
    simp only [feed] at hx
    simp only [List.cons_append, driveL]
    cases hs : exec l cs m with
    | none => rw [hs] at hx; simp at hx
    | some y =>
      obtain ⟨y1, y2, y3⟩ := y
      rw [hs] at hx
      simp only [] at hx
      have hle := prefix_len (execLoop_out _ _ _ hs)
      by_cases c : y2 = false ∧ d.stopOnFail = true
      · rw [if_pos c] at hx; simp at hx
      · rw [if_neg c] at hx
        have hout : y3.out.length ≤ m'.out.length := by
          have hd := drive_feed d e [] ls [] y1 y3
          rw [hx] at hd
          simp only [List.append_nil, drive, if_true] at hd
          have := prefix_len (drive_out _ _ _ hd)
          have e : (if d.errOnEmpty = true then m'.onErr [] e else m'.onEOF []).out = m'.out := by split <;> rfl
          rw [e] at this
          exact this
        rw [show execL emit l cs m = some (y1, y2, y3) from execLoop_q h _ hlo hs (by simp only []; omega)]
        simp only []
        rw [if_neg c]
        exact ih (by omega) hx

end

/-! ## When the listener does something -/

theorem processL_spec {be : Bool} {t : UInt8} {m : Machine} (h : Inv be t m) (hc : m.candidate ≠ []) :
    ∃ i, (∀ emit : Emit, m.processL emit = emit (pmsg be (strip t m.candidate)) { m with candidate := strip t m.candidate, internal := i }) ∧
      i.bestEffort = be ∧ i.compliantMsg = false := by
  obtain ⟨m', e, e1, e2⟩ := Rfc5424.parse_eq m.internal (strip t m.candidate)
  have hp : ∀ w, Rfc5424.resultOf m.internal.bestEffort (Rfc5424.descend m.internal.compliantMsg w) =
      Rfc5424.resultOf be (Rfc5424.descend false w) := by
    intro w; rw [h.ibe, h.ico]
  refine ⟨m', ?_, e1.trans h.ibe, e2.trans h.ico⟩
  intro emit
  obtain ⟨typ, tr, cand, b, i, re, lc, out⟩ := m
  simp only at hc e h hp
  have htr : tr = t := h.tr
  subst htr
  simp only [Machine.processL]
  obtain ⟨l, hl⟩ : ∃ l, cand.getLast? = some l := by
    cases hh : cand.getLast? with
    | none => simp at hh; exact absurd hh hc
    | some l => exact ⟨l, rfl⟩
  simp only [hl]
  by_cases heq : l = tr
  · subst heq
    have hs : strip l cand = cand.dropLast := by rw [strip, if_pos hl]
    rw [hs] at e ⊢
    simp only [if_true, Machine.parseMsg, e, pmsg, Rfc5424.parse1_eq, hp]
  · have hs : strip tr cand = cand := by
      rw [strip, if_neg]; rw [hl]; simpa using heq
    rw [hs] at e ⊢
    simp only [if_neg heq, Machine.parseMsg, e, pmsg, Rfc5424.parse1_eq, hp]

/-- nothing is left of an earlier stream -/
def Clean (m : Machine) : Prop := m.readError = none ∨ m.lastChunk = []

theorem tailRes_clean {be : Bool} {d : Driver} {e : ReadErr} {m : Machine} (h : Clean m) : tailRes be d e [] m.readError m.lastChunk = [] := by
  simp only [tailRes, ne_eq, not_true_eq_false, if_false]
  split
  · rfl
  · split
    · rfl
    · rename_i re hre
      rcases h with h | h
      · rw [h] at hre; simp at hre
      · rw [if_pos h]

theorem feed_more2 {be : Bool} {t : UInt8} (d : Driver) (ls more : List Bytes)
    (hl : ∀ l ∈ ls, IsLine t l ∧ l.head? ≠ some 60) (m : Machine) (h : Inv be t m) :
    ∃ m', feed d (ls ++ more) 3 m = feed d more 3 m' ∧ Inv be t m' ∧ m'.out = m.out ∧ m'.candidate = m.candidate ++ ls.flatten ∧
      m'.readError = m.readError ∧ m'.lastChunk = m.lastChunk := by
  induction ls generalizing m with
  | nil => exact ⟨m, rfl, h, rfl, by simp, rfl, rfl⟩
  | cons l ls ih =>
    have hx := exec_more h (hl l (by simp)).1 (hl l (by simp)).2
    obtain ⟨m', h1, h2, h3, h4, h5⟩ := ih (fun x hx => hl x (by simp [hx])) { m with candidate := m.candidate ++ l }
      ⟨h.tr, h.typ, h.ibe, h.ico⟩
    refine ⟨m', ?_, h2, h3, by rw [h4]; simp, h5⟩
    simp only [List.cons_append, feed, hx]
    simp only [Bool.true_eq_false, false_and, if_false]
    exact h1

theorem feed_groups2 {be : Bool} {t : UInt8} (d : Driver) (gs : List (List Bytes))
    (hg : ∀ g ∈ gs, IsGroup t g) (cs : Nat) (hcs : cs = 1 ∨ cs = 3) (m : Machine) (h : Inv be t m) :
    ∃ cs' m', feed d gs.flatten cs m = some (cs', true, m') ∧ (cs' = 1 ∨ cs' = 3) ∧ Inv be t m' ∧
      m'.out ++ pend be t m'.candidate = m.out ++ (pend be t m.candidate ++ gs.map fun g => pmsg be (strip t g.flatten)) ∧
      m'.candidate = ((gs.map List.flatten).getLast?).getD m.candidate ∧ m'.readError = m.readError ∧ m'.lastChunk = m.lastChunk := by
  induction gs generalizing cs m with
  | nil => exact ⟨cs, m, rfl, hcs, h, by simp, by simp, rfl, rfl⟩
  | cons g gs ih =>
    have hgg := hg g (by simp)
    obtain ⟨l, ls, rfl, h60, hls⟩ := hgg.first
    obtain ⟨m1, a1, a2, a3, a4, a5, a6⟩ := exec_new h (hgg.lines l (by simp)) h60 cs hcs
    obtain ⟨m2, b1, b2, b3, b4, b5, b6⟩ := feed_more2 d ls gs.flatten
      (fun x hx => ⟨hgg.lines x (by simp [hx]), hls x hx⟩) m1 a2
    obtain ⟨cs', m3, c1, c2, c3, c4, c5, c6, c7⟩ := ih (fun g hg' => hg g (by simp [hg'])) 3 (Or.inr rfl) m2 b2
    have hcand : m2.candidate = (l :: ls).flatten := by rw [b4, a3]; rfl
    have hne : (l :: ls).flatten ≠ [] := by
      cases l with
      | nil => simp at h60
      | cons x y => simp
    refine ⟨cs', m3, ?_, c2, c3, ?_, ?_, by rw [c6, b5, a5], by rw [c7, b6, a6]⟩
    · rw [List.flatten_cons, List.cons_append, feed, a1]
      simp only [Bool.true_eq_false, false_and, if_false]
      rw [b1, c1]
    · rw [c4, b3, a4, hcand]
      simp only [pend, if_neg hne]
      simp
    · rw [c5, hcand]
      simp only [List.map_cons, List.getLast?_cons, Option.getD_some]

/-- the listener does something when it gets the result of the last group of `gs`; then the groups `after` follow -/
theorem parseL_once {be : Bool} {t : UInt8} (d : Driver) (e : ReadErr) (gs after : List (List Bytes)) (hg : ∀ g ∈ gs, IsGroup t g)
    (ha : ∀ g ∈ after, IsGroup t g) (hne : gs ≠ []) (m0 : Machine) (h : Inv be t m0) (hc0 : m0.candidate = []) (ho0 : m0.out = [])
    (hcl : Clean m0) :
    ∃ M : Machine, Inv be t M ∧ Clean M ∧ M.out = (gs.map fun g => pmsg be (strip t g.flatten)).dropLast ∧
      M.candidate = strip t ((gs.map List.flatten).getLast?.getD []) ∧
      ∀ (emit : Emit) (M2 : Machine), Quiet emit 0 gs.length → (∀ hi, Quiet emit gs.length hi) →
        emit (pmsg be (strip t ((gs.map List.flatten).getLast?.getD []))) M = some M2 →
        Inv be t M2 → Clean M2 → gs.length ≤ M2.out.length →
        ∃ m', m0.parseL emit d ((gs ++ after).flatten.flatten) e = some m' ∧
          m'.out = M2.out ++ after.map fun g => pmsg be (strip t g.flatten) := by
  have hlines : ∀ l ∈ (gs ++ after).flatten, IsLine t l := by
    intro l hl
    obtain ⟨g, hg', hl⟩ := List.mem_flatten.mp hl
    rcases List.mem_append.mp hg' with hg' | hg'
    · exact (hg g hg').lines l hl
    · exact (ha g hg').lines l hl
  have hchunks : chunks m0.trailer ((gs ++ after).flatten.flatten) = ((gs ++ after).flatten, []) := by
    have := chunks_lines t (gs ++ after).flatten [] hlines (by simp)
    rw [h.tr]
    simpa using this
  obtain ⟨cs', m1, f1, f2, f3, f4, f5, f6, f7⟩ := feed_groups2 d gs hg 1 (Or.inl rfl) m0 h
  rw [hc0] at f5
  have hlast : ∃ g gl, gs = gl ++ [g] := ⟨gs.getLast hne, gs.dropLast, (List.dropLast_concat_getLast hne).symm⟩
  obtain ⟨g, gl, hgl⟩ := hlast
  have hw : (gs.map List.flatten).getLast?.getD [] = g.flatten := by rw [hgl]; simp
  have hgne : g.flatten ≠ [] := by
    obtain ⟨l, ls, rfl, h60, -⟩ := (hg g (by rw [hgl]; simp)).first
    cases l with
    | nil => simp at h60
    | cons x y => simp
  rw [hw] at f5 ⊢
  have hm1o : m1.out = gl.map fun g => pmsg be (strip t g.flatten) := by
    have e1 : pend be t m1.candidate = [pmsg be (strip t g.flatten)] := by rw [f5, pend, if_neg hgne]
    rw [e1, hc0, ho0, hgl] at f4
    simp only [pend, if_true, List.nil_append, List.map_append, List.map_cons, List.map_nil] at f4
    exact List.append_cancel_right f4
  have hlen : m1.out.length < gs.length := by rw [hm1o, hgl]; simp
  have hdl : (gs.map fun g => pmsg be (strip t g.flatten)).dropLast = m1.out := by rw [hm1o, hgl]; simp
  rw [hdl]
  cases after with
  | nil =>
    -- the last message: it is emitted by `OnCompletion`
    have hend : ∃ m1', (if d.errOnEmpty then m1.onErr [] e else m1.onEOF []) = m1' ∧ Inv be t m1' ∧ Clean m1' ∧ m1'.out = m1.out ∧
        m1'.candidate = m1.candidate := by
      cases d.errOnEmpty with
      | true => exact ⟨m1.onErr [] e, rfl, ⟨f3.tr, f3.typ, f3.ibe, f3.ico⟩, Or.inr rfl, rfl, rfl⟩
      | false => exact ⟨m1, rfl, f3, by rcases hcl with hh | hh; · exact Or.inl (f6.trans hh)
                                        · exact Or.inr (f7.trans hh), rfl, rfl⟩
    obtain ⟨m1', k1, k2, k3, k4, k5⟩ := hend
    have hcand : m1'.candidate = g.flatten := k5.trans f5
    obtain ⟨i, p1, p2, p3⟩ := processL_spec k2 (by rw [hcand]; exact hgne)
    rw [hcand] at p1
    refine ⟨{ m1' with candidate := strip t g.flatten, internal := i }, ⟨k2.tr, k2.typ, p2, p3⟩, k3, k4, rfl, ?_⟩
    intro emit M2 hq1 hq2 hM2 hInv hcl2 hlen2
    refine ⟨M2, ?_, by simp⟩
    simp only [Machine.parseL, hchunks]
    rw [List.append_nil]
    have := feed_q hq1 (e := e) (last := []) gs.flatten [] (by rw [ho0]; simp) f1 hlen
    rw [List.append_nil] at this
    rw [this]
    simp only [driveL, if_true, k1]
    simp only [Machine.onCompletionL]
    rw [if_pos (by rw [hcand]; exact List.length_pos_iff.mpr hgne), p1, hM2]
    simp only []
    cases hr : M2.readError with
    | none => rfl
    | some re =>
      simp only []
      rcases hcl2 with hh | hh
      · rw [hr] at hh; simp at hh
      · rw [if_neg (by rw [hh]; simp)]
  | cons g1 gs1 =>
    obtain ⟨i, p1, p2, p3⟩ := processL_spec f3 (by rw [f5]; exact hgne)
    rw [f5] at p1
    refine ⟨{ m1 with candidate := strip t g.flatten, internal := i }, ⟨f3.tr, f3.typ, p2, p3⟩, ?_, rfl, rfl, ?_⟩
    · rcases hcl with hh | hh
      · exact Or.inl (f6.trans hh)
      · exact Or.inr (f7.trans hh)
    intro emit M2 hq1 hq2 hM2 hInv hcl2 hlen2
    -- what follows is a call of `Parse` on the parser without a candidate
    have hInv' : Inv be t { M2 with candidate := [] } := ⟨hInv.tr, hInv.typ, hInv.ibe, hInv.ico⟩
    obtain ⟨m', r1, -, r3, -⟩ := parse_groups d e (g1 :: gs1) [] ha (by simp) { M2 with candidate := [] } hInv'
    refine ⟨m', ?_, ?_⟩
    · have hlines1 : ∀ l ∈ (g1 :: gs1).flatten, IsLine t l := fun l hl => hlines l (by
        rw [List.flatten_append]; exact List.mem_append.mpr (Or.inr hl))
      have hch1 : chunks t ((g1 :: gs1).flatten.flatten) = ((g1 :: gs1).flatten, []) := by
        have := chunks_lines t (g1 :: gs1).flatten [] hlines1 (by simp)
        simpa using this
      have hch2 : chunks M2.trailer ((g1 :: gs1).flatten.flatten) = ((g1 :: gs1).flatten, []) := by
        rw [hInv.tr]; exact hch1
      simp only [Machine.parse, List.append_nil, hch2] at r1
      simp only [Machine.parseL, hchunks]
      rw [List.flatten_append, feed_q hq1 (e := e) (last := []) gs.flatten _ (by rw [ho0]; simp) f1 hlen]
      obtain ⟨l, ls, rfl, h60, hls⟩ := (ha g1 (by simp)).first
      rw [List.flatten_cons, List.cons_append] at r1 ⊢
      obtain ⟨m3, a1, a2, -, a4, -⟩ := exec_new hInv' ((ha (l :: ls) (by simp)).lines l (by simp)) h60 1 (Or.inl rfl)
      rw [drive_cons d e [] _ _ _ _ a1] at r1
      simp only [Bool.true_eq_false, false_and, if_false] at r1
      have hx : execL emit l cs' m1 = some (3, true, m3) := by
        obtain ⟨q, rfl⟩ : ∃ q, l = 60 :: q := by
          cases l with
          | nil => simp at h60
          | cons c q => simp at h60; exact ⟨q, by rw [h60]⟩
        have ht0 : Machine.tr0 { M2 with candidate := [] } = some { M2 with candidate := [] } := by simp [Machine.tr0]
        have hex : execLoop (60 :: q) q 2 { M2 with candidate := [] } = some (3, true, m3) := by
          have := a1
          simp only [exec, execLoop, stepByte, if_true, ht0, Option.map_some] at this
          exact this
        have htl : m1.tr0L emit = some { M2 with candidate := [] } := by
          rw [Machine.tr0L, if_pos (by rw [f5]; exact List.length_pos_iff.mpr hgne), p1, hM2]
        have hw60 : widec m1.trailertyp 60 = 60 := (widec_other f3 60 (lt_ne f3)).2.mpr rfl
        have hst : stepByteL emit (60 :: q) cs' 60 m1 = some (2, { M2 with candidate := [] }) := by
          rcases f2 with hh | hh
          · rw [hh]; simp [stepByteL, htl]
          · rw [hh]; simp [stepByteL, htl, hw60]
        rw [execL, execLoopL, hst]
        simp only [show (2 : Nat) ≠ 0 by decide, if_false]
        exact execLoop_q (hq2 (m3.out.length + 1)) _ hlen2 hex (by simp)
      rw [driveL, hx]
      simp only [Bool.true_eq_false, false_and, if_false]
      cases hd : drive d e [] (ls ++ gs1.flatten) 3 m3 with
      | none => rw [hd] at r1; simp at r1
      | some X =>
        rw [hd] at r1
        have l1 := prefix_len (drive_out _ _ _ hd)
        have l2 : gs.length ≤ m3.out.length := by
          rw [a4]; simp only [List.length_append]
          have : gs.length ≤ M2.out.length := hlen2
          omega
        rw [drive_q (hq2 (X.out.length + 1)) _ l2 hd (by omega)]
        exact onCompletion_q (hq2 (m'.out.length + 1)) (by omega) r1 (by omega)
    · rw [r3]
      have : tailRes be d e [] M2.readError M2.lastChunk = [] := tailRes_clean hcl2
      simp only [this]
      simp [pend]

end Verif.NonTransparent
