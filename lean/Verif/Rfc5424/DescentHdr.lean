import Verif.Rfc5424.DescentSD2

/-! # The automaton computes `descend`: header, and the whole -/

namespace Verif.Rfc5424
open Verif.Fsm Verif.Gen.Rfc5424

/-! ## name fields -/

theorem msgid_phase (c : Bool) (m : M) (rest : Bytes) (hat : At m rest) (hc : m.compliantMsg = c)
    (hh : m.out.hasElements = false) : Ends (go rest 14 m) (dMsgid c m.p rest m.out) :=
  field_phase (start := 14) (nxt := 15) (n := 31) (f := fun k => if k = 0 then 15 else 94 + k)
    (set := .setMsgid) (errs0 := [.errMsgid, .errParse]) (eofs0 := [.errMsgid, .errParse]) (errs := [.errMsgid])
    (eofs := [.errMsgid]) (kind := .msgid) (setO := fun o w => { o with msgID := w }) (c := c) (dSD c)
    (fun k => by split <;> omega) (by decide +kernel) (by decide +kernel) (by decide +kernel)
    (fun _ => rfl) (fun _ => rfl) (fun _ => rfl) (fun _ => rfl) (fun _ => rfl) (fun _ _ => rfl)
    (fun m t h1 h2 h3 => sd_phase c m t h1 h2 h3) m rest hat hc hh

theorem procid_phase (c : Bool) (m : M) (rest : Bytes) (hat : At m rest) (hc : m.compliantMsg = c)
    (hh : m.out.hasElements = false) : Ends (go rest 12 m) (dProcid c m.p rest m.out) :=
  field_phase (start := 12) (nxt := 13) (n := 127) (f := fun k => if k = 0 then 13 else 125 + k)
    (set := .setProcid) (errs0 := [.errProcid, .errParse]) (eofs0 := [.errProcid, .errParse])
    (errs := [.errProcid, .errParse])
    (eofs := [.errProcid, .errParse]) (kind := .procid) (setO := fun o w => { o with procID := w }) (c := c) (dMsgid c)
    (fun k => by split <;> omega) (by decide +kernel) (by decide +kernel) (by decide +kernel)
    (fun _ => rfl) (fun _ => rfl) (fun _ => rfl) (fun _ => rfl) (fun _ => rfl) (fun _ _ => rfl)
    (fun m t h1 h2 h3 => msgid_phase c m t h1 h2 h3) m rest hat hc hh

theorem appname_phase (c : Bool) (m : M) (rest : Bytes) (hat : At m rest) (hc : m.compliantMsg = c)
    (hh : m.out.hasElements = false) : Ends (go rest 10 m) (dAppname c m.p rest m.out) :=
  field_phase (start := 10) (nxt := 11) (n := 47) (f := fun k => if k = 0 then 11 else 252 + k)
    (set := .setAppname) (errs0 := [.errAppname, .errParse]) (eofs0 := [.errAppname, .errParse])
    (errs := [.errAppname, .errParse])
    (eofs := [.errAppname, .errParse]) (kind := .appname) (setO := fun o w => { o with appname := w }) (c := c) (dProcid c)
    (fun k => by split <;> omega) (by decide +kernel) (by decide +kernel) (by decide +kernel)
    (fun _ => rfl) (fun _ => rfl) (fun _ => rfl) (fun _ => rfl) (fun _ => rfl) (fun _ _ => rfl)
    (fun m t h1 h2 h3 => procid_phase c m t h1 h2 h3) m rest hat hc hh

theorem hostname_phase (c : Bool) (m : M) (rest : Bytes) (hat : At m rest) (hc : m.compliantMsg = c)
    (hh : m.out.hasElements = false) : Ends (go rest 8 m) (dHostname c m.p rest m.out) :=
  field_phase (start := 8) (nxt := 9) (n := 254) (f := fun k => if k = 0 then 9 else 299 + k)
    (set := .setHostname) (errs0 := [.errHostname, .errParse]) (eofs0 := [.errHostname, .errParse])
    (errs := [.errHostname, .errParse])
    (eofs := [.errHostname, .errParse]) (kind := .hostname) (setO := fun o w => { o with hostname := w }) (c := c) (dAppname c)
    (fun k => by split <;> omega) (by decide +kernel) (by decide +kernel) (by decide +kernel)
    (fun _ => rfl) (fun _ => rfl) (fun _ => rfl) (fun _ => rfl) (fun _ => rfl) (fun _ _ => rfl)
    (fun m t h1 h2 h3 => appname_phase c m t h1 h2 h3) m rest hat hc hh

/-! ## TIMESTAMP -/

def tsSt : Ts → Nat
  | .y1 => 6 | .y2 => 554 | .y3 => 555 | .y4 => 556 | .dash1 => 557 | .mon => 558 | .mon0 => 559 | .mon1 => 590
  | .dash2 => 560 | .day => 561 | .day0 => 562 | .day12 => 588 | .day3 => 589 | .t => 563
  | .hour => 564 | .hour01 => 565 | .hour2 => 587 | .col1 => 566 | .min => 567 | .minu => 568 | .col2 => 569
  | .sec => 570 | .secu => 571 | .zone => 572
  | .frac0 => 580 | .frac1 => 581 | .frac2 => 582 | .frac3 => 583 | .frac4 => 584 | .frac5 => 585 | .frac6 => 586
  | .oh => 573 | .oh01 => 574 | .oh2 => 579 | .ocol => 575 | .om => 576 | .omu => 577 | .fin => 578

theorem tsSt_ne (s : Ts) : tsSt s ≠ 0 := by cases s <;> decide

theorem ts_disp (s : Ts) (h1 : s ≠ .y1) (h2 : s ≠ .fin) (b : UInt8) : (T (tsSt s)).dispatch b.toNat =
    (match Ts.step true s b with | some s' => ⟨[], tsSt s'⟩ | none => ⟨[.errTimestamp, .errParse], 0⟩) := by
  apply forall_byte (P := fun b => (T (tsSt s)).dispatch b.toNat =
    (match Ts.step true s b with | some s' => ⟨[], tsSt s'⟩ | none => ⟨[.errTimestamp, .errParse], 0⟩))
  cases s <;> first | exact absurd rfl h1 | exact absurd rfl h2 | decide +kernel

theorem ts_frm (s : Ts) : (T (tsSt s)).frm = [] := by cases s <;> decide +kernel

theorem ts_eof (s : Ts) (h2 : s ≠ .fin) : (T (tsSt s)).eof = [.errTimestamp, .errParse] := by
  cases s <;> first | exact absurd rfl h2 | decide +kernel

theorem T_6 : T 6 = ⟨[], [(45, 45, st 7), (48, 57, ⟨[.mark], 554⟩)], ⟨[.errTimestamp, .errParse], 0⟩,
    [.errTimestamp, .errParse]⟩ := by decide +kernel
theorem T_7 : T 7 = ⟨[], [(32, 32, st 8)], ⟨[.errParse], 0⟩, [.errParse]⟩ := by decide +kernel
theorem T_578 : T 578 = ⟨[], [(32, 32, ⟨[.setTimestamp], 8⟩)], ⟨[.setTimestamp, .errParse], 0⟩,
    [.setTimestamp, .errParse]⟩ := by decide +kernel

theorem ts_inner : ∀ (l : Bytes) (s : Ts) (m : M), s ≠ .y1 →
    match Ts.scan true s l with
    | .bad n => Ends (go l (tsSt s) m) (mkErr .timestamp (m.p + n) m.out)
    | .ok w tl => go l (tsSt s) m = go tl 578 { m with p := m.p + w.length } := by
  intro l
  induction l with
  | nil =>
    intro s m hs
    by_cases hf : s = .fin
    · subst hf; rfl
    · simp only [Ts.scan, if_neg hf]
      exact ends_fail_eof (m2 := m) (by rw [ts_eof s hf]; rfl)
  | cons b l ih =>
    intro s m hs
    by_cases hf : s = .fin
    · subst hf; rfl
    · simp only [Ts.scan, if_neg hf]
      have hd := ts_disp s hs hf b
      cases hst : Ts.step true s b with
      | none =>
        rw [hst] at hd
        exact ends_fail (m1 := m) (m2 := m) (by rw [ts_frm]; rfl) (by rw [hd]; rfl)
      | some s' =>
        rw [hst] at hd
        have hs' : s' ≠ .y1 := by
          rintro rfl
          simp only [Ts.step] at hst
          have : ∀ n, Ts.look n (Ts.row true s) ≠ some .y1 := by
            intro n
            cases s <;> simp only [Ts.row, Ts.look, if_true] <;> (repeat' split) <;> simp
          exact this _ hst
        have hstep : go (b :: l) (tsSt s) m = go l (tsSt s') (adv m) := by
          obtain ⟨t, ht⟩ := Nat.exists_eq_succ_of_ne_zero (tsSt_ne s')
          simp only [ht] at hd ⊢
          exact run_simple (ts_frm s) hd
        have := ih s' (adv m) hs'
        cases hsc : Ts.scan true s' l with
        | bad n =>
          rw [hsc] at this
          simp only [hsc, Ts.Res.cons] at this ⊢
          rw [hstep, show m.p + (n + 1) = (adv m).p + n by simp only [adv]; omega]
          exact this
        | ok w tl =>
          rw [hsc] at this
          simp only [hsc, Ts.Res.cons] at this ⊢
          rw [hstep, this]
          simp only [adv, List.length_cons]
          rw [show m.p + 1 + w.length = m.p + (w.length + 1) by omega]

theorem dTimestamp_scan {c : Bool} {pos : Nat} {rest : Bytes} {out : Out} (h : ∀ r, rest ≠ 45 :: r) :
    dTimestamp c pos rest out =
      match Ts.scan true .y1 rest with
      | .bad n => mkErr .timestamp (pos + n) out
      | .ok w tl =>
        match GoTime.parseRFC3339Micro w with
        | none => mkErr .timeParse (pos + w.length) out
        | some tm =>
          match tl with
          | 32 :: t => dHostname c (pos + w.length + 1) t { out with timestamp := tm, timestampSet := true }
          | _ => mkErr .parse (pos + w.length) { out with timestamp := tm, timestampSet := true } := by
  unfold dTimestamp
  split
  · exact absurd rfl (h _)
  · rfl

theorem timestamp_phase (c : Bool) (m : M) (rest : Bytes) (hat : At m rest) (hc : m.compliantMsg = c)
    (hh : m.out.hasElements = false) : Ends (go rest 6 m) (dTimestamp c m.p rest m.out) := by
  cases rest with
  | nil =>
    have : dTimestamp c m.p [] m.out = mkErr .timestamp m.p m.out := rfl
    rw [this]
    exact ends_fail_eof (m2 := m) (by rw [T_6]; rfl)
  | cons b r =>
    by_cases h1 : b.toNat = 45
    · have hb : b = 45 := (toNat_eq (n := 45) (by omega)).mp h1
      subst hb
      have hstep : go (45 :: r) 6 m = go r 7 (adv m) :=
        run_simple (by rw [T_6]) (by rw [T_6, dispatch_cons_in (by decide)])
      rw [hstep]
      cases r with
      | nil =>
        have : dTimestamp c m.p [45] m.out = mkErr .parse (m.p + 1) m.out := rfl
        rw [this]
        exact ends_fail_eof (m2 := adv m) (by rw [T_7]; rfl)
      | cons x t =>
        by_cases hx : x.toNat = 32
        · have hx' : x = 32 := (toNat_eq (n := 32) (by omega)).mp hx
          subst hx'
          have hstep : go (32 :: t) 7 (adv m) = go t 8 (adv (adv m)) :=
            run_simple (by rw [T_7]) (by rw [T_7, dispatch_cons_in (by decide)])
          rw [hstep]
          exact hostname_phase c (adv (adv m)) t hat.adv.adv hc hh
        · have hx' : x ≠ 32 := fun h => hx (by rw [h]; rfl)
          have : dTimestamp c m.p (45 :: x :: t) m.out = mkErr .parse (m.p + 1) m.out := by
            simp only [dTimestamp]
            split
            · rename_i h; simp at h; exact absurd h.1 hx'
            · rfl
          rw [this]
          exact ends_fail (m1 := adv m) (m2 := adv m) (by rw [T_7]; rfl) (by
            rw [T_7, dispatch_cons_out (by omega), dispatch_nil]; rfl)
    · have hne : ∀ r', b :: r ≠ 45 :: r' := by
        intro r' h; simp at h; exact h1 (by rw [h.1]; rfl)
      rw [dTimestamp_scan hne]
      by_cases hd : 48 ≤ b.toNat ∧ b.toNat ≤ 57
      · have hst : Ts.step true .y1 b = some .y2 := by simp [Ts.step, Ts.row, Ts.look, hd]
        have hstep : go (b :: r) 6 m = go r (tsSt .y2) (adv { m with pb := m.p }) := by
          refine run_next (acts := [.mark]) (m1 := m) (m2 := { m with pb := m.p }) ?_ (by rw [T_6]; rfl) rfl
          rw [T_6, dispatch_cons_out (by omega), dispatch_cons_in hd]
        have hin := ts_inner r .y2 (adv { m with pb := m.p }) (by simp)
        rw [Ts.scan_cons_of (by simp) hst, hstep]
        cases hsc : Ts.scan true .y2 r with
        | bad n =>
          rw [hsc] at hin
          simp only [Ts.Res.cons] at hin ⊢
          rw [show m.p + (n + 1) = (adv { m with pb := m.p }).p + n by simp only [adv]; omega]
          exact hin
        | ok w tl =>
          rw [hsc] at hin
          simp only [Ts.Res.cons] at hin ⊢
          have happ : b :: r = (b :: w) ++ tl := by
            rw [Ts.scan_append hsc]; rfl
          obtain ⟨m1, hm1⟩ : ∃ m1 : M, m1 = { m with pb := m.p, p := m.p + (w.length + 1) } := ⟨_, rfl⟩
          have hrun : go r (tsSt .y2) (adv { m with pb := m.p }) = go tl 578 m1 := by
            rw [hin, hm1]
            simp only [adv]
            rw [show m.p + 1 + w.length = m.p + (w.length + 1) by omega]
          rw [hrun]
          have hat1 : At m1 tl := by
            rw [happ] at hat; have := hat.addn; rw [hm1]; exact ⟨this.le, this.eq⟩
          have htext : m1.text = some (b :: w) := by
            rw [hm1]; exact slice_of_drop (w := b :: w) hat.le (by rw [hat.eq, happ])
          have hm1p : m1.p = m.p + (b :: w).length := by rw [hm1]; rfl
          have hm1out : m1.out = m.out := by rw [hm1]
          have hm1c : m1.compliantMsg = m.compliantMsg := by rw [hm1]
          cases hg : GoTime.parseRFC3339Micro (b :: w) with
          | none =>
            have herr : ∀ as, runActs act (.setTimestamp :: as) m1 = fail .timeParse m1 := by
              intro as; simp only [runActs, act, withText, htext, hg, fail]
            simp only
            rw [← hm1p, ← hm1out]
            cases tl with
            | nil => exact ends_fail_eof (m2 := m1) (by rw [T_578]; exact herr _)
            | cons x t =>
              refine ends_fail (m1 := m1) (m2 := m1) (by rw [T_578]; rfl) ?_
              by_cases hx : x.toNat = 32
              · rw [T_578, dispatch_cons_in (by omega)]; exact herr _
              · rw [T_578, dispatch_cons_out (by omega), dispatch_nil]; exact herr _
          | some tm =>
            have hset : act .setTimestamp m1 =
                .next { m1 with out := { m1.out with timestamp := tm, timestampSet := true } } := by
              simp only [act, withText, htext, hg]
            simp only
            by_cases hsp : ∃ t, tl = 32 :: t
            · obtain ⟨t, rfl⟩ := hsp
              simp only
              obtain ⟨m2, hm2⟩ : ∃ m2 : M,
                m2 = adv { m1 with out := { m1.out with timestamp := tm, timestampSet := true } } := ⟨_, rfl⟩
              have hstep : go (32 :: t) 578 m1 = go t 8 m2 := by
                rw [hm2]
                refine run_next (acts := [.setTimestamp]) (m1 := m1) ?_ (by rw [T_578]; rfl) (by simp only [runActs, hset])
                rw [T_578, dispatch_cons_in (by decide)]
              rw [hstep]
              have := hostname_phase c m2 t (by have := hat1.adv; rw [hm2]; exact ⟨this.le, this.eq⟩)
                (by rw [hm2]; exact hm1c.trans hc) (by rw [hm2]; simp only [adv, hm1out]; exact hh)
              rw [show m2.p = m.p + (b :: w).length + 1 by rw [hm2]; simp only [adv, hm1p],
                show m2.out = { m.out with timestamp := tm, timestampSet := true } by
                  rw [hm2]; simp only [adv, hm1out]] at this
              exact this
            · split
              · exact absurd ⟨_, rfl⟩ hsp
              rw [← hm1p, ← hm1out]
              have herr : runActs act [.setTimestamp, .errParse] m1 =
                  fail .parse { m1 with out := { m1.out with timestamp := tm, timestampSet := true } } := by
                simp only [runActs, hset]
                simp only [act, fail]
              cases tl with
              | nil =>
                exact ends_fail_eof (m2 := { m1 with out := { m1.out with timestamp := tm, timestampSet := true } })
                  (by rw [T_578]; exact herr)
              | cons x t =>
                have hx : x.toNat ≠ 32 := fun h => hsp ⟨t, by rw [show x = 32 from (toNat_eq (n := 32) (by omega)).mp h]⟩
                exact ends_fail (m1 := m1)
                  (m2 := { m1 with out := { m1.out with timestamp := tm, timestampSet := true } }) (by rw [T_578]; rfl)
                  (by rw [T_578, dispatch_cons_out (by omega), dispatch_nil]; exact herr)
      · have hst : Ts.step true .y1 b = none := by simp [Ts.step, Ts.row, Ts.look, hd]
        have hsc : Ts.scan true .y1 (b :: r) = .bad 0 := by simp [Ts.scan, hst]
        rw [hsc]
        exact ends_fail (m1 := m) (m2 := m) (by rw [T_6]; rfl) (by
          rw [T_6, dispatch_cons_out (by omega), dispatch_cons_out hd, dispatch_nil]; rfl)

/-! ## VERSION -/

theorem T_4 : T 4 = ⟨[], [(49, 57, ⟨[.mark], 5⟩)], ⟨[.errVersion, .errParse], 0⟩, [.errVersion, .errParse]⟩ := by
  decide +kernel
theorem T_5 : T 5 = ⟨[.setVersion], [(32, 32, st 6), (48, 57, st 591)], ⟨[.errParse], 0⟩,
    [.setVersion, .errParse]⟩ := by decide +kernel
theorem T_591 : T 591 = ⟨[.setVersion], [(32, 32, st 6), (48, 57, st 592)], ⟨[.errVersion, .errParse], 0⟩,
    [.errVersion, .setVersion, .errParse]⟩ := by decide +kernel
theorem T_592 : T 592 = ⟨[.setVersion], [(32, 32, st 6)], ⟨[.errVersion, .errParse], 0⟩,
    [.errVersion, .setVersion, .errParse]⟩ := by decide +kernel

theorem setVersion_run {m : M} {w : Bytes} (h : m.text = some w) :
    runActs act [.setVersion] m = .next { m with out := setV m.out w } := by
  simp only [runActs, act, withText, h, setV]

theorem setV_setV (o : Out) (a b : Bytes) : setV (setV o a) b = setV o b := rfl

/-- a space after the version -/
theorem version_sp {c : Bool} {cs : Nat} {m : M} {w t : Bytes} {rows : List (Nat × Nat × Label Act)} {d : Label Act}
    {e : List Act} (hT : T cs = ⟨[.setVersion], (32, 32, st 6) :: rows, d, e⟩) (hw : m.text = some w)
    (hat : At m (32 :: t)) (hc : m.compliantMsg = c) (hh : m.out.hasElements = false) :
    Ends (go (32 :: t) cs m) (dTimestamp c (m.p + 1) t (setV m.out w)) := by
  have hstep : go (32 :: t) cs m = go t 6 (adv { m with out := setV m.out w }) :=
    run_next (acts := []) (m1 := { m with out := setV m.out w })
      (by rw [hT, dispatch_cons_in (by decide)]) (by rw [hT]; exact setVersion_run hw) rfl
  rw [hstep]
  exact timestamp_phase c _ t ⟨hat.adv.le, hat.adv.eq⟩ hc hh

theorem text_snoc {m : M} {w r : Bytes} {b : UInt8} (h : m.text = some w) (hat : At m (b :: r)) :
    (adv m).text = some (w ++ [b]) := by
  simp only [M.text, slice] at h ⊢
  split at h
  · rename_i hle
    simp only [Option.some.injEq] at h
    have hat' := hat.adv
    have h1 := hat'.le
    rw [if_pos ⟨by simp only [adv]; omega, h1⟩]
    simp only [adv] at h1 ⊢
    have hdd : (m.data.drop m.pb).drop (m.p - m.pb) = b :: r := by
      rw [List.drop_drop, show m.pb + (m.p - m.pb) = m.p by omega, hat.eq]
    rw [show m.p + 1 - m.pb = (m.p - m.pb) + 1 by omega, List.take_add, h, hdd]
    rfl
  · simp at h

theorem isDig_iff {b : UInt8} : isDig b = true ↔ 48 ≤ b.toNat ∧ b.toNat ≤ 57 := by simp [isDig]

theorem version_phase (c : Bool) (m : M) (rest : Bytes) (hat : At m rest) (hc : m.compliantMsg = c)
    (hh : m.out.hasElements = false) : Ends (go rest 4 m) (dVersion c m.p rest m.out) := by
  cases rest with
  | nil => exact ends_fail_eof (m2 := m) (by rw [T_4]; rfl)
  | cons d1 r1 =>
    simp only [dVersion]
    by_cases h1 : d1.toNat < 49 ∨ 57 < d1.toNat
    · rw [if_pos h1]
      exact ends_fail (m1 := m) (m2 := m) (by rw [T_4]; rfl) (by
        rw [T_4, dispatch_cons_out (by omega), dispatch_nil]; rfl)
    rw [if_neg h1]
    obtain ⟨m1, hm1⟩ : ∃ m1 : M, m1 = adv { m with pb := m.p } := ⟨_, rfl⟩
    have hstep1 : go (d1 :: r1) 4 m = go r1 5 m1 := by
      rw [hm1]
      refine run_next (acts := [.mark]) (m1 := m) (m2 := { m with pb := m.p }) ?_ (by rw [T_4]; rfl) rfl
      rw [T_4, dispatch_cons_in (by omega)]
    have hat1 : At m1 r1 := by have := hat.adv; rw [hm1]; exact ⟨this.le, this.eq⟩
    have htx1 : m1.text = some [d1] := by
      rw [hm1]
      exact slice_of_drop (data := m.data) (a := m.p) (w := [d1]) (rest := r1) hat.le (by rw [hat.eq]; rfl)
    have hp1 : m1.p = m.p + 1 := by rw [hm1]; rfl
    have ho1 : m1.out = m.out := by rw [hm1]; rfl
    have hc1 : m1.compliantMsg = c := by rw [hm1]; exact hc
    rw [hstep1]
    have hset1 := setVersion_run htx1
    cases r1 with
    | nil =>
      simp only
      have := ends_fail_eof (cs := 5) (m := m1) (m2 := { m1 with out := setV m1.out [d1] }) (k := .parse) (by
        rw [T_5]; simp only [runActs] at hset1 ⊢
        simp only [act, withText, htx1, fail, setV])
      simp only [hp1, ho1] at this
      exact this
    | cons d2 r2 =>
      simp only
      by_cases h2 : d2 = 32
      · rw [if_pos h2]; subst h2
        have := version_sp (c := c) T_5 htx1 hat1 hc1 (by rw [ho1]; exact hh)
        rw [hp1, ho1] at this
        exact this
      rw [if_neg h2]
      have h2' : d2.toNat ≠ 32 := fun h => h2 ((toNat_eq (n := 32) (by omega)).mp h)
      by_cases h2d : isDig d2 = true
      case neg =>
        rw [if_neg h2d]
        have := ends_fail (b := d2) (bs := r2) (cs := 5) (m := m1) (m1 := { m1 with out := setV m1.out [d1] })
          (m2 := { m1 with out := setV m1.out [d1] }) (k := .parse) (by rw [T_5]; exact hset1) (by
          rw [T_5, dispatch_cons_out (by omega), dispatch_cons_out (fun h => h2d (isDig_iff.mpr h)), dispatch_nil]; rfl)
        simp only [hp1, ho1] at this
        exact this
      rw [if_pos h2d]
      obtain ⟨m2, hm2⟩ : ∃ m2 : M, m2 = adv { m1 with out := setV m1.out [d1] } := ⟨_, rfl⟩
      have hstep2 : go (d2 :: r2) 5 m1 = go r2 591 m2 := by
        rw [hm2]
        exact run_next (acts := []) (by rw [T_5, dispatch_cons_out (by omega), dispatch_cons_in (isDig_iff.mp h2d)])
          (by rw [T_5]; exact hset1) rfl
      have hat2 : At m2 r2 := by have := hat1.adv; rw [hm2]; exact ⟨this.le, this.eq⟩
      have htx2 : m2.text = some [d1, d2] := by
        rw [hm2]; exact text_snoc htx1 hat1
      have hp2 : m2.p = m.p + 2 := by rw [hm2]; simp only [adv, hp1]
      have ho2 : m2.out = setV m.out [d1] := by rw [hm2]; simp only [adv, ho1]
      have hc2 : m2.compliantMsg = c := by rw [hm2]; exact hc1
      have hset2 := setVersion_run htx2
      rw [hstep2]
      cases r2 with
      | nil =>
        simp only
        have := ends_fail_eof (cs := 591) (m := m2) (m2 := m2) (k := .version) (by rw [T_591]; rfl)
        rw [hp2, ho2] at this
        exact this
      | cons d3 r3 =>
        simp only
        by_cases h3 : d3 = 32
        · rw [if_pos h3]; subst h3
          have := version_sp (c := c) T_591 htx2 hat2 hc2 (by rw [ho2]; exact hh)
          rw [hp2, ho2] at this
          exact this
        rw [if_neg h3]
        have h3' : d3.toNat ≠ 32 := fun h => h3 ((toNat_eq (n := 32) (by omega)).mp h)
        by_cases h3d : isDig d3 = true
        case neg =>
          rw [if_neg h3d]
          have := ends_fail (b := d3) (bs := r3) (cs := 591) (m := m2) (m1 := { m2 with out := setV m2.out [d1, d2] })
            (m2 := { m2 with out := setV m2.out [d1, d2] }) (k := .version) (by rw [T_591]; exact hset2) (by
            rw [T_591, dispatch_cons_out (by omega), dispatch_cons_out (fun h => h3d (isDig_iff.mpr h)), dispatch_nil]; rfl)
          simp only [hp2, ho2] at this
          exact this
        rw [if_pos h3d]
        obtain ⟨m3, hm3⟩ : ∃ m3 : M, m3 = adv { m2 with out := setV m2.out [d1, d2] } := ⟨_, rfl⟩
        have hstep3 : go (d3 :: r3) 591 m2 = go r3 592 m3 := by
          rw [hm3]
          exact run_next (acts := []) (by rw [T_591, dispatch_cons_out (by omega), dispatch_cons_in (isDig_iff.mp h3d)])
            (by rw [T_591]; exact hset2) rfl
        have hat3 : At m3 r3 := by have := hat2.adv; rw [hm3]; exact ⟨this.le, this.eq⟩
        have htx3 : m3.text = some [d1, d2, d3] := by
          rw [hm3]; exact text_snoc htx2 hat2
        have hp3 : m3.p = m.p + 3 := by rw [hm3]; simp only [adv, hp2]
        have ho3 : m3.out = setV m.out [d1, d2] := by rw [hm3]; simp only [adv, ho2, setV_setV]
        have hc3 : m3.compliantMsg = c := by rw [hm3]; exact hc2
        have hset3 := setVersion_run htx3
        rw [hstep3]
        cases r3 with
        | nil =>
          simp only
          have := ends_fail_eof (cs := 592) (m := m3) (m2 := m3) (k := .version) (by rw [T_592]; rfl)
          rw [hp3, ho3] at this
          exact this
        | cons d4 r4 =>
          simp only
          by_cases h4 : d4 = 32
          · rw [if_pos h4]; subst h4
            have := version_sp (c := c) T_592 htx3 hat3 hc3 (by rw [ho3]; exact hh)
            rw [hp3, ho3] at this
            exact this
          rw [if_neg h4]
          have h4' : d4.toNat ≠ 32 := fun h => h4 ((toNat_eq (n := 32) (by omega)).mp h)
          have := ends_fail (b := d4) (bs := r4) (cs := 592) (m := m3) (m1 := { m3 with out := setV m3.out [d1, d2, d3] })
            (m2 := { m3 with out := setV m3.out [d1, d2, d3] }) (k := .version) (by rw [T_592]; exact hset3) (by
            rw [T_592, dispatch_cons_out (by omega), dispatch_nil]; rfl)
          simp only [hp3, ho3] at this
          exact this

/-! ## PRI -/

def priSt : PriSt → Nat
  | .start => 2 | .one => 593 | .nineteen => 595 | .two => 594 | .full => 3

theorem pri_disp (s : PriSt) (hs : s ≠ .start) (b : UInt8) : (T (priSt s)).dispatch b.toNat =
    (if b.toNat = 62 then ⟨[], 4⟩ else match priStep s b with
      | some s' => ⟨[], priSt s'⟩ | none => ⟨[.errPrival, .errPri, .errParse], 0⟩) := by
  apply forall_byte (P := fun b => (T (priSt s)).dispatch b.toNat =
    (if b.toNat = 62 then ⟨[], 4⟩ else match priStep s b with
      | some s' => ⟨[], priSt s'⟩ | none => ⟨[.errPrival, .errPri, .errParse], 0⟩))
  cases s <;> first | exact absurd rfl hs | decide +kernel

theorem pri_disp_start (b : UInt8) : (T 2).dispatch b.toNat =
    (match priStep .start b with
      | some s' => ⟨[.mark], priSt s'⟩ | none => ⟨[.errPrival, .errPri, .errParse], 0⟩) := by
  apply forall_byte (P := fun b => (T 2).dispatch b.toNat =
    (match priStep .start b with
      | some s' => ⟨[.mark], priSt s'⟩ | none => ⟨[.errPrival, .errPri, .errParse], 0⟩))
  decide +kernel

theorem pri_frm (s : PriSt) (hs : s ≠ .start) : (T (priSt s)).frm = [.setPrival] := by
  cases s <;> first | exact absurd rfl hs | decide +kernel
theorem T2_frm : (T 2).frm = [] := by decide +kernel
theorem pri_eof (s : PriSt) : (T (priSt s)).eof = [.errPrival, .errPri, .errParse] := by cases s <;> decide +kernel
theorem priSt_ne (s : PriSt) : priSt s ≠ 0 := by cases s <;> decide
theorem priStep_ne {s s' : PriSt} {b : UInt8} (h : priStep s b = some s') : s' ≠ .start := by
  rintro rfl
  cases s <;> simp only [priStep] at h <;> (repeat' split at h) <;> simp at h

theorem T_1 : T 1 = ⟨[], [(60, 60, st 2)], ⟨[.errPri], 0⟩, [.errPri]⟩ := by decide +kernel

/-- nothing but the priority was set -/
def Fresh (o : Out) : Prop := { o with priority := 0, prioritySet := false } = ({} : Out)

theorem Fresh.part {o : Out} (h : Fresh o) : partOf o = none := by
  have hv : o.version = 0 := by have := congrArg Out.version h; simpa using this
  have : Common.validVersion 0 = false := by decide
  simp [partOf, Out.minimal, hv, this]

theorem Fresh.setP {o : Out} (h : Fresh o) (w : Bytes) :
    { o with priority := Common.toU8 (Common.unsafeDec w), prioritySet := true } = setP w := by
  have := congrArg (fun x : Out => { x with
    priority := Common.toU8 (Common.unsafeDec w), prioritySet := true }) h
  exact this

theorem pri_inner : ∀ (l : Bytes) (s : PriSt) (w0 : Bytes) (m : M), s ≠ .start → m.text = some w0 → At m l →
    Fresh m.out →
    match priScan s l with
    | .bad n => Ends (go l (priSt s) m) (.err ⟨.prival, m.p + n⟩ none)
    | .ok w tl => ∃ m', go l (priSt s) m = go tl 4 m' ∧ At m' tl ∧ m'.p = m.p + w.length + 1 ∧ m'.out = setP (w0 ++ w) ∧
        m'.compliantMsg = m.compliantMsg := by
  intro l
  induction l with
  | nil =>
    intro s w0 m hs htx hat hfr
    simp only [priScan]
    have := ends_fail_eof (cs := priSt s) (m := m) (m2 := m) (k := .prival) (by rw [pri_eof]; rfl)
    simp only [mkErr, hfr.part] at this
    exact this
  | cons b l ih =>
    intro s w0 m hs htx hat hfr
    have hd := pri_disp s hs b
    have hfrm : runActs act (T (priSt s)).frm m = .next { m with out := setP w0 } := by
      rw [pri_frm s hs]
      simp only [runActs, act, withText, htx, hfr.setP]
    have hfr' : Fresh (setP w0) := rfl
    simp only [priScan]
    by_cases h62 : b.toNat = 62
    · rw [if_pos ⟨hs, h62⟩]
      rw [if_pos h62] at hd
      refine ⟨adv { m with out := setP w0 }, run_next (acts := []) hd hfrm rfl, ⟨hat.adv.le, hat.adv.eq⟩, rfl, ?_, rfl⟩
      simp [adv]
    · rw [if_neg (fun h => h62 h.2)]
      rw [if_neg h62] at hd
      cases hst : priStep s b with
      | none =>
        rw [hst] at hd
        simp only
        have := ends_fail (b := b) (bs := l) (m1 := { m with out := setP w0 }) (m2 := { m with out := setP w0 })
          (k := .prival) hfrm (by rw [hd]; rfl)
        simp only [mkErr, hfr'.part] at this
        exact this
      | some s' =>
        rw [hst] at hd
        have hstep : go (b :: l) (priSt s) m = go l (priSt s') (adv { m with out := setP w0 }) := by
          obtain ⟨t, ht⟩ := Nat.exists_eq_succ_of_ne_zero (priSt_ne s')
          simp only [ht] at hd ⊢
          exact run_next (acts := []) hd hfrm rfl
        have := ih s' (w0 ++ [b]) (adv { m with out := setP w0 }) (priStep_ne hst) (text_snoc (m := { m with out := setP w0 }) htx ⟨hat.le, hat.eq⟩)
          ⟨hat.adv.le, hat.adv.eq⟩ hfr'
        cases hsc : priScan s' l with
        | bad n =>
          rw [hsc] at this
          simp only [hsc, Ts.Res.cons] at this ⊢
          rw [hstep, show m.p + (n + 1) = (adv { m with out := setP w0 }).p + n by simp only [adv]; omega]
          exact this
        | ok w tl =>
          rw [hsc] at this
          simp only [hsc, Ts.Res.cons] at this ⊢
          obtain ⟨m', g1, g2, g3, g4, g5⟩ := this
          refine ⟨m', by rw [hstep]; exact g1, g2, ?_, ?_, g5⟩
          · rw [g3]; simp only [adv, List.length_cons]; omega
          · rw [g4]; simp

/-- The automaton computes `descend`. -/
theorem run_descend (m : M) (input : Bytes) :
    Ends (run T act adv input 1 (reset m input)) (descend m.compliantMsg input) := by
  obtain ⟨m0, hm0⟩ : ∃ m0, m0 = reset m input := ⟨_, rfl⟩
  rw [← hm0]
  have hat : At m0 input := by rw [hm0]; exact ⟨Nat.zero_le _, rfl⟩
  have hp : m0.p = 0 := by rw [hm0]; rfl
  have ho : m0.out = {} := by rw [hm0]; rfl
  have hc : m0.compliantMsg = m.compliantMsg := by rw [hm0]; rfl
  have hno : ∀ k n, mkErr k n m0.out = .err ⟨k, n⟩ none := by rw [ho]; intro k n; rfl
  change Ends (go input 1 m0) _
  cases input with
  | nil =>
    have := ends_fail_eof (cs := 1) (m := m0) (m2 := m0) (k := .pri) (by rw [T_1]; rfl)
    rw [hno, hp] at this
    exact this
  | cons b r =>
    by_cases h60 : b.toNat = 60
    case neg =>
      have : descend m.compliantMsg (b :: r) = .err ⟨.pri, 0⟩ none := by
        simp only [descend]
        split
        · rename_i h; simp at h; exact absurd (by rw [h.1]; rfl) h60
        · rfl
      rw [this]
      have := ends_fail (b := b) (bs := r) (cs := 1) (m := m0) (m1 := m0) (m2 := m0) (k := .pri) (by rw [T_1]; rfl)
        (by rw [T_1, dispatch_cons_out (by omega), dispatch_nil]; rfl)
      rw [hno, hp] at this
      exact this
    have hb : b = 60 := (toNat_eq (n := 60) (by omega)).mp h60
    subst hb
    have hstep : go (60 :: r) 1 m0 = go r 2 (adv m0) :=
      run_simple (by rw [T_1]) (by rw [T_1, dispatch_cons_in (by decide)])
    have hat1 := hat.adv
    rw [hstep]
    simp only [descend]
    cases r with
    | nil =>
      have := ends_fail_eof (cs := 2) (m := adv m0) (m2 := adv m0) (k := .prival) (by
        rw [show (2 : Nat) = priSt .start from rfl, pri_eof]; rfl)
      rw [show (adv m0).out = m0.out from rfl, hno, show (adv m0).p = m0.p + 1 from rfl, hp] at this
      exact this
    | cons d r' =>
      have hd := pri_disp_start d
      simp only [priScan]
      rw [if_neg (fun h => h.1 rfl)]
      cases hst : priStep .start d with
      | none =>
        rw [hst] at hd
        have := ends_fail (b := d) (bs := r') (cs := 2) (m := adv m0) (m1 := adv m0) (m2 := adv m0) (k := .prival)
          (by rw [T2_frm]; rfl) (by rw [hd]; rfl)
        rw [show (adv m0).out = m0.out from rfl, hno, show (adv m0).p = m0.p + 1 from rfl, hp] at this
        exact this
      | some s' =>
        rw [hst] at hd
        obtain ⟨m1, hm1⟩ : ∃ m1 : M, m1 = adv { adv m0 with pb := (adv m0).p } := ⟨_, rfl⟩
        have hstep2 : go (d :: r') 2 (adv m0) = go r' (priSt s') m1 := by
          obtain ⟨t, ht⟩ := Nat.exists_eq_succ_of_ne_zero (priSt_ne s')
          simp only [ht] at hd ⊢
          rw [hm1]
          exact run_next (acts := [.mark]) (m1 := adv m0) hd (by rw [T2_frm]; rfl) rfl
        have hp1 : m1.p = 2 := by rw [hm1]; simp only [adv, hp]
        have hat2 : At m1 r' := by rw [hm1]; exact ⟨hat1.adv.le, hat1.adv.eq⟩
        have htx : m1.text = some [d] := by
          rw [hm1]
          exact slice_of_drop (data := m0.data) (a := m0.p + 1) (w := [d]) (rest := r') hat1.le hat1.eq
        have hin := pri_inner r' s' [d] m1 (priStep_ne hst) htx hat2 (by rw [hm1]; simp only [adv, ho]; rfl)
        rw [hstep2]
        simp only
        cases hsc : priScan s' r' with
        | bad n =>
          rw [hsc] at hin
          simp only [Ts.Res.cons] at hin ⊢
          rw [hp1] at hin
          rw [show 1 + (n + 1) = 2 + n by omega]
          exact hin
        | ok w tl =>
          rw [hsc] at hin
          simp only [Ts.Res.cons] at hin ⊢
          obtain ⟨m', g1, g2, g3, g4, g5⟩ := hin
          rw [g1]
          have := version_phase m.compliantMsg m' tl g2
            (g5.trans (by rw [hm1]; exact hc)) (by rw [g4]; rfl)
          rw [g3, g4, hp1] at this
          rw [show 1 + (d :: w).length + 1 = 2 + w.length + 1 by simp; omega]
          exact this

end Verif.Rfc5424
