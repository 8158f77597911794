import Verif.Rfc3164.DescentRun

/-! # The automaton computes `descend`: header, and the whole -/

namespace Verif.Rfc3164
open Verif.Fsm Verif.Gen.Rfc3164
open Verif.Rfc5424 (isGraph priScan priStep PriSt slice_of_drop drop_add isGraph_iff isGraph_false toNat_eq forall_byte priStep_ne)

/-! ## HOSTNAME -/

/-- state after `k + 1` characters of the hostname -/
def hostSt (k : Nat) : Nat := if k = 0 then 21 else 26 + k

theorem T_20 (o : Opts) : T o 20 = ⟨[], [(33, 126, ⟨[.mark], 21⟩)], ⟨[.errHostname], 0⟩, [.errHostname]⟩ :=
  (by decide +kernel : ∀ b, TB b 20 = _) o.rfc3339

theorem T_host (o : Opts) {k : Nat} (hk : k < 254) :
    T o (hostSt k) = ⟨[], [(32, 32, ⟨[.setHostname], 22⟩), (33, 126, st (hostSt (k + 1)))], ⟨[.errHostname], 0⟩, [.errHostname]⟩ :=
  (by decide +kernel : ∀ b, ∀ k : _root_.Fin 254, TB b (hostSt k.val) = ⟨[], [(32, 32, ⟨[.setHostname], 22⟩), (33, 126, st (hostSt (k.val + 1)))],
    ⟨[.errHostname], 0⟩, [.errHostname]⟩) o.rfc3339 ⟨k, hk⟩

theorem T_hostEnd (o : Opts) : T o (hostSt 254) = ⟨[], [(32, 32, ⟨[.setHostname], 22⟩)], ⟨[.errHostname], 0⟩, [.errHostname]⟩ :=
  (by decide +kernel : ∀ b, TB b (hostSt 254) = _) o.rfc3339

theorem dHost_ok {pos : Nat} {rest w t : Bytes} {out : Out} (h : spanN isGraph 255 rest = (w, 32 :: t)) (hw : w ≠ []) :
    dHost pos rest out = dMsg (pos + w.length + 1) t { out with hostname := w } := by
  simp [dHost, h, hw]

theorem dHost_bad {pos : Nat} {rest w r : Bytes} {out : Out} (h : spanN isGraph 255 rest = (w, r)) (hr : w = [] ∨ ∀ t, r ≠ 32 :: t) :
    dHost pos rest out = mkErr .hostname (pos + w.length) out := by
  simp only [dHost, h]
  split
  · rename_i t t' heq
    rcases hr with hr | hr
    · simp only [Prod.mk.injEq] at heq; rw [← heq.1]; simp [hr]
    · simp only [Prod.mk.injEq] at heq; exact absurd heq.2 (hr _)
  · rename_i heq; simp only [Prod.mk.injEq] at heq; rw [heq.1]

theorem host_phase (o : Opts) (m : M) (rest : Bytes) (hat : At m rest) : Ends (go o rest 20 m) (dHost m.p rest m.out) := by
  have he : ∀ m, runActs (act o) [.errHostname] m = fail .hostname m := fun _ => rfl
  cases rest with
  | nil =>
    have : dHost m.p [] m.out = mkErr .hostname m.p m.out := rfl
    rw [this]
    exact ends_fail_eof (by rw [T_20]; exact he m)
  | cons b bs =>
    by_cases hb : isGraph b = true
    case neg =>
      have hs : spanN isGraph 255 (b :: bs) = ([], b :: bs) := by simp only [spanN, if_neg hb]
      rw [dHost_bad hs (Or.inl rfl)]
      refine ends_fail (m1 := m) (by rw [T_20]; rfl) ?_
      rw [T_20, dispatch_cons_out (isGraph_false.mp (by simpa using hb)), dispatch_nil]
      exact he m
    case pos =>
      have hb' := isGraph_iff.mp hb
      have hstep : go o (b :: bs) 20 m = go o bs (hostSt 0) (adv { m with pb := m.p }) :=
        run_next (acts := [.mark]) (m1 := m) (m2 := { m with pb := m.p }) (by rw [T_20, dispatch_cons_in hb']) (by rw [T_20]; rfl) rfl
      rw [hstep]
      obtain ⟨w, hw⟩ : ∃ w, (spanN isGraph 254 bs).1 = w := ⟨_, rfl⟩
      obtain ⟨r, hr⟩ : ∃ r, (spanN isGraph 254 bs).2 = r := ⟨_, rfl⟩
      have happ := spanN_append isGraph 254 bs
      have hall := spanN_all isGraph 254 bs
      have hlen := spanN_length isGraph 254 bs
      have hmax := spanN_max isGraph 254 bs
      have hspan : spanN isGraph 255 (b :: bs) = (b :: w, r) := by
        simp only [spanN, if_pos hb, hw, hr]
      rw [hw, hr] at happ
      rw [hw] at hall hlen hmax
      rw [hr] at hmax
      obtain ⟨m1, hm1⟩ : ∃ m1 : M, m1 = { m with pb := m.p, p := m.p + 1 + w.length } := ⟨_, rfl⟩
      have hloop : go o bs (hostSt 0) (adv { m with pb := m.p }) = go o r (hostSt w.length) m1 := by
        rw [← happ, go, run_loop hostSt 254 isGraph (fun k h => by rw [T_host o h])
          (fun k h c hc => by
            have hc' := isGraph_iff.mp hc
            rw [T_host o h, dispatch_cons_out (by omega), dispatch_cons_in hc'])
          (fun k => by rw [hostSt]; split <;> omega) r w 0 _ hall (by omega)]
        rw [advN_eq, Nat.zero_add, hm1]; rfl
      rw [hloop]
      have hat1 : At m1 r := by
        have h1 : At m ((b :: w) ++ r) := by rw [List.cons_append, happ]; exact hat
        have h2 := h1.addn
        rw [hm1]
        refine ⟨by have := h2.le; simp at this ⊢; omega, ?_, hat.err⟩
        have := h2.eq; simp only [List.length_cons] at this ⊢; rw [← this]; congr 1; omega
      have htx1 : m1.text = some (b :: w) := by
        rw [hm1]
        exact text_of (w := b :: w) (rest := r) hat.le (by rw [hat.eq, List.cons_append, happ]) (by simp only [List.length_cons]; omega)
      have hout : m1.out = m.out := by rw [hm1]
      have hp1 : m1.p = m.p + (b :: w).length := by rw [hm1]; simp only [List.length_cons]; omega
      have hrow : ∃ extra, T o (hostSt w.length) =
          ⟨[], (32, 32, ⟨[.setHostname], 22⟩) :: extra, ⟨[.errHostname], 0⟩, [.errHostname]⟩ ∧
          (extra = [] ∨ (w.length < 254 ∧ extra = [(33, 126, st (hostSt (w.length + 1)))])) := by
        rcases Nat.lt_or_ge w.length 254 with h | h
        · exact ⟨_, T_host o h, Or.inr ⟨h, rfl⟩⟩
        · have : w.length = 254 := by omega
          rw [this]; exact ⟨_, T_hostEnd o, Or.inl rfl⟩
      obtain ⟨extra, hrow, hextra⟩ := hrow
      cases r with
      | nil =>
        rw [dHost_bad hspan (Or.inr (by simp)), ← hout, ← hp1]
        exact ends_fail_eof (m2 := m1) (by rw [hrow]; exact he m1)
      | cons x xs =>
        by_cases hx : x.toNat = 32
        · have hx' : x = 32 := (toNat_eq (n := 32) (by omega)).mp hx
          subst hx'
          rw [dHost_ok hspan (by simp)]
          have hstep2 : go o (32 :: xs) (hostSt w.length) m1 = go o xs 22 (adv { m1 with out := { m1.out with hostname := b :: w } }) :=
            run_next (acts := [.setHostname]) (m1 := m1) (by rw [hrow, dispatch_cons_in (by decide)]) (by rw [hrow]; rfl)
              (by simp only [runActs, act, withText, htx1])
          rw [hstep2, ← hp1, ← hout]
          exact msg_phase o _ xs ⟨hat1.adv.le, hat1.adv.eq, hat1.adv.err⟩
        · have hx' : ¬ x = 32 := fun h => hx (by rw [h]; rfl)
          rw [dHost_bad hspan (Or.inr (by simp [hx'])), ← hout, ← hp1]
          refine ends_fail (m1 := m1) (m2 := m1) (by rw [hrow]; rfl) ?_
          rw [hrow, dispatch_cons_out (by omega)]
          rcases hextra with rfl | ⟨hlt, rfl⟩
          · rw [dispatch_nil]; exact he _
          · have hg : isGraph x = false := by
              rcases hmax with h | h | ⟨b', r', h, h'⟩
              · omega
              · simp at h
              · simp at h; rw [h.1]; exact h'
            rw [dispatch_cons_out (isGraph_false.mp hg), dispatch_nil]; exact he _

/-! ## TIMESTAMP, classic form -/

def bsSt : Bs → Nat
  | .m1 => 4 | .La => 5 | .Lap => 6 | .Lau => 284 | .Ld => 285 | .Lde => 286 | .Lf => 287 | .Lfe => 288 | .Lj => 289 | .Lja => 290
  | .Lju => 291 | .Lm => 292 | .Lma => 293 | .Ln => 294 | .Lno => 295 | .Lo => 296 | .Loc => 297 | .Ls => 298 | .Lse => 299
  | .sp1 => 7 | .day => 8 | .dsp => 9 | .d12 => 282 | .d3 => 283 | .sp2 => 10 | .hour => 11 | .h01 => 12 | .h2 => 281 | .c1 => 13
  | .min => 14 | .minu => 15 | .c2 => 16 | .sec => 17 | .secu => 18 | .fin => 19

theorem bsSt_ne (s : Bs) : bsSt s ≠ 0 := by cases s <;> decide

def bsLabel : Option Bs → Label Act
  | some s' => ⟨[], bsSt s'⟩
  | none => ⟨[.errTimestamp], 0⟩

theorem bs_disp (o : Opts) (s : Bs) (h1 : s ≠ .m1) (h2 : s ≠ .fin) (b : UInt8) :
    (T o (bsSt s)).dispatch b.toNat = bsLabel (Bs.step s b) := by
  have : ∀ f : Bool, ∀ n : _root_.Fin 256, (TB f (bsSt s)).dispatch (UInt8.ofNat n.val).toNat = bsLabel (Bs.step s (UInt8.ofNat n.val)) := by
    cases s <;> first | exact absurd rfl h1 | exact absurd rfl h2 | decide +kernel
  have hb := this o.rfc3339 ⟨b.toNat, b.toNat_lt⟩
  simpa [T_TB] using hb

theorem bs_row (o : Opts) (s : Bs) (h2 : s ≠ .fin) : (T o (bsSt s)).frm = [] ∧ (T o (bsSt s)).eof = [.errTimestamp] := by
  have : ∀ f : Bool, (TB f (bsSt s)).frm = [] ∧ (TB f (bsSt s)).eof = [.errTimestamp] := by
    cases s <;> first | exact absurd rfl h2 | decide +kernel
  exact this o.rfc3339

theorem T_19 (o : Opts) : T o 19 = ⟨[], [(32, 32, ⟨[.setTimestamp], 20⟩)], st 0, []⟩ :=
  (by decide +kernel : ∀ b, TB b 19 = _) o.rfc3339

theorem bs_step_ne {s s' : Bs} {b : UInt8} (h : Bs.step s b = some s') : s' ≠ .m1 := by
  rintro rfl
  obtain ⟨⟨lo, hi, t⟩, hm, -, -, ht⟩ := Bs.look_some h
  simp only at ht; subst ht
  cases s <;> simp [Bs.row] at hm

theorem bs_inner (o : Opts) : ∀ (l : Bytes) (s : Bs) (m : M), s ≠ .m1 →
    match Bs.scan s l with
    | .bad n => Ends (go o l (bsSt s) m) (mkErr .timestamp (m.p + n) m.out)
    | .ok w tl => go o l (bsSt s) m = go o tl 19 { m with p := m.p + w.length } := by
  intro l
  induction l with
  | nil =>
    intro s m hs
    by_cases hf : s = .fin
    · subst hf; rfl
    · simp only [Bs.scan, if_neg hf]
      exact ends_fail_eof (m2 := m) (by rw [(bs_row o s hf).2]; rfl)
  | cons b l ih =>
    intro s m hs
    by_cases hf : s = .fin
    · subst hf; rfl
    · simp only [Bs.scan, if_neg hf]
      have hd := bs_disp o s hs hf b
      cases hst : Bs.step s b with
      | none =>
        rw [hst] at hd
        exact ends_fail (m1 := m) (m2 := m) (by rw [(bs_row o s hf).1]; rfl) (by rw [hd]; rfl)
      | some s' =>
        rw [hst] at hd
        have hstep : go o (b :: l) (bsSt s) m = go o l (bsSt s') (adv m) := by
          obtain ⟨t, ht⟩ := Nat.exists_eq_succ_of_ne_zero (bsSt_ne s')
          simp only [bsLabel, ht] at hd ⊢
          exact run_simple (bs_row o s hf).1 hd
        have := ih s' (adv m) (bs_step_ne hst)
        cases hsc : Bs.scan s' l with
        | bad n =>
          rw [hsc] at this
          simp only [hsc, Ts.Res.cons] at this ⊢
          rw [hstep, show m.p + (n + 1) = (adv m).p + n by simp only [adv]; omega]
          exact this
        | ok w tl =>
          rw [hsc] at this
          simp only [hsc, Ts.Res.cons] at this ⊢
          rw [hstep, this]
          simp only [adv, List.length_cons]
          rw [show m.p + 1 + w.length = m.p + (w.length + 1) by omega]

/-- state 4 on a byte that is not the first digit of an RFC 3339 timestamp -/
theorem disp_4 (o : Opts) (b : UInt8) (h : (o.rfc3339 && headDigit [b]) = false) :
    (T o 4).dispatch b.toNat = match Bs.step .m1 b with | some s' => ⟨[.mark], bsSt s'⟩ | none => ⟨[.errTimestamp], 0⟩ := by
  have : ∀ f : Bool, ∀ n : _root_.Fin 256, (f && headDigit [UInt8.ofNat n.val]) = false → (TB f 4).dispatch (UInt8.ofNat n.val).toNat =
      match Bs.step .m1 (UInt8.ofNat n.val) with | some s' => ⟨[.mark], bsSt s'⟩ | none => ⟨[.errTimestamp], 0⟩ := by
    decide +kernel
  have hb := this o.rfc3339 ⟨b.toNat, b.toNat_lt⟩
  simp only [UInt8.ofNat_toNat] at hb
  exact hb h

theorem after_phase (o : Opts) {cs : Nat} {a : Act} {parse : Bytes → Option GoTime.Time} (hcs : cs < 333)
    (hrow : T o cs = ⟨[], [(32, 32, ⟨[a], 20⟩)], st 0, []⟩)
    (hact : ∀ (m : M) (w : Bytes), m.text = some w → act o a m = match parse w with
      | none => fail .timeParse m
      | some tm => .next { m with out := { m.out with timestamp := tm, timestampSet := true } })
    (m : M) (w tl : Bytes) (hat : At m tl) (htx : m.text = some w) (pos : Nat) (hp : m.p = pos + w.length) :
    Ends (go o tl cs m) (dAfter parse pos w tl m.out) := by
  cases tl with
  | nil => exact ends_stop_eof hcs hat.err (by rw [hrow])
  | cons x t =>
    by_cases hx : x.toNat = 32
    · have hx' : x = 32 := (toNat_eq (n := 32) (by omega)).mp hx
      subst hx'
      have ha := hact m w htx
      simp only [dAfter]
      cases hpw : parse w with
      | none =>
        rw [hpw] at ha
        rw [← hp]
        exact ends_fail (m1 := m) (m2 := m) (by rw [hrow]; rfl) (by
          rw [hrow, dispatch_cons_in (by decide)]; simp only [runActs, ha, fail])
      | some tm =>
        rw [hpw] at ha
        have hstep : go o (32 :: t) cs m = go o t 20 (adv { m with out := { m.out with timestamp := tm, timestampSet := true } }) :=
          run_next (acts := [a]) (m1 := m) (by rw [hrow, dispatch_cons_in (by decide)]) (by rw [hrow]; rfl) (by simp only [runActs, ha])
        rw [hstep, ← hp]
        exact host_phase o _ t ⟨hat.adv.le, hat.adv.eq, hat.adv.err⟩
    · have e : dAfter parse pos w (x :: t) m.out = .stop none m.out := by
        unfold dAfter
        split
        · rename_i heq; simp at heq; exact absurd (by rw [heq.1]; rfl) hx
        · rfl
      rw [e]
      exact ends_stop hat.err (by rw [hrow]) (by rw [hrow, dispatch_cons_out (by omega), dispatch_nil])

theorem dBsd_eq (o : Opts) (pos : Nat) (rest : Bytes) (out : Out) : dBsd o pos rest out =
    match Bs.scan .m1 rest with
    | .bad n => mkErr .timestamp (pos + n) out
    | .ok w tl => dAfter (fun w => (parseStamp w).map (adjust o)) pos w tl out := by
  rfl

theorem bsd_phase (o : Opts) (m : M) (rest : Bytes) (hat : At m rest) (h : (o.rfc3339 && headDigit rest) = false) :
    Ends (go o rest 4 m) (dBsd o m.p rest m.out) := by
  rw [dBsd_eq]
  obtain ⟨hf4, he4⟩ := bs_row o .m1 (by simp)
  cases rest with
  | nil => exact ends_fail_eof (m2 := m) (by rw [show (4 : Nat) = bsSt .m1 from rfl, he4]; rfl)
  | cons b r =>
    have hd := disp_4 o b h
    cases hst : Bs.step .m1 b with
    | none =>
      rw [hst] at hd
      have hsc : Bs.scan .m1 (b :: r) = .bad 0 := by simp [Bs.scan, hst]
      rw [hsc]
      exact ends_fail (m1 := m) (m2 := m) (by rw [show (4 : Nat) = bsSt .m1 from rfl, hf4]; rfl) (by rw [hd]; rfl)
    | some s' =>
      rw [hst] at hd
      have hstep : go o (b :: r) 4 m = go o r (bsSt s') (adv { m with pb := m.p }) := by
        obtain ⟨t, ht⟩ := Nat.exists_eq_succ_of_ne_zero (bsSt_ne s')
        simp only [ht] at hd ⊢
        exact run_next (acts := [.mark]) (m1 := m) hd (by rw [show (4 : Nat) = bsSt .m1 from rfl, hf4]; rfl) rfl
      have hin := bs_inner o r s' (adv { m with pb := m.p }) (bs_step_ne hst)
      rw [Bs.scan_cons_of (by simp) hst, hstep]
      cases hsc : Bs.scan s' r with
      | bad n =>
        rw [hsc] at hin
        simp only [Ts.Res.cons] at hin ⊢
        rw [show m.p + (n + 1) = (adv { m with pb := m.p }).p + n by simp only [adv]; omega]
        exact hin
      | ok w tl =>
        rw [hsc] at hin
        simp only [Ts.Res.cons] at hin ⊢
        have happ : b :: r = (b :: w) ++ tl := by rw [Bs.scan_append hsc]; rfl
        obtain ⟨m1, hm1⟩ : ∃ m1 : M, m1 = { m with pb := m.p, p := m.p + (w.length + 1) } := ⟨_, rfl⟩
        have hrun : go o r (bsSt s') (adv { m with pb := m.p }) = go o tl 19 m1 := by
          rw [hin, hm1]
          simp only [adv]
          rw [show m.p + 1 + w.length = m.p + (w.length + 1) by omega]
        rw [hrun]
        have hat1 : At m1 tl := by
          rw [happ] at hat; have := hat.addn; rw [hm1]; exact ⟨this.le, this.eq, this.err⟩
        have htext : m1.text = some (b :: w) := by
          rw [hm1]; exact text_of (w := b :: w) (rest := tl) hat.le (by rw [hat.eq, happ]) rfl
        have := after_phase o (cs := 19) (a := .setTimestamp) (parse := fun w => (parseStamp w).map (adjust o)) (by omega) (T_19 o)
          (by
            intro m w hw
            simp only [act, withText, hw]
            cases parseStamp w <;> rfl) m1 (b :: w) tl hat1 htext m.p (by rw [hm1]; rfl)
        rw [show m1.out = m.out by rw [hm1]] at this
        exact this

/-! ## TIMESTAMP, RFC 3339 form -/

def isoSt : Ts → Nat
  | .y1 => 4 | .y2 => 300 | .y3 => 301 | .y4 => 302 | .dash1 => 303 | .mon => 304 | .mon0 => 305 | .mon1 => 329
  | .dash2 => 306 | .day => 307 | .day0 => 308 | .day12 => 327 | .day3 => 328 | .t => 309
  | .hour => 310 | .hour01 => 311 | .hour2 => 326 | .col1 => 312 | .min => 313 | .minu => 314 | .col2 => 315
  | .sec => 316 | .secu => 317 | .zone => 318
  | .frac0 => 0 | .frac1 => 0 | .frac2 => 0 | .frac3 => 0 | .frac4 => 0 | .frac5 => 0 | .frac6 => 0
  | .oh => 319 | .oh01 => 320 | .oh2 => 325 | .ocol => 321 | .om => 322 | .omu => 323 | .fin => 324

/-- the states that read a fraction do not exist here -/
def isFrac : Ts → Bool
  | .frac0 | .frac1 | .frac2 | .frac3 | .frac4 | .frac5 | .frac6 => true
  | _ => false

/-- number of bytes read in a state before the zone; 19 from the zone on -/
def tsPos : Ts → Nat
  | .y1 => 0 | .y2 => 1 | .y3 => 2 | .y4 => 3 | .dash1 => 4 | .mon => 5 | .mon0 => 6 | .mon1 => 6
  | .dash2 => 7 | .day => 8 | .day0 => 9 | .day12 => 9 | .day3 => 9 | .t => 10
  | .hour => 11 | .hour01 => 12 | .hour2 => 12 | .col1 => 13 | .min => 14 | .minu => 15 | .col2 => 16
  | .sec => 17 | .secu => 18 | _ => 19

def isoLabel (s : Ts) : Option Ts → Label Act
  | some s' => ⟨[], isoSt s'⟩
  | none => if tsPos s < 19 then ⟨[], 0⟩ else ⟨[.errRfc3339], 0⟩

theorem iso_disp (o : Opts) (ho : o.rfc3339 = true) (s : Ts) (h1 : s ≠ .y1) (h2 : s ≠ .fin) (h3 : isFrac s = false) (b : UInt8) :
    (T o (isoSt s)).dispatch b.toNat = isoLabel s (Ts.step false s b) := by
  have : ∀ n : _root_.Fin 256, (TB true (isoSt s)).dispatch (UInt8.ofNat n.val).toNat = isoLabel s (Ts.step false s (UInt8.ofNat n.val)) := by
    cases s <;> first | exact absurd rfl h1 | exact absurd rfl h2 | (simp [isFrac] at h3; done) | decide +kernel
  have hb := this ⟨b.toNat, b.toNat_lt⟩
  rw [T_TB, ho]
  simpa using hb

theorem iso_row (o : Opts) (ho : o.rfc3339 = true) (s : Ts) (h1 : s ≠ .y1) (h2 : s ≠ .fin) (h3 : isFrac s = false) :
    (T o (isoSt s)).frm = [] ∧ (T o (isoSt s)).eof = if tsPos s < 19 then [] else [.errRfc3339] := by
  have : (TB true (isoSt s)).frm = [] ∧ (TB true (isoSt s)).eof = if tsPos s < 19 then [] else [.errRfc3339] := by
    cases s <;> first | exact absurd rfl h1 | exact absurd rfl h2 | (simp [isFrac] at h3; done) | decide +kernel
  rw [T_TB, ho]; exact this

theorem T_324 (o : Opts) : T o 324 = ⟨[], [(32, 32, ⟨[.setRfc3339], 20⟩)], st 0, []⟩ :=
  (by decide +kernel : ∀ b, TB b 324 = _) o.rfc3339

theorem ts_look_some {n : Nat} {s : Ts} : ∀ {r : List (Nat × Nat × Ts)}, Ts.look n r = some s → ∃ x ∈ r, s = x.2.2
  | [], h => by simp [Ts.look] at h
  | (lo, hi, s') :: r, h => by
    simp only [Ts.look] at h
    split at h
    · simp at h; exact ⟨(lo, hi, s'), by simp, h.symm⟩
    · obtain ⟨x, hx, h'⟩ := ts_look_some h; exact ⟨x, by simp [hx], h'⟩

/-- one step: not back to the start, no fraction, position advances (up to 19) -/
theorem ts_step_pos {s s' : Ts} {b : UInt8} (h3 : isFrac s = false) (h : Ts.step false s b = some s') :
    s' ≠ .y1 ∧ isFrac s' = false ∧ tsPos s' = if tsPos s < 19 then tsPos s + 1 else 19 := by
  obtain ⟨⟨lo, hi, t⟩, hm, ht⟩ := ts_look_some h
  simp only at ht; subst ht
  have : ∀ s : Ts, isFrac s = false → ∀ x ∈ Ts.row false s, x.2.2 ≠ Ts.y1 ∧ isFrac x.2.2 = false ∧ tsPos x.2.2 = if tsPos s < 19 then tsPos s + 1 else 19 := by
    intro s hs
    cases s <;> first | (simp [isFrac] at hs; done) | decide
  exact this s h3 _ hm

theorem isoSt_ne {s : Ts} (h3 : isFrac s = false) : isoSt s ≠ 0 := by
  cases s <;> first | (simp [isFrac] at h3; done) | decide

theorem iso_inner (o : Opts) (ho : o.rfc3339 = true) : ∀ (l : Bytes) (s : Ts) (m : M), s ≠ .y1 → isFrac s = false → m.err = none →
    match Ts.scan false s l with
    | .bad n => Ends (go o l (isoSt s) m) (if tsPos s + n < 19 then .stop none m.out else mkErr .rfc3339 (m.p + n) m.out)
    | .ok w tl => go o l (isoSt s) m = go o tl 324 { m with p := m.p + w.length } := by
  intro l
  induction l with
  | nil =>
    intro s m hs hfr herr
    by_cases hf : s = .fin
    · subst hf; rfl
    · simp only [Ts.scan, if_neg hf]
      obtain ⟨-, hr2⟩ := iso_row o ho s hs hf hfr
      by_cases hp : tsPos s < 19
      · rw [if_pos (by omega)]
        refine ends_stop_eof ?_ herr (by rw [hr2, if_pos hp])
        have : ∀ s : Ts, isoSt s < 333 := by intro s; cases s <;> decide
        exact this s
      · rw [if_neg (by omega)]
        exact ends_fail_eof (m2 := m) (by rw [hr2, if_neg hp]; rfl)
  | cons b l ih =>
    intro s m hs hfr herr
    by_cases hf : s = .fin
    · subst hf; rfl
    · simp only [Ts.scan, if_neg hf]
      have hd := iso_disp o ho s hs hf hfr b
      obtain ⟨hr1, -⟩ := iso_row o ho s hs hf hfr
      cases hst : Ts.step false s b with
      | none =>
        rw [hst] at hd
        simp only [isoLabel] at hd
        simp only
        by_cases hp : tsPos s < 19
        · rw [if_pos (by omega)]
          rw [if_pos hp] at hd
          exact ends_stop herr hr1 hd
        · rw [if_neg (by omega)]
          rw [if_neg hp] at hd
          exact ends_fail (m1 := m) (m2 := m) (by rw [hr1]; rfl) (by rw [hd]; rfl)
      | some s' =>
        rw [hst] at hd
        obtain ⟨g1, g2, g3⟩ := ts_step_pos hfr hst
        have hstep : go o (b :: l) (isoSt s) m = go o l (isoSt s') (adv m) := by
          obtain ⟨t, ht⟩ := Nat.exists_eq_succ_of_ne_zero (isoSt_ne g2)
          simp only [isoLabel, ht] at hd ⊢
          exact run_simple hr1 hd
        have := ih s' (adv m) g1 g2 herr
        cases hsc : Ts.scan false s' l with
        | bad n =>
          rw [hsc] at this
          simp only [hsc, Ts.Res.cons] at this ⊢
          rw [hstep]
          have hpos : (tsPos s + (n + 1) < 19) = (tsPos s' + n < 19) := by
            rw [g3]; split <;> simp only [eq_iff_iff] <;> omega
          simp only [hpos]
          rw [show m.p + (n + 1) = (adv m).p + n by simp only [adv]; omega]
          exact this
        | ok w tl =>
          rw [hsc] at this
          simp only [hsc, Ts.Res.cons] at this ⊢
          rw [hstep, this]
          simp only [adv, List.length_cons]
          rw [show m.p + 1 + w.length = m.p + (w.length + 1) by omega]

theorem dIso_eq (pos : Nat) (rest : Bytes) (out : Out) : dIso pos rest out =
    match Ts.scan false .y1 rest with
    | .bad n => if n < 19 then .stop none out else mkErr .rfc3339 (pos + n) out
    | .ok w tl => dAfter GoTime.parseRFC3339Micro pos w tl out := rfl

theorem iso_phase (o : Opts) (ho : o.rfc3339 = true) (m : M) (rest : Bytes) (hat : At m rest) (h : headDigit rest = true) :
    Ends (go o rest 4 m) (dIso m.p rest m.out) := by
  rw [dIso_eq]
  cases rest with
  | nil => simp [headDigit] at h
  | cons b r =>
    simp only [headDigit, Bool.and_eq_true, decide_eq_true_eq] at h
    have hst : Ts.step false .y1 b = some .y2 := by simp [Ts.step, Ts.row, Ts.look, h]
    have hf4 := (bs_row o .m1 (by simp)).1
    have hd : (T o 4).dispatch b.toNat = ⟨[.mark], 300⟩ := by
      have : TB true 4 = ⟨[], (48, 57, ⟨[.mark], 300⟩) :: (TB true 4).rng.tail, (TB true 4).dflt, (TB true 4).eof⟩ := by decide +kernel
      rw [T_TB, ho, this, dispatch_cons_in h]
    have hstep : go o (b :: r) 4 m = go o r (isoSt .y2) (adv { m with pb := m.p }) :=
      run_next (acts := [.mark]) (m1 := m) hd (by rw [show (4 : Nat) = bsSt .m1 from rfl, hf4]; rfl) rfl
    have hin := iso_inner o ho r .y2 (adv { m with pb := m.p }) (by simp) rfl hat.err
    rw [Ts.scan_cons_of (by simp) hst, hstep]
    cases hsc : Ts.scan false .y2 r with
    | bad n =>
      rw [hsc] at hin
      simp only [Ts.Res.cons] at hin ⊢
      have hpos : (n + 1 < 19) = (tsPos .y2 + n < 19) := by simp only [tsPos, eq_iff_iff]; omega
      simp only [hpos]
      rw [show m.p + (n + 1) = (adv { m with pb := m.p }).p + n by simp only [adv]; omega]
      exact hin
    | ok w tl =>
      rw [hsc] at hin
      simp only [Ts.Res.cons] at hin ⊢
      have happ : b :: r = (b :: w) ++ tl := by rw [Ts.scan_append hsc]; rfl
      obtain ⟨m1, hm1⟩ : ∃ m1 : M, m1 = { m with pb := m.p, p := m.p + (w.length + 1) } := ⟨_, rfl⟩
      have hrun : go o r (isoSt .y2) (adv { m with pb := m.p }) = go o tl 324 m1 := by
        rw [hin, hm1]
        simp only [adv]
        rw [show m.p + 1 + w.length = m.p + (w.length + 1) by omega]
      rw [hrun]
      have hat1 : At m1 tl := by
        rw [happ] at hat; have := hat.addn; rw [hm1]; exact ⟨this.le, this.eq, this.err⟩
      have htext : m1.text = some (b :: w) := by
        rw [hm1]; exact text_of (w := b :: w) (rest := tl) hat.le (by rw [hat.eq, happ]) rfl
      have := after_phase o (cs := 324) (a := .setRfc3339) (parse := GoTime.parseRFC3339Micro) (by omega) (T_324 o)
        (by
          intro m w hw
          simp only [act, withText, hw]
          cases GoTime.parseRFC3339Micro w <;> rfl) m1 (b :: w) tl hat1 htext m.p (by rw [hm1]; rfl)
      rw [show m1.out = m.out by rw [hm1]] at this
      exact this

theorem time_phase (o : Opts) (m : M) (rest : Bytes) (hat : At m rest) : Ends (go o rest 4 m) (dTime o m.p rest m.out) := by
  unfold dTime
  by_cases h : (o.rfc3339 && headDigit rest) = true
  · rw [if_pos h]
    simp only [Bool.and_eq_true] at h
    exact iso_phase o h.1 m rest hat h.2
  · rw [if_neg h]
    exact bsd_phase o m rest hat (by simpa using h)

/-! ## PRI -/

def priSt : PriSt → Nat
  | .start => 2 | .one => 330 | .nineteen => 332 | .two => 331 | .full => 3

def priLabel (s : PriSt) (b : UInt8) : Label Act :=
  if s ≠ .start ∧ b.toNat = 62 then ⟨[], 4⟩ else match priStep s b with
    | some s' => ⟨if s = .start then [.mark] else [], priSt s'⟩
    | none => ⟨[.errPrival, .errPri], 0⟩

theorem pri_disp (o : Opts) (s : PriSt) (b : UInt8) : (T o (priSt s)).dispatch b.toNat = priLabel s b := by
  have : ∀ f : Bool, ∀ n : _root_.Fin 256, (TB f (priSt s)).dispatch (UInt8.ofNat n.val).toNat = priLabel s (UInt8.ofNat n.val) := by
    cases s <;> decide +kernel
  have hb := this o.rfc3339 ⟨b.toNat, b.toNat_lt⟩
  simpa [T_TB] using hb

theorem pri_row (o : Opts) (s : PriSt) : (T o (priSt s)).frm = (if s = .start then [] else [.setPrival]) ∧
    (T o (priSt s)).eof = [.errPrival, .errPri] := by
  have : ∀ f : Bool, (TB f (priSt s)).frm = (if s = .start then [] else [.setPrival]) ∧ (TB f (priSt s)).eof = [.errPrival, .errPri] := by
    cases s <;> decide +kernel
  exact this o.rfc3339

theorem priSt_ne (s : PriSt) : priSt s ≠ 0 := by cases s <;> decide

/-- nothing but the priority was set -/
def Fresh (o : Out) : Prop := { o with priority := 0, prioritySet := false } = ({} : Out)

theorem Fresh.setP {o : Out} (h : Fresh o) (w : Bytes) :
    { o with priority := Common.toU8 (Common.unsafeDec w), prioritySet := true } = setP w := by
  have := congrArg (fun x : Out => { x with
    priority := Common.toU8 (Common.unsafeDec w), prioritySet := true }) h
  exact this

theorem pri_inner (o : Opts) : ∀ (l : Bytes) (s : PriSt) (w0 : Bytes) (m : M), s ≠ .start → m.text = some w0 → At m l →
    Fresh m.out →
    match priScan s l with
    | .bad n => Ends (go o l (priSt s) m) (mkErr .prival (m.p + n)
        (if n = l.length then (if n = 0 then m.out else setP (w0 ++ l.take (n - 1))) else setP (w0 ++ l.take n)))
    | .ok w tl => ∃ m', go o l (priSt s) m = go o tl 4 m' ∧ At m' tl ∧ m'.p = m.p + w.length + 1 ∧ m'.out = setP (w0 ++ w) := by
  intro l
  induction l with
  | nil =>
    intro s w0 m hs htx hat hfr
    simp only [priScan, List.length_nil, if_true]
    exact ends_fail_eof (cs := priSt s) (m := m) (m2 := m) (k := .prival) (by rw [(pri_row o s).2]; rfl)
  | cons b l ih =>
    intro s w0 m hs htx hat hfr
    have hd := pri_disp o s b
    have hfrm : runActs (act o) (T o (priSt s)).frm m = .next { m with out := setP w0 } := by
      rw [(pri_row o s).1, if_neg hs]
      simp only [runActs, act, withText, htx, hfr.setP]
    have hfr' : Fresh (setP w0) := rfl
    simp only [priScan]
    simp only [priLabel] at hd
    by_cases h62 : b.toNat = 62
    · rw [if_pos ⟨hs, h62⟩] at hd ⊢
      refine ⟨adv { m with out := setP w0 }, run_next (acts := []) hd hfrm rfl, ⟨hat.adv.le, hat.adv.eq, hat.adv.err⟩, rfl, ?_⟩
      simp [adv]
    · rw [if_neg (fun h => h62 h.2)] at hd ⊢
      rw [if_neg hs] at hd
      cases hst : priStep s b with
      | none =>
        rw [hst] at hd
        simp only [List.length_cons]
        rw [if_neg (by omega)]
        have := ends_fail (o := o) (b := b) (bs := l) (m1 := { m with out := setP w0 }) (m2 := { m with out := setP w0 })
          (k := .prival) hfrm (by rw [hd]; rfl)
        simpa using this
      | some s' =>
        rw [hst] at hd
        have hstep : go o (b :: l) (priSt s) m = go o l (priSt s') (adv { m with out := setP w0 }) := by
          obtain ⟨t, ht⟩ := Nat.exists_eq_succ_of_ne_zero (priSt_ne s')
          simp only [ht] at hd ⊢
          exact run_next (acts := []) hd hfrm rfl
        have := ih s' (w0 ++ [b]) (adv { m with out := setP w0 }) (priStep_ne hst)
          (text_snoc (m := { m with out := setP w0 }) htx ⟨hat.le, hat.eq, hat.err⟩)
          ⟨hat.adv.le, hat.adv.eq, hat.adv.err⟩ hfr'
        cases hsc : priScan s' l with
        | bad n =>
          rw [hsc] at this
          simp only [hsc, Ts.Res.cons, List.length_cons] at this ⊢
          rw [hstep, show m.p + (n + 1) = (adv { m with out := setP w0 }).p + n by simp only [adv]; omega]
          have e : (if n + 1 = l.length + 1 then (if n + 1 = 0 then m.out else setP (w0 ++ (b :: l).take (n + 1 - 1)))
              else setP (w0 ++ (b :: l).take (n + 1))) =
              (if n = l.length then (if n = 0 then (adv { m with out := setP w0 }).out else setP (w0 ++ [b] ++ l.take (n - 1)))
                else setP (w0 ++ [b] ++ l.take n)) := by
            by_cases h1 : n = l.length
            · rw [if_pos (by omega), if_neg (by omega), if_pos h1]
              cases n with
              | zero => simp [adv]
              | succ k => simp
            · rw [if_neg (by omega), if_neg h1]; simp
          rw [e]
          exact this
        | ok w tl =>
          rw [hsc] at this
          simp only [hsc, Ts.Res.cons] at this ⊢
          obtain ⟨m', g1, g2, g3, g4⟩ := this
          refine ⟨m', by rw [hstep]; exact g1, g2, ?_, ?_⟩
          · rw [g3]; simp only [adv, List.length_cons]; omega
          · rw [g4]; simp

theorem T_1 (o : Opts) : T o 1 = ⟨[], [(60, 60, st 2)], ⟨[.errPri], 0⟩, [.errPri]⟩ :=
  (by decide +kernel : ∀ b, TB b 1 = _) o.rfc3339

/-- The automaton computes `descend`. -/
theorem run_descend (o : Opts) (m : M) (input : Bytes) : Ends (run (T o) (act o) adv input 1 (reset m input)) (descend o input) := by
  obtain ⟨m0, hm0⟩ : ∃ m0, m0 = reset m input := ⟨_, rfl⟩
  rw [← hm0]
  have hat : At m0 input := by rw [hm0]; exact ⟨Nat.zero_le _, rfl, rfl⟩
  have hp : m0.p = 0 := by rw [hm0]; rfl
  have ho : m0.out = {} := by rw [hm0]; rfl
  change Ends (go o input 1 m0) _
  cases input with
  | nil =>
    have := ends_fail_eof (o := o) (cs := 1) (m := m0) (m2 := m0) (k := .pri) (by rw [T_1]; rfl)
    rw [ho, hp] at this
    exact this
  | cons b r =>
    by_cases h60 : b.toNat = 60
    case neg =>
      have : descend o (b :: r) = mkErr .pri 0 {} := by
        simp only [descend]
        split
        · rename_i h; simp at h; exact absurd (by rw [h.1]; rfl) h60
        · rfl
      rw [this]
      have := ends_fail (o := o) (b := b) (bs := r) (cs := 1) (m := m0) (m1 := m0) (m2 := m0) (k := .pri) (by rw [T_1]; rfl)
        (by rw [T_1, dispatch_cons_out (by omega), dispatch_nil]; rfl)
      rw [ho, hp] at this
      exact this
    have hb : b = 60 := (toNat_eq (n := 60) (by omega)).mp h60
    subst hb
    have hstep : go o (60 :: r) 1 m0 = go o r (priSt .start) (adv m0) :=
      run_simple (by rw [T_1]) (by rw [T_1, dispatch_cons_in (by decide)])
    have hat1 := hat.adv
    obtain ⟨hf2, he2⟩ := pri_row o .start
    rw [hstep]
    simp only [descend]
    cases r with
    | nil =>
      have := ends_fail_eof (o := o) (cs := priSt .start) (m := adv m0) (m2 := adv m0) (k := .prival) (by rw [he2]; rfl)
      rw [show (adv m0).out = m0.out from rfl, ho, show (adv m0).p = m0.p + 1 from rfl, hp] at this
      exact this
    | cons d r' =>
      have hd := pri_disp o .start d
      simp only [priLabel] at hd
      simp only [priScan]
      rw [if_neg (fun h => h.1 rfl)] at hd ⊢
      rw [if_pos trivial] at hd
      cases hst : priStep .start d with
      | none =>
        rw [hst] at hd
        have := ends_fail (o := o) (b := d) (bs := r') (cs := priSt .start) (m := adv m0) (m1 := adv m0) (m2 := adv m0) (k := .prival)
          (by rw [hf2]; rfl) (by rw [hd]; rfl)
        rw [show (adv m0).out = m0.out from rfl, ho, show (adv m0).p = m0.p + 1 from rfl, hp] at this
        simpa [priOut] using this
      | some s' =>
        rw [hst] at hd
        obtain ⟨m1, hm1⟩ : ∃ m1 : M, m1 = adv { adv m0 with pb := (adv m0).p } := ⟨_, rfl⟩
        have hstep2 : go o (d :: r') (priSt .start) (adv m0) = go o r' (priSt s') m1 := by
          obtain ⟨t, ht⟩ := Nat.exists_eq_succ_of_ne_zero (priSt_ne s')
          simp only [ht] at hd ⊢
          rw [hm1]
          exact run_next (acts := [.mark]) (m1 := adv m0) hd (by rw [hf2]; rfl) rfl
        have hp1 : m1.p = 2 := by rw [hm1]; simp only [adv, hp]
        have hat2 : At m1 r' := by rw [hm1]; exact ⟨hat1.adv.le, hat1.adv.eq, hat1.adv.err⟩
        have htx : m1.text = some [d] := by
          rw [hm1]
          exact text_of (w := [d]) (rest := r') hat1.le hat1.eq rfl
        have hout1 : m1.out = {} := by rw [hm1]; simp only [adv, ho]
        have hin := pri_inner o r' s' [d] m1 (priStep_ne hst) htx hat2 (by rw [hout1]; rfl)
        rw [hstep2]
        simp only
        cases hsc : priScan s' r' with
        | bad n =>
          rw [hsc] at hin
          simp only [Ts.Res.cons, List.length_cons] at hin ⊢
          rw [hp1, hout1] at hin
          rw [show 1 + (n + 1) = 2 + n by omega]
          have e : priOut (if n + 1 = r'.length + 1 then (d :: r').take (n + 1 - 1) else (d :: r').take (n + 1)) =
              (if n = r'.length then (if n = 0 then {} else setP ([d] ++ r'.take (n - 1))) else setP ([d] ++ r'.take n)) := by
            by_cases h1 : n = r'.length
            · rw [if_pos (by omega), if_pos h1]
              cases n with
              | zero => rfl
              | succ k => simp [priOut]
            · rw [if_neg (by omega), if_neg h1]; simp [priOut]
          rw [e]
          exact hin
        | ok w tl =>
          rw [hsc] at hin
          simp only [Ts.Res.cons] at hin ⊢
          obtain ⟨m', g1, g2, g3, g4⟩ := hin
          rw [g1]
          have := time_phase o m' tl g2
          rw [g3, g4, hp1] at this
          rw [show 1 + (d :: w).length + 1 = 2 + w.length + 1 by simp; omega]
          exact this

/-- `Parse` returns what `descend` says. -/
theorem parse_eq (o : Opts) (m : M) (input : Bytes) : (parse o m input).map Prod.fst = some (resultOf o (descend o input)) := by
  have h := run_descend o m input
  unfold parse
  cases hf : descend o input with
  | ok out =>
    rw [hf] at h
    obtain ⟨cs, m', h1, h2, h3⟩ := h
    simp only [h1, finish, if_neg h2, Option.map_some, resultOf, h3]
  | stop e out =>
    rw [hf] at h
    obtain ⟨cs, m', h1, h2, h3, h4⟩ := h
    simp only [h1, finish, if_pos h2, Option.map_some, resultOf, h3, h4]

theorem parse1_eq (o : Opts) (input : Bytes) : parse1 o input = some (resultOf o (descend o input)) := parse_eq o {} input

end Verif.Rfc3164
