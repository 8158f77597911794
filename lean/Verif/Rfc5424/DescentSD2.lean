import Verif.Rfc5424.DescentSD

/-! # The automaton computes `descend`: parameters and elements -/

namespace Verif.Rfc5424
open Verif.Fsm Verif.Gen.Rfc5424

/-! ## case equations of `dParams` and `dElems` -/

section eqs
variable {fuel pos : Nat} {id last w r : Bytes} {ps : SMap Bytes} {sd : SD} {rest : Bytes}

theorem dParams_noeq (h : spanN isSdName 32 rest = (w, r)) (hr : w = [] ∨ ∀ t, r ≠ 61 :: t) :
    dParams (fuel + 1) id ps last sd pos rest = .bad .sdParam (pos + w.length) (sd.insert id (ps.erase last)) := by
  simp only [dParams, h]
  split
  · rename_i t
    rcases hr with hr | hr
    · simp [hr]
    · exact absurd rfl (hr t)
  · rfl

theorem dParams_noquote (h : spanN isSdName 32 rest = (w, 61 :: r)) (hw : w ≠ []) (hr : ∀ t, r ≠ 34 :: t) :
    dParams (fuel + 1) id ps last sd pos rest =
      .bad .sdParam (pos + w.length + 1) (sd.insert id (ps.erase w)) := by
  simp only [dParams, h, if_neg hw]

theorem dParams_badval {k : ErrKind} {n : Nat} (h : spanN isSdName 32 rest = (w, 61 :: 34 :: r)) (hw : w ≠ [])
    (hv : valScan (some .s0) r = .bad k n) :
    dParams (fuel + 1) id ps last sd pos rest =
      .bad k (pos + w.length + 2 + n) (if k = .escape then sd else sd.insert id (ps.erase w)) := by
  simp only [dParams, h, if_neg hw, hv]

theorem dParams_sp {raw t : Bytes} (h : spanN isSdName 32 rest = (w, 61 :: 34 :: r)) (hw : w ≠ [])
    (hv : valScan (some .s0) r = .ok raw (32 :: t)) :
    dParams (fuel + 1) id ps last sd pos rest =
      dParams fuel id (ps.insert w (unesc false raw)) w (sd.insert id (ps.insert w (unesc false raw)))
        (pos + w.length + 2 + raw.length + 1 + 1) t := by
  simp only [dParams, h, if_neg hw, hv]

theorem dParams_close {raw t : Bytes} (h : spanN isSdName 32 rest = (w, 61 :: 34 :: r)) (hw : w ≠ [])
    (hv : valScan (some .s0) r = .ok raw (93 :: t)) :
    dParams (fuel + 1) id ps last sd pos rest =
      .ok (sd.insert id (ps.insert w (unesc false raw))) (pos + w.length + 2 + raw.length + 1 + 1) t := by
  simp only [dParams, h, if_neg hw, hv]

theorem dParams_after {raw tl : Bytes} (h : spanN isSdName 32 rest = (w, 61 :: 34 :: r)) (hw : w ≠ [])
    (hv : valScan (some .s0) r = .ok raw tl) (h1 : ∀ t, tl ≠ 32 :: t) (h2 : ∀ t, tl ≠ 93 :: t) :
    dParams (fuel + 1) id ps last sd pos rest =
      .bad .sdParam (pos + w.length + 2 + raw.length + 1)
        (sd.insert id ((ps.insert w (unesc false raw)).erase w)) := by
  simp only [dParams, h, if_neg hw, hv]

end eqs

/-! ## names -/

theorem nmSt_ne (k : Nat) : nmSt k ≠ 0 := by simp [nmSt]
theorem idSt_ne (k : Nat) : idSt k ≠ 0 := by simp only [idSt]; split <;> omega

theorem isSdName_ne {b : UInt8} (h : isSdName b = true) :
    33 ≤ b.toNat ∧ b.toNat ≤ 126 ∧ b.toNat ≠ 34 ∧ b.toNat ≠ 61 ∧ b.toNat ≠ 93 := by
  simp [isSdName, isGraph] at h; omega

theorem spanN_first {cls : UInt8 → Bool} {n : Nat} {rest w r : Bytes} (h : spanN cls (n + 1) rest = (w, r)) (hw : w ≠ []) :
    ∃ b bs w', rest = b :: bs ∧ cls b = true ∧ w = b :: w' ∧ spanN cls n bs = (w', r) := by
  cases rest with
  | nil => simp [spanN] at h; exact absurd h.1.symm (by simpa using hw)
  | cons b bs =>
    simp only [spanN] at h
    split at h
    · rename_i hb
      simp only [Prod.mk.injEq] at h
      exact ⟨b, bs, _, rfl, hb, h.1.symm, by rw [← h.2]⟩
    · simp only [Prod.mk.injEq] at h; exact absurd h.1.symm hw

/-- run of the characters of a name -/
theorem name_run {start : Nat} {f : Nat → Nat} {acts : List Act} (g : M → M)
    (hf0 : ∀ k, f k ≠ 0) (hsf : (T start).frm = [])
    (hsd : ∀ b : UInt8, isSdName b = true → (T start).dispatch b.toNat = ⟨acts, f 0⟩)
    (hff : ∀ k, k < 32 → (T (f k)).frm = [])
    (hfd : ∀ k, k < 31 → ∀ b : UInt8, isSdName b = true → (T (f k)).dispatch b.toNat = ⟨[], f (k + 1)⟩)
    (hacts : ∀ m, runActs act acts m = .next (g m))
    {rest w r : Bytes} (h : spanN isSdName 32 rest = (w, r)) (hw : w ≠ []) (m : M) :
    go rest start m = go r (f (w.length - 1)) { g m with p := (g m).p + w.length } := by
  obtain ⟨b, bs, w', rfl, hb, rfl, hsp⟩ := spanN_first (n := 31) h hw
  obtain ⟨t0, ht0⟩ := Nat.exists_eq_succ_of_ne_zero (hf0 0)
  have h1 : go (b :: bs) start m = go bs (f 0) (adv (g m)) := by
    rw [ht0]
    refine run_next (acts := acts) (m1 := m) ?_ (by rw [hsf]; rfl) (hacts m)
    rw [hsd b hb, ht0]
  rw [h1]
  have happ := spanN_append isSdName 31 bs
  have hall := spanN_all isSdName 31 bs
  have hlen := spanN_length isSdName 31 bs
  rw [hsp] at happ hall hlen
  simp only at hlen
  rw [← happ, go, run_loop f 31 isSdName (fun k h => hff k (by omega)) hfd hf0 r w' 0 _ hall (by omega), advN_eq]
  simp only [Nat.zero_add, List.length_cons, Nat.add_sub_cancel, adv]
  rw [show (g m).p + 1 + w'.length = (g m).p + (w'.length + 1) by omega]

theorem pname_run {rest w r : Bytes} (h : spanN isSdName 32 rest = (w, r)) (hw : w ≠ []) (m : M) :
    go rest 19 m = go r (nmSt (w.length - 1)) { m with backslashat := [], pb := m.p, p := m.p + w.length } := by
  refine name_run (acts := [.iniSdparam, .mark]) (fun m => { m with backslashat := [], pb := m.p }) nmSt_ne nm_frm.1
    (fun b hb => ?_) nm_frm.2 (fun k hk b hb => ?_) (fun m => rfl) h hw m
  · rw [nm_start, if_pos hb]; rfl
  · have := isSdName_ne hb
    rw [nm_disp k (by omega), if_neg (by omega), if_pos ⟨by omega, hb⟩]

theorem id_run {rest w r : Bytes} (h : spanN isSdName 32 rest = (w, r)) (hw : w ≠ []) (m : M) :
    go rest 17 m = go r (idSt (w.length - 1)) { m with pb := m.p, p := m.p + w.length } := by
  refine name_run (acts := [.mark]) (fun m => { m with pb := m.p }) idSt_ne id_frm.1
    (fun b hb => ?_) id_frm.2 (fun k hk b hb => ?_) (fun m => rfl) h hw m
  · rw [id_start, if_pos hb]; rfl
  · have := isSdName_ne hb
    rw [id_disp k (by omega), if_neg (by omega), if_neg (by omega), if_pos ⟨by omega, hb⟩]

/-- facts about a span used in the error cases -/
theorem span_next {rest w r : Bytes} (h : spanN isSdName 32 rest = (w, r)) :
    w.length ≤ 32 ∧ rest = w ++ r ∧ ∀ x xs, r = x :: xs → ¬(w.length - 1 < 31 ∧ isSdName x = true) ∨ w = [] := by
  have happ := spanN_append isSdName 32 rest
  have hlen := spanN_length isSdName 32 rest
  have hmax := spanN_max isSdName 32 rest
  rw [h] at happ hlen hmax
  refine ⟨hlen, happ.symm, fun x xs hx => ?_⟩
  rcases hmax with hm | hm | ⟨b', r', hm, hb⟩
  · left; simp at hm; omega
  · simp at hm; rw [hm] at hx; simp at hx
  · left; simp at hm; rw [hm] at hx; simp at hx; rw [← hx.1, hb]; simp

theorem ends_delParam {b : UInt8} {bs : Bytes} {cs : Nat} {m : M} {as : List Act} (hf : (T cs).frm = [])
    (h : ((T cs).dispatch b.toNat).acts = .errSdparam :: as) :
    Ends (go (b :: bs) cs m) (mkErr .sdParam m.p (delParam m)) :=
  ends_fail (m1 := m) (m2 := { m with out := delParam m }) (by rw [hf]; rfl) (by rw [h]; rfl)

theorem ends_delParam_eof {cs : Nat} {m : M} {as : List Act} (h : (T cs).eof = .errSdparam :: as) :
    Ends (go [] cs m) (mkErr .sdParam m.p (delParam m)) :=
  ends_fail_eof (m2 := { m with out := delParam m }) (by rw [h]; rfl)

/-! ## parameters -/

/-- the parameters phase did what `dParams` says -/
def ParamsOk (base : Out) (rest : Bytes) (m : M) : SdRes → Prop
  | .bad k c sd' => Ends (go rest 19 m) (mkErr k c (withSD base sd'))
  | .ok sd' p tl => ∃ m', go rest 19 m = go tl 606 m' ∧ At m' tl ∧ m'.p = p ∧ m'.out = withSD base sd' ∧
      sd'.Sorted ∧ m'.currentelem = m.currentelem ∧ m'.compliantMsg = m.compliantMsg ∧ 0 < p ∧
      tl.length < rest.length

theorem params_phase (base : Out) : ∀ (fuel : Nat) (rest : Bytes) (m : M) (sd : SD) (ps : SMap Bytes) (last : Bytes),
    rest.length < fuel → At m rest → m.out = withSD base sd → sd.Sorted → sd.find m.currentelem = some ps →
    (ps = [] ∨ last = m.currentparam) →
    ParamsOk base rest m (dParams fuel m.currentelem ps last sd m.p rest) := by
  intro fuel
  induction fuel with
  | zero => intro rest m sd ps last h; omega
  | succ fuel ih =>
    intro rest m sd ps last hfuel hat hout hsort hfind hlast
    have hdel : ∀ m' : M, m'.out = m.out → m'.currentelem = m.currentelem → m'.currentparam = m.currentparam →
        delParam m' = withSD base (sd.insert m.currentelem (ps.erase last)) := by
      intro m' h1 h2 h3
      rw [delParam_eq (h1.trans hout) (by rw [h2]; exact hfind), h2, h3]
      rcases hlast with h | h
      · subst h; rfl
      · rw [h]
    obtain ⟨w, r, hsp⟩ : ∃ w r, spanN isSdName 32 rest = (w, r) := ⟨_, _, rfl⟩
    obtain ⟨hwlen, happ, hnx⟩ := span_next hsp
    by_cases hw : w = []
    · -- no name
      rw [dParams_noeq hsp (Or.inl hw), hw]
      simp only [ParamsOk, List.length_nil, Nat.add_zero]
      rw [← hdel m rfl rfl rfl]
      cases rest with
      | nil => exact ends_delParam_eof nm_eof.1
      | cons b bs =>
        have hb : ¬ isSdName b = true := by
          intro hb; simp only [spanN, if_pos hb, Prod.mk.injEq] at hsp; rw [hw] at hsp; simp at hsp
        exact ends_delParam nm_frm.1 (by rw [nm_start, if_neg hb])
    have hwpos : 0 < w.length := List.length_pos_iff.mpr hw
    have hrun := pname_run hsp hw m
    obtain ⟨m1, hm1⟩ : ∃ m1 : M, m1 = { m with backslashat := [], pb := m.p, p := m.p + w.length } := ⟨_, rfl⟩
    rw [← hm1] at hrun
    have hat1 : At m1 r := by
      rw [happ] at hat; have := hat.addn; rw [hm1]; exact ⟨this.le, this.eq⟩
    have hk : w.length - 1 < 32 := by omega
    by_cases hr : ∃ t, r = 61 :: t
    case neg =>
      have hr' : ∀ t, r ≠ 61 :: t := fun t h => hr ⟨t, h⟩
      rw [dParams_noeq hsp (Or.inr hr')]
      simp only [ParamsOk]
      rw [hrun, ← hdel m1 (by rw [hm1]) (by rw [hm1]) (by rw [hm1]), show m.p + w.length = m1.p by rw [hm1]]
      cases r with
      | nil => exact ends_delParam_eof (nm_eof.2 _ hk)
      | cons x xs =>
        have hx : x.toNat ≠ 61 := fun h => hr' xs (by rw [(toNat_eq (n := 61) (by omega)).mp h]; rfl)
        exact ends_delParam (nm_frm.2 _ hk) (by
          rw [nm_disp _ hk, if_neg hx, if_neg ((hnx x xs rfl).resolve_right hw)])
    obtain ⟨r1, rfl⟩ := hr
    -- the `=`
    have htext : slice m.data m.p (m.p + w.length) = some w := slice_of_drop hat.le (by rw [hat.eq, happ])
    have hrun2 : go rest 19 m = go r1 52 (adv { m1 with currentparam := w }) := by
      rw [hrun]
      refine run_next (acts := [.setParamname]) (m1 := m1) (m2 := { m1 with currentparam := w }) ?_
        (by rw [nm_frm.2 _ hk]; rfl) ?_
      · rw [nm_disp _ hk, if_pos (by rfl)]
      · simp only [runActs, act, withText, M.text, hm1, htext]
    have hdel2 : ∀ m' : M, m'.out = m.out → m'.currentelem = m.currentelem → m'.currentparam = w →
        delParam m' = withSD base (sd.insert m.currentelem (ps.erase w)) := by
      intro m' h1 h2 h3
      rw [delParam_eq (h1.trans hout) (by rw [h2]; exact hfind), h2, h3]
    by_cases hq : ∃ t, r1 = 34 :: t
    case neg =>
      have hq' : ∀ t, r1 ≠ 34 :: t := fun t h => hq ⟨t, h⟩
      rw [dParams_noquote hsp hw hq']
      simp only [ParamsOk]
      rw [hrun2, ← hdel2 (adv { m1 with currentparam := w }) (by rw [hm1]; rfl) (by rw [hm1]; rfl) rfl,
        show m.p + w.length + 1 = (adv { m1 with currentparam := w }).p by rw [hm1]; rfl]
      cases r1 with
      | nil => exact ends_delParam_eof (by rw [T_52])
      | cons x xs =>
        have hx : x.toNat ≠ 34 := fun h => hq' xs (by rw [(toNat_eq (n := 34) (by omega)).mp h]; rfl)
        exact ends_delParam (by rw [T_52]) (by rw [T_52, dispatch_cons_out (by omega), dispatch_nil])
    obtain ⟨r2, rfl⟩ := hq
    obtain ⟨m2, hm2⟩ : ∃ m2 : M, m2 = { m1 with currentparam := w, p := m.p + w.length + 2 } := ⟨_, rfl⟩
    have hrun3 : go rest 19 m = go r2 53 m2 := by
      rw [hrun2]
      have : go (34 :: r2) 52 (adv { m1 with currentparam := w }) = go r2 53 (adv (adv { m1 with currentparam := w })) :=
        run_simple (by rw [T_52]) (by rw [T_52, dispatch_cons_in (by decide)])
      rw [this, hm2, hm1]
      rfl
    have hat2 : At m2 r2 := by
      have := (hat1.adv).adv
      rw [hm1] at this
      rw [hm2, hm1]
      exact ⟨this.le, this.eq⟩
    have hvp := val_phase r2 (some .s0) { m2 with pb := m2.p }
    have hm2out : m2.out = m.out := by rw [hm2, hm1]
    have hm2el : m2.currentelem = m.currentelem := by rw [hm2, hm1]
    have hm2par : m2.currentparam = w := by rw [hm2]
    have hm2p : m2.p = m.p + w.length + 2 := by rw [hm2]
    have hm2bs : m2.backslashat = [] := by rw [hm2, hm1]
    have hm2c : m2.compliantMsg = m.compliantMsg := by rw [hm2, hm1]
    cases hv : valScan (some .s0) r2 with
    | bad k n =>
      rw [dParams_badval hsp hw hv]
      simp only [ParamsOk]
      rw [hv] at hvp
      simp only at hvp
      rw [hrun3]
      rcases val_start r2 m2 with h | ⟨h1, h2⟩
      · rw [h, ← hm2p]
        have hd : delParam { m2 with pb := m2.p } = withSD base (sd.insert m.currentelem (ps.erase w)) :=
          hdel2 _ hm2out hm2el hm2par
        rw [hd, show (if k = ErrKind.escape then m2.out else withSD base (sd.insert m.currentelem (ps.erase w))) =
          if k = ErrKind.escape then withSD base sd else withSD base (sd.insert m.currentelem (ps.erase w)) by
            rw [hm2out, hout]] at hvp
        have : withSD base (if k = ErrKind.escape then sd else sd.insert m.currentelem (ps.erase w)) =
            if k = ErrKind.escape then withSD base sd else withSD base (sd.insert m.currentelem (ps.erase w)) := by
          split <;> rfl
        rw [this]
        exact hvp
      · rw [h1] at hv
        simp only [VRes.bad.injEq] at hv
        obtain ⟨rfl, rfl⟩ := hv
        simp only [if_true, Nat.add_zero]
        rw [hm2p, hm2out, hout] at h2
        exact h2
    | ok raw tl =>
      rw [hv] at hvp
      simp only at hvp
      obtain ⟨hr2, hgo⟩ := hvp
      have hgo53 : go r2 53 m2 = go r2 54 { m2 with pb := m2.p } := by
        rcases val_start r2 m2 with h | ⟨h1, _⟩
        · exact h
        · rw [h1] at hv; simp at hv
      -- the machine at the closing quote
      obtain ⟨m3, hm3⟩ : ∃ m3 : M, m3 = { m2 with
        pb := m2.p, p := m2.p + raw.length, backslashat := slashes false m2.p raw } := ⟨_, rfl⟩
      have hrun4 : go rest 19 m = go (34 :: tl) 54 m3 := by
        rw [hrun3, hgo53]
        have h54 : go r2 54 { m2 with pb := m2.p } = go r2 (valSt (some .s0)) { m2 with pb := m2.p } := rfl
        rw [h54, hgo, hm3, hm2bs]
        simp
      have hat3 : At m3 (34 :: tl) := by
        rw [hr2] at hat2; have := hat2.addn; rw [hm3]; exact ⟨this.le, this.eq⟩
      have htext3 : slice m2.data m2.p (m2.p + raw.length) = some raw :=
        slice_of_drop hat2.le (by rw [hat2.eq, hr2])
      obtain ⟨ps', hps'⟩ : ∃ ps', ps' = ps.insert w (unesc false raw) := ⟨_, rfl⟩
      obtain ⟨m4, hm4⟩ : ∃ m4 : M, m4 = { m3 with p := m3.p + 1, out := withSD base (sd.insert m.currentelem ps') } :=
        ⟨_, rfl⟩
      have hrun5 : go rest 19 m = go tl 55 m4 := by
        rw [hrun4]
        have hd : (T 54).dispatch (34 : UInt8).toNat = ⟨[.setParamvalue], 54 + 1⟩ := by
          have := val_disp (some .s0) 34
          rw [show valSt (some U8.s0) = 54 from rfl] at this
          rw [this]; rfl
        have : go (34 :: tl) 54 m3 = go tl 55 (adv { m3 with out := withSD base (sd.insert m.currentelem ps') }) := by
          refine run_next (acts := [.setParamvalue]) (m1 := m3) hd (by rw [show (T 54).frm = [] from val_frm (some .s0)]; rfl) ?_
          have hhas : m3.out.hasElements = true := by
            rw [hm3]; simp only [hm2out, hout, withSD, find_isEmpty hfind, Bool.not_false]
          have hsd3 : m3.out.structuredData = some sd := by rw [hm3]; simp only [hm2out, hout, withSD]
          have htx : m3.text = some raw := by rw [hm3]; exact htext3
          have hrm : (if m3.backslashat.length > 0 then
              Common.removeBytes raw (m3.backslashat.map Int.ofNat) m3.pb else some raw) = some (unesc false raw) := by
            rw [hm3]
            simp only
            split
            · exact removeBytes_slashes raw m2.p
            · rename_i h
              have h0 : slashes false m2.p raw = [] := by
                cases h' : slashes false m2.p raw with
                | nil => rfl
                | cons a b => rw [h'] at h; simp at h
              rw [unesc_of_no_slashes raw _ h0]
          have hel3 : m3.currentelem = m.currentelem := by rw [hm3]; exact hm2el
          have hpar3 : m3.currentparam = w := by rw [hm3]; exact hm2par
          have hout3 : m3.out = withSD base sd := by rw [hm3]; exact hm2out.trans hout
          simp only [runActs, act, hhas, if_true, withText, htx, hrm, hsd3, hel3, hfind, hpar3, hps']
          simp only [hout3, withSD, insert_isEmpty, find_isEmpty hfind, Bool.not_false]
        rw [this, hm4]; rfl
      have hat4 : At m4 tl := by have := hat3.adv; rw [hm4]; exact ⟨this.le, this.eq⟩
      have hm4p : m4.p = m.p + w.length + 2 + raw.length + 1 := by rw [hm4, hm3]; simp only [hm2p]
      have hm4out : m4.out = withSD base (sd.insert m.currentelem ps') := by rw [hm4]
      have hm4el : m4.currentelem = m.currentelem := by rw [hm4, hm3]; exact hm2el
      have hm4par : m4.currentparam = w := by rw [hm4, hm3]; exact hm2par
      have hm4c : m4.compliantMsg = m.compliantMsg := by rw [hm4, hm3]; exact hm2c
      have hlen : tl.length + 1 < rest.length := by
        rw [happ, hr2]; simp; omega
      by_cases hsp1 : ∃ t, tl = 32 :: t
      · obtain ⟨t, rfl⟩ := hsp1
        rw [dParams_sp hsp hw hv, ← hps']
        have hstep : go (32 :: t) 55 m4 = go t 19 (adv m4) :=
          run_simple (by rw [T_55]) (by rw [T_55, dispatch_cons_in (by decide)])
        have hih := ih t (adv m4) (sd.insert m.currentelem ps') ps' w (by simp at hlen; omega) hat4.adv hm4out
          (SMap.sorted_insert hsort) (by
            show SMap.find m4.currentelem _ = _
            rw [hm4el, SMap.find_insert_self]) (Or.inr hm4par.symm)
        rw [show (adv m4).currentelem = m.currentelem from hm4el, show (adv m4).p = m4.p + 1 from rfl, hm4p] at hih
        revert hih
        cases dParams fuel m.currentelem ps' w (sd.insert m.currentelem ps')
            (m.p + w.length + 2 + raw.length + 1 + 1) t with
        | bad k c sd' =>
          intro hih
          simp only [ParamsOk] at hih ⊢
          rw [hrun5, hstep]; exact hih
        | ok sd' p tl' =>
          intro hih
          simp only [ParamsOk] at hih ⊢
          obtain ⟨m', g1, g2, g3, g4, g5, g6, g7, g8, g9⟩ := hih
          exact ⟨m', by rw [hrun5, hstep]; exact g1, g2, g3, g4, g5, g6.trans hm4el, g7.trans hm4c, g8, by
            simp at hlen; omega⟩
      by_cases hcl : ∃ t, tl = 93 :: t
      · obtain ⟨t, rfl⟩ := hcl
        rw [dParams_close hsp hw hv, ← hps']
        have hstep : go (93 :: t) 55 m4 = go t 606 (adv m4) :=
          run_simple (by rw [T_55]) (by rw [T_55, dispatch_cons_out (by decide), dispatch_cons_in (by decide)])
        simp only [ParamsOk]
        exact ⟨adv m4, by rw [hrun5, hstep], hat4.adv, by simp only [adv, hm4p], hm4out, SMap.sorted_insert hsort,
          hm4el, hm4c, by omega, by simp at hlen; omega⟩
      · rw [dParams_after hsp hw hv (fun t h => hsp1 ⟨t, h⟩) (fun t h => hcl ⟨t, h⟩), ← hps']
        simp only [ParamsOk]
        have hd : delParam m4 = withSD base (sd.insert m.currentelem (ps'.erase w)) := by
          rw [delParam_eq hm4out (ps := ps') (by rw [hm4el, SMap.find_insert_self]), hm4el, hm4par,
            SMap.insert_insert hsort]
        rw [hrun5, ← hd, ← hm4p]
        cases tl with
        | nil => exact ends_delParam_eof (by rw [T_55])
        | cons x xs =>
          have hx : x.toNat ≠ 32 := fun h => hsp1 ⟨xs, by rw [(toNat_eq (n := 32) (by omega)).mp h]; rfl⟩
          have hx' : x.toNat ≠ 93 := fun h => hcl ⟨xs, by rw [(toNat_eq (n := 93) (by omega)).mp h]; rfl⟩
          exact ends_delParam (by rw [T_55]) (by
            rw [T_55, dispatch_cons_out (by omega), dispatch_cons_out (by omega), dispatch_nil])

/-! ## elements -/

section eqs
variable {fuel pos : Nat} {prev w r t : Bytes} {sd : SD} {rest : Bytes}

theorem dElems_noid (h : spanN isSdName 32 rest = ([], r)) :
    dElems (fuel + 1) prev sd pos rest = .bad .sdId pos (sd.erase prev) := by
  simp only [dElems, h, if_true]

theorem dElems_dup {ps : SMap Bytes} (h : spanN isSdName 32 rest = (w, r)) (hw : w ≠ []) (hf : sd.find w = some ps) :
    dElems (fuel + 1) prev sd pos rest = .bad .sdIdDup (pos + w.length) sd := by
  simp only [dElems, h, if_neg hw, hf]

theorem dElems_badid (h : spanN isSdName 32 rest = (w, r)) (hw : w ≠ []) (hf : sd.find w = none)
    (h1 : ∀ t, r ≠ 32 :: t) (h2 : ∀ t, r ≠ 93 :: t) :
    dElems (fuel + 1) prev sd pos rest = .bad .sdId (pos + w.length) sd := by
  simp only [dElems, h, if_neg hw, hf]

theorem dElems_params_bad {k : ErrKind} {c : Nat} {sd' : SD} (h : spanN isSdName 32 rest = (w, 32 :: t)) (hw : w ≠ [])
    (hf : sd.find w = none)
    (hp : dParams (t.length + 1) w [] [] (sd.insert w []) (pos + w.length + 1) t = .bad k c sd') :
    dElems (fuel + 1) prev sd pos rest = .bad k c sd' := by
  simp only [dElems, h, if_neg hw, hf, hp]

/-- what happens after the closing bracket of an element -/
def dNext (fuel : Nat) (id : Bytes) (sd : SD) (pos : Nat) (tl : Bytes) : SdRes :=
  match tl with
  | 91 :: t' => dElems fuel id sd (pos + 1) t'
  | _ => .ok sd pos tl

theorem dElems_params_ok {p : Nat} {tl : Bytes} {sd' : SD} (h : spanN isSdName 32 rest = (w, 32 :: t)) (hw : w ≠ [])
    (hf : sd.find w = none)
    (hp : dParams (t.length + 1) w [] [] (sd.insert w []) (pos + w.length + 1) t = .ok sd' p tl) :
    dElems (fuel + 1) prev sd pos rest = dNext fuel w sd' p tl := by
  simp only [dElems, h, if_neg hw, hf, hp, dNext]; rfl

theorem dElems_close (h : spanN isSdName 32 rest = (w, 93 :: t)) (hw : w ≠ []) (hf : sd.find w = none) :
    dElems (fuel + 1) prev sd pos rest = dNext fuel w (sd.insert w []) (pos + w.length + 1) t := by
  simp only [dElems, h, if_neg hw, hf, dNext]; rfl

end eqs

/-- the elements phase did what `dElems` says; at the end the machine is in state 606 and the next byte is
not an opening bracket -/
def ElemsOk (base : Out) (rest : Bytes) (cs : Nat) (m : M) : SdRes → Prop
  | .bad k c sd' => Ends (go rest cs m) (mkErr k c (withSD base sd'))
  | .ok sd' p tl => ∃ m', go rest cs m = go tl 606 m' ∧ At m' tl ∧ m'.p = p ∧ m'.out = withSD base sd' ∧
      m'.compliantMsg = m.compliantMsg ∧ 0 < p ∧ ∀ t, tl ≠ 91 :: t

theorem elems_phase (base : Out) : ∀ (fuel : Nat) (rest : Bytes) (m : M) (sd : SD) (prev : Bytes),
    rest.length < fuel → At m rest → m.out = withSD base sd → sd.Sorted → (sd = [] ∨ prev = m.currentelem) →
    ElemsOk base rest 17 m (dElems fuel prev sd m.p rest) := by
  intro fuel
  induction fuel with
  | zero => intro rest m sd prev h; omega
  | succ fuel ih =>
    intro rest m sd prev hfuel hat hout hsort hprev
    -- the state after an element
    have hnext : ∀ (m1 : M) (tl : Bytes) (sd1 : SD), tl.length < rest.length → At m1 tl → m1.out = withSD base sd1 →
        sd1.Sorted → m1.compliantMsg = m.compliantMsg → 0 < m1.p → go rest 17 m = go tl 606 m1 →
        ElemsOk base rest 17 m (dNext fuel m1.currentelem sd1 m1.p tl) := by
      intro m1 tl sd1 hlen hat1 hout1 hsort1 hc1 hp1 hgo1
      by_cases ho : ∃ t, tl = 91 :: t
      · obtain ⟨t, rfl⟩ := ho
        have hstep : go (91 :: t) 606 m1 = go t 17 (adv m1) :=
          run_simple (by rw [T_606]) (by rw [T_606, dispatch_cons_out (by decide), dispatch_cons_in (by decide)])
        have hih := ih t (adv m1) sd1 m1.currentelem (by simp at hlen; omega) hat1.adv hout1 hsort1 (Or.inr rfl)
        simp only [dNext]
        rw [show (adv m1).p = m1.p + 1 from rfl] at hih
        revert hih
        cases dElems fuel m1.currentelem sd1 (m1.p + 1) t with
        | bad k c sd' =>
          intro hih
          simp only [ElemsOk] at hih ⊢
          rw [hgo1, hstep]; exact hih
        | ok sd' p tl' =>
          intro hih
          simp only [ElemsOk] at hih ⊢
          obtain ⟨m', g1, g2, g3, g4, g5, g6⟩ := hih
          exact ⟨m', by rw [hgo1, hstep]; exact g1, g2, g3, g4, g5.trans hc1, g6⟩
      · have : dNext fuel m1.currentelem sd1 m1.p tl = .ok sd1 m1.p tl := by
          simp only [dNext]
          split
          · exact absurd ⟨_, rfl⟩ ho
          · rfl
        rw [this]
        exact ⟨m1, hgo1, hat1, rfl, hout1, hc1, hp1, fun t h => ho ⟨t, h⟩⟩
    obtain ⟨w, r, hsp⟩ : ∃ w r, spanN isSdName 32 rest = (w, r) := ⟨_, _, rfl⟩
    obtain ⟨hwlen, happ, hnx⟩ := span_next hsp
    by_cases hw : w = []
    · subst hw
      rw [dElems_noid hsp]
      simp only [ElemsOk]
      have herr : runActs act [.errSdid, .errStructureddata] m = fail .sdId { m with out := withSD base (sd.erase prev) } := by
        have : sd.erase m.currentelem = sd.erase prev := by
          rcases hprev with h | h
          · subst h; rfl
          · rw [h]
        simp only [runActs, act, hout, withSD, Option.map_some, Option.getD_some, this, fail]
        congr 3
        cases hs : SMap.erase prev sd with
        | nil => simp
        | cons a l =>
          have : sd.isEmpty = false := by cases sd with
            | nil => simp [SMap.erase] at hs
            | cons => rfl
          simp [this]
      cases rest with
      | nil => exact ends_fail_eof (m2 := { m with out := withSD base (sd.erase prev) }) (by rw [id_eof.1]; exact herr)
      | cons b bs =>
        have hb : ¬ isSdName b = true := by
          intro hb; simp only [spanN, if_pos hb, Prod.mk.injEq] at hsp; simp at hsp
        exact ends_fail (m1 := m) (m2 := { m with out := withSD base (sd.erase prev) }) (by rw [id_frm.1]; rfl)
          (by rw [id_start, if_neg hb]; exact herr)
    have hwpos : 0 < w.length := List.length_pos_iff.mpr hw
    have hrun := id_run hsp hw m
    obtain ⟨m1, hm1⟩ : ∃ m1 : M, m1 = { m with pb := m.p, p := m.p + w.length } := ⟨_, rfl⟩
    rw [← hm1] at hrun
    have hat1 : At m1 r := by
      rw [happ] at hat; have := hat.addn; rw [hm1]; exact ⟨this.le, this.eq⟩
    have hk : w.length - 1 < 32 := by omega
    have htext : m1.text = some w := by
      rw [hm1]; exact slice_of_drop hat.le (by rw [hat.eq, happ])
    have hsd1 : m1.out.structuredData = some sd := by rw [hm1]; simp only [hout, withSD]
    have hm1out : m1.out = withSD base sd := by rw [hm1]; exact hout
    -- every way out of the SD-ID runs `setId` first
    have hacts : ∀ b : UInt8, b.toNat = 32 ∨ b.toNat = 93 ∨ ¬(w.length - 1 < 31 ∧ isSdName b = true) →
        ∃ as, ((T (idSt (w.length - 1))).dispatch b.toNat).acts = .setId :: as := by
      intro b hb
      rw [id_disp _ hk]
      by_cases h1 : b.toNat = 32
      · exact ⟨_, by rw [if_pos h1]⟩
      by_cases h2 : b.toNat = 93
      · exact ⟨_, by rw [if_neg h1, if_pos h2]⟩
      · exact ⟨_, by rw [if_neg h1, if_neg h2, if_neg (by rcases hb with h | h | h; exact absurd h h1; exact absurd h h2; exact h)]⟩
    have hout32 : ∀ x xs, r = x :: xs → x.toNat = 32 ∨ x.toNat = 93 ∨ ¬(w.length - 1 < 31 ∧ isSdName x = true) :=
      fun x xs h => Or.inr (Or.inr ((hnx x xs h).resolve_right hw))
    cases hfd : sd.find w with
    | some ps =>
      rw [dElems_dup hsp hw hfd]
      simp only [ElemsOk]
      have hd : ∀ as, runActs act (.setId :: as) m1 = fail .sdIdDup m1 := by
        intro as; simp only [runActs, act, withText, htext, hsd1, hfd, fail]
      rw [hrun, ← hm1out, show m.p + w.length = m1.p by rw [hm1]]
      cases r with
      | nil => exact ends_fail_eof (m2 := m1) (by rw [id_eof.2 _ hk]; exact hd _)
      | cons x xs =>
        obtain ⟨as, has⟩ := hacts x (hout32 x xs rfl)
        exact ends_fail (m1 := m1) (m2 := m1) (by rw [id_frm.2 _ hk]; rfl) (by rw [has]; exact hd _)
    | none =>
      obtain ⟨m2, hm2⟩ : ∃ m2 : M, m2 = { m1 with out := withSD base (sd.insert w []), currentelem := w } := ⟨_, rfl⟩
      have hset : act .setId m1 = .next m2 := by
        simp only [act, withText, htext, hsd1, hfd, hm2, hm1out, withSD, insert_isEmpty, Bool.not_false]
      have hm2p : m2.p = m.p + w.length := by rw [hm2, hm1]
      have hm2out : m2.out = withSD base (sd.insert w []) := by rw [hm2]
      have hm2el : m2.currentelem = w := by rw [hm2]
      have hm2c : m2.compliantMsg = m.compliantMsg := by rw [hm2, hm1]
      have hat2 : At m2 r := by rw [hm2]; exact ⟨hat1.le, hat1.eq⟩
      by_cases hs : ∃ t, r = 32 :: t
      · obtain ⟨t, rfl⟩ := hs
        have hstep : go rest 17 m = go t 19 (adv m2) := by
          rw [hrun]
          refine run_next (acts := [.setId]) (m1 := m1) (m2 := m2) ?_ (by rw [id_frm.2 _ hk]; rfl) (by simp only [runActs, hset])
          rw [id_disp _ hk, if_pos (by rfl)]
        have hpp := params_phase base (t.length + 1) t (adv m2) (sd.insert w []) [] [] (by omega) hat2.adv hm2out
          (SMap.sorted_insert hsort) (by
            show SMap.find m2.currentelem _ = _
            rw [hm2el, SMap.find_insert_self]) (Or.inl rfl)
        rw [show (adv m2).currentelem = w from hm2el, show (adv m2).p = m2.p + 1 from rfl, hm2p] at hpp
        have hlen : t.length + 1 < rest.length := by rw [happ]; simp; omega
        cases hp : dParams (t.length + 1) w [] [] (sd.insert w []) (m.p + w.length + 1) t with
        | bad k c sd' =>
          rw [dElems_params_bad hsp hw hfd hp]
          rw [hp] at hpp
          simp only [ParamsOk, ElemsOk] at hpp ⊢
          rw [hstep]; exact hpp
        | ok sd' p tl =>
          rw [dElems_params_ok hsp hw hfd hp]
          rw [hp] at hpp
          simp only [ParamsOk] at hpp
          obtain ⟨m', g1, g2, g3, g4, g5, g6, g7, g8, g9⟩ := hpp
          have := hnext m' tl sd' (by omega) g2 g4 g5 (g7.trans hm2c) (by omega) (by rw [hstep]; exact g1)
          rw [g3, g6, show (adv m2).currentelem = w from hm2el] at this
          exact this
      by_cases hcl : ∃ t, r = 93 :: t
      · obtain ⟨t, rfl⟩ := hcl
        have hstep : go rest 17 m = go t 606 (adv m2) := by
          rw [hrun]
          refine run_next (acts := [.setId]) (m1 := m1) (m2 := m2) ?_ (by rw [id_frm.2 _ hk]; rfl) (by simp only [runActs, hset])
          rw [id_disp _ hk, if_neg (by decide), if_pos (by rfl)]
        have hlen : t.length + 1 < rest.length := by rw [happ]; simp; omega
        rw [dElems_close hsp hw hfd]
        have := hnext (adv m2) t (sd.insert w []) (by omega) hat2.adv hm2out (SMap.sorted_insert hsort) hm2c
          (by simp [adv]) hstep
        rw [show (adv m2).currentelem = w from hm2el, show (adv m2).p = m2.p + 1 from rfl, hm2p] at this
        exact this
      · rw [dElems_badid hsp hw hfd (fun t h => hs ⟨t, h⟩) (fun t h => hcl ⟨t, h⟩)]
        simp only [ElemsOk]
        have herr : runActs act [.setId, .errSdid, .errStructureddata] m1 = fail .sdId { m2 with out := withSD base sd } := by
          have he : (sd.insert w []).erase w = sd := SMap.erase_insert hsort hfd
          simp only [runActs, hset]
          simp only [act, hm2out, hm2el, withSD, Option.map_some, Option.getD_some, he, insert_isEmpty]
          cases sd <;> simp [fail, hm2el]
        rw [hrun, ← hm2p]
        cases r with
        | nil => exact ends_fail_eof (m2 := { m2 with out := withSD base sd }) (by rw [id_eof.2 _ hk]; exact herr)
        | cons x xs =>
          have hx : x.toNat ≠ 32 := fun h => hs ⟨xs, by rw [(toNat_eq (n := 32) (by omega)).mp h]; rfl⟩
          have hx' : x.toNat ≠ 93 := fun h => hcl ⟨xs, by rw [(toNat_eq (n := 93) (by omega)).mp h]; rfl⟩
          exact ends_fail (m1 := m1) (m2 := { m2 with out := withSD base sd }) (by rw [id_frm.2 _ hk]; rfl) (by
            rw [id_disp _ hk, if_neg hx, if_neg hx', if_neg ((hnx x xs rfl).resolve_right hw)]; exact herr)

/-! ## STRUCTURED-DATA and what follows -/

theorem sd_phase (c : Bool) (m : M) (rest : Bytes) (hat : At m rest) (hc : m.compliantMsg = c)
    (hh : m.out.hasElements = false) : Ends (go rest 16 m) (dSD c m.p rest m.out) := by
  cases rest with
  | nil =>
    have : dSD c m.p [] m.out = mkErr .structuredData m.p m.out := rfl
    rw [this]
    exact ends_fail_eof (m2 := m) (by rw [T_16]; rfl)
  | cons b r =>
    by_cases h1 : b.toNat = 45
    · have hb : b = 45 := (toNat_eq (n := 45) (by omega)).mp h1
      subst hb
      have hstep : go (45 :: r) 16 m = go r 603 (adv m) :=
        run_simple (by rw [T_16]) (by rw [T_16, dispatch_cons_in (by decide)])
      rw [hstep]
      cases r with
      | nil =>
        have : dSD c m.p [45] m.out = .ok m.out := rfl
        rw [this]
        exact ends_ok_eof (m2 := adv m) (by decide) (by rw [T_603]; rfl)
      | cons x t =>
        by_cases hx : x.toNat = 32
        · have hx' : x = 32 := (toNat_eq (n := 32) (by omega)).mp hx
          subst hx'
          have hstep : go (32 :: t) 603 (adv m) = go t 604 (adv (adv m)) :=
            run_simple (by rw [T_603]) (by rw [T_603, dispatch_cons_in (by decide)])
          rw [hstep]
          exact msg_phase c (adv (adv m)) t hat.adv.adv (by simp [adv]) hc
        · have hx' : x ≠ 32 := fun h => hx (by rw [h]; rfl)
          have : dSD c m.p (45 :: x :: t) m.out = mkErr .parse (m.p + 1) m.out := by
            simp only [dSD]
            split
            · rename_i h; simp at h
            · rename_i h; simp at h; exact absurd h.1 hx'
            · rfl
          rw [this]
          exact ends_fail (m1 := adv m) (m2 := adv m) (by rw [T_603]; rfl) (by
            rw [T_603, dispatch_cons_out (by omega), dispatch_nil]; rfl)
    by_cases h2 : b.toNat = 91
    · have hb : b = 91 := (toNat_eq (n := 91) (by omega)).mp h2
      subst hb
      obtain ⟨m1, hm1⟩ : ∃ m1 : M, m1 = { m with p := m.p + 1, out := withSD m.out [] } := ⟨_, rfl⟩
      have hstep : go (91 :: r) 16 m = go r 17 m1 := by
        have : go (91 :: r) 16 m = go r 17 (adv { m with out := withSD m.out [] }) := by
          refine run_next (acts := [.iniElements]) (m1 := m) ?_ (by rw [T_16]; rfl) ?_
          · rw [T_16, dispatch_cons_out (by decide), dispatch_cons_in (by decide)]
          · simp [runActs, act, withSD, hh]
        rw [this, hm1]; rfl
      have hat1 : At m1 r := by have := hat.adv; rw [hm1]; exact ⟨this.le, this.eq⟩
      have hep := elems_phase m.out (r.length + 1) r m1 [] [] (by omega) hat1 (by rw [hm1]) SMap.sorted_nil (Or.inl rfl)
      rw [show m1.p = m.p + 1 by rw [hm1]] at hep
      rw [hstep]
      simp only [dSD]
      cases hd : dElems (r.length + 1) [] [] (m.p + 1) r with
      | bad k cc sd => rw [hd] at hep; exact hep
      | ok sd p tl =>
        rw [hd] at hep
        simp only [ElemsOk] at hep ⊢
        obtain ⟨m', g1, g2, g3, g4, g5, g6, g7⟩ := hep
        rw [g1]
        cases tl with
        | nil =>
          simp only
          rw [← g4]
          exact ends_ok_eof (m2 := m') (by decide) (by rw [T_606]; rfl)
        | cons x t =>
          by_cases hx : x.toNat = 32
          · have hx' : x = 32 := (toNat_eq (n := 32) (by omega)).mp hx
            subst hx'
            have hstep : go (32 :: t) 606 m' = go t 604 (adv m') :=
              run_simple (by rw [T_606]) (by rw [T_606, dispatch_cons_in (by decide)])
            rw [hstep]
            have := msg_phase c (adv m') t g2.adv (by simp [adv]) ((g5.trans (by rw [hm1])).trans hc)
            rw [show (adv m').p = p + 1 by simp only [adv, g3], show (adv m').out = withSD m.out sd from g4] at this
            exact this
          · have hx' : x ≠ 32 := fun h => hx (by rw [h]; rfl)
            have hx2 : ¬ (91 ≤ x.toNat ∧ x.toNat ≤ 91) := fun h =>
              g7 t (by rw [show x = 91 from (toNat_eq (n := 91) (by omega)).mp (by omega)])
            split
            · rename_i h; simp at h
            · rename_i h; simp at h; exact absurd h.1 hx'
            · rw [← g4, ← g3]
              exact ends_fail (m1 := m') (m2 := m') (by rw [T_606]; rfl) (by
                rw [T_606, dispatch_cons_out (by omega), dispatch_cons_out hx2, dispatch_nil]; rfl)
    · have : dSD c m.p (b :: r) m.out = mkErr .structuredData m.p m.out := by
        simp only [dSD]
        split
        · rename_i h; simp at h; exact absurd (by rw [h.1]; rfl) h1
        · rename_i h; simp at h; exact absurd (by rw [h.1]; rfl) h2
        · rfl
      rw [this]
      exact ends_fail (m1 := m) (m2 := m) (by rw [T_16]; rfl) (by
        rw [T_16, dispatch_cons_out (by omega), dispatch_cons_out (by omega), dispatch_nil]; rfl)

end Verif.Rfc5424
