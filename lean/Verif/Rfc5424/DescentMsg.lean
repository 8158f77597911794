import Verif.Rfc5424.DescentEq

/-! # The automaton computes `descend`: MSG -/

namespace Verif.Rfc5424
open Verif.Fsm Verif.Gen.Rfc5424

theorem forall_byte {P : UInt8 → Prop} (h : ∀ n, n < 256 → P (UInt8.ofNat n)) (b : UInt8) : P b := by
  have := h b.toNat (UInt8.toNat_lt b)
  rwa [UInt8.ofNat_toNat] at this

/-- states of the UTF-8 automaton inside MSG -/
def u8St : U8 → Nat
  | .s0 => 613 | .c1 => 596 | .e0 => 597 | .c2 => 598 | .ed => 599 | .f0 => 600 | .c3 => 601 | .f4 => 602

theorem u8St_ne (s : U8) : u8St s ≠ 0 := by cases s <;> decide

theorem u8_frm (s : U8) : (T (u8St s)).frm = [] := by cases s <;> decide +kernel

theorem u8_dispatch (s : U8) (b : UInt8) : (T (u8St s)).dispatch b.toNat =
    (match U8.step s b with | some s' => ⟨[], u8St s'⟩ | none => ⟨[.errMsg], 0⟩) := by
  apply forall_byte (P := fun b => (T (u8St s)).dispatch b.toNat =
    (match U8.step s b with | some s' => ⟨[], u8St s'⟩ | none => ⟨[.errMsg], 0⟩))
  cases s <;> decide +kernel

theorem u8_eof (s : U8) : (T (u8St s)).eof = if s = .s0 then [.setMsg] else [.errMsg] := by
  cases s <;> decide +kernel

theorem slice_take {data l : Bytes} {a : Nat} (ha : a ≤ data.length) (h : data.drop a = l) {n : Nat} (hn : n ≤ l.length) :
    slice data a (a + n) = some (l.take n) := by
  have := slice_of_drop (w := l.take n) (rest := l.drop n) ha (by rw [h, List.take_append_drop])
  rw [← this, List.length_take, Nat.min_eq_left hn]

/-- UTF-8 part of MSG: `l0` is the whole MSG (starting at `a`), `done` of its bytes were read. -/
theorem utf8_phase {a : Nat} {l0 : Bytes} : ∀ (l : Bytes) (done : Nat) (s : U8) (m : M), l0.drop done = l → done ≤ l0.length →
    0 < a → a ≤ m.data.length → m.data.drop a = l0 → m.pb = a → m.msgat = a → m.p = a + done → m.compliantMsg = true →
    Ends (go l (u8St s) m)
      (match U8.firstBad s l with
       | none => .ok { m.out with message := l0 }
       | some n => mkErr .msgNotCompliant (a + (done + n)) { m.out with message := l0.take (done + n) }) := by
  intro l
  induction l with
  | nil =>
    intro done s m hl hdl ha0 ha hd hpb hms hp hc
    have hlen : done = l0.length := by
      have := congrArg List.length hl; simp at this; omega
    by_cases hs : s = .s0
    · simp only [U8.firstBad, if_pos hs]
      have := ends_ok_eof (cs := u8St s) (m := m) (m2 := { m with out := { m.out with message := l0 } })
        (by subst hs; decide) (by
          rw [u8_eof, if_pos hs]
          have : slice m.data m.pb m.p = some l0 := by
            rw [hpb, hp, slice_take ha hd (by omega), hlen, List.take_length]
          simp [runActs, act, withText, M.text, this])
      exact this
    · simp only [U8.firstBad, if_neg hs]
      have := ends_fail_eof (cs := u8St s) (m := m) (k := .msgNotCompliant)
        (m2 := { m with out := { m.out with message := l0.take (done + 0) } }) (by
          rw [u8_eof, if_neg hs]
          have h1 : m.msgat > 0 := by omega
          have : slice m.data m.msgat m.p = some (l0.take (done + 0)) := by
            rw [hms, hp, slice_take ha hd (by omega), Nat.add_zero]
          simp [runActs, act, this, hc, fail, h1])
      simpa [hp] using this
  | cons b l ih =>
    intro done s m hl hdl ha0 ha hd hpb hms hp hc
    have hlt : done < l0.length := by
      have := congrArg List.length hl; simp at this; omega
    have hdisp := u8_dispatch s b
    cases hstep : U8.step s b with
    | none =>
      rw [hstep] at hdisp
      simp only [U8.firstBad, hstep]
      have := ends_fail (cs := u8St s) (m := m) (m1 := m) (b := b) (bs := l) (k := .msgNotCompliant)
        (m2 := { m with out := { m.out with message := l0.take (done + 0) } }) (by rw [u8_frm]; rfl) (by
          have h1 : m.msgat > 0 := by omega
          have : slice m.data m.msgat m.p = some (l0.take (done + 0)) := by
            rw [hms, hp, slice_take ha hd (by omega), Nat.add_zero]
          rw [hdisp]
          simp [runActs, act, this, hc, fail, h1])
      simpa [hp] using this
    | some s' =>
      rw [hstep] at hdisp
      obtain ⟨t, ht⟩ := Nat.exists_eq_succ_of_ne_zero (u8St_ne s')
      rw [go, run_simple (t := t) (u8_frm s) (by rw [hdisp]; simp only [ht]), ← Nat.succ_eq_add_one, ← ht]
      have := ih (done + 1) s' (adv m) (by rw [← List.drop_drop, hl]; rfl) (by omega) ha0 ha hd hpb hms
        (by simp [adv, hp]; omega) hc
      simp only [U8.firstBad, hstep]
      cases hf : U8.firstBad s' l with
      | none => rw [hf] at this; exact this
      | some n =>
        rw [hf] at this
        simp only [Option.map_some]
        rw [show done + (n + 1) = done + 1 + n by omega]
        exact this

theorem T_604 : T 604 = ⟨[], [], ⟨[.selectMsgMode], 605⟩, []⟩ := by decide +kernel
theorem T_607 : T 607 = ⟨[], [], ⟨[.mark, .markmsg], 608⟩, [.mark, .markmsg, .setMsg]⟩ := by decide +kernel
theorem T_608 : T 608 = ⟨[], [], st 608, [.setMsg]⟩ := by decide +kernel
theorem T_609 : T 609 = ⟨[], [(239, 239, ⟨[.mark, .markmsg], 611⟩)], ⟨[.mark, .markmsg], 610⟩,
    [.mark, .markmsg, .setMsg]⟩ := by decide +kernel
theorem T_610 : T 610 = ⟨[], [], st 610, [.setMsg]⟩ := by decide +kernel
theorem T_611 : T 611 = ⟨[], [(187, 187, st 612)], st 610, [.setMsg]⟩ := by decide +kernel
theorem T_612 : T 612 = ⟨[], [(191, 191, st 613)], st 610, [.setMsg]⟩ := by decide +kernel

/-- any bytes up to the end: states 608 and 610 (`pb` at the start of MSG) -/
theorem any_phase {cs : Nat} (hcs : cs = 608 ∨ cs = 610) (l l0 : Bytes) (a done : Nat) (m : M)
    (hl : l0.drop done = l) (hdl : done ≤ l0.length) (ha : a ≤ m.data.length) (hd : m.data.drop a = l0)
    (hpb : m.pb = a) (hp : m.p = a + done) : Ends (go l cs m) (.ok { m.out with message := l0 }) := by
  have hrow : T cs = ⟨[], [], st cs, [.setMsg]⟩ := by
    rcases hcs with rfl | rfl
    · exact T_608
    · exact T_610
  have h1 := run_stay (T := T) (act := act) (adv := adv) cs (fun _ => true) (by rw [hrow])
    (fun b _ => by rw [hrow]; rfl) (by omega) [] l m (by simp)
  rw [List.append_nil] at h1
  rw [go, h1]
  have hlen : done + l.length = l0.length := by
    have := congrArg List.length hl; simp at this; omega
  have := ends_ok_eof (cs := cs) (m := advN adv l.length m)
    (m2 := { advN adv l.length m with out := { m.out with message := l0 } }) (by omega) (by
      rw [hrow, advN_eq]
      have : slice m.data m.pb (m.p + l.length) = some l0 := by
        rw [hpb, hp, Nat.add_assoc, slice_take ha hd (by omega), hlen, List.take_length]
      simp [runActs, act, withText, M.text, this])
  exact this

theorem eof_short {cs : Nat} (hcs : cs = 611 ∨ cs = 612) (l0 : Bytes) (a : Nat) (m : M)
    (ha : a ≤ m.data.length) (hd : m.data.drop a = l0)
    (hpb : m.pb = a) (hp : m.p = a + l0.length) : Ends (go [] cs m) (.ok { m.out with message := l0 }) := by
  refine ends_ok_eof (m2 := { m with out := { m.out with message := l0 } }) (by omega) ?_
  have : (T cs).eof = [.setMsg] := by
    rcases hcs with rfl | rfl
    · rw [T_611]
    · rw [T_612]
  rw [this]
  have : slice m.data m.pb m.p = some l0 := by
    rw [hpb, hp, slice_take ha hd (by omega), List.take_length]
  simp [runActs, act, withText, M.text, this]

theorem dMsg_nobom {pos : Nat} {rest : Bytes} {out : Out} (h0 : rest ≠ [])
    (h : ∀ l, rest ≠ 0xEF :: 0xBB :: 0xBF :: l) : dMsg true pos rest out = .ok { out with message := rest } := by
  simp only [dMsg, if_neg h0, if_true]

/-- MSG after the separating space -/
theorem msg_phase (c : Bool) (m : M) (rest : Bytes) (hat : At m rest) (hp0 : 0 < m.p) (hc : m.compliantMsg = c) :
    Ends (go rest 604 m) (dMsg c m.p rest m.out) := by
  obtain ⟨hle, heq⟩ := hat
  cases rest with
  | nil =>
    simp only [dMsg, if_true]
    exact ends_ok_eof (m2 := m) (by omega) (by rw [T_604]; rfl)
  | cons b bs =>
    cases c with
    | false =>
      have h1 : go (b :: bs) 604 m = go bs 608 { m with pb := m.p, msgat := m.p, p := m.p + 1 } := by
        simp only [go, run_cons, show jumpFuel = 2 + 1 + 1 from rfl]
        rw [stepByte_jump (m1 := m) (m2 := m) (s := 607) (by rw [T_604]; rfl)
          (by rw [T_604, dispatch_nil]; simp [runActs, act, hc])]
        rw [stepByte_next (acts := [.mark, .markmsg]) (t := 607) (m1 := m)
          (m2 := { m with pb := m.p, msgat := m.p }) (by rw [T_607, dispatch_nil]) (by rw [T_607]; rfl) rfl]
        rfl
      rw [h1]
      simp only [dMsg]
      rw [if_neg (by simp)]
      exact any_phase (Or.inl rfl) bs (b :: bs) m.p 1 { m with pb := m.p, msgat := m.p, p := m.p + 1 } rfl (by simp)
        hle heq rfl rfl
    | true =>
      by_cases hb : b.toNat = 239
      case neg =>
        have h1 : go (b :: bs) 604 m = go bs 610 { m with pb := m.p, msgat := m.p, p := m.p + 1 } := by
          simp only [go, run_cons, show jumpFuel = 2 + 1 + 1 from rfl]
          rw [stepByte_jump (m1 := m) (m2 := m) (s := 609) (by rw [T_604]; rfl)
            (by rw [T_604, dispatch_nil]; simp [runActs, act, hc])]
          rw [stepByte_next (acts := [.mark, .markmsg]) (t := 609) (m1 := m)
            (m2 := { m with pb := m.p, msgat := m.p })
            (by rw [T_609, dispatch_cons_out (by omega), dispatch_nil]) (by rw [T_609]; rfl) rfl]
          rfl
        rw [h1, dMsg_nobom (by simp) (fun l h => by simp at h; exact hb (by rw [h.1]; rfl))]
        exact any_phase (Or.inr rfl) bs (b :: bs) m.p 1 { m with pb := m.p, msgat := m.p, p := m.p + 1 } rfl (by simp)
          hle heq rfl rfl
      case pos =>
        have hb' : b = 239 := (toNat_eq (n := 239) (by omega)).mp hb
        subst hb'
        have h1 : go (239 :: bs) 604 m = go bs 611 { m with pb := m.p, msgat := m.p, p := m.p + 1 } := by
          simp only [go, run_cons, show jumpFuel = 2 + 1 + 1 from rfl]
          rw [stepByte_jump (m1 := m) (m2 := m) (s := 609) (by rw [T_604]; rfl)
            (by rw [T_604, dispatch_nil]; simp [runActs, act, hc])]
          rw [stepByte_next (acts := [.mark, .markmsg]) (t := 610) (m1 := m)
            (m2 := { m with pb := m.p, msgat := m.p })
            (by rw [T_609, dispatch_cons_in (by decide)]) (by rw [T_609]; rfl) rfl]
          rfl
        rw [h1]
        cases bs with
        | nil =>
          rw [dMsg_nobom (by simp) (by simp)]
          exact eof_short (Or.inl rfl) [239] m.p _ hle heq rfl rfl
        | cons b2 bs =>
          by_cases hb2 : b2.toNat = 187
          case neg =>
            rw [go, run_simple (t := 609) (by rw [T_611]) (by
              rw [T_611, dispatch_cons_out (by omega), dispatch_nil])]
            rw [dMsg_nobom (by simp) (fun l h => by simp at h; exact hb2 (by rw [h.1]; rfl))]
            exact any_phase (Or.inr rfl) bs (239 :: b2 :: bs) m.p 2
              { m with pb := m.p, msgat := m.p, p := m.p + 1 + 1 } rfl (by simp) hle heq rfl rfl
          case pos =>
            have hb2' : b2 = 187 := (toNat_eq (n := 187) (by omega)).mp hb2
            subst hb2'
            rw [go, run_simple (t := 611) (by rw [T_611]) (by
              rw [T_611, dispatch_cons_in (by decide)])]
            cases bs with
            | nil =>
              rw [dMsg_nobom (by simp) (by simp)]
              exact eof_short (Or.inr rfl) [239, 187] m.p _ hle heq rfl rfl
            | cons b3 bs =>
              by_cases hb3 : b3.toNat = 191
              case neg =>
                rw [run_simple (t := 609) (by rw [T_612]) (by
                  rw [T_612, dispatch_cons_out (by omega), dispatch_nil])]
                rw [dMsg_nobom (by simp) (fun l h => by simp at h; exact hb3 (by rw [h.1]; rfl))]
                exact any_phase (Or.inr rfl) bs (239 :: 187 :: b3 :: bs) m.p 3
                  { m with pb := m.p, msgat := m.p, p := m.p + 1 + 1 + 1 } rfl (by simp) hle heq rfl rfl
              case pos =>
                have hb3' : b3 = 191 := (toNat_eq (n := 191) (by omega)).mp hb3
                subst hb3'
                rw [run_simple (t := 612) (by rw [T_612]) (by
                  rw [T_612, dispatch_cons_in (by decide)])]
                have := utf8_phase (a := m.p) (l0 := 239 :: 187 :: 191 :: bs) bs 3 .s0
                  { m with pb := m.p, msgat := m.p, p := m.p + 1 + 1 + 1 } rfl (by simp) hp0 hle heq rfl rfl rfl hc
                simp only [dMsg, if_true]
                rw [if_neg (by simp)]
                exact this

end Verif.Rfc5424
