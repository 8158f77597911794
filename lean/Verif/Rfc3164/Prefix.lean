import Verif.Rfc3164.Outcome
import Verif.Rfc5424.Steps

/-! # Errors are decided by the bytes up to their column -/

namespace Verif.Rfc3164
open Spec Spec.Bsd
open Verif.Rfc5424 (isGraph priScan priStep PriSt nameWF_iff)

theorem take_split {a b m : Bytes} {k : Nat} (h : m.take (a.length + k) = (a ++ b).take (a.length + k)) :
    ∃ b2, m = a ++ b2 ∧ b2.take k = b.take k := by
  rw [List.take_length_add_append] at h
  refine ⟨m.drop a.length, ?_, ?_⟩
  · have h1 : m.take a.length = a := by
      have := congrArg (List.take a.length) h
      rw [List.take_take, Nat.min_eq_left (by omega), List.take_left] at this
      exact this
    conv => lhs; rw [← List.take_append_drop a.length m, h1]
  · have := congrArg (List.drop a.length) h
    rw [List.drop_left, List.drop_take, Nat.add_sub_cancel_left] at this
    exact this

theorem pri_bad_prefix : ∀ (l : Bytes) (s : PriSt) (n : Nat) (m : Bytes), priScan s l = .bad n → n < l.length →
    m.take (n + 1) = l.take (n + 1) → priScan s m = .bad n := by
  intro l
  induction l with
  | nil => intro s n m _ h; simp at h
  | cons b l ih =>
    intro s n m h hn hp
    cases m with
    | nil => simp at hp
    | cons c m =>
      simp only [List.take_succ_cons, List.cons.injEq] at hp
      obtain ⟨rfl, hp⟩ := hp
      simp only [priScan] at h ⊢
      split at h
      · simp at h
      rename_i hc
      rw [if_neg hc]
      cases hst : priStep s c with
      | none => rw [hst] at h; exact h
      | some s1 =>
        rw [hst] at h
        simp only at h ⊢
        cases hs : priScan s1 l with
        | ok w tl => rw [hs] at h; simp [Ts.Res.cons] at h
        | bad k =>
          rw [hs] at h; simp only [Ts.Res.cons, Ts.Res.bad.injEq] at h
          subst h
          rw [ih s1 k m hs (by simpa using hn) hp]; rfl

theorem bs_bad_prefix : ∀ (l : Bytes) (s : Bs) (n : Nat) (m : Bytes), Bs.scan s l = .bad n → n < l.length →
    m.take (n + 1) = l.take (n + 1) → Bs.scan s m = .bad n := by
  intro l
  induction l with
  | nil => intro s n m _ h; simp at h
  | cons b l ih =>
    intro s n m h hn hp
    cases m with
    | nil => simp at hp
    | cons c m =>
      simp only [List.take_succ_cons, List.cons.injEq] at hp
      obtain ⟨rfl, hp⟩ := hp
      simp only [Bs.scan] at h ⊢
      split at h
      · simp at h
      rename_i hc
      rw [if_neg hc]
      cases hst : Bs.step s c with
      | none => rw [hst] at h; exact h
      | some s1 =>
        rw [hst] at h
        simp only at h ⊢
        cases hs : Bs.scan s1 l with
        | ok w tl => rw [hs] at h; simp [Ts.Res.cons] at h
        | bad k =>
          rw [hs] at h; simp only [Ts.Res.cons, Ts.Res.bad.injEq] at h
          subst h
          rw [ih s1 k m hs (by simpa using hn) hp]; rfl

theorem ts_bad_prefix {fr : Bool} : ∀ (l : Bytes) (s : Ts) (n : Nat) (m : Bytes), Ts.scan fr s l = .bad n → n < l.length →
    m.take (n + 1) = l.take (n + 1) → Ts.scan fr s m = .bad n := by
  intro l
  induction l with
  | nil => intro s n m _ h; simp at h
  | cons b l ih =>
    intro s n m h hn hp
    cases m with
    | nil => simp at hp
    | cons c m =>
      simp only [List.take_succ_cons, List.cons.injEq] at hp
      obtain ⟨rfl, hp⟩ := hp
      simp only [Ts.scan] at h ⊢
      split at h
      · simp at h
      rename_i hc
      rw [if_neg hc]
      cases hst : Ts.step fr s c with
      | none => rw [hst] at h; exact h
      | some s1 =>
        rw [hst] at h
        simp only at h ⊢
        cases hs : Ts.scan fr s1 l with
        | ok w tl => rw [hs] at h; simp [Ts.Res.cons] at h
        | bad k =>
          rw [hs] at h; simp only [Ts.Res.cons, Ts.Res.bad.injEq] at h
          subst h
          rw [ih s1 k m hs (by simpa using hn) hp]; rfl

theorem headDigit_take {l m : Bytes} {k : Nat} (h : m.take (k + 1) = l.take (k + 1)) : headDigit m = headDigit l := by
  cases l <;> cases m <;> simp_all [headDigit]

theorem span_prefix {v : Bytes} {b : UInt8} {t t2 : Bytes} (h : spanN isGraph 255 (v ++ b :: t) = (v, b :: t)) :
    spanN isGraph 255 (v ++ b :: t2) = (v, b :: t2) := by
  have hall := spanN_all isGraph 255 (v ++ b :: t)
  have hlen := spanN_length isGraph 255 (v ++ b :: t)
  have hmax := spanN_max isGraph 255 (v ++ b :: t)
  rw [h] at hall hlen hmax
  simp only at hall hlen hmax
  rcases hmax with hm | hm | ⟨c, r, hc, hm⟩
  · have := Rfc5424.spanN_full isGraph (rest := b :: t2) hall
    rwa [hm] at this
  · simp at hm
  · cases hc
    exact spanN_eq isGraph hall hlen (Or.inr ⟨_, _, rfl, hm⟩)

/-- columns lie in the input, and before its end they decide the error -/
theorem timeStop_prefix {o : Opts} {pos : Nat} {rest : Bytes} {out out' : Out} {e : Err}
    (h : TimeStop o pos rest out (some e) out') :
    pos ≤ e.col ∧ e.col ≤ pos + rest.length ∧ (e.col < pos + rest.length → ∀ rest2 : Bytes,
      rest2.take (e.col - pos + 1) = rest.take (e.col - pos + 1) → dTime o pos rest2 out = .stop (some e) out') := by
  cases h with
  | isoLate ho hd h hn =>
    rename_i n
    have hle := Ts.scan_bad_le h
    refine ⟨by simp, by simp; omega, fun hlt rest2 hp => ?_⟩
    simp only [Nat.add_sub_cancel_left] at hp hlt
    have h2 := ts_bad_prefix rest .y1 n rest2 h (by omega) hp
    simp only [dTime, ho, headDigit_take hp, hd, Bool.and_self, if_true, dIso, h2]
    rw [if_neg (by omega)]; rfl
  | bsdBad hd h =>
    rename_i n
    have hle := Bs.scan_bad_le h
    refine ⟨by simp, by simp; omega, fun hlt rest2 hp => ?_⟩
    simp only [Nat.add_sub_cancel_left] at hp hlt
    have h2 := bs_bad_prefix rest .m1 n rest2 h (by omega) hp
    simp only [dTime, headDigit_take hp, hd, Bool.false_eq_true, if_false, dBsd, h2]; rfl
  | noDate hw hn hr =>
    rename_i w t
    refine ⟨by simp, by simp only [hr, List.length_append]; omega, fun hlt rest2 hp => ?_⟩
    simp only [Nat.add_sub_cancel_left, hr] at hp
    obtain ⟨b2, rfl, hb⟩ := take_split hp
    cases b2 with
    | nil => simp at hb
    | cons c b2 =>
      simp at hb; subst hb
      exact dTime_noDate hw hn
  | host hw hr hv hb =>
    rename_i w v t
    refine ⟨by simp; omega, by simp only [hr, List.length_append, List.length_cons]; omega, fun hlt rest2 hp => ?_⟩
    simp only [hr, List.length_append, List.length_cons] at hlt
    have e1 : rest = (w.render ++ 32 :: v) ++ t := by rw [hr]; simp
    have e2 : pos + w.render.length + 1 + v.length - pos + 1 = (w.render ++ 32 :: v).length + 1 := by
      simp only [List.length_append, List.length_cons]; omega
    simp only [e1] at hp
    rw [e2] at hp
    obtain ⟨b2, rfl, hb2⟩ := take_split hp
    cases t with
    | nil => simp at hlt; omega
    | cons c t =>
      cases b2 with
      | nil => simp at hb2
      | cons c' b2 =>
        simp at hb2; subst hb2
        rw [show (w.render ++ 32 :: v) ++ c' :: b2 = w.render ++ 32 :: (v ++ c' :: b2) by simp, dTime_space hw,
          dHost_bad (span_prefix hv)]
        · rfl
        · rcases hb with hb | hb
          · exact Or.inl hb
          · exact Or.inr fun t' ht' => hb t (by cases ht'; rfl)
  | tag hw hh hr hs =>
    rename_i w host msg
    refine ⟨by simp; omega, by simp only [hr, List.length_append, List.length_cons]; omega, fun hlt rest2 hp => ?_⟩
    simp only [hr, List.length_append, List.length_cons] at hlt
    have e1 : rest = (w.render ++ 32 :: (host ++ [32])) ++ msg := by rw [hr]; simp
    have e2 : pos + w.render.length + 1 + host.length + 1 - pos + 1 = (w.render ++ 32 :: (host ++ [32])).length + 1 := by
      simp only [List.length_append, List.length_cons, List.length_nil]; omega
    simp only [e1] at hp
    rw [e2] at hp
    obtain ⟨b2, rfl, hb2⟩ := take_split hp
    cases msg with
    | nil => simp at hlt; omega
    | cons c t =>
      cases b2 with
      | nil => simp at hb2
      | cons c' b2 =>
        simp at hb2; subst hb2
        have hc : isCtl c' = true := by
          apply Classical.byContradiction; intro hn
          exact hs ⟨c', t, rfl, ctl_false.mp (by simpa using hn)⟩
        obtain ⟨h1, h2, h3⟩ := nameWF_iff.mp hh
        rw [show (w.render ++ 32 :: (host ++ [32])) ++ c' :: b2 = w.render ++ 32 :: (host ++ 32 :: (c' :: b2)) by simp, dTime_space hw,
          dHost_ok (spanN_eq isGraph h3 h2 (Or.inr ⟨32, _, rfl, by decide⟩)) h1]
        simp only [dMsg, hc, if_true]; rfl

theorem descend_prefix {o : Opts} {input : Bytes} {e : Err} {out : Out} (h : descend o input = .stop (some e) out) :
    e.col ≤ input.length ∧ (e.col < input.length → ∀ input2 : Bytes, input2.take (e.col + 1) = input.take (e.col + 1) →
      descend o input2 = .stop (some e) out) := by
  rcases descend_stop h with ⟨hn, he, rfl⟩ | ⟨r, n, rfl, hp, he, rfl⟩ | ⟨pri, rest, hpri, rfl, hts⟩
  · cases he
    refine ⟨by simp, fun hlt input2 h2 => ?_⟩
    cases input with
    | nil => simp at hlt
    | cons b l =>
      cases input2 with
      | nil => simp at h2
      | cons c l2 =>
        simp at h2; subst h2
        unfold descend; split
        · rename_i heq; cases heq; exact absurd rfl (hn l)
        · rfl
  · cases he
    have hle := (pri_bad_run r .start n hp).1
    refine ⟨by simp; omega, fun hlt input2 h2 => ?_⟩
    simp only [List.length_cons] at hlt
    cases input2 with
    | nil => simp at h2
    | cons c l2 =>
      simp only [show 1 + n + 1 = (n + 1) + 1 by omega, List.take_succ_cons, List.cons.injEq] at h2
      obtain ⟨rfl, h2⟩ := h2
      have hp2 := pri_bad_prefix r .start n l2 hp (by omega) h2
      simp only [descend, hp2, mkErr]
      have hl2 : n < l2.length := by
        have := congrArg List.length h2
        simp only [List.length_take] at this
        omega
      have ht : l2.take n = r.take n := by
        have := congrArg (List.take n) h2
        rwa [List.take_take, List.take_take, Nat.min_eq_left (by omega)] at this
      rw [if_neg (by omega), if_neg (by omega), ht]
  · obtain ⟨h1, h2, h3⟩ := timeStop_prefix hts
    have hlen : (60 :: (dec pri ++ 62 :: rest)).length = 1 + (dec pri).length + 1 + rest.length := by simp; omega
    refine ⟨by omega, fun hlt input2 hp => ?_⟩
    have e1 : 60 :: (dec pri ++ 62 :: rest) = (60 :: (dec pri ++ [62])) ++ rest := by simp
    have e2 : e.col + 1 = (60 :: (dec pri ++ [62])).length + (e.col - (1 + (dec pri).length + 1) + 1) := by simp; omega
    rw [e1] at hp
    rw [e2] at hp
    obtain ⟨b2, rfl, hb2⟩ := take_split hp
    have := h3 (by omega) b2 hb2
    rw [show (60 :: (dec pri ++ [62])) ++ b2 = 60 :: (dec pri ++ 62 :: b2) by simp, descend_pri hpri, this]

end Verif.Rfc3164
