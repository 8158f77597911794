import Verif.Rfc5424.Unique
import Verif.Rfc5424.Wrap

/-! # Invariants of everything that is returned, also of partial messages -/

namespace Verif.Rfc5424
open Spec

/-- `Q` survives every assignment the parser makes after VERSION -/
structure Closed (Q : Out → Prop) : Prop where
  msg : ∀ o w, Q o → Q { o with message := w }
  sd : ∀ o sd, Q o → Q (withSD o sd)
  host : ∀ o w, NameWF 255 w → Q o → Q { o with hostname := w }
  app : ∀ o w, NameWF 48 w → Q o → Q { o with appname := w }
  pid : ∀ o w, NameWF 128 w → Q o → Q { o with procID := w }
  mid : ∀ o w, NameWF 32 w → Q o → Q { o with msgID := w }

/-- `Q` holds of the collected fields, whether there was an error or not -/
def Fin.All (Q : Out → Prop) : Fin → Prop
  | .ok o => Q o
  | .err _ part => ∃ o, part = partOf o ∧ Q o

theorem mkErr_all {Q : Out → Prop} {k : ErrKind} {c : Nat} {o : Out} (h : Q o) : (mkErr k c o).All Q := ⟨o, rfl, h⟩

variable {Q : Out → Prop}

theorem dMsg_all (hQ : Closed Q) {c : Bool} {pos : Nat} {rest : Bytes} {out : Out} (h : Q out) : (dMsg c pos rest out).All Q := by
  unfold dMsg
  split
  · exact h
  · split
    · split
      · split
        · exact hQ.msg _ _ h
        · exact mkErr_all (hQ.msg _ _ h)
      · exact hQ.msg _ _ h
    · exact hQ.msg _ _ h

theorem dSD_all (hQ : Closed Q) {c : Bool} {pos : Nat} {rest : Bytes} {out : Out} (h : Q out) : (dSD c pos rest out).All Q := by
  unfold dSD
  split
  · split
    · exact h
    · exact dMsg_all hQ h
    · exact mkErr_all h
  · split
    · exact mkErr_all (hQ.sd _ _ h)
    · split
      · exact hQ.sd _ _ h
      · exact dMsg_all hQ (hQ.sd _ _ h)
      · exact mkErr_all (hQ.sd _ _ h)
  · exact mkErr_all h

theorem dField_all {max : Nat} {kind : ErrKind} {k : Bytes → Nat → Bytes → Fin} {pos : Nat} {rest : Bytes} {out : Out}
    (h : Q out) (hk : ∀ w p t, NameWF max w → (k w p t).All Q) : (dField max kind k pos rest out).All Q := by
  unfold dField
  have h2 := spanN_all isGraph max rest
  have h3 := spanN_length isGraph max rest
  simp only []
  split
  · split
    · exact mkErr_all h
    · rename_i hw
      exact hk _ _ _ (nameWF_iff.mpr ⟨hw, h3, h2⟩)
  · exact mkErr_all h

theorem dHostname_all (hQ : Closed Q) {c : Bool} {pos : Nat} {rest : Bytes} {out : Out} (h : Q out) :
    (dHostname c pos rest out).All Q := by
  refine dField_all h fun w1 p1 t1 h1 => ?_
  have q1 := hQ.host _ w1 h1 h
  refine dField_all q1 fun w2 p2 t2 h2 => ?_
  have q2 := hQ.app _ w2 h2 q1
  refine dField_all q2 fun w3 p3 t3 h3 => ?_
  have q3 := hQ.pid _ w3 h3 q2
  refine dField_all q3 fun w4 p4 t4 h4 => ?_
  exact dSD_all hQ (hQ.mid _ w4 h4 q3)

/-- Closure needed of the timestamp found at the start of `rest` -/
theorem dTimestamp_all (hQ : Closed Q) {c : Bool} {pos : Nat} {rest : Bytes} {out : Out} (h : Q out)
    (hts : ∀ (s : Stamp) l, s.WF → s.Real → rest = s.render ++ l → Q { out with timestamp := s.time, timestampSet := true }) :
    (dTimestamp c pos rest out).All Q := by
  unfold dTimestamp
  split
  · split
    · exact dHostname_all hQ h
    · exact mkErr_all h
  · cases hsc : Ts.scan true .y1 rest with
    | bad n => exact mkErr_all h
    | ok w tl =>
      obtain ⟨s, hwf, -, rfl, hl⟩ := Ts.scan_sound hsc
      simp only [Ts.parse_render s hwf]
      by_cases hr : s.Real
      · simp only [if_pos hr]
        have := hts s tl hwf hr hl
        split
        · exact dHostname_all hQ this
        · exact mkErr_all this
      · simp only [if_neg hr]; exact mkErr_all h

/-- `<PRI>` followed by a version digit -/
def HasMin (input : Bytes) (pri : Nat) : Prop :=
  ∃ (d : UInt8) (t : Bytes), pri ≤ 191 ∧ 49 ≤ d.toNat ∧ d.toNat ≤ 57 ∧ input = 60 :: (dec pri ++ 62 :: d :: t)

/-- the state after `<PRI>VERSION` -/
def afterVersion (pri n : Nat) : Out :=
  { priority := UInt8.ofNat pri, prioritySet := true, version := UInt16.ofNat n }

theorem setV_setP {pri : Nat} {w : Bytes} (h : pri ≤ 191) (hd : IsDigits w) (hn : numVal w ≤ 999) :
    setV (setP (dec pri)) w = afterVersion pri (numVal w) := by
  rw [setV_num hd hn, setP_dec h]; rfl

/-- Either the input does not have the minimum (and there is nothing to return), or it has and `Q` holds of
the collected fields. `hQ`: the closure may use which version and timestamp the input starts with. -/
theorem descend_all {c : Bool} {input : Bytes}
    (hQ : ∀ pri n, pri ≤ 191 → 1 ≤ n → n ≤ 999 → HasMin input pri →
      Closed Q ∧ Q (afterVersion pri n) ∧
      (∀ (s : Stamp) t, s.WF → s.Real → input = 60 :: (dec pri ++ 62 :: (dec n ++ 32 :: (s.render ++ t))) →
        Q { afterVersion pri n with timestamp := s.time, timestampSet := true })) :
    ((∃ e, descend c input = .err e none) ∧ ¬ ∃ pri, HasMin input pri) ∨
    ((∃ pri, HasMin input pri) ∧ (descend c input).All Q) := by
  by_cases hin : ∃ pri t, pri ≤ 191 ∧ input = 60 :: (dec pri ++ 62 :: t)
  · obtain ⟨pri, t, hpri, rfl⟩ := hin
    have hp : priScan .start (dec pri ++ 62 :: t) = .ok (dec pri) t := pri_iff.mpr ⟨pri, hpri, rfl, rfl⟩
    have huniq : ∀ pri', HasMin (60 :: (dec pri ++ 62 :: t)) pri' → ∃ d r, 49 ≤ d.toNat ∧ d.toNat ≤ 57 ∧ t = d :: r := by
      rintro pri' ⟨d, r, -, h1, h2, h3⟩
      simp only [List.cons.injEq, true_and] at h3
      obtain ⟨-, h4⟩ := sep_inj (dec_not_mem (by decide)) (dec_not_mem (by decide)) h3
      exact ⟨d, r, h1, h2, h4⟩
    simp only [descend, hp]
    cases t with
    | nil =>
      left
      refine ⟨⟨⟨.version, 1 + (dec pri).length + 1⟩, ?_⟩, ?_⟩
      · simp [dVersion, mkErr, partOf, setP, Out.minimal, Common.validVersion, Common.inBetween]
      · rintro ⟨pri', h⟩
        obtain ⟨d, r, -, -, h⟩ := huniq pri' h
        simp at h
    | cons d1 r1 =>
      by_cases hd1 : d1.toNat < 49 ∨ 57 < d1.toNat
      · left
        refine ⟨⟨⟨.version, 1 + (dec pri).length + 1⟩, ?_⟩, ?_⟩
        · simp [dVersion, hd1, mkErr, partOf, setP, Out.minimal, Common.validVersion, Common.inBetween]
        · rintro ⟨pri', h⟩
          obtain ⟨d, r, h1, h2, h⟩ := huniq pri' h
          simp at h
          rw [h.1] at hd1
          omega
      · right
        have hmin : HasMin (60 :: (dec pri ++ 62 :: d1 :: r1)) pri := ⟨d1, r1, hpri, by omega, by omega, rfl⟩
        refine ⟨⟨pri, hmin⟩, ?_⟩
        -- all version digit strings
        have key : ∀ (l : Bytes), l.length ≤ 2 → IsDigits (d1 :: l) →
            ∃ n, 1 ≤ n ∧ n ≤ 999 ∧ setV (setP (dec pri)) (d1 :: l) = afterVersion pri n ∧ dec n = d1 :: l := by
          intro l hl hd
          obtain ⟨hn, hdec⟩ := version_ok (c := c) (t := []) (out := {}) (o := {}) rfl hd (by omega) hl
          exact ⟨numVal (d1 :: l), hn.1, hn.2, setV_setP hpri hd hn.2, hdec⟩
        have kq : ∀ (l : Bytes), l.length ≤ 2 → IsDigits (d1 :: l) → Q (setV (setP (dec pri)) (d1 :: l)) := by
          intro l hl hd
          obtain ⟨n, h1, h2, h3, -⟩ := key l hl hd
          rw [h3]; exact (hQ pri n hpri h1 h2 hmin).2.1
        have kt : ∀ (l : Bytes) (pos : Nat) (t : Bytes), l.length ≤ 2 → IsDigits (d1 :: l) → r1 = l ++ 32 :: t →
            (dTimestamp c pos t (setV (setP (dec pri)) (d1 :: l))).All Q := by
          intro l pos t hl hd ht
          obtain ⟨n, h1, h2, h3, h4⟩ := key l hl hd
          obtain ⟨q1, q2, q3⟩ := hQ pri n hpri h1 h2 hmin
          rw [h3]
          refine dTimestamp_all q1 q2 fun s l' hs hr hst => ?_
          exact q3 s l' hs hr (by rw [h4, ht, hst]; rfl)
        have i1 : IsDigits [d1] := by intro c hc; simp at hc; subst hc; omega
        cases r1 with
        | nil =>
          simp only [dVersion, if_neg hd1]
          exact mkErr_all (kq [] (by simp) i1)
        | cons d2 r2 =>
        by_cases h2 : d2 = 32
        · subst h2
          simp only [dVersion, if_neg hd1, if_true]
          exact kt [] _ r2 (by simp) i1 rfl
        by_cases hd2 : isDig d2 = true
        case neg =>
          simp only [dVersion, if_neg hd1, if_neg h2, if_neg hd2]
          exact mkErr_all (kq [] (by simp) i1)
        have hd2' := isDig_iff' hd2
        have i2 : IsDigits [d1, d2] := by intro c hc; simp at hc; rcases hc with rfl | rfl <;> omega
        cases r2 with
        | nil =>
          simp only [dVersion, if_neg hd1, if_neg h2, if_pos hd2]
          exact mkErr_all (kq [] (by simp) i1)
        | cons d3 r3 =>
        by_cases h3 : d3 = 32
        · subst h3
          simp only [dVersion, if_neg hd1, if_neg h2, if_pos hd2, if_true]
          exact kt [d2] _ r3 (by simp) i2 rfl
        by_cases hd3 : isDig d3 = true
        case neg =>
          simp only [dVersion, if_neg hd1, if_neg h2, if_pos hd2, if_neg h3, if_neg hd3]
          exact mkErr_all (kq [d2] (by simp) i2)
        have hd3' := isDig_iff' hd3
        have i3 : IsDigits [d1, d2, d3] := by intro c hc; simp at hc; rcases hc with rfl | rfl | rfl <;> omega
        cases r3 with
        | nil =>
          simp only [dVersion, if_neg hd1, if_neg h2, if_pos hd2, if_neg h3, if_pos hd3]
          exact mkErr_all (kq [d2] (by simp) i2)
        | cons d4 r4 =>
        by_cases h4 : d4 = 32
        · subst h4
          simp only [dVersion, if_neg hd1, if_neg h2, if_pos hd2, if_neg h3, if_pos hd3, if_true]
          exact kt [d2, d3] _ r4 (by simp) i3 rfl
        · simp only [dVersion, if_neg hd1, if_neg h2, if_pos hd2, if_neg h3, if_pos hd3, if_neg h4]
          exact mkErr_all (kq [d2, d3] (by simp) i3)
  · left
    refine ⟨?_, ?_⟩
    · unfold descend
      split
      · rename_i r
        cases hp : priScan .start r with
        | bad n => exact ⟨_, rfl⟩
        | ok w tl =>
          obtain ⟨pri, hpri, rfl, rfl⟩ := pri_iff.mp hp
          exact absurd ⟨pri, tl, hpri, rfl⟩ hin
      · exact ⟨_, rfl⟩
    · rintro ⟨pri, d, t, h1, -, -, h2⟩
      exact hin ⟨pri, d :: t, h1, h2⟩

end Verif.Rfc5424
