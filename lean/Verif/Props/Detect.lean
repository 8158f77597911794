import Verif.Props.Rfc5424Errors
import Verif.Props.Rfc3164Errors

/-!
# C88: telling the two message formats apart

Programs that receive both formats try one parser and then the other, or choose wrongly.
-/

namespace Verif.Props
open Verif.Spec

theorem digit_ge {n : Nat} (h : n ≤ 9) : 48 ≤ (digit n).toNat ∧ (digit n).toNat ≤ 57 := by
  rw [Ts.digit_toNat h]; omega

/-- the first byte of `Mmm dd hh:mm:ss` is a letter -/
theorem bstamp_head {s : Bsd.BStamp} (h : s.WF) : ∃ c t, s.render = c :: t ∧ 65 ≤ c.toNat := by
  obtain ⟨h1, h2, -⟩ := h
  have : ∀ m, 1 ≤ m → m ≤ 12 → ∃ c t, Bsd.monthText m = c :: t ∧ 65 ≤ c.toNat := by
    intro m h1 h2
    have : m = 1 ∨ m = 2 ∨ m = 3 ∨ m = 4 ∨ m = 5 ∨ m = 6 ∨ m = 7 ∨ m = 8 ∨ m = 9 ∨ m = 10 ∨ m = 11 ∨ m = 12 := by omega
    rcases this with rfl | rfl | rfl | rfl | rfl | rfl | rfl | rfl | rfl | rfl | rfl | rfl <;>
      exact ⟨_, _, rfl, by decide⟩
  obtain ⟨c, t, e, hc⟩ := this s.month h1 h2
  exact ⟨c, t ++ 32 :: (Bsd.dayText s.day ++ 32 :: (d2 s.hour ++ 58 :: (d2 s.min ++ 58 :: d2 s.sec))), by rw [Bsd.BStamp.render, e]; rfl, hc⟩

theorem bsdText_viable : ∃ t, Bsd.BsdText t := ⟨_, ⟨1, 1, 0, 0, 0⟩, by simp [Bsd.BStamp.WF], rfl⟩

theorem bsd_fails_digit {x : Bytes} (h : Bsd.DigitFirst x) : Fails Bsd.BsdText x 0 := by
  obtain ⟨d, t, rfl, h1, h2⟩ := h
  have key : ∀ u v, Bsd.BsdText u → u = d :: v → False := by
    rintro u v ⟨s, hs, rfl⟩ e
    obtain ⟨c, t', e', hc⟩ := bstamp_head hs
    rw [e'] at e
    simp only [List.cons.injEq] at e
    rw [e.1] at hc; omega
  refine ⟨?_, by omega, by simpa using bsdText_viable, ?_⟩
  · rintro u hu ⟨t', e⟩
    rcases u with _ | ⟨c, u⟩
    · obtain ⟨s, hs, e'⟩ := hu
      obtain ⟨c, t', e'', -⟩ := bstamp_head hs
      rw [e''] at e'; simp at e'
    · simp only [List.cons_append, List.cons.injEq] at e
      exact key _ u hu (by rw [e.1])
  · intro _ t' ht'
    exact key _ t' ht' rfl

/-- everything after `<PRI>` of an RFC 5424 message -/
def afterPri (p : Parts) : Bytes := dec p.version ++ 32 :: (tsText p.timestamp ++ 32 :: (fieldText p.hostname ++ 32 ::
    (fieldText p.appname ++ 32 :: (fieldText p.procID ++ 32 :: (fieldText p.msgID ++ 32 :: (sdText p.sd ++ msgText p.msg))))))

theorem render_afterPri (p : Parts) : p.render = Bsd.priText p.pri ++ afterPri p := by
  simp [Parts.render, Bsd.priText, afterPri]

theorem afterPri_digit (p : Parts) : Bsd.DigitFirst (afterPri p) := by
  rcases he : dec p.version with _ | ⟨c, t⟩
  · exact absurd he (dec_ne_nil _)
  · have := dec_digits p.version c (by rw [he]; simp)
    exact ⟨c, _, by rw [afterPri, he]; rfl, this.1, this.2⟩

theorem dec_len3 {n : Nat} (h : n ≤ 999) : (dec n).length ≤ 3 := by
  by_cases h1 : n < 10
  · rw [dec_lt h1]; simp
  · rw [dec_ge (by omega)]
    by_cases h2 : n < 100
    · rw [dec_lt (by omega)]; simp
    · rw [dec_ge (by omega), dec_lt (by omega)]; simp

theorem afterPri_not_iso {p : Parts} (hp : p.WF) : ¬ Bsd.IsoPrefix (afterPri p) := by
  rintro ⟨s, hs, -, e⟩
  have hl := dec_len3 hp.version.2
  have hy : s.year ≤ 9999 := hs.1
  have h32 : ((afterPri p).take 19)[(dec p.version).length]? = some 32 := by
    rw [List.getElem?_take_of_lt (by omega), afterPri, List.getElem?_append_right (Nat.le_refl _)]
    simp
  rw [e, List.getElem?_take_of_lt (by omega)] at h32
  have hd : s.render[(dec p.version).length]? = (d4 s.year)[(dec p.version).length]? := by
    rw [Stamp.render, List.getElem?_append_left]
    simp [d4, d2]; omega
  rw [hd] at h32
  have hm := List.mem_of_getElem? h32
  simp only [d4, d2, List.cons_append, List.nil_append, List.mem_cons, List.not_mem_nil, or_false] at hm
  have : ∀ k, k ≤ 9 → (32 : UInt8) ≠ digit k := by
    intro k hk he
    have := (digit_ge hk).1
    rw [← he] at this
    simp at this
  rcases hm with hm | hm | hm | hm
  · exact this _ (by omega) hm
  · exact this _ (by omega) hm
  · exact this _ (by omega) hm
  · exact this _ (by omega) hm

/-- C88: an RFC 5424 message given to the RFC 3164 parser. Without `WithRFC3339` it is refused right after `<PRI>`; best effort returns the
priority with the error. With `WithRFC3339` no error is reported: strict mode returns nothing at all, best effort returns a message with
nothing but the priority as if it were complete. -/
theorem C88_rfc5424_to_rfc3164 (o : Rfc3164.Opts) (p : Parts) (hp : p.WF) :
    Rfc3164.parse1 o p.render =
      some ⟨if o.bestEffort then some (Bsd.priOnly p.pri) else none,
        if o.rfc3339 then none else some ⟨.timestamp, (Bsd.priText p.pri).length⟩⟩ := by
  have hd := afterPri_digit p
  cases hi : o.rfc3339 with
  | false =>
    refine (Bsd.C59_every_outcome o p.render _).mpr (Or.inr ⟨some (.timestamp, (Bsd.priText p.pri).length), some (Bsd.priOnly p.pri), ?_, by simp⟩)
    rw [render_afterPri, hi]
    exact .timestamp (n := 0) hp.pri (by simp) (bsd_fails_digit hd)
  | true =>
    refine (Bsd.C59_every_outcome o p.render _).mpr (Or.inr ⟨none, some (Bsd.priOnly p.pri), ?_, by simp⟩)
    rw [render_afterPri, hi]
    exact .noIso hp.pri rfl hd (afterPri_not_iso hp)

/-- the message of which only priority and version are known -/
def versionOnly (pri version : Nat) : Rfc5424.SyslogMessage :=
  { priority := some (UInt8.ofNat pri), facility := some (UInt8.ofNat (pri / 8)), severity := some (UInt8.ofNat (pri % 8))
    version := UInt16.ofNat version }

/-- a message with the given priority and version -/
def bare (pri version : Nat) : Parts := ⟨pri, version, none, none, none, none, none, [], none⟩

theorem bare_wf {pri version : Nat} (h1 : pri ≤ 191) (h2 : 1 ≤ version ∧ version ≤ 999) : (bare pri version).WF :=
  ⟨h1, h2, by simp [bare], trivial, trivial, trivial, trivial, by simp [bare], by simp [bare]⟩

/-- C88: an RFC 3164 message given to the RFC 5424 parser is refused, in the classic form (`Mmm dd hh:mm:ss`) right after `<PRI>` and without
a partial message. With an RFC 3339 timestamp the first three digits of the year are taken for the version: the error is at the fourth, and
best effort returns priority and that version; unless the year is before 1000. -/
theorem C88_rfc3164_to_rfc5424 (be co : Bool) (iso : Bool) (q : Bsd.Parts) (hq : q.WF iso) :
    Rfc5424.parse1 ⟨be, co⟩ q.render =
      match q.time with
      | .bsd _ => some ⟨none, some ⟨.version, (Bsd.priText q.pri).length⟩⟩
      | .iso s =>
        if s.year < 1000 then some ⟨none, some ⟨.version, (Bsd.priText q.pri).length⟩⟩
        else some ⟨if be then some (versionOnly q.pri (s.year / 10)) else none, some ⟨.version, (Bsd.priText q.pri).length + 3⟩⟩ := by
  have hr : q.render = (bare q.pri 1).lead 0 ++ (q.time.render ++ 32 :: (q.host ++ 32 :: q.msg)) := by
    simp [Bsd.Parts.render, Parts.lead, bare]
  have hl : ((bare q.pri 1).lead 0) = Bsd.priText q.pri := rfl
  have hno : (∀ d t, q.time.render ++ 32 :: (q.host ++ 32 :: q.msg) = d :: t → ¬ (49 ≤ d.toNat ∧ d.toNat ≤ 57)) →
      Rfc5424.parse1 ⟨be, co⟩ q.render = some ⟨none, some ⟨.version, (Bsd.priText q.pri).length⟩⟩ := by
    intro h
    refine (C57_refused_iff be co _ _ _).mpr ⟨none, ?_, by simp⟩
    rw [hr, ← hl]
    exact .noVersion (bare_wf hq.pri (by omega)) h
  have ht := hq.time
  cases hw : q.time with
  | bsd s =>
    rw [hw] at ht hno
    refine hno ?_
    intro d t e
    obtain ⟨c, t', e', hc⟩ := bstamp_head ht.1
    rw [Bsd.When.render, e'] at e
    simp only [List.cons_append, List.cons.injEq] at e
    rw [← e.1]; omega
  | iso s =>
    rw [hw] at ht hno hr
    obtain ⟨-, hs, -, -⟩ := ht
    have hy : s.year ≤ 9999 := hs.1
    simp only []
    by_cases h : s.year < 1000
    · rw [if_pos h]
      refine hno ?_
      intro d t e
      simp only [Bsd.When.render, Stamp.render, d4, d2, List.cons_append, List.nil_append, List.cons.injEq] at e
      rw [← e.1, Ts.digit_toNat (by omega)]; omega
    · rw [if_neg h]
      have e4 : d4 s.year = dec (s.year / 10) ++ [digit (s.year % 10)] := by
        rw [dec_ge (by omega), dec_ge (by omega), dec_lt (by omega)]
        simp only [d4, d2, List.cons_append, List.nil_append, List.cons.injEq, and_true]
        refine ⟨congrArg digit (by omega), congrArg digit (by omega), congrArg digit (by omega), congrArg digit (by omega)⟩
      have e3 : (dec (s.year / 10)).length = 3 := by
        rw [dec_ge (by omega), dec_ge (by omega), dec_lt (by omega)]; simp
      obtain ⟨t, et⟩ : ∃ t, q.render = (bare q.pri (s.year / 10)).lead 0 ++ dec (s.year / 10) ++ digit (s.year % 10) :: t := by
        refine ⟨45 :: (d2 s.month ++ 45 :: (d2 s.day ++ 84 :: (d2 s.hour ++ 58 :: (d2 s.min ++ 58 :: (d2 s.sec ++
          (fracRender s.frac ++ (s.zone.render ++ 32 :: (q.host ++ 32 :: q.msg)))))))), ?_⟩
        rw [hr, Bsd.When.render, Stamp.render, e4]
        simp only [List.append_assoc, List.cons_append, List.nil_append]
        rfl
      refine (C57_refused_iff be co _ _ _).mpr ⟨some (versionOnly q.pri (s.year / 10)), ?_, rfl⟩
      have hb := Broken.version (co := co) (p := bare q.pri (s.year / 10)) (t := digit (s.year % 10) :: t)
        (bare_wf hq.pri (by omega)) (by
          intro t' e
          simp only [List.cons.injEq] at e
          have := (digit_ge (n := s.year % 10) (by omega)).1
          rw [e.1] at this; simp at this)
        (fun h' => absurd h' (by simp only [bare]; omega))
      have hv : (bare q.pri (s.year / 10)).version = s.year / 10 := rfl
      rw [hv, ← et, if_neg (by omega), if_neg (by simp)] at hb
      have hlen : ((bare q.pri (s.year / 10)).lead 0 ++ dec (s.year / 10)).length = (Bsd.priText q.pri).length + 3 := by
        rw [List.length_append, e3]; rfl
      rw [hlen] at hb
      exact hb

/-- C88: no input is a complete message of both formats, whatever the options. -/
theorem C88_disjoint (o : Rfc5424.Opts) (o' : Rfc3164.Opts) (hs : o'.bestEffort = false) (input : Bytes) (m : Rfc5424.SyslogMessage) (m' : Base) :
    ¬ (Rfc5424.parse1 o input = some ⟨some m, none⟩ ∧ Rfc3164.parse1 o' input = some ⟨some m', none⟩) := by
  rintro ⟨h, h'⟩
  rcases (C57_every_outcome o.bestEffort o.compliantMsg input _).mp h with ⟨p, hp, rfl, -, -⟩ | ⟨k, c, m'', -, hr⟩
  · rw [C88_rfc5424_to_rfc3164 o' p hp, hs] at h'
    simp at h'
  · simp at hr

/-! ## Concrete cases -/

/-- `<34>1 - h - - - - x` -/
def newFormat : Parts := ⟨34, 1, none, some [104], none, none, none, [], some [120]⟩

theorem newFormat_wf : newFormat.WF :=
  ⟨by decide, by decide, by simp [newFormat], by simp [newFormat, FieldWF, NameWF, Printable], trivial, trivial, trivial, by simp [newFormat],
    by simp [newFormat]⟩

/-- with `WithRFC3339` and best effort, the RFC 3164 parser returns a message for it, without an error -/
example : Rfc3164.parse1 { bestEffort := true, rfc3339 := true } [60, 51, 52, 62, 49, 32, 45, 32, 104, 32, 45, 32, 45, 32, 45, 32, 45, 32, 120] =
    some ⟨some (Bsd.priOnly 34), none⟩ := by
  have := C88_rfc5424_to_rfc3164 { bestEffort := true, rfc3339 := true } newFormat newFormat_wf
  rw [show newFormat.render = [60, 51, 52, 62, 49, 32, 45, 32, 104, 32, 45, 32, 45, 32, 45, 32, 45, 32, 120] by decide +kernel] at this
  exact this

/-- `<34>2003-10-11T22:14:15Z h x` -/
def oldFormat : Bsd.Parts := ⟨34, .iso ⟨2003, 10, 11, 22, 14, 15, [], .utc⟩, [104], [120], [], [], [120]⟩

theorem oldFormat_wf : oldFormat.WF true := by
  refine ⟨by decide, ⟨rfl, by simp [Stamp.WF, Zone.WF], by decide, rfl⟩, by simp [oldFormat, NameWF, Printable], ?_⟩
  refine .plain (by simp [oldFormat]) (by simp [oldFormat, Bsd.Clean, Bsd.Control]) ?_
  rintro tag r ⟨h1, -, -⟩
  rcases tag with _ | ⟨a, tag⟩
  · exact absurd rfl h1
  · constructor <;> intro e <;> simp [oldFormat] at e

/-- in best effort mode the RFC 5424 parser finds version 200 in it -/
example : Rfc5424.parse1 ⟨true, false⟩ oldFormat.render = some ⟨some (versionOnly 34 200), some ⟨.version, 7⟩⟩ := by
  rw [C88_rfc3164_to_rfc5424 true false true oldFormat oldFormat_wf]
  decide +kernel

end Verif.Props
