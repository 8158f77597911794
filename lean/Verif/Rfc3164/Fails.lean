import Verif.Rfc3164.Outcome
import Verif.Rfc3164.Prefix
import Verif.Spec.Rfc3164Errors
import Verif.Rfc5424.Fails

/-! # Scanner failures in terms of the grammar -/

namespace Verif.Rfc3164
open Spec Spec.Bsd
open Verif.Rfc5424 (isGraph priScan pri_iff nameWF_iff field_fails pri_fails)

/-! ## `Mmm dd hh:mm:ss` -/

/-- a text that completes a timestamp from a given state on -/
def bsTail : Bs → Bytes
  | .m1 => ascii "Jan 10 00:00:00"
  | .La => ascii "pr 10 00:00:00" | .Lap => ascii "r 10 00:00:00" | .Lau => ascii "g 10 00:00:00"
  | .Ld => ascii "ec 10 00:00:00" | .Lde => ascii "c 10 00:00:00" | .Lf => ascii "eb 10 00:00:00" | .Lfe => ascii "b 10 00:00:00"
  | .Lj => ascii "an 10 00:00:00" | .Lja => ascii "n 10 00:00:00" | .Lju => ascii "n 10 00:00:00"
  | .Lm => ascii "ar 10 00:00:00" | .Lma => ascii "r 10 00:00:00" | .Ln => ascii "ov 10 00:00:00" | .Lno => ascii "v 10 00:00:00"
  | .Lo => ascii "ct 10 00:00:00" | .Loc => ascii "t 10 00:00:00" | .Ls => ascii "ep 10 00:00:00" | .Lse => ascii "p 10 00:00:00"
  | .sp1 => ascii " 10 00:00:00" | .day => ascii "10 00:00:00" | .dsp => ascii "1 00:00:00" | .d12 => ascii "0 00:00:00"
  | .d3 => ascii "0 00:00:00" | .sp2 => ascii " 00:00:00" | .hour => ascii "00:00:00" | .h01 => ascii "0:00:00"
  | .h2 => ascii "0:00:00" | .c1 => ascii ":00:00" | .min => ascii "00:00" | .minu => ascii "0:00" | .c2 => ascii ":00"
  | .sec => ascii "00" | .secu => ascii "0" | .fin => []

theorem bs_completable (s : Bs) : Bs.scan s (bsTail s) = .ok (bsTail s) [] := by
  cases s <;> decide +kernel

theorem bs_viable : ∀ (l : Bytes) (s : Bs) (n : Nat), Bs.scan s l = .bad n → ∃ t w, Bs.scan s (l.take n ++ t) = .ok w [] := by
  intro l
  induction l with
  | nil => intro s n _; exact ⟨bsTail s, bsTail s, by simpa using bs_completable s⟩
  | cons b l ih =>
    intro s n h
    simp only [Bs.scan] at h
    split at h
    · simp at h
    · rename_i hs
      cases hst : Bs.step s b with
      | none =>
        rw [hst] at h
        simp only [Ts.Res.bad.injEq] at h
        subst h
        exact ⟨bsTail s, bsTail s, by simpa using bs_completable s⟩
      | some s' =>
        rw [hst] at h
        simp only at h
        cases hr : Bs.scan s' l with
        | ok w r => rw [hr] at h; simp [Ts.Res.cons] at h
        | bad k =>
          rw [hr] at h
          simp only [Ts.Res.cons, Ts.Res.bad.injEq] at h
          subst h
          obtain ⟨t, w, g2⟩ := ih s' k hr
          exact ⟨t, b :: w, by simp [Bs.scan, hs, hst, g2, Ts.Res.cons]⟩

theorem take_take_app {x : Bytes} {n : Nat} (h : n < x.length) (t : Bytes) : (x.take (n + 1) ++ t).take (n + 1) = x.take (n + 1) := by
  rw [List.take_append_of_le_length (by simp; omega), List.take_take, Nat.min_self]

theorem bs_fails_of {x : Bytes} {n : Nat} (h : Bs.scan .m1 x = .bad n) : Fails BsdText x n := by
  refine ⟨?_, Bs.scan_bad_le h, ?_, ?_⟩
  · rintro u ⟨s, hs, rfl⟩ ⟨t, rfl⟩
    rw [Bs.scan_complete s hs] at h; simp at h
  · obtain ⟨t, w, g⟩ := bs_viable x .m1 n h
    obtain ⟨s, hs, -, h3⟩ := Bs.scan_sound g
    exact ⟨t, s, hs, by simpa using h3⟩
  · rintro hlt t ⟨s, hs, ht⟩
    have h1 := bs_bad_prefix x .m1 n (x.take (n + 1) ++ t) h hlt (take_take_app hlt t)
    have h2 := Bs.scan_complete s hs []
    rw [List.append_nil, ← ht, h1] at h2; simp at h2

theorem bs_fails {x : Bytes} {n : Nat} : Bs.scan .m1 x = .bad n ↔ Fails BsdText x n := by
  refine ⟨bs_fails_of, fun h => ?_⟩
  cases hr : Bs.scan .m1 x with
  | ok w tl =>
    obtain ⟨s, hs, -, rfl⟩ := Bs.scan_sound hr
    exact absurd ⟨tl, rfl⟩ (h.no s.render ⟨s, hs, rfl⟩)
  | bad m => rw [(bs_fails_of hr).unique h]

/-! ## RFC 3339 -/

def isoTail : Ts → Bytes
  | .y1 => ascii "2003-01-01T00:00:00Z" | .y2 => ascii "003-01-01T00:00:00Z" | .y3 => ascii "03-01-01T00:00:00Z"
  | .y4 => ascii "3-01-01T00:00:00Z" | .dash1 => ascii "-01-01T00:00:00Z" | .mon => ascii "01-01T00:00:00Z"
  | .mon0 => ascii "1-01T00:00:00Z" | .mon1 => ascii "1-01T00:00:00Z" | .dash2 => ascii "-01T00:00:00Z" | .day => ascii "01T00:00:00Z"
  | .day0 => ascii "1T00:00:00Z" | .day12 => ascii "1T00:00:00Z" | .day3 => ascii "1T00:00:00Z" | .t => ascii "T00:00:00Z"
  | .hour => ascii "00:00:00Z" | .hour01 => ascii "0:00:00Z" | .hour2 => ascii "0:00:00Z" | .col1 => ascii ":00:00Z"
  | .min => ascii "00:00Z" | .minu => ascii "0:00Z" | .col2 => ascii ":00Z" | .sec => ascii "00Z" | .secu => ascii "0Z"
  | .zone => ascii "Z" | .oh => ascii "00:00" | .oh01 => ascii "0:00" | .oh2 => ascii "0:00" | .ocol => ascii ":00" | .om => ascii "00"
  | .omu => ascii "0" | _ => []

theorem iso_completable {s : Ts} (h : isFrac s = false) : Ts.scan false s (isoTail s) = .ok (isoTail s) [] := by
  cases s <;> first | (simp [isFrac] at h; done) | decide +kernel

theorem iso_viable : ∀ (l : Bytes) (s : Ts) (n : Nat), isFrac s = false → Ts.scan false s l = .bad n →
    ∃ t w, Ts.scan false s (l.take n ++ t) = .ok w [] := by
  intro l
  induction l with
  | nil => intro s n hf _; exact ⟨isoTail s, isoTail s, by simpa using iso_completable hf⟩
  | cons b l ih =>
    intro s n hf h
    simp only [Ts.scan] at h
    split at h
    · simp at h
    · rename_i hs
      cases hst : Ts.step false s b with
      | none =>
        rw [hst] at h
        simp only [Ts.Res.bad.injEq] at h
        subst h
        exact ⟨isoTail s, isoTail s, by simpa using iso_completable hf⟩
      | some s' =>
        rw [hst] at h
        simp only at h
        cases hr : Ts.scan false s' l with
        | ok w r => rw [hr] at h; simp [Ts.Res.cons] at h
        | bad k =>
          rw [hr] at h
          simp only [Ts.Res.cons, Ts.Res.bad.injEq] at h
          subst h
          obtain ⟨t, w, g2⟩ := ih s' k (ts_step_pos hf hst).2.1 hr
          exact ⟨t, b :: w, by simp [Ts.scan, hs, hst, g2, Ts.Res.cons]⟩

theorem iso_fails_of {x : Bytes} {n : Nat} (h : Ts.scan false .y1 x = .bad n) : Fails IsoText x n := by
  refine ⟨?_, Ts.scan_bad_le h, ?_, ?_⟩
  · rintro u ⟨s, hs, hf, rfl⟩ ⟨t, rfl⟩
    rw [Ts.scan_complete s hs (fun _ => hf)] at h; simp at h
  · obtain ⟨t, w, g⟩ := iso_viable x .y1 n rfl h
    obtain ⟨s, hs, hf, -, h3⟩ := Ts.scan_sound g
    exact ⟨t, s, hs, hf rfl, by simpa using h3⟩
  · rintro hlt t ⟨s, hs, hf, ht⟩
    have h1 := ts_bad_prefix x .y1 n (x.take (n + 1) ++ t) h hlt (take_take_app hlt t)
    have h2 := Ts.scan_complete (fr := false) s hs (fun _ => hf) []
    rw [List.append_nil, ← ht, h1] at h2; simp at h2

theorem iso_fails {x : Bytes} {n : Nat} : Ts.scan false .y1 x = .bad n ↔ Fails IsoText x n := by
  refine ⟨iso_fails_of, fun h => ?_⟩
  cases hr : Ts.scan false .y1 x with
  | ok w tl =>
    obtain ⟨s, hs, hf, -, rfl⟩ := Ts.scan_sound hr
    exact absurd ⟨tl, rfl⟩ (h.no s.render ⟨s, hs, hf rfl, rfl⟩)
  | bad m => rw [(iso_fails_of hr).unique h]

theorem headDigit_iff {x : Bytes} : headDigit x = true ↔ DigitFirst x := by
  cases x with
  | nil => simp [headDigit, DigitFirst]
  | cons b l => simp [headDigit, DigitFirst]

theorem isoPrefix_digit {x : Bytes} (h : IsoPrefix x) : headDigit x = true := by
  obtain ⟨s, hs, hf, ht⟩ := h
  have := iso_headDigit hs []
  rw [List.append_nil] at this
  rw [headDigit_take (k := 18) ht]; exact this

/-! ## MSG -/

theorem seen_unique {msg tag pid tag' pid' : Bytes} (h : Seen msg tag pid) (h' : Seen msg tag' pid') : tag = tag' ∧ pid = pid' := by
  have key : ∀ {t1 t2 r1 r2 : Bytes} {b1 b2 : UInt8}, TagWF t1 → TagWF t2 → isTag b1 = false → isTag b2 = false →
      t1 ++ b1 :: r1 = t2 ++ b2 :: r2 → t1 = t2 ∧ b1 = b2 ∧ r1 = r2 := by
    intro t1 t2 r1 r2 b1 b2 h1 h2 h3 h4 e
    have := span_tag (r := r1) h1 h3
    rw [e, span_tag h2 h4] at this
    simp at this
    exact ⟨this.1.symm, this.2.1.symm, this.2.2.symm⟩
  generalize hm : msg = msg' at h'
  cases h with
  | plain hn =>
    subst hm
    cases h' with
    | plain => exact ⟨rfl, rfl⟩
    | colon ht => exact absurd rfl (hn _ _ ht).1
    | opened ht _ => exact absurd rfl (hn _ _ ht).2
    | closed ht _ _ => exact absurd rfl (hn _ _ ht).2
  | colon ht =>
    cases h' with
    | plain hn => exact absurd hm.symm (hn _ _ ht).1
    | colon ht' => exact ⟨(key ht ht' not_tag_58 not_tag_58 hm).1, rfl⟩
    | opened ht' _ => exact absurd (key ht ht' not_tag_58 not_tag_91 hm).2.1 (by decide)
    | closed ht' _ _ => exact absurd (key ht ht' not_tag_58 not_tag_91 hm).2.1 (by decide)
  | opened ht hs =>
    cases h' with
    | plain hn => exact absurd hm.symm (hn _ _ ht).2
    | colon ht' => exact absurd (key ht ht' not_tag_91 not_tag_58 hm).2.1 (by decide)
    | opened ht' _ => exact ⟨(key ht ht' not_tag_91 not_tag_91 hm).1, rfl⟩
    | closed ht' _ _ =>
      obtain ⟨-, -, e⟩ := key ht ht' not_tag_91 not_tag_91 hm
      exact absurd rfl (hs 93 (by rw [e]; simp))
  | closed ht hv hl =>
    cases h' with
    | plain hn => exact absurd hm.symm (hn _ _ ht).2
    | colon ht' => exact absurd (key ht ht' not_tag_91 not_tag_58 hm).2.1 (by decide)
    | opened ht' hs =>
      obtain ⟨-, -, e⟩ := key ht ht' not_tag_91 not_tag_91 hm
      exact absurd rfl (hs 93 (by rw [← e]; simp))
    | closed ht' hv' hl' =>
      obtain ⟨e1, -, e⟩ := key ht ht' not_tag_91 not_tag_91 hm
      obtain ⟨rfl, rfl⟩ := last93_unique e hv hv'
      exact ⟨e1, lastPart_unique hl hl'⟩

/-- what is stored when MSG is not read -/
theorem dMsg_seen {pos : Nat} {msg : Bytes} {out out' : Out} (hp : out.content = []) (ht0 : out.tag = [])
    (h : dMsg pos msg out = .stop none out') : ∃ tag pid, Seen msg tag pid ∧ out' = { out with tag := tag, content := pid } := by
  have same : { out with tag := [], content := [] } = out := by
    cases out; simp only at hp ht0; subst hp ht0; rfl
  by_cases hn : ∀ tag r, TagWF tag → msg ≠ tag ++ 58 :: r ∧ msg ≠ tag ++ 91 :: r
  · refine ⟨[], [], .plain hn, ?_⟩
    rw [same]
    cases msg with
    | nil => simp [dMsg, mkErr] at h
    | cons b r =>
      simp only [dMsg] at h
      split at h
      · simp [mkErr] at h
      split at h
      · rename_i hb
        have hw := span_tagWF (r := r) hb
        have ha := spanN_append isTag 32 (b :: r)
        unfold dTag at h
        split at h
        · rename_i t' e; rw [e] at ha; exact absurd ha.symm (hn _ t' hw).1
        · rename_i t' e; rw [e] at ha; exact absurd ha.symm (hn _ t' hw).2
        · exact (dText_stop h).2
      · exact (dText_stop h).2
  · have : ∃ tag r, TagWF tag ∧ (msg = tag ++ 58 :: r ∨ msg = tag ++ 91 :: r) := by
      apply Classical.byContradiction
      intro hc'
      apply hn
      intro tag r ht
      exact ⟨fun e => hc' ⟨tag, r, ht, Or.inl e⟩, fun e => hc' ⟨tag, r, ht, Or.inr e⟩⟩
    obtain ⟨tag, r, ht, (rfl | rfl)⟩ := this
    · rw [dMsg_tag (span_tag ht not_tag_58) ht.1] at h
      refine ⟨tag, [], .colon ht, ?_⟩
      have e : ({ out with tag := tag, content := [] } : Out) = { out with tag := tag } := by
        cases out; simp only at hp; subst hp; rfl
      rw [e]
      simp only [dTag] at h
      unfold dColon at h
      split at h
      · split at h
        · simp at h; exact h.symm
        · exact (dText_stop h).2
      · exact (dText_stop h).2
    · rw [dMsg_tag (span_tag ht not_tag_91) ht.1] at h
      simp only [dTag] at h
      cases r with
      | nil => simp [dOpen] at h
      | cons b r =>
        obtain ⟨text, c, e1, e2, e3⟩ := dOpen_spec (tag ++ 91 :: b :: r) b r { out with tag := tag }
        rw [e3] at h
        simp only [hp] at e2
        split at h
        · simp at h
        · simp at h
          subst h
          rcases last93 (b :: r) with hn | ⟨u, v, huv, hv⟩
          · have hc := lastBr_none e2 hn
            subst hc
            exact ⟨tag, [], .opened ht hn, rfl⟩
          · rw [huv] at e2
            have hc := lastBr_some e2 hv
            rw [List.nil_append] at hc
            refine ⟨tag, c, ?_, rfl⟩
            rw [huv]
            exact .closed ht hv hc

end Verif.Rfc3164
