import Verif.Rfc3164.Language

/-! # How a message is refused -/

namespace Verif.Rfc3164
open Spec Spec.Bsd
open Verif.Rfc5424 (isGraph priScan priStep priRun PriSt toNat_eq pri_iff nameWF_iff priRun_start)

/-! ## PRI -/

theorem priStep_ne {s s' : PriSt} {b : UInt8} (h : priStep s b = some s') : s' ≠ .start := by
  cases s <;> simp only [priStep] at h <;> (repeat' split at h) <;> simp_all <;> (subst h; simp)

theorem priRun_ne : ∀ {w : Bytes} {s s' : PriSt}, priRun s w = some s' → w ≠ [] → s' ≠ .start := by
  intro w
  induction w with
  | nil => intro s s' _ h; exact absurd rfl h
  | cons b l ih =>
    intro s s' h _
    simp only [priRun] at h
    cases hst : priStep s b with
    | none => rw [hst] at h; simp at h
    | some s1 =>
      rw [hst] at h
      simp only [Option.bind_some] at h
      cases l with
      | nil => simp [priRun] at h; subst h; exact priStep_ne hst
      | cons c l => exact ih h (by simp)

theorem pri_bad_run : ∀ (l : Bytes) (s : PriSt) (n : Nat), priScan s l = .bad n →
    n ≤ l.length ∧ ∀ j, j ≤ n → ∃ s', priRun s (l.take j) = some s' := by
  intro l
  induction l with
  | nil => intro s n h; simp [priScan] at h; subst h; exact ⟨by simp, fun j _ => ⟨s, by simp [priRun]⟩⟩
  | cons b l ih =>
    intro s n h
    simp only [priScan] at h
    split at h
    · simp at h
    cases hst : priStep s b with
    | none =>
      rw [hst] at h; simp at h; subst h
      refine ⟨by simp, fun j hj => ⟨s, ?_⟩⟩
      rw [show j = 0 by omega]; rfl
    | some s1 =>
      rw [hst] at h
      simp only at h
      cases hs : priScan s1 l with
      | ok w tl => rw [hs] at h; simp [Ts.Res.cons] at h
      | bad k =>
        rw [hs] at h; simp only [Ts.Res.cons, Ts.Res.bad.injEq] at h
        obtain ⟨h1, h2⟩ := ih s1 k hs
        refine ⟨by simp; omega, fun j hj => ?_⟩
        cases j with
        | zero => exact ⟨s, rfl⟩
        | succ j =>
          obtain ⟨s', hs'⟩ := h2 j (by omega)
          exact ⟨s', by simp only [List.take_succ_cons, priRun, hst, Option.bind_some]; exact hs'⟩

/-- what was read of a bad PRIVAL is a number up to 191 -/
theorem pri_bad_dec {r : Bytes} {n j : Nat} (h : priScan .start r = .bad n) (h1 : 1 ≤ j) (h2 : j ≤ n) : ∃ k, k ≤ 191 ∧ r.take j = dec k := by
  obtain ⟨hl, hr⟩ := pri_bad_run r .start n h
  obtain ⟨s', hs⟩ := hr j h2
  have hne : r.take j ≠ [] := by
    intro e
    have := congrArg List.length e
    simp at this
    rcases this with h0 | h0
    · omega
    · subst h0; simp at hl; omega
  exact priRun_start hs (priRun_ne hs hne)

theorem cons_ne_bad {b : UInt8} {r : Ts.Res} (h : r.cons b = .bad 0) : False := by
  cases r <;> simp [Ts.Res.cons] at h

theorem pri_bad_zero {r : Bytes} : priScan .start r = .bad 0 ↔ ∀ d t, r = d :: t → ¬ (48 ≤ d.toNat ∧ d.toNat ≤ 57) := by
  cases r with
  | nil => simp [priScan]
  | cons b l =>
    simp only [priScan, priStep]
    constructor
    · intro h d t e hd
      cases e
      have hn : ¬ (PriSt.start ≠ .start ∧ b.toNat = 62) := by simp
      rw [if_neg hn] at h
      by_cases h0 : b.toNat = 48
      · rw [if_pos h0] at h
        exact cons_ne_bad h
      by_cases h1 : b.toNat = 49
      · rw [if_neg h0, if_pos h1] at h
        exact cons_ne_bad h
      · rw [if_neg h0, if_neg h1, if_pos (by omega)] at h
        exact cons_ne_bad h
    · intro h
      have := h b l rfl
      rw [if_neg (by simp), if_neg (by omega), if_neg (by omega), if_neg (by omega)]

/-! ## TIMESTAMP and the rest -/

def WhenReal : When → Prop
  | .bsd s => s.Real
  | .iso s => s.Real

theorem when_wf {iso : Bool} {w : When} : When.WF iso w ↔ When.Text iso w ∧ WhenReal w := by
  cases w with
  | bsd s => exact Iff.rfl
  | iso s => exact ⟨fun ⟨a, b, c, d⟩ => ⟨⟨a, b, d⟩, c⟩, fun ⟨⟨a, b, d⟩, c⟩ => ⟨a, b, c, d⟩⟩

def putTime (o : Opts) (w : When) (out : Out) : Out := { out with timestamp := whenTime o w, timestampSet := true }

/-- how the part after `<PRI>` is refused; `pos` is where it begins -/
inductive TimeStop (o : Opts) (pos : Nat) (rest : Bytes) (out : Out) : Option Err → Out → Prop
  | isoEarly {n : Nat} (ho : o.rfc3339 = true) (hd : headDigit rest = true) (h : Ts.scan false .y1 rest = .bad n) (hn : n < 19) :
      TimeStop o pos rest out none out
  | isoLate {n : Nat} (ho : o.rfc3339 = true) (hd : headDigit rest = true) (h : Ts.scan false .y1 rest = .bad n) (hn : 19 ≤ n) :
      TimeStop o pos rest out (some ⟨.rfc3339, pos + n⟩) out
  | bsdBad {n : Nat} (hd : (o.rfc3339 && headDigit rest) = false) (h : Bs.scan .m1 rest = .bad n) :
      TimeStop o pos rest out (some ⟨.timestamp, pos + n⟩) out
  | noSpace {w : When} {tl : Bytes} (hw : When.Text o.rfc3339 w) (hr : rest = w.render ++ tl) (ht : ∀ t, tl ≠ 32 :: t) :
      TimeStop o pos rest out none out
  | noDate {w : When} {t : Bytes} (hw : When.Text o.rfc3339 w) (hn : ¬ WhenReal w) (hr : rest = w.render ++ 32 :: t) :
      TimeStop o pos rest out (some ⟨.timeParse, pos + w.render.length⟩) out
  | host {w : When} {v t : Bytes} (hw : w.WF o.rfc3339) (hr : rest = w.render ++ 32 :: (v ++ t))
      (hv : spanN isGraph 255 (v ++ t) = (v, t)) (hb : v = [] ∨ ∀ t', t ≠ 32 :: t') :
      TimeStop o pos rest out (some ⟨.hostname, pos + w.render.length + 1 + v.length⟩) (putTime o w out)
  | tag {w : When} {host msg : Bytes} (hw : w.WF o.rfc3339) (hh : NameWF 255 host) (hr : rest = w.render ++ 32 :: (host ++ 32 :: msg))
      (hs : ¬ Starts msg) :
      TimeStop o pos rest out (some ⟨.tag, pos + w.render.length + 1 + host.length + 1⟩) { putTime o w out with hostname := host }
  | silent {w : When} {host msg tag pid : Bytes} (hw : w.WF o.rfc3339) (hh : NameWF 255 host)
      (hr : rest = w.render ++ 32 :: (host ++ 32 :: msg)) (hs : Starts msg) (hn : ∀ a b c, ¬ Reads msg a b c)
      (ht : tag = out.tag ∨ TagWF tag) :
      TimeStop o pos rest out none { putTime o w out with hostname := host, tag := tag, content := pid }

theorem dHost_stop {o : Opts} {pos : Nat} {rest : Bytes} {w : When} {t : Bytes} {out out' : Out} {e : Option Err}
    (hp : out.content = []) (ht0 : out.tag = []) (hw : w.WF o.rfc3339)
    (hr : rest = w.render ++ 32 :: t) (h : dHost (pos + w.render.length + 1) t (putTime o w out) = .stop e out') :
    TimeStop o pos rest out e out' := by
  generalize hs : spanN isGraph 255 t = p at h
  obtain ⟨v, r⟩ := p
  have happ := spanN_append isGraph 255 t
  have hall := spanN_all isGraph 255 t
  have hlen := spanN_length isGraph 255 t
  rw [hs] at happ hall hlen
  simp only at happ hall hlen
  subst happ
  by_cases hb : v = [] ∨ ∀ t', r ≠ 32 :: t'
  · rw [dHost_bad hs hb] at h
    simp only [mkErr, Fin.stop.injEq] at h
    obtain ⟨rfl, rfl⟩ := h
    exact .host hw hr hs hb
  · have hv : v ≠ [] := fun h => hb (Or.inl h)
    obtain ⟨msg, rfl⟩ : ∃ t', r = 32 :: t' := by
      apply Classical.byContradiction; intro hn
      exact hb (Or.inr fun t' e => hn ⟨t', e⟩)
    rw [dHost_ok hs hv] at h
    have hh := nameWF_iff.mpr ⟨hv, hlen, hall⟩
    rcases dMsg_stop h with ⟨h1, rfl, rfl⟩ | ⟨h1, rfl, tag, pid, h2, rfl⟩
    · exact .tag hw hh hr h1
    · refine .silent hw hh hr h1 ?_ h2
      intro a b c hrd
      have := (dMsg_iff (pos := pos + w.render.length + 1 + v.length + 1) (out := { putTime o w out with hostname := v }) hp ht0).mpr ⟨a, b, c, hrd, rfl⟩
      rw [this] at h; simp at h

theorem dTime_stop {o : Opts} {pos : Nat} {rest : Bytes} {out out' : Out} {e : Option Err} (hp : out.content = []) (ht0 : out.tag = [])
    (h : dTime o pos rest out = .stop e out') : TimeStop o pos rest out e out' := by
  unfold dTime at h
  split at h
  · rename_i hi
    obtain ⟨ho, hd⟩ : o.rfc3339 = true ∧ headDigit rest = true := by simpa using hi
    unfold dIso at h
    split at h
    · rename_i n hsc
      split at h
      · rename_i hn
        simp at h; obtain ⟨rfl, rfl⟩ := h
        exact .isoEarly ho hd hsc hn
      · rename_i hn
        simp [mkErr] at h; obtain ⟨rfl, rfl⟩ := h
        exact .isoLate ho hd hsc (by omega)
    · rename_i w tl hsc
      obtain ⟨s, hwf, hfr, rfl, rfl⟩ := Ts.scan_sound hsc
      have hsyn : When.Text o.rfc3339 (.iso s) := ⟨ho, hwf, hfr rfl⟩
      unfold dAfter at h
      split at h
      · rename_i t
        rw [Ts.parse_render s hwf] at h
        by_cases hreal : s.Real
        · rw [if_pos hreal] at h
          exact dHost_stop (w := .iso s) hp ht0 (when_wf.mpr ⟨hsyn, hreal⟩) rfl h
        · rw [if_neg hreal] at h
          simp [mkErr] at h; obtain ⟨rfl, rfl⟩ := h
          exact .noDate (w := .iso s) hsyn hreal rfl
      · rename_i hns
        simp at h; obtain ⟨rfl, rfl⟩ := h
        exact .noSpace (w := .iso s) hsyn rfl (fun t ht => hns t ht)
  · rename_i hi
    unfold dBsd at h
    split at h
    · rename_i n hsc
      simp [mkErr] at h; obtain ⟨rfl, rfl⟩ := h
      exact .bsdBad (by simpa using hi) hsc
    · rename_i w tl hsc
      obtain ⟨s, hwf, rfl, rfl⟩ := Bs.scan_sound hsc
      have hsyn : When.Text o.rfc3339 (.bsd s) := hwf
      unfold dAfter at h
      split at h
      · rename_i t
        simp only [Bs.parse_render s hwf] at h
        by_cases hreal : s.Real
        · rw [if_pos hreal] at h
          exact dHost_stop (w := .bsd s) hp ht0 (when_wf.mpr ⟨hsyn, hreal⟩) rfl h
        · rw [if_neg hreal] at h
          simp [mkErr] at h; obtain ⟨rfl, rfl⟩ := h
          exact .noDate (w := .bsd s) hsyn hreal rfl
      · rename_i hns
        simp at h; obtain ⟨rfl, rfl⟩ := h
        exact .noSpace (w := .bsd s) hsyn rfl (fun t ht => hns t ht)

/-- what is stored of PRI -/
def priBase (pri : Nat) : Out := { priority := UInt8.ofNat pri, prioritySet := true }

/-- all refusals -/
theorem descend_stop {o : Opts} {input : Bytes} {e : Option Err} {out : Out} (h : descend o input = .stop e out) :
    ((∀ r, input ≠ 60 :: r) ∧ e = some ⟨.pri, 0⟩ ∧ out = {}) ∨
    (∃ r n, input = 60 :: r ∧ priScan .start r = .bad n ∧ e = some ⟨.prival, 1 + n⟩ ∧
      out = priOut (if n = r.length then r.take (n - 1) else r.take n)) ∨
    ∃ pri rest, pri ≤ 191 ∧ input = 60 :: (dec pri ++ 62 :: rest) ∧
      TimeStop o (1 + (dec pri).length + 1) rest (priBase pri) e out := by
  unfold descend at h
  split at h
  · rename_i r
    split at h
    · rename_i n hp
      simp only [mkErr, Fin.stop.injEq] at h
      exact Or.inr (Or.inl ⟨r, n, rfl, hp, h.1.symm, h.2.symm⟩)
    · rename_i w tl hp
      obtain ⟨pri, hpri, rfl, rfl⟩ := pri_iff.mp hp
      rw [setP_dec hpri] at h
      exact Or.inr (Or.inr ⟨pri, tl, hpri, rfl, dTime_stop (out := priBase pri) rfl rfl h⟩)
  · rename_i hn
    simp [mkErr] at h
    exact Or.inl ⟨fun r hr => hn r hr, h.1.symm, h.2.symm⟩

theorem descend_pri {o : Opts} {pri : Nat} {rest : Bytes} (h : pri ≤ 191) :
    descend o (60 :: (dec pri ++ 62 :: rest)) = dTime o (1 + (dec pri).length + 1) rest (priBase pri) := by
  have hp : priScan .start (dec pri ++ 62 :: rest) = .ok (dec pri) rest := pri_iff.mpr ⟨pri, h, rfl, rfl⟩
  simp only [descend, hp, setP_dec h]
  rfl

/-- a timestamp and a space -/
theorem dTime_space {o : Opts} {pos : Nat} {w : When} {t : Bytes} {out : Out} (hw : When.WF o.rfc3339 w) :
    dTime o pos (w.render ++ 32 :: t) out = dHost (pos + w.render.length + 1) t (putTime o w out) := by
  cases w with
  | bsd s =>
    obtain ⟨hwf, hr⟩ := hw
    simp only [dTime, When.render, bsd_headDigit hwf]
    simp only [Bool.and_false, Bool.false_eq_true, if_false, dBsd, Bs.scan_complete s hwf, dAfter, Bs.parse_render s hwf]
    rw [if_pos hr]; rfl
  | iso s =>
    obtain ⟨ho, hwf, hr, hfr⟩ := hw
    simp only [dTime, When.render, iso_headDigit hwf, ho]
    simp only [Bool.and_self, if_true, dIso, Ts.scan_complete (fr := false) s hwf (fun _ => hfr), dAfter, Ts.parse_render s hwf]
    rw [if_pos hr]; rfl

/-- the text of a day that does not exist, and a space -/
theorem dTime_noDate {o : Opts} {pos : Nat} {w : When} {t : Bytes} {out : Out} (hw : When.Text o.rfc3339 w) (hn : ¬ WhenReal w) :
    dTime o pos (w.render ++ 32 :: t) out = mkErr .timeParse (pos + w.render.length) out := by
  cases w with
  | bsd s =>
    have hwf : s.WF := hw
    have hr : ¬ s.Real := hn
    simp only [dTime, When.render, bsd_headDigit hwf]
    simp only [Bool.and_false, Bool.false_eq_true, if_false, dBsd, Bs.scan_complete s hwf, dAfter, Bs.parse_render s hwf]
    rw [if_neg hr]; rfl
  | iso s =>
    obtain ⟨ho, hwf, hfr⟩ := hw
    have hr : ¬ s.Real := hn
    simp only [dTime, When.render, iso_headDigit hwf, ho]
    simp only [Bool.and_self, if_true, dIso, Ts.scan_complete (fr := false) s hwf (fun _ => hfr), dAfter, Ts.parse_render s hwf]
    rw [if_neg hr]

/-- a timestamp not followed by a space -/
theorem dTime_noSpace {o : Opts} {pos : Nat} {w : When} {tl : Bytes} {out : Out} (hw : When.Text o.rfc3339 w) (ht : ∀ t, tl ≠ 32 :: t) :
    dTime o pos (w.render ++ tl) out = .stop none out := by
  cases w with
  | bsd s =>
    have hwf : s.WF := hw
    simp only [dTime, When.render, bsd_headDigit hwf]
    simp only [Bool.and_false, Bool.false_eq_true, if_false, dBsd, Bs.scan_complete s hwf, dAfter]
  | iso s =>
    obtain ⟨ho, hwf, hfr⟩ := hw
    simp only [dTime, When.render, iso_headDigit hwf, ho]
    simp only [Bool.and_self, if_true, dIso, Ts.scan_complete (fr := false) s hwf (fun _ => hfr), dAfter]

/-- a message that begins with a byte that is not a control character, but is not read -/
theorem dTime_silent {o : Opts} {pos : Nat} {w : When} {host msg : Bytes} {out : Out} (hp : out.content = []) (ht0 : out.tag = [])
    (hw : When.WF o.rfc3339 w) (hh : NameWF 255 host) (hs : Starts msg) (hn : ∀ a b c, ¬ Reads msg a b c) :
    ∃ out', dTime o pos (w.render ++ 32 :: (host ++ 32 :: msg)) out = .stop none out' := by
  obtain ⟨h1, h2, h3⟩ := nameWF_iff.mp hh
  rw [dTime_space hw, dHost_ok (spanN_eq isGraph h3 h2 (Or.inr ⟨32, msg, rfl, by decide⟩)) h1]
  cases hd : dMsg (pos + w.render.length + 1 + host.length + 1) msg { putTime o w out with hostname := host } with
  | ok out' =>
    obtain ⟨a, b, c, hr, -⟩ := (dMsg_iff (out := { putTime o w out with hostname := host }) hp ht0).mp hd
    exact absurd hr (hn a b c)
  | stop e out' =>
    rcases dMsg_stop hd with ⟨h, -, -⟩ | ⟨-, rfl, -⟩
    · exact absurd hs h
    · exact ⟨out', rfl⟩

/-! ## the first 19 bytes of an RFC 3339 timestamp -/

theorem iso_prefix : ∀ (l : Bytes) (s : Ts) (n : Nat), isFrac s = false → tsPos s < 19 → Ts.scan false s l = .bad n → 19 ≤ tsPos s + n →
    ∃ w, Ts.scan false s (l.take (19 - tsPos s) ++ [90]) = .ok w [] := by
  intro l
  induction l with
  | nil =>
    intro s n h1 h2 h3 h4
    have := Ts.scan_bad_le h3
    simp at this; omega
  | cons b l ih =>
    intro s n h1 h2 h3 h4
    have hs : s ≠ .fin := by rintro rfl; simp [tsPos] at h2
    simp only [Ts.scan, if_neg hs] at h3
    cases hst : Ts.step false s b with
    | none => rw [hst] at h3; simp at h3; omega
    | some s' =>
      rw [hst] at h3
      simp only at h3
      obtain ⟨-, g1, g2⟩ := ts_step_pos h1 hst
      rw [if_pos h2] at g2
      cases hsc : Ts.scan false s' l with
      | ok w r => rw [hsc] at h3; simp [Ts.Res.cons] at h3
      | bad k =>
        rw [hsc] at h3; simp only [Ts.Res.cons, Ts.Res.bad.injEq] at h3
        rw [show 19 - tsPos s = (19 - tsPos s') + 1 by omega, List.take_succ_cons, List.cons_append, Ts.scan_cons_of hs hst]
        by_cases hlt : tsPos s' < 19
        · obtain ⟨w, hw⟩ := ih s' k g1 hlt hsc (by omega)
          rw [hw]; exact ⟨_, rfl⟩
        · have hz : s' = .zone := by
            have : tsPos s = 18 := by omega
            clear hsc ih g1 g2 h3 h4 hlt
            obtain ⟨x, hx, hx'⟩ := ts_look_some hst
            have key : ∀ s : Ts, tsPos s = 18 → ∀ x ∈ Ts.row false s, x.2.2 = .zone := by
              intro s hs; cases s <;> first | (simp [tsPos] at hs; done) | decide
            rw [hx', key s this x hx]
          subst hz
          have : 19 - tsPos .zone = 0 := rfl
          rw [this]
          exact ⟨[b, 90], by rw [show Ts.scan false .zone (List.take 0 l ++ [90]) = .ok [90] [] from by rfl]; rfl⟩

theorem iso_scan_take : ∀ (l : Bytes) (s : Ts) (n : Nat) (m : Bytes), Ts.scan false s l = .bad n →
    n < 19 → l.take 19 = m.take 19 → 19 ≤ m.length → ∀ w r, Ts.scan false s m ≠ .ok w r := by
  have gen : ∀ (l : Bytes) (s : Ts) (n k : Nat) (m : Bytes), Ts.scan false s l = .bad n → n < k → l.take k = m.take k → k ≤ m.length →
      ∀ w r, Ts.scan false s m ≠ .ok w r := by
    intro l
    induction l with
    | nil =>
      intro s n k m h1 h2 h3 h4
      have := congrArg List.length h3
      simp at this; omega
    | cons b l ih =>
      intro s n k m h1 h2 h3 h4 w r hm
      cases k with
      | zero => omega
      | succ k =>
        cases m with
        | nil => simp at h4
        | cons c m =>
          simp only [List.take_succ_cons, List.cons.injEq] at h3
          obtain ⟨rfl, h3⟩ := h3
          simp only [Ts.scan] at h1 hm
          split at h1
          · simp at h1
          rename_i hs
          rw [if_neg hs] at hm
          cases hst : Ts.step false s b with
          | none => rw [hst] at hm; simp at hm
          | some s' =>
            rw [hst] at h1 hm
            simp only at h1 hm
            cases hsc : Ts.scan false s' l with
            | ok w r => rw [hsc] at h1; simp [Ts.Res.cons] at h1
            | bad n' =>
              rw [hsc] at h1; simp only [Ts.Res.cons, Ts.Res.bad.injEq] at h1
              cases hmm : Ts.scan false s' m with
              | bad n => rw [hmm] at hm; simp [Ts.Res.cons] at hm
              | ok w' r' => exact ih s' n' k m hsc (by omega) h3 (by simpa using h4) w' r' hmm
  intro l s n m h1 h2 h3 h4
  exact gen l s n 19 m h1 h2 h3 h4

theorem stamp_len (s : Stamp) : 19 < s.render.length := by
  have : 0 < s.zone.render.length := by cases s.zone <;> simp [Zone.render]
  simp only [Stamp.render, d4, d2, List.length_append, List.length_cons, List.length_nil]
  omega

/-- the scanner stops before the zone exactly when the first 19 bytes are not those of a timestamp -/
theorem iso_early_iff {l : Bytes} : (∃ n, n < 19 ∧ Ts.scan false .y1 l = .bad n) ↔ ¬ IsoPrefix l := by
  constructor
  · rintro ⟨n, hn, h⟩ ⟨s, hs, hf, ht⟩
    exact iso_scan_take l .y1 n s.render h hn ht (by have := stamp_len s; omega) s.render []
      (by have := Ts.scan_complete (fr := false) s hs (fun _ => hf) []; rwa [List.append_nil] at this)
  · intro hn
    cases h : Ts.scan false .y1 l with
    | ok w r =>
      obtain ⟨s, hwf, hfr, rfl, rfl⟩ := Ts.scan_sound h
      exact absurd ⟨s, hwf, hfr rfl, by rw [List.take_append_of_le_length (by have := stamp_len s; omega)]⟩ hn
    | bad n =>
      refine ⟨n, ?_, rfl⟩
      apply Classical.byContradiction
      intro hge
      obtain ⟨w, hw⟩ := iso_prefix l .y1 n rfl (by decide) h (by simp [tsPos]; omega)
      have hle := Ts.scan_bad_le h
      obtain ⟨s, hwf, hfr, rfl, hl⟩ := Ts.scan_sound hw
      refine hn ⟨s, hwf, hfr rfl, ?_⟩
      rw [List.append_nil, show 19 - tsPos .y1 = 19 from rfl] at hl
      rw [← hl, List.take_append_of_le_length (by simp; omega), List.take_take, Nat.min_self]

end Verif.Rfc3164
