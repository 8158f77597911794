import Verif.Rfc3164.Fails
import Verif.Props.Rfc3164

/-! # C59: all outcomes of the RFC 3164 parser -/

namespace Verif.Props.Bsd
open Verif Verif.Rfc3164 Verif.Spec Verif.Spec.Bsd
open Verif.Rfc5424 (isGraph priScan pri_iff nameWF_iff field_fails pri_fails)

/-- what best effort returns of the fields collected so far -/
def partialOf (out : Out) : Option Base := if out.minimal then some out.export else none

theorem exists_iff {w : When} : w.Exists ↔ WhenReal w := by cases w <;> exact Iff.rfl

theorem given_nil : given [] = none := by decide

theorem partial_base {n : Nat} (h : n ≤ 191) {out : Out} (h1 : out.prioritySet = true) (h2 : out.priority = UInt8.ofNat n)
    (hm : out.message = []) :
    partialOf out = some { priOnly n with
      timestamp := if out.timestampSet then some out.timestamp else none
      hostname := given out.hostname, appname := given out.tag, procID := given out.content } := by
  rw [partialOf, minimal_priBase h h1 h2]
  simp only [if_true, Out.export, h2, hm, Base.computeFromPriority, priOnly, div8 h, mod8 h, optField_given]
  simp

theorem partial_priBase {n : Nat} (h : n ≤ 191) : partialOf (priBase n) = some (priOnly n) := by
  rw [partial_base h rfl rfl rfl]; rfl

theorem fail_col {e : Option Err} {p : Option (ErrKind × Nat)} (h : p.map (fun x => (⟨x.1, x.2⟩ : Err)) = e) :
    p = e.map fun e => (e.kind, e.col) := by
  cases p <;> subst h <;> rfl

theorem priText_len (n : Nat) : (priText n).length = 1 + (dec n).length + 1 := by simp [priText]; omega

theorem priText_app (n : Nat) (x : Bytes) : priText n ++ x = 60 :: (dec n ++ 62 :: x) := by simp [priText]

/-- a refused RFC 3164 input is `Broken` -/
theorem broken_of_stop {o : Opts} {input : Bytes} {e : Option Err} {out : Out} (h : descend o input = .stop e out) :
    Broken o.rfc3339 (whenTime o) input (e.map fun e => (e.kind, e.col)) (partialOf out) := by
  rcases descend_stop h with ⟨h1, rfl, rfl⟩ | ⟨r, n, rfl, h1, rfl, rfl⟩ | ⟨pri, rest, hp, rfl, hs⟩
  · exact .noLt h1
  · have hf := pri_fails.mp h1
    have hle := hf.le
    by_cases hz : n = 0 ∨ n = 1 ∧ r.length = 1
    · have : priOut (if n = r.length then r.take (n - 1) else r.take n) = {} := by
        rcases hz with rfl | ⟨rfl, hl⟩
        · split <;> rfl
        · rw [if_pos hl.symm]; rfl
      rw [this]
      exact .noPri hf hz
    · have e : (if n = r.length then r.take (n - 1) else r.take n) = r.take (if n = r.length then n - 1 else n) := by split <;> rfl
      rw [e]
      obtain ⟨k, hk, hd⟩ := pri_bad_dec (j := if n = r.length then n - 1 else n) h1 (by split <;> omega) (by split <;> omega)
      rw [hd, priOut, if_neg (dec_ne_nil k), setP_dec hk]
      have := partial_priBase hk
      rw [priBase] at this
      rw [this]
      exact .pri hf hd
  · rw [← priText_app]
    have hpl := priText_len pri
    cases hs with
    | isoEarly ho hd hsc hn =>
      rw [partial_priBase hp]
      exact .noIso hp ho (headDigit_iff.mp hd) (iso_early_iff.mp ⟨_, hn, hsc⟩)
    | @isoLate n ho hd hsc hn =>
      rw [partial_priBase hp]
      have hpre : IsoPrefix rest := by
        apply Classical.byContradiction
        intro hc
        obtain ⟨k, hk, hsk⟩ := iso_early_iff.mpr hc
        rw [hsc] at hsk; simp at hsk; omega
      have := Broken.isoZone (tm := whenTime o) hp ho hpre (iso_fails.mp hsc)
      rw [hpl] at this
      exact this
    | bsdBad hd hsc =>
      rw [partial_priBase hp]
      have := Broken.timestamp (iso := o.rfc3339) (tm := whenTime o) hp (x := rest) (by
        rintro ⟨a, b⟩
        rw [a, headDigit_iff.mpr b] at hd; simp at hd) (bs_fails.mp hsc)
      rw [hpl] at this
      exact this
    | @noSpace w tl hw hr ht =>
      subst hr
      rw [partial_priBase hp, ← List.append_assoc]
      exact .noSpace hp hw ht
    | @noDate w t hw hn hr =>
      subst hr
      rw [partial_priBase hp]
      have := Broken.noSuchDay (tm := whenTime o) (x := t) hp hw (fun h => hn (exists_iff.mp h))
      rw [List.length_append, hpl] at this
      simpa using this
    | @host w v t hw hr hv hb =>
      subst hr
      rw [partial_base hp (by rfl) (by rfl) (by rfl)]
      have := Broken.hostname (tm := whenTime o) (x := v ++ t) hp hw ((field_fails (by omega) hv).mpr ⟨rfl, hb⟩)
      rw [List.length_append, hpl] at this
      simpa [putTime, priBase, priOnly, given_nil] using this
    | @tag w host msg hw hh hr hs =>
      subst hr
      rw [partial_base hp (by rfl) (by rfl) (by rfl)]
      have := Broken.tag (tm := whenTime o) hp hw hh hs
      rw [List.length_append, List.length_append, List.length_append, hpl] at this
      simp at this
      simpa [putTime, priBase, priOnly, given_nil] using this
    | @silent w host msg tag pid hw hh hr hs hn ht =>
      subst hr
      rw [partial_base hp (by rfl) (by rfl) (by rfl)]
      obtain ⟨tag', pid', hse, heq⟩ : ∃ tag' pid', Seen msg tag' pid' ∧ tag = tag' ∧ pid = pid' := by
        rw [descend_pri hp, dTime_space hw] at h
        obtain ⟨h1, h2, h3⟩ := nameWF_iff.mp hh
        rw [dHost_ok (spanN_eq isGraph h3 h2 (Or.inr ⟨32, msg, rfl, by decide⟩)) h1] at h
        obtain ⟨tag', pid', g1, g2⟩ := dMsg_seen (by rfl) (by rfl) h
        simp at g2
        exact ⟨tag', pid', g1, g2⟩
      obtain ⟨rfl, rfl⟩ := heq
      have := Broken.msg (tm := whenTime o) hp hw hh hs hn hse
      simpa [putTime, priBase, priOnly, given_nil] using this

theorem stop_of_broken {o : Opts} {input : Bytes} {e : Option (ErrKind × Nat)} {m : Option Base}
    (h : Broken o.rfc3339 (whenTime o) input e m) :
    ∃ out, descend o input = .stop (e.map fun e => ⟨e.1, e.2⟩) out ∧ partialOf out = m := by
  cases h with
  | noLt h =>
    refine ⟨{}, ?_, rfl⟩
    unfold descend
    split
    · rename_i r; exact absurd rfl (h r)
    · rfl
  | @noPri x n hf hz =>
    refine ⟨{}, ?_, rfl⟩
    simp only [descend, pri_fails.mpr hf, mkErr, Option.map_some]
    have : priOut (if n = x.length then x.take (n - 1) else x.take n) = {} := by
      rcases hz with rfl | ⟨rfl, hl⟩
      · split <;> rfl
      · rw [if_pos hl.symm]; rfl
    rw [this]
  | @pri x n k hf hd =>
    have hb := pri_fails.mpr hf
    refine ⟨priOut (dec k), ?_, ?_⟩
    · simp only [descend, hb, mkErr, Option.map_some]
      rw [← hd]
      congr 2
      split <;> rfl
    · have hj : 1 ≤ (if n = x.length then n - 1 else n) := by
        apply Nat.pos_of_ne_zero
        intro h0
        rw [h0] at hd
        exact dec_ne_nil k hd.symm
      obtain ⟨k', hk, hd'⟩ := pri_bad_dec hb hj (by split <;> omega)
      rw [hd] at hd'
      rw [hd', priOut, if_neg (dec_ne_nil k'), setP_dec hk]
      have := partial_priBase hk
      rw [priBase] at this
      rw [this, dec_inj hd']
  | @timestamp pri x n hp hd hf =>
    refine ⟨priBase pri, ?_, partial_priBase hp⟩
    rw [priText_app, descend_pri hp, priText_len]
    have : (o.rfc3339 && headDigit x) = false := by
      cases ho : o.rfc3339 with
      | false => rfl
      | true =>
        cases hh : headDigit x with
        | false => rfl
        | true => exact absurd ⟨ho, headDigit_iff.mp hh⟩ hd
    simp only [dTime, this, dBsd, bs_fails.mpr hf]
    rfl
  | @noIso pri x hp ho hd hn =>
    refine ⟨priBase pri, ?_, partial_priBase hp⟩
    rw [priText_app, descend_pri hp]
    obtain ⟨n, h1, h2⟩ := iso_early_iff.mpr hn
    simp only [dTime, ho, headDigit_iff.mpr hd, dIso, h2, Bool.and_self, if_true, if_pos h1]
    rfl
  | @isoZone pri x n hp ho hpre hf =>
    refine ⟨priBase pri, ?_, partial_priBase hp⟩
    rw [priText_app, descend_pri hp, priText_len]
    have hsc := iso_fails.mpr hf
    have h1 : ¬ n < 19 := fun hlt => iso_early_iff.mp ⟨n, hlt, hsc⟩ hpre
    simp only [dTime, ho, isoPrefix_digit hpre, dIso, hsc, Bool.and_self, if_true, if_neg h1]
    rfl
  | @noSpace pri w x hp hw hx =>
    refine ⟨priBase pri, ?_, partial_priBase hp⟩
    rw [List.append_assoc, priText_app, descend_pri hp, dTime_noSpace hw hx]
    rfl
  | @noSuchDay pri w x hp hw hx =>
    refine ⟨priBase pri, ?_, partial_priBase hp⟩
    rw [List.append_assoc, List.append_assoc, priText_app, descend_pri hp, List.length_append, priText_len]
    exact dTime_noDate hw (fun h => hx (exists_iff.mpr h))
  | @hostname pri w x n hp hw hf =>
    generalize hs : spanN isGraph 255 x = q
    obtain ⟨v, t⟩ := q
    obtain ⟨rfl, hb⟩ := (field_fails (by omega) hs).mp hf
    refine ⟨putTime o w (priBase pri), ?_, ?_⟩
    · rw [List.append_assoc, List.append_assoc, priText_app, descend_pri hp, List.length_append, priText_len]
      have : w.render ++ ([32] ++ x) = w.render ++ 32 :: x := rfl
      rw [this, dTime_space hw, dHost_bad hs hb]
      rfl
    · rw [partial_base hp (by rfl) (by rfl) (by rfl)]
      simp [putTime, priBase, priOnly, given_nil]
  | @tag pri w host msg hp hw hh hs =>
    refine ⟨{ putTime o w (priBase pri) with hostname := host }, ?_, ?_⟩
    · have : priText pri ++ w.render ++ [32] ++ host ++ [32] ++ msg = 60 :: (dec pri ++ 62 :: (w.render ++ 32 :: (host ++ 32 :: msg))) := by
        simp [priText]
      rw [this, descend_pri hp, dTime_space hw]
      obtain ⟨h1, h2, h3⟩ := nameWF_iff.mp hh
      rw [dHost_ok (spanN_eq isGraph h3 h2 (Or.inr ⟨32, msg, rfl, by decide⟩)) h1]
      cases hd : dMsg (1 + (dec pri).length + 1 + w.render.length + 1 + host.length + 1) msg { putTime o w (priBase pri) with hostname := host } with
      | ok out =>
        obtain ⟨a, b, c, hr, -⟩ := (dMsg_iff (by rfl) (by rfl)).mp hd
        exact absurd (reads_starts hr) hs
      | stop e out =>
        rcases dMsg_stop hd with ⟨-, rfl, rfl⟩ | ⟨h, -⟩
        · simp [priText]; omega
        · exact absurd h hs
    · rw [partial_base hp (by rfl) (by rfl) (by rfl)]
      simp [putTime, priBase, priOnly, given_nil]
  | @msg pri w host msg tag pid hp hw hh hs hn hse =>
    refine ⟨{ putTime o w (priBase pri) with hostname := host, tag := tag, content := pid }, ?_, ?_⟩
    · have : priText pri ++ w.render ++ [32] ++ host ++ [32] ++ msg = 60 :: (dec pri ++ 62 :: (w.render ++ 32 :: (host ++ 32 :: msg))) := by
        simp [priText]
      rw [this, descend_pri hp, dTime_space hw]
      obtain ⟨h1, h2, h3⟩ := nameWF_iff.mp hh
      rw [dHost_ok (spanN_eq isGraph h3 h2 (Or.inr ⟨32, msg, rfl, by decide⟩)) h1]
      cases hd : dMsg (1 + (dec pri).length + 1 + w.render.length + 1 + host.length + 1) msg { putTime o w (priBase pri) with hostname := host } with
      | ok out =>
        obtain ⟨a, b, c, hr, -⟩ := (dMsg_iff (by rfl) (by rfl)).mp hd
        exact absurd hr (hn a b c)
      | stop e out =>
        rcases dMsg_stop hd with ⟨h, -, -⟩ | ⟨-, rfl, -⟩
        · exact absurd hs h
        · obtain ⟨tag', pid', g1, rfl⟩ := dMsg_seen (by rfl) (by rfl) hd
          obtain ⟨rfl, rfl⟩ := seen_unique hse g1
          rfl
    · rw [partial_base hp (by rfl) (by rfl) (by rfl)]
      simp [putTime, priBase, priOnly]

/-- C59: every outcome of the RFC 3164 parser, with every combination of options. Either the input is the text of a well-formed
message, which is returned without error; or it is `Broken`, and then the error (if any) and, in best effort, the partial message are
those that `Broken` tells. -/
theorem C59_every_outcome (o : Opts) (input : Bytes) (r : Result) :
    parse1 o input = some r ↔
      (∃ p : Bsd.Parts, p.WF o.rfc3339 ∧ p.render = input ∧ r = ⟨some (p.toMessage (whenTime o p.time)), none⟩) ∨
      (∃ e m, Broken o.rfc3339 (whenTime o) input e m ∧
        r = ⟨if o.bestEffort then m else none, e.map fun x => ⟨x.1, x.2⟩⟩) := by
  have hres : ∀ e out, resultOf o (.stop e out) = ⟨if o.bestEffort then partialOf out else none, e⟩ := by
    intro e out
    simp only [resultOf, partialOf]
    cases o.bestEffort <;> cases out.minimal <;> rfl
  rw [parse1_eq, Option.some.injEq]
  constructor
  · intro h
    cases hd : descend o input with
    | ok out =>
      obtain ⟨p, h1, rfl, rfl⟩ := descend_iff.mp hd
      rw [hd] at h
      simp only [resultOf, export_outOf h1] at h
      exact Or.inl ⟨p, h1, rfl, h.symm⟩
    | stop e out =>
      rw [hd, hres] at h
      refine Or.inr ⟨_, _, broken_of_stop hd, ?_⟩
      rw [← h]
      cases e <;> rfl
  · rintro (⟨p, h1, rfl, rfl⟩ | ⟨e, m, hb, rfl⟩)
    · rw [descend_iff.mpr ⟨p, h1, rfl, rfl⟩]
      simp only [resultOf, export_outOf h1]
    · obtain ⟨out, h1, h2⟩ := stop_of_broken hb
      rw [h1, hres, h2]

/-- C59: the same text is never both a message and broken, and it is broken in one way only. -/
theorem C59_one_outcome (o : Opts) (input : Bytes) :
    (∀ e m, Broken o.rfc3339 (whenTime o) input e m → ∀ p : Bsd.Parts, p.WF o.rfc3339 → p.render ≠ input) ∧
    (∀ e m e' m', Broken o.rfc3339 (whenTime o) input e m → Broken o.rfc3339 (whenTime o) input e' m' → e = e' ∧ m = m') := by
  constructor
  · rintro e m hb p hp rfl
    obtain ⟨out, h1, -⟩ := stop_of_broken hb
    rw [descend_iff.mpr ⟨p, hp, rfl, rfl⟩] at h1
    simp at h1
  · intro e m e' m' hb hb'
    obtain ⟨out, h1, h2⟩ := stop_of_broken hb
    obtain ⟨out', h1', h2'⟩ := stop_of_broken hb'
    rw [h1] at h1'
    simp only [Rfc3164.Fin.stop.injEq] at h1'
    obtain ⟨g1, rfl⟩ := h1'
    refine ⟨?_, h2.symm.trans h2'⟩
    cases e <;> cases e' <;> simp at g1 ⊢
    exact Prod.ext g1.1 g1.2

/-- an hour 22, minute 14, second 15 on the 30th of February: refused after the space that ends the timestamp -/
example (iso : Bool) (tm : When → GoTime.Time) :
    Broken iso tm (ascii "<34>Feb 30 22:14:15 host su: x") (some (.timeParse, 19)) (some (priOnly 34)) := by
  have := Broken.noSuchDay (iso := iso) (tm := tm) (pri := 34) (w := .bsd ⟨2, 30, 22, 14, 15⟩) (x := ascii "host su: x") (by decide)
    (by simp only [When.Text, BStamp.WF]; decide) (by simp only [When.Exists]; decide)
  rw [show priText 34 ++ (When.bsd ⟨2, 30, 22, 14, 15⟩).render ++ [32] ++ ascii "host su: x" = ascii "<34>Feb 30 22:14:15 host su: x" by decide +kernel,
    show (priText 34 ++ (When.bsd ⟨2, 30, 22, 14, 15⟩).render).length = 19 by decide +kernel] at this
  exact this

/-- a control character in the text: nothing is reported, and best effort returns everything but the text -/
example (iso : Bool) (tm : When → GoTime.Time) :
    Broken iso tm (ascii "<34>Feb 29 22:14:15 host su: a\tb") none
      (some { priOnly 34 with timestamp := some (tm (.bsd ⟨2, 29, 22, 14, 15⟩)), hostname := some (ascii "host"), appname := some (ascii "su") }) := by
  have ht : TagWF (ascii "su") := by decide +kernel
  have h1 : ascii "su: a\tb" = ascii "su" ++ 58 :: ascii " a\tb" := by decide
  have hr : ∀ tag pid text, ¬ Reads (ascii "su: a\tb") tag pid text := by
    intro tag pid text hr
    have := (dMsg_iff (pos := 0) (out := {}) rfl rfl).mpr ⟨_, _, _, hr, rfl⟩
    have h2 : dMsg 0 (ascii "su: a\tb") {} = .stop none { tag := ascii "su" } := by decide +kernel
    rw [h2] at this; simp at this
  have := Broken.msg (iso := iso) (tm := tm) (pri := 34) (w := .bsd ⟨2, 29, 22, 14, 15⟩) (host := ascii "host") (msg := ascii "su: a\tb")
    (by decide) ⟨by simp only [BStamp.WF]; decide, by decide⟩ (by decide +kernel) ⟨_, _, rfl, by decide⟩ hr (h1 ▸ Seen.colon ht)
  rw [show priText 34 ++ (When.bsd ⟨2, 29, 22, 14, 15⟩).render ++ [32] ++ ascii "host" ++ [32] ++ ascii "su: a\tb" =
      ascii "<34>Feb 29 22:14:15 host su: a\tb" by decide +kernel,
    show given (ascii "host") = some (ascii "host") by decide +kernel, show given (ascii "su") = some (ascii "su") by decide +kernel,
    given_nil] at this
  exact this

/-- and the parser does that -/
example : parse1 { bestEffort := true } (ascii "<34>Feb 29 22:14:15 host su: a\tb") =
    some ⟨some { priOnly 34 with timestamp := some ⟨0, 2, 29, 22, 14, 15, 0, 0⟩, hostname := some (ascii "host"), appname := some (ascii "su") }, none⟩ := by
  decide +kernel

example : parse1 {} (ascii "<34>Feb 29 22:14:15 host su: a\tb") = some ⟨none, none⟩ := by decide +kernel

end Verif.Props.Bsd
