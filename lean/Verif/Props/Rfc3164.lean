import Verif.Rfc3164.Prefix
import Verif.Rfc5424.Unique

/-!
# C31-C38: the RFC 3164 parser

All statements are about `parse1 opts input`, the result of `NewMachine(opts...).Parse(input)` computed by the extracted automaton
(`none` = panic), or about `parse o m input` for a machine `m` with an arbitrary past. The specification is `Verif/Spec/Rfc3164.lean`.
-/

namespace Verif.Props.Bsd
open Verif.Spec Verif.Spec.Bsd Verif.Rfc3164

/-! ## helpers -/

theorem resultOf_ok {o : Opts} (hb : o.bestEffort = false) {f : Rfc3164.Fin} {m : Base} {e : Option Err} :
    resultOf o f = ⟨some m, e⟩ ↔ e = none ∧ ∃ out, f = .ok out ∧ out.export = m := by
  cases f with
  | ok out => simp [resultOf]; exact ⟨fun h => ⟨h.2.symm, h.1⟩, fun h => ⟨h.2, h.1.symm⟩⟩
  | stop e' out => simp [resultOf, hb]

theorem resultOf_err {o : Opts} {f : Rfc3164.Fin} : (resultOf o f).err = match f with | .ok _ => none | .stop e _ => e := by
  cases f with
  | ok out => rfl
  | stop e out => simp only [resultOf]; split <;> rfl

theorem optField_given (w : Bytes) : optField w = given w := by
  unfold optField given
  by_cases h1 : w = [] <;> by_cases h2 : w = [45] <;> simp [h1, h2, ascii]

theorem div8 {n : Nat} (h : n ≤ 191) : UInt8.ofNat n / 8 = UInt8.ofNat (n / 8) := by
  apply UInt8.toNat_inj.mp
  rw [UInt8.toNat_div, UInt8.toNat_ofNat', UInt8.toNat_ofNat', show UInt8.toNat 8 = 8 from rfl]
  omega

theorem mod8 {n : Nat} (h : n ≤ 191) : UInt8.ofNat n % 8 = UInt8.ofNat (n % 8) := by
  apply UInt8.toNat_inj.mp
  rw [UInt8.toNat_mod, UInt8.toNat_ofNat', UInt8.toNat_ofNat', show UInt8.toNat 8 = 8 from rfl]
  omega

theorem reads_text {msg tag pid text : Bytes} (h : Reads msg tag pid text) : text ≠ [] ∧ Clean text := by
  cases h with
  | plain h hc hn => exact ⟨h, hc⟩
  | colon ht h hc => exact ⟨h, hc⟩
  | colonBare ht hc hr => exact ⟨by simp, clean_append.mpr ⟨tag_clean ht, clean_cons.mpr ⟨by decide, hc⟩⟩⟩
  | openBare ht => exact ⟨by simp, clean_append.mpr ⟨tag_clean ht, clean_cons.mpr ⟨by decide, clean_nil⟩⟩⟩
  | opened ht h hc hs => exact ⟨h, hc⟩
  | closed ht hv hp htext hc => exact ⟨lastPart_ne htext (by simp), hc⟩

theorem reads_tag {msg tag pid text : Bytes} (h : Reads msg tag pid text) : tag = [] ∨ TagWF tag := by
  cases h <;> first | exact Or.inl rfl | (right; assumption)

theorem export_outOf {o : Opts} {p : Bsd.Parts} (h : p.WF o.rfc3339) : (outOf o p).export = p.toMessage (whenTime o p.time) := by
  simp only [outOf, Out.export, Base.computeFromPriority, Bsd.Parts.toMessage, div8 h.pri, mod8 h.pri, optField_given, if_true]
  have hne := (reads_text h.msg).1
  congr 1
  exact if_pos hne

theorem minimal_priBase {n : Nat} (h : n ≤ 191) {out : Out} (h1 : out.prioritySet = true) (h2 : out.priority = UInt8.ofNat n) :
    out.minimal = true := by
  simp only [Out.minimal, h1, h2, Common.validPriority, Common.inBetween, UInt8.toNat_ofNat']
  simp; omega

/-- every text of a well-formed message is read, with every combination of options -/
theorem accepts (o : Opts) {p : Bsd.Parts} (h : p.WF o.rfc3339) :
    parse1 o p.render = some ⟨some (p.toMessage (whenTime o p.time)), none⟩ := by
  rw [parse1_eq, descend_iff.mpr ⟨p, h, rfl, rfl⟩]
  simp only [resultOf, export_outOf h]

/-! ## C31 -/

/-- a message used in the examples: `<34>Feb 29 22:14:15 mymachine su[123]: 'su root' failed` -/
def sample : Bsd.Parts :=
  { pri := 34, time := .bsd ⟨2, 29, 22, 14, 15⟩, host := ascii "mymachine", msg := ascii "su[123]: 'su root' failed", tag := ascii "su"
    pid := ascii "123", text := ascii "'su root' failed" }

instance (w : Bytes) : Decidable (Clean w) := inferInstanceAs (Decidable (∀ b ∈ w, _))
instance (w : Bytes) : Decidable (TagWF w) := inferInstanceAs (Decidable (_ ∧ _ ∧ _))
instance (n : Nat) (w : Bytes) : Decidable (NameWF n w) := inferInstanceAs (Decidable (_ ∧ _ ∧ _))

/-- the only `]: ` -/
theorem lastPart_only {u text : Bytes} (hu : ∀ b ∈ u, b ≠ 93) (ht : ∀ b ∈ text, b ≠ 93) (hs : Starts text) :
    LastPart (u ++ 93 :: 58 :: 32 :: text) text := by
  obtain ⟨c, r, rfl, hc⟩ := hs
  refine Or.inl ⟨⟨⟨u, by simp [ascii]⟩, c, r, rfl, hc⟩, ?_⟩
  rintro y ⟨⟨a, ha⟩, -⟩
  rw [show a ++ (ascii "]: " ++ y) = a ++ 93 :: (58 :: 32 :: y) by simp [ascii]] at ha
  rcases List.append_eq_append_iff.mp ha with ⟨a', h1, h2⟩ | ⟨a', h1, h2⟩
  · cases a' with
    | nil => simp at h2; rw [← h2]; simp
    | cons x a' =>
      simp only [List.cons_append, List.cons.injEq] at h2
      have : (93 : UInt8) ∈ (58 : UInt8) :: 32 :: c :: r := by rw [h2.2]; simp
      simp only [List.mem_cons] at this
      rcases this with h | h | h
      · exact absurd h (by decide)
      · exact absurd h (by decide)
      · exact absurd rfl (ht 93 (by simpa using h))
  · cases a' with
    | nil => simp at h2; rw [h2]; simp
    | cons x a' =>
      simp only [List.cons_append, List.cons.injEq] at h2
      exact absurd rfl (hu 93 (by rw [h1, ← h2.1]; simp))

/-- `tag[pid]: text` -/
theorem reads_tagged {tag pid text : Bytes} (ht : TagWF tag) (hp : ∀ b ∈ pid, b ≠ 93) (hx : ∀ b ∈ text, b ≠ 93) (hne : text ≠ [])
    (hc : Clean text) : Reads (tag ++ 91 :: (pid ++ 93 :: 58 :: 32 :: text)) tag pid text := by
  have hs : Starts text := by
    cases text with
    | nil => exact absurd rfl hne
    | cons b r => exact ⟨b, r, rfl, (clean_cons.mp hc).1⟩
  refine .closed ht ?_ (lastPart_none hp) (lastPart_only hp hx hs) hc
  intro b hb
  simp only [List.mem_cons] at hb
  rcases hb with rfl | rfl | hb
  · decide
  · decide
  · exact hx b hb

theorem sample_wf (iso : Bool) : sample.WF iso where
  pri := by decide
  time := by
    refine ⟨?_, by decide⟩
    simp only [BStamp.WF]; decide
  host := by decide +kernel
  msg := by
    have := reads_tagged (tag := ascii "su") (pid := ascii "123") (text := ascii "'su root' failed") (by decide +kernel) (by decide +kernel)
      (by decide +kernel) (by decide +kernel) (by decide +kernel)
    exact this

/-- C31: in strict mode, with any of the other options, parsing succeeds exactly on the texts of well-formed messages, and returns
their parts. The timestamp `whenTime o p.time` is described by C36. -/
theorem C31_accepts_iff (o : Opts) (hb : o.bestEffort = false) (input : Bytes) (m : Base) :
    parse1 o input = some ⟨some m, none⟩ ↔ ∃ p : Bsd.Parts, p.WF o.rfc3339 ∧ p.render = input ∧ p.toMessage (whenTime o p.time) = m := by
  rw [parse1_eq, Option.some.injEq, resultOf_ok hb]
  constructor
  · rintro ⟨-, out, h, rfl⟩
    obtain ⟨p, h1, rfl, rfl⟩ := descend_iff.mp h
    exact ⟨p, h1, rfl, (export_outOf h1).symm⟩
  · rintro ⟨p, h1, rfl, rfl⟩
    exact ⟨rfl, outOf o p, descend_iff.mpr ⟨p, h1, rfl, rfl⟩, export_outOf h1⟩

/-- C31 with the default options: the timestamp is the classic one, in year 0 and UTC. -/
theorem C31_default_options (input : Bytes) (m : Base) :
    parse1 {} input = some ⟨some m, none⟩ ↔ ∃ (p : Bsd.Parts) (s : BStamp), p.WF false ∧ p.time = .bsd s ∧ p.render = input ∧
      p.toMessage ⟨0, s.month, s.day, s.hour, s.min, s.sec, 0, 0⟩ = m := by
  rw [C31_accepts_iff {} rfl]
  have key : ∀ s : BStamp, s.WF → s.Real → whenTime {} (.bsd s) = ⟨0, s.month, s.day, s.hour, s.min, s.sec, 0, 0⟩ := by
    intro s h hr
    have hd := (Bs.real_iff s h).mpr hr
    obtain ⟨e1, e2, e3, e4, e5, e6, e7⟩ := h
    simp only [whenTime, adjust, GoTime.Time.addYears, Bs.stampTime, Int.add_zero]
    exact GoTime.date_utc e1 e2 (by omega) (by omega) (by omega) e3 hd
  constructor
  · rintro ⟨p, hwf, hr, hm⟩
    have hw := hwf.time
    cases hp : p.time with
    | bsd s =>
      rw [hp] at hw hm
      rw [key s hw.1 hw.2] at hm
      exact ⟨p, s, hwf, hp, hr, hm⟩
    | iso s => rw [hp] at hw; exact absurd hw.1 (by simp)
  · rintro ⟨p, s, hwf, hp, hr, hm⟩
    have hw := hwf.time
    rw [hp] at hw
    refine ⟨p, hwf, hr, ?_⟩
    rw [hp, key s hw.1 hw.2, hm]

/-- C31: a message is decomposed in only one way. -/
theorem C31_decomposition_unique {iso : Bool} {p q : Bsd.Parts} (hp : p.WF iso) (hq : q.WF iso) (h : p.render = q.render) : p = q := by
  simp only [Bsd.Parts.render, List.cons.injEq, true_and] at h
  have h1 : Rfc5424.priScan .start (dec p.pri ++ 62 :: (p.time.render ++ 32 :: (p.host ++ 32 :: p.msg))) = .ok (dec p.pri) _ :=
    Rfc5424.pri_iff.mpr ⟨p.pri, hp.pri, rfl, rfl⟩
  have h2 : Rfc5424.priScan .start (dec q.pri ++ 62 :: (q.time.render ++ 32 :: (q.host ++ 32 :: q.msg))) = .ok (dec q.pri) _ :=
    Rfc5424.pri_iff.mpr ⟨q.pri, hq.pri, rfl, rfl⟩
  rw [h, h2] at h1
  simp only [Ts.Res.ok.injEq] at h1
  obtain ⟨hd, ht⟩ := h1
  have hpri := (dec_inj hd).symm
  have sp : ∀ p : Bsd.Parts, p.WF iso → ∀ t, (∃ s, p.time = .bsd s ∧ s.WF ∧ s.Real ∧ Bs.scan .m1 (p.time.render ++ t) = .ok p.time.render t ∧
      headDigit (p.time.render ++ t) = false) ∨
      (∃ s, p.time = .iso s ∧ s.WF ∧ Ts.scan false .y1 (p.time.render ++ t) = .ok p.time.render t ∧ headDigit (p.time.render ++ t) = true) := by
    intro p hp t
    have hw := hp.time
    cases hpt : p.time with
    | bsd s => rw [hpt] at hw; exact Or.inl ⟨s, rfl, hw.1, hw.2, Bs.scan_complete s hw.1 t, bsd_headDigit hw.1 t⟩
    | iso s => rw [hpt] at hw; exact Or.inr ⟨s, rfl, hw.2.1, Ts.scan_complete s hw.2.1 (fun _ => hw.2.2.2) t, iso_headDigit hw.2.1 t⟩
  have htime : p.time = q.time ∧ p.host ++ 32 :: p.msg = q.host ++ 32 :: q.msg := by
    have hp' := sp p hp (32 :: (p.host ++ 32 :: p.msg))
    have hq' := sp q hq (32 :: (q.host ++ 32 :: q.msg))
    rw [← ht] at hp'
    rcases hp' with ⟨s, c, w, r, a, b⟩ | ⟨s, c, w, a, b⟩ <;> rcases hq' with ⟨s', c', w', r', a', b'⟩ | ⟨s', c', w', a', b'⟩
    · rw [a] at a'
      simp only [Ts.Res.ok.injEq, List.cons.injEq, true_and] at a'
      obtain ⟨h1, h2⟩ := a'
      rw [c, c'] at h1
      have := Bs.parse_render s w
      rw [show s.render = s'.render from h1, Bs.parse_render s' w', if_pos r, if_pos r'] at this
      have hs : s = s' := by
        cases s; cases s'
        simp [Bs.stampTime] at this
        simp only [BStamp.mk.injEq]
        obtain ⟨e1, e2, e3, e4, e5⟩ := this
        exact ⟨e1.symm, e2.symm, e3.symm, e4.symm, e5.symm⟩
      exact ⟨by rw [c, c', hs], h2⟩
    · rw [b] at b'; simp at b'
    · rw [b] at b'; simp at b'
    · rw [a] at a'
      simp only [Ts.Res.ok.injEq, List.cons.injEq, true_and] at a'
      obtain ⟨h1, h2⟩ := a'
      rw [c, c'] at h1
      exact ⟨by rw [c, c', Rfc5424.stamp_inj w w' h1], h2⟩
  have nosp : ∀ {w : Bytes}, NameWF 255 w → (32 : UInt8) ∉ w := by
    intro w hw hm
    have := hw.2.2 32 hm
    revert this; decide
  obtain ⟨hhost, hmsg⟩ := Rfc5424.sep_inj (nosp hp.host) (nosp hq.host) htime.2
  obtain ⟨e1, e2, e3⟩ := reads_unique hp.msg (hmsg ▸ hq.msg)
  cases p; cases q
  simp only [Bsd.Parts.mk.injEq]
  exact ⟨hpri, htime.1, hhost, hmsg, e1, e2, e3⟩

/-- every non-empty MSG without control characters can be read -/
theorem reads_clean {msg : Bytes} (h : msg ≠ []) (hc : Clean msg) : ∃ tag pid text, Reads msg tag pid text := by
  by_cases hn : ∀ tag r, TagWF tag → msg ≠ tag ++ 58 :: r ∧ msg ≠ tag ++ 91 :: r
  · exact ⟨_, _, _, .plain h hc hn⟩
  · have : ∃ tag r, TagWF tag ∧ (msg = tag ++ 58 :: r ∨ msg = tag ++ 91 :: r) := by
      apply Classical.byContradiction
      intro hc'
      apply hn
      intro tag r ht
      exact ⟨fun e => hc' ⟨tag, r, ht, Or.inl e⟩, fun e => hc' ⟨tag, r, ht, Or.inr e⟩⟩
    obtain ⟨tag, r, ht, (rfl | rfl)⟩ := this
    · have hr := (clean_cons.mp (clean_append.mp hc).2).2
      by_cases hs : ∃ text, text ≠ [] ∧ r = 32 :: text
      · obtain ⟨text, hne, rfl⟩ := hs
        exact ⟨_, _, _, .colon ht hne (clean_cons.mp hr).2⟩
      · exact ⟨_, _, _, .colonBare ht hr (fun t h1 h2 => hs ⟨t, h1, h2⟩)⟩
    · have hr := (clean_cons.mp (clean_append.mp hc).2).2
      rcases last93 r with h93 | ⟨u, v, rfl, hv⟩
      · by_cases hr0 : r = []
        · subst hr0; exact ⟨_, _, _, .openBare ht⟩
        · exact ⟨_, _, _, .opened ht hr0 hr h93⟩
      · obtain ⟨pid, hpid⟩ := lastPart_exists u
        obtain ⟨text, htext⟩ := lastPart_exists (u ++ 93 :: v)
        refine ⟨_, _, _, .closed ht hv hpid htext ?_⟩
        rcases htext with ⟨⟨⟨a, ha⟩, -⟩, -⟩ | ⟨-, rfl⟩
        · rw [ha] at hr; exact (clean_append.mp (clean_append.mp hr).2).2
        · exact hr

/-- C31: every `<PRI>TIMESTAMP HOSTNAME MSG` whose MSG is not empty and has no control character is accepted, whatever the options. -/
theorem C31_clean_accepted (o : Opts) (pri : Nat) (w : When) (host msg : Bytes) (h1 : pri ≤ 191) (h2 : w.WF o.rfc3339)
    (h3 : NameWF 255 host) (h4 : msg ≠ []) (h5 : Clean msg) :
    ∃ m, parse1 o (60 :: (dec pri ++ 62 :: (w.render ++ 32 :: (host ++ 32 :: msg)))) = some ⟨some m, none⟩ ∧
      m.priority = some (UInt8.ofNat pri) ∧ m.hostname = given host := by
  obtain ⟨tag, pid, text, hr⟩ := reads_clean h4 h5
  exact ⟨_, accepts o (p := ⟨pri, w, host, msg, tag, pid, text⟩) ⟨h1, h2, h3, hr⟩, rfl, rfl⟩

example : parse1 {} sample.render = some ⟨some (sample.toMessage ⟨0, 2, 29, 22, 14, 15, 0, 0⟩), none⟩ :=
  (C31_default_options _ _).mpr ⟨sample, ⟨2, 29, 22, 14, 15⟩, sample_wf false, rfl, rfl, rfl⟩

example : sample.render = ascii "<34>Feb 29 22:14:15 mymachine su[123]: 'su root' failed" := by decide +kernel

/-! ## C32 -/

/-- C32: in strict mode a message is never returned together with an error. -/
theorem C32_strict_never_both (o : Opts) (hb : o.bestEffort = false) (input : Bytes) (m : Base) (e : Option Err)
    (h : parse1 o input = some ⟨some m, e⟩) : e = none := by
  rw [parse1_eq, Option.some.injEq, resultOf_ok hb] at h
  exact h.1

theorem silent_iff {o : Opts} {input : Bytes} : (∃ out, descend o input = .stop none out) ↔ Silent o.rfc3339 input := by
  constructor
  · rintro ⟨out, h⟩
    rcases descend_stop h with ⟨-, h, -⟩ | ⟨r, n, -, -, h, -⟩ | ⟨pri, rest, hpri, rfl, hts⟩
    · simp at h
    · simp at h
    · refine ⟨pri, rest, hpri, rfl, ?_⟩
      cases hts with
      | isoEarly ho hd hsc hn =>
        refine Or.inr (Or.inl ⟨ho, ?_, iso_early_iff.mp ⟨_, hn, hsc⟩⟩)
        cases rest with
        | nil => simp [headDigit] at hd
        | cons d t => exact ⟨d, t, rfl, by simpa [headDigit] using hd⟩
      | noSpace hw hr ht => exact Or.inl ⟨_, _, hw, hr, ht⟩
      | silent hw hh hr hs hn ht => exact Or.inr (Or.inr ⟨_, _, _, hw, hh, hr, hs, hn⟩)
  · rintro ⟨pri, rest, hpri, rfl, (⟨w, tl, hw, rfl, ht⟩ | ⟨ho, ⟨d, t, rfl, hd⟩, hn⟩ | ⟨w, host, msg, hw, hh, rfl, hs, hn⟩)⟩
    · exact ⟨_, by rw [descend_pri hpri, dTime_noSpace hw ht]⟩
    · obtain ⟨n, hlt, hsc⟩ := iso_early_iff.mpr hn
      refine ⟨priBase pri, ?_⟩
      rw [descend_pri hpri]
      have : headDigit (d :: t) = true := by simp [headDigit, hd]
      simp only [dTime, ho, this, dIso, hsc]
      simp [hlt]
    · obtain ⟨out, h⟩ := dTime_silent (pos := 1 + (dec pri).length + 1) (out := priBase pri) rfl rfl hw hh hs hn
      exact ⟨out, by rw [descend_pri hpri]; exact h⟩

/-- C32: exactly these inputs give a nil message and a nil error in strict mode. -/
theorem C32_nil_nil_iff (o : Opts) (hb : o.bestEffort = false) (input : Bytes) :
    parse1 o input = some ⟨none, none⟩ ↔ Silent o.rfc3339 input := by
  rw [← silent_iff, parse1_eq, Option.some.injEq]
  cases hd : descend o input with
  | ok out => simp [resultOf]
  | stop e out =>
    simp only [resultOf, hb, Bool.false_and, Bool.false_eq_true, if_false, Result.mk.injEq, true_and, Fin.stop.injEq]
    exact ⟨fun h => ⟨out, h, rfl⟩, fun ⟨_, h, _⟩ => h⟩

/-- C32: on all other inputs exactly one of message and error is returned in strict mode. -/
theorem C32_otherwise_exactly_one (o : Opts) (hb : o.bestEffort = false) (input : Bytes) (h : ¬ Silent o.rfc3339 input) :
    (∃ m, parse1 o input = some ⟨some m, none⟩) ∨ ∃ e, parse1 o input = some ⟨none, some e⟩ := by
  rw [← C32_nil_nil_iff o hb] at h
  rw [parse1_eq] at h ⊢
  cases hd : descend o input with
  | ok out => exact Or.inl ⟨_, rfl⟩
  | stop e out =>
    rw [hd] at h
    simp only [resultOf, hb, Bool.false_and, Bool.false_eq_true, if_false] at h ⊢
    cases e with
    | none => exact absurd rfl h
    | some e => exact Or.inr ⟨e, rfl⟩

/-- The three kinds of silent inputs, all in strict mode: a newline in MSG, no space after the timestamp, an incomplete RFC 3339 date. -/
example : parse1 {} (ascii "<34>Oct 11 22:14:15 host su: a\nb") = some ⟨none, none⟩ ∧
    parse1 {} (ascii "<34>Oct 11 22:14:15") = some ⟨none, none⟩ ∧
    parse1 { rfc3339 := true } (ascii "<34>2003-10-11T22:14:99Z host su: x") = some ⟨none, none⟩ :=
  ⟨by decide +kernel, by decide +kernel, by decide +kernel⟩

/-! ## everything that is returned -/

/-- what is known of the collected fields when a message is returned -/
structure Facts (o : Opts) (input : Bytes) (out : Out) : Prop where
  pri : ∃ n t, n ≤ 191 ∧ out.priority = UInt8.ofNat n ∧ input = 60 :: (dec n ++ t) ∧
    ((∃ t', t = 62 :: t') ∨ out = priBase n)
  set : out.prioritySet = true
  host : out.hostname = [] ∨ NameWF 255 out.hostname
  tag : out.tag = [] ∨ TagWF out.tag
  text : out.message = [] ∨ Clean out.message
  time : out.timestampSet = true → ∃ (n : Nat) (w : When) (t : Bytes), n ≤ 191 ∧ w.WF o.rfc3339 ∧ out.timestamp = whenTime o w ∧
    input = 60 :: (dec n ++ 62 :: (w.render ++ 32 :: t))

theorem Facts.minimal {o : Opts} {input : Bytes} {out : Out} (h : Facts o input out) : out.minimal = true := by
  obtain ⟨n, t, h1, h2, -⟩ := h.pri
  exact minimal_priBase h1 h.set h2

theorem facts_ok {o : Opts} {input : Bytes} {out : Out} (h : descend o input = .ok out) : Facts o input out := by
  obtain ⟨p, hwf, rfl, rfl⟩ := descend_iff.mp h
  exact ⟨⟨p.pri, _, hwf.pri, rfl, rfl, Or.inl ⟨_, rfl⟩⟩, rfl, Or.inr hwf.host, reads_tag hwf.msg, Or.inr (reads_text hwf.msg).2,
    fun _ => ⟨p.pri, p.time, _, hwf.pri, hwf.time, rfl, rfl⟩⟩

theorem facts_base {o : Opts} {input : Bytes} {n : Nat} {t : Bytes} (h : n ≤ 191) (hi : input = 60 :: (dec n ++ t)) :
    Facts o input (priBase n) :=
  ⟨⟨n, t, h, rfl, hi, Or.inr rfl⟩, rfl, Or.inl rfl, Or.inl rfl, Or.inl rfl, fun h => by simp [priBase] at h⟩

theorem facts_pri {o : Opts} {r : Bytes} {n j : Nat} (h : Rfc5424.priScan .start r = .bad n) (h1 : 1 ≤ j) (h2 : j ≤ n) :
    Facts o (60 :: r) (priOut (r.take j)) := by
  obtain ⟨k, hk, e⟩ := pri_bad_dec h h1 h2
  have hne : dec k ≠ [] := dec_ne_nil k
  have : priOut (r.take j) = priBase k := by rw [priOut, e, if_neg hne, setP_dec hk]; rfl
  rw [this]
  exact facts_base (t := r.drop j) hk (by rw [← e, List.take_append_drop])

theorem timeStop_facts {o : Opts} {pos pri : Nat} {rest : Bytes} {e : Option Err} {out : Out} (hpri : pri ≤ 191)
    (h : TimeStop o pos rest (priBase pri) e out) : Facts o (60 :: (dec pri ++ 62 :: rest)) out := by
  cases h with
  | isoEarly ho hd h hn => exact facts_base hpri rfl
  | isoLate ho hd h hn => exact facts_base hpri rfl
  | bsdBad hd h => exact facts_base hpri rfl
  | noSpace hw hr ht => exact facts_base hpri rfl
  | noDate hw hn hr => exact facts_base hpri rfl
  | host hw hr hv hb =>
    exact ⟨⟨pri, _, hpri, rfl, rfl, Or.inl ⟨_, rfl⟩⟩, rfl, Or.inl rfl, Or.inl rfl, Or.inl rfl, fun _ => ⟨pri, _, _, hpri, hw, rfl, by rw [hr]⟩⟩
  | tag hw hh hr hs =>
    exact ⟨⟨pri, _, hpri, rfl, rfl, Or.inl ⟨_, rfl⟩⟩, rfl, Or.inr hh, Or.inl rfl, Or.inl rfl, fun _ => ⟨pri, _, _, hpri, hw, rfl, by rw [hr]⟩⟩
  | silent hw hh hr hs hn ht =>
    exact ⟨⟨pri, _, hpri, rfl, rfl, Or.inl ⟨_, rfl⟩⟩, rfl, Or.inr hh, ht, Or.inl rfl, fun _ => ⟨pri, _, _, hpri, hw, rfl, by rw [hr]⟩⟩

/-- the inputs for which best effort returns a message: `<`, a digit and any further byte -/
def HasDigit (input : Bytes) : Prop := ∃ (d b : UInt8) (t : Bytes), input = 60 :: d :: b :: t ∧ 48 ≤ d.toNat ∧ d.toNat ≤ 57

theorem hasDigit_pri {n : Nat} {t : Bytes} : HasDigit (60 :: (dec n ++ 62 :: t)) := by
  cases h : dec n with
  | nil => exact absurd h (dec_ne_nil n)
  | cons d ds =>
    have hd := dec_digits n d (by rw [h]; simp)
    cases ds with
    | nil => exact ⟨d, 62, t, rfl, hd⟩
    | cons c ds => exact ⟨d, c, ds ++ 62 :: t, rfl, hd⟩

/-- either no message can be made, or all `Facts` hold -/
theorem stop_facts {o : Opts} {input : Bytes} {e : Option Err} {out : Out} (h : descend o input = .stop e out) :
    (¬ HasDigit input ∧ out.minimal = false) ∨ (HasDigit input ∧ Facts o input out) := by
  rcases descend_stop h with ⟨hn, -, rfl⟩ | ⟨r, n, rfl, hp, -, rfl⟩ | ⟨pri, rest, hpri, rfl, hts⟩
  · exact Or.inl ⟨fun ⟨d, b, t, e, _⟩ => hn _ e, rfl⟩
  · have hle := (pri_bad_run r .start n hp).1
    by_cases hd : HasDigit (60 :: r)
    · refine Or.inr ⟨hd, ?_⟩
      obtain ⟨d, b, t, e, hdig⟩ := hd
      simp only [List.cons.injEq, true_and] at e
      have hn : n ≠ 0 := by
        rintro rfl
        exact pri_bad_zero.mp hp d (b :: t) e hdig
      have hlen : 2 ≤ r.length := by rw [e]; simp
      split
      · exact facts_pri hp (by omega) (by omega)
      · exact facts_pri hp (by omega) (by omega)
    · refine Or.inl ⟨hd, ?_⟩
      have : (if n = r.length then r.take (n - 1) else r.take n) = [] := by
        by_cases hn : n = 0
        · subst hn; split <;> simp
        · have hdg : ∃ d t, r = d :: t ∧ 48 ≤ d.toNat ∧ d.toNat ≤ 57 := by
            apply Classical.byContradiction; intro hc
            have : Rfc5424.priScan .start r = .bad 0 := pri_bad_zero.mpr fun d t e hd => hc ⟨d, t, e, hd⟩
            rw [hp] at this; simp at this; exact hn this
          obtain ⟨d, t, rfl, hdig⟩ := hdg
          cases t with
          | nil => simp at hle; rw [if_pos (by simp; omega), show n - 1 = 0 by omega]; rfl
          | cons b t => exact absurd ⟨d, b, t, rfl, hdig⟩ hd
      rw [this]; rfl
  · exact Or.inr ⟨hasDigit_pri, timeStop_facts hpri hts⟩

/-- a returned message is the export of fields with all `Facts` -/
theorem returned {o : Opts} {input : Bytes} {m : Base} {e : Option Err} (h : parse1 o input = some ⟨some m, e⟩) :
    ∃ out, m = out.export ∧ Facts o input out ∧ ((e = none ∧ descend o input = .ok out) ∨ descend o input = .stop e out) := by
  rw [parse1_eq, Option.some.injEq] at h
  cases hd : descend o input with
  | ok out =>
    rw [hd] at h
    simp [resultOf] at h
    exact ⟨out, h.1.symm, facts_ok hd, Or.inl ⟨h.2.symm, rfl⟩⟩
  | stop e' out =>
    rw [hd] at h
    simp only [resultOf] at h
    split at h
    · rename_i hm
      simp at h
      simp only [Bool.and_eq_true] at hm
      rcases stop_facts hd with ⟨-, hf⟩ | ⟨-, hf⟩
      · rw [hf] at hm; simp at hm
      · exact ⟨out, h.1.symm, hf, Or.inr (by rw [h.2])⟩
    · simp at h

/-- C32: in best effort mode a message is returned for exactly the inputs that begin with `<`, a digit and one more byte. -/
theorem C32_best_effort_message_iff (o : Opts) (hb : o.bestEffort = true) (input : Bytes) :
    (∃ m e, parse1 o input = some ⟨some m, e⟩) ↔ ∃ (d b : UInt8) (t : Bytes), input = 60 :: d :: b :: t ∧ 48 ≤ d.toNat ∧ d.toNat ≤ 57 := by
  rw [parse1_eq]
  change _ ↔ HasDigit input
  cases hd : descend o input with
  | ok out =>
    obtain ⟨p, hwf, rfl, rfl⟩ := descend_iff.mp hd
    exact ⟨fun _ => hasDigit_pri, fun _ => ⟨_, _, rfl⟩⟩
  | stop e out =>
    rcases stop_facts hd with ⟨h1, h2⟩ | ⟨h1, h2⟩
    · simp [resultOf, h2, h1]
    · simp only [resultOf, hb, h2.minimal, Bool.and_self, if_true, h1, iff_true]
      exact ⟨_, _, rfl⟩

/-- C32: in best effort mode a nil error does not mean that the input is well-formed: the silent inputs give a partial message and a
nil error. -/
theorem C32_best_effort_silent (o : Opts) (hb : o.bestEffort = true) (input : Bytes) (h : Silent o.rfc3339 input) :
    ∃ m, parse1 o input = some ⟨some m, none⟩ ∧ m.message = none := by
  have hd' : HasDigit input := by obtain ⟨pri, rest, -, rfl, -⟩ := h; exact hasDigit_pri
  obtain ⟨out, hd⟩ := silent_iff.mpr h
  have hmsg : out.message = [] := by
    rcases descend_stop hd with ⟨-, h, -⟩ | ⟨r, n, -, -, h, -⟩ | ⟨pri, rest, hpri, rfl, hts⟩
    · simp at h
    · simp at h
    · cases hts <;> rfl
  rcases stop_facts hd with ⟨h1, -⟩ | ⟨-, h2⟩
  · exact absurd hd' h1
  · refine ⟨out.export, by rw [parse1_eq, hd]; simp [resultOf, hb, h2.minimal], by simp [Out.export, hmsg]⟩

/-- the silent inputs of the example above, in best effort mode: a message and no error -/
example : (parse1 { bestEffort := true } (ascii "<34>Oct 11 22:14:15")).map (fun r => (r.msg.map Base.priority, r.err)) =
    some (some (some 34), none) ∧ parse1 { bestEffort := true } (ascii "<3") = some ⟨none, some ⟨.prival, 2⟩⟩ :=
  ⟨by decide +kernel, by decide +kernel⟩

/-! ## C33 -/

theorem given_some {w x : Bytes} (h : given w = some x) : x = w ∧ w ≠ [] := by
  unfold given at h; split at h
  · simp at h
  · rename_i hn; simp at h; exact ⟨h.symm, fun e => hn (Or.inl e)⟩

/-- C33: every returned message, complete or partial, with any options, is valid: the priority is a number written after `<`, the
facility and the severity follow from it, and the text fields have their lengths and alphabets. -/
theorem C33_returned_valid (o : Opts) (input : Bytes) (m : Base) (e : Option Err) (h : parse1 o input = some ⟨some m, e⟩) :
    (∃ n t, n ≤ 191 ∧ input = 60 :: (dec n ++ t) ∧ m.priority = some (UInt8.ofNat n) ∧ m.facility = some (UInt8.ofNat (n / 8)) ∧
      m.severity = some (UInt8.ofNat (n % 8))) ∧ m.valid = true ∧
    (∀ x, m.hostname = some x → NameWF 255 x) ∧ (∀ x, m.appname = some x → TagWF x) ∧ (∀ x, m.procID = some x → x ≠ []) ∧
    m.msgID = none ∧ (∀ x, m.message = some x → x ≠ [] ∧ Clean x) := by
  obtain ⟨out, rfl, hf, -⟩ := returned h
  have hmin := hf.minimal
  obtain ⟨n, t, hn, hp, hi, -⟩ := hf.pri
  refine ⟨⟨n, t, hn, hi, by simp [Out.export, Base.computeFromPriority, hp], by simp [Out.export, Base.computeFromPriority, hp, div8 hn],
    by simp [Out.export, Base.computeFromPriority, hp, mod8 hn]⟩, ?_, ?_, ?_, ?_, rfl, ?_⟩
  · simp only [Out.minimal, Bool.and_eq_true] at hmin
    simp only [Base.valid, Out.export, Base.computeFromPriority, hmin.2]
  · intro x hx
    simp only [Out.export, optField_given] at hx
    obtain ⟨rfl, hne⟩ := given_some hx
    exact hf.host.resolve_left hne
  · intro x hx
    simp only [Out.export, optField_given] at hx
    obtain ⟨rfl, hne⟩ := given_some hx
    exact hf.tag.resolve_left hne
  · intro x hx
    simp only [Out.export, optField_given] at hx
    obtain ⟨rfl, hne⟩ := given_some hx
    exact hne
  · intro x hx
    simp only [Out.export] at hx
    split at hx
    · rename_i hne; simp at hx; subst hx; exact ⟨hne, hf.text.resolve_left hne⟩
    · simp at hx

/-- C33: the priority is the complete number between `<` and `>`, unless the PRI itself is in error. -/
theorem C33_priority_exact (o : Opts) (input : Bytes) (m : Base) (e : Option Err) (h : parse1 o input = some ⟨some m, e⟩) :
    (∃ n t, n ≤ 191 ∧ input = 60 :: (dec n ++ 62 :: t) ∧ m.priority = some (UInt8.ofNat n)) ∨
    (∃ c, e = some ⟨.prival, c⟩ ∧ m.timestamp = none ∧ m.hostname = none ∧ m.appname = none ∧ m.procID = none ∧ m.message = none) := by
  obtain ⟨out, rfl, hf, hd⟩ := returned h
  have key : ∀ n t, n ≤ 191 → out.priority = UInt8.ofNat n → input = 60 :: (dec n ++ 62 :: t) →
      ∃ n t, n ≤ 191 ∧ input = 60 :: (dec n ++ 62 :: t) ∧ out.export.priority = some (UInt8.ofNat n) :=
    fun n t h1 h2 h3 => ⟨n, t, h1, h3, by simp [Out.export, Base.computeFromPriority, h2]⟩
  rcases hd with ⟨-, hd⟩ | hd
  · obtain ⟨p, hwf, rfl, rfl⟩ := descend_iff.mp hd
    exact Or.inl (key p.pri _ hwf.pri rfl rfl)
  · rcases descend_stop hd with ⟨hn, -, rfl⟩ | ⟨r, n, rfl, hp, rfl, rfl⟩ | ⟨pri, rest, hpri, rfl, hts⟩
    · have := hf.set; simp at this
    · refine Or.inr ⟨_, rfl, ?_⟩
      generalize (if n = r.length then r.take (n - 1) else r.take n) = ds
      unfold priOut; split <;> simp [Out.export, setP, optField]
    · refine Or.inl (key pri _ hpri ?_ rfl)
      cases hts <;> rfl

/-- A truncated PRI in best effort mode: `<13` gives priority 1. -/
example : (parse1 { bestEffort := true } (ascii "<13")).map (fun r => (r.msg.map Base.priority, r.err)) =
    some (some (some 1), some ⟨.prival, 3⟩) := by decide +kernel

/-- Nothing is promised about the alphabet of ProcID: it can contain a newline, also in strict mode. -/
example : (parse1 {} (ascii "<34>Oct 11 22:14:15 host su[1\n2]: x")).map (fun r => (r.msg.map Base.procID, r.err)) =
    some (some (some (ascii "1\n2")), none) := by decide +kernel

/-- C33: a returned timestamp, also in a partial message, is the one written after `<PRI>`, of a day that exists. -/
theorem C33_timestamp_written (o : Opts) (input : Bytes) (m : Base) (e : Option Err) (t : GoTime.Time)
    (h : parse1 o input = some ⟨some m, e⟩) (ht : m.timestamp = some t) :
    ∃ (n : Nat) (w : When) (tl : Bytes), n ≤ 191 ∧ w.WF o.rfc3339 ∧ t = whenTime o w ∧ input = 60 :: (dec n ++ 62 :: (w.render ++ 32 :: tl)) := by
  obtain ⟨out, rfl, hf, -⟩ := returned h
  simp only [Out.export] at ht
  split at ht
  · rename_i hs
    simp at ht
    obtain ⟨n, w, tl, h1, h2, h3, h4⟩ := hf.time hs
    exact ⟨n, w, tl, h1, h2, by rw [← ht, h3], h4⟩
  · simp at ht

/-! ## C34 -/

/-- C34: `tag[pid]: text`, where neither `pid` nor `text` contains `]`. -/
theorem C34_tag_pid_text (o : Opts) (pri : Nat) (w : When) (host tag pid text : Bytes) (h1 : pri ≤ 191) (h2 : w.WF o.rfc3339)
    (h3 : NameWF 255 host) (ht : TagWF tag) (hp : ∀ b ∈ pid, b ≠ 93) (hx : ∀ b ∈ text, b ≠ 93) (hne : text ≠ []) (hc : Clean text) :
    ∃ m, parse1 o ([60] ++ dec pri ++ [62] ++ w.render ++ [32] ++ host ++ [32] ++ tag ++ ascii "[" ++ pid ++ ascii "]: " ++ text) =
        some ⟨some m, none⟩ ∧
      m.appname = given tag ∧ m.procID = given pid ∧ m.message = some text := by
  have e : [60] ++ dec pri ++ [62] ++ w.render ++ [32] ++ host ++ [32] ++ tag ++ ascii "[" ++ pid ++ ascii "]: " ++ text =
      (⟨pri, w, host, tag ++ 91 :: (pid ++ 93 :: 58 :: 32 :: text), tag, pid, text⟩ : Bsd.Parts).render := by
    simp [Bsd.Parts.render, ascii]
  rw [e]
  exact ⟨_, accepts o ⟨h1, h2, h3, reads_tagged ht hp hx hne hc⟩, rfl, rfl, rfl⟩

/-- C34: `tag: text`. -/
theorem C34_tag_text (o : Opts) (pri : Nat) (w : When) (host tag text : Bytes) (h1 : pri ≤ 191) (h2 : w.WF o.rfc3339)
    (h3 : NameWF 255 host) (ht : TagWF tag) (hne : text ≠ []) (hc : Clean text) :
    ∃ m, parse1 o ([60] ++ dec pri ++ [62] ++ w.render ++ [32] ++ host ++ [32] ++ tag ++ ascii ": " ++ text) = some ⟨some m, none⟩ ∧
      m.appname = given tag ∧ m.procID = none ∧ m.message = some text := by
  have e : [60] ++ dec pri ++ [62] ++ w.render ++ [32] ++ host ++ [32] ++ tag ++ ascii ": " ++ text =
      (⟨pri, w, host, tag ++ 58 :: 32 :: text, tag, [], text⟩ : Bsd.Parts).render := by
    simp [Bsd.Parts.render, ascii]
  rw [e]
  exact ⟨_, accepts o ⟨h1, h2, h3, .colon ht hne hc⟩, rfl, rfl, rfl⟩

/-- C34: a MSG without a tag is the message, unchanged. -/
theorem C34_no_tag (o : Opts) (pri : Nat) (w : When) (host msg : Bytes) (h1 : pri ≤ 191) (h2 : w.WF o.rfc3339)
    (h3 : NameWF 255 host) (hne : msg ≠ []) (hc : Clean msg)
    (hn : ∀ tag r, TagWF tag → msg ≠ tag ++ ascii ":" ++ r ∧ msg ≠ tag ++ ascii "[" ++ r) :
    ∃ m, parse1 o ([60] ++ dec pri ++ [62] ++ w.render ++ [32] ++ host ++ [32] ++ msg) = some ⟨some m, none⟩ ∧
      m.appname = none ∧ m.procID = none ∧ m.message = some msg := by
  have e : [60] ++ dec pri ++ [62] ++ w.render ++ [32] ++ host ++ [32] ++ msg =
      (⟨pri, w, host, msg, [], [], msg⟩ : Bsd.Parts).render := by
    simp [Bsd.Parts.render]
  rw [e]
  refine ⟨_, accepts o ⟨h1, h2, h3, .plain hne hc ?_⟩, rfl, rfl, rfl⟩
  intro tag r ht
  have := hn tag r ht
  simpa [ascii] using this

theorem follows_inside {pid x y : Bytes} (hp : ∀ b ∈ pid, b ≠ 93) (h : Follows (pid ++ 93 :: 58 :: 32 :: x) y) : y = x ∨ Follows x y := by
  obtain ⟨⟨a, ha⟩, hy⟩ := h
  rw [show a ++ (ascii "]: " ++ y) = a ++ 93 :: (58 :: 32 :: y) by simp [ascii]] at ha
  rcases List.append_eq_append_iff.mp ha with ⟨a', h1, h2⟩ | ⟨a', h1, h2⟩
  · match a', h2 with
    | [], h2 => simp at h2; exact Or.inl h2.symm
    | [_], h2 => simp at h2
    | [_, _], h2 => simp at h2
    | _ :: _ :: _ :: a'', h2 =>
      simp only [List.cons_append, List.cons.injEq] at h2
      exact Or.inr ⟨⟨a'', by rw [h2.2.2.2]; simp [ascii]⟩, hy⟩
  · cases a' with
    | nil => simp at h2; exact Or.inl h2
    | cons x a' =>
      simp only [List.cons_append, List.cons.injEq] at h2
      exact absurd rfl (hp 93 (by rw [h1, ← h2.1]; simp))

/-- C34 is false when the text contains `]`: in `tag[pid]: a]b`, with `b` after the last `]` and no further `]: `, the pid is overwritten
by `a`. -/
theorem C34_bracket_overwrites (o : Opts) (pri : Nat) (w : When) (host tag pid a b : Bytes) (h1 : pri ≤ 191) (h2 : w.WF o.rfc3339)
    (h3 : NameWF 255 host) (ht : TagWF tag) (hp : ∀ x ∈ pid, x ≠ 93) (hne : a ≠ []) (hc : Clean (a ++ ascii "]" ++ b))
    (hb : ∀ x ∈ b, x ≠ 93) (hno : ∀ u v, a ++ ascii "]" ++ b = u ++ ascii "]: " ++ v → v = []) :
    ∃ m, parse1 o ([60] ++ dec pri ++ [62] ++ w.render ++ [32] ++ host ++ [32] ++ tag ++ ascii "[" ++ pid ++ ascii "]: " ++
        (a ++ ascii "]" ++ b)) = some ⟨some m, none⟩ ∧
      m.appname = given tag ∧ m.procID = given a ∧ m.message = some (a ++ ascii "]" ++ b) := by
  have e : [60] ++ dec pri ++ [62] ++ w.render ++ [32] ++ host ++ [32] ++ tag ++ ascii "[" ++ pid ++ ascii "]: " ++ (a ++ ascii "]" ++ b) =
      (⟨pri, w, host, tag ++ 91 :: ((pid ++ 93 :: 58 :: 32 :: a) ++ 93 :: b), tag, a, a ++ ascii "]" ++ b⟩ : Bsd.Parts).render := by
    simp [Bsd.Parts.render, ascii]
  rw [e]
  obtain ⟨c, r, rfl⟩ : ∃ c r, a = c :: r := by cases a with
    | nil => exact absurd rfl hne
    | cons c r => exact ⟨c, r, rfl⟩
  have hcc : ¬ Control c := hc c (by simp)
  have hn : ∀ y, ¬ Follows ((c :: r) ++ ascii "]" ++ b) y := by
    rintro y ⟨⟨u, hu⟩, d, r', rfl, -⟩
    have := hno u (d :: r') (by rw [hu]; simp)
    simp at this
  refine ⟨_, accepts o ⟨h1, h2, h3, .closed ht hb (Or.inl ⟨⟨⟨pid, by simp [ascii]⟩, c, r, rfl, hcc⟩, ?_⟩)
    (Or.inl ⟨⟨⟨pid, by simp [ascii]⟩, c, r ++ ascii "]" ++ b, by simp, hcc⟩, ?_⟩) hc⟩, rfl, rfl, rfl⟩
  · intro y hy
    rcases follows_inside hp hy with rfl | hy
    · exact Nat.le_refl _
    · obtain ⟨⟨u, hu⟩, d, r', rfl, hd⟩ := hy
      exact absurd ⟨⟨u, by rw [hu]; simp⟩, d, r' ++ ascii "]" ++ b, by simp, hd⟩ (hn (d :: (r' ++ ascii "]" ++ b)))
  · intro y hy
    have : (pid ++ 93 :: 58 :: 32 :: (c :: r)) ++ 93 :: b = pid ++ 93 :: 58 :: 32 :: ((c :: r) ++ ascii "]" ++ b) := by simp [ascii]
    rw [this] at hy
    rcases follows_inside hp hy with rfl | hy
    · exact Nat.le_refl _
    · exact absurd hy (hn y)

/-- the hypotheses of `C34_bracket_overwrites`: `su[123]: see [1] please` -/
example : (ascii "see [1") ≠ [] ∧ (∀ x ∈ ascii " please", x ≠ 93) ∧
    (parse1 {} (ascii "<34>Oct 11 22:14:15 host su[123]: see [1] please")).map (fun r => r.msg.map fun m => (m.appname, m.procID, m.message)) =
      some (some (some (ascii "su"), some (ascii "see [1"), some (ascii "see [1] please"))) := by decide +kernel

/-- C34 is false when the text contains `]`: the pid is overwritten by everything up to the last `]`, and a further `]: ` cuts the text. -/
example : (parse1 {} (ascii "<34>Oct 11 22:14:15 host su[123]: a] b]: c")).map (fun r => r.msg.map fun m => (m.appname, m.procID, m.message)) =
    some (some (some (ascii "su"), some (ascii "a] b"), some (ascii "c"))) := by decide +kernel

/-- C34: the reading of MSG is unique; `C31_accepts_iff` and `Reads` say what it is in general. -/
theorem C34_reading_unique {msg tag pid text tag' pid' text' : Bytes} (h : Reads msg tag pid text) (h' : Reads msg tag' pid' text') :
    tag = tag' ∧ pid = pid' ∧ text = text' := reads_unique h h'

/-! ## C35 -/

/-- C35: adding `WithRFC3339` changes the result only of inputs refused because of their timestamp. -/
theorem C35_rfc3339_conservative (o : Opts) (input : Bytes) (r : Result) (h : parse1 { o with rfc3339 := false } input = some r)
    (ht : ∀ c, r.err ≠ some ⟨.timestamp, c⟩) : parse1 { o with rfc3339 := true } input = some r := by
  rw [parse1_eq, Option.some.injEq] at h ⊢
  have key : descend { o with rfc3339 := true } input = descend { o with rfc3339 := false } input := by
    unfold descend
    split
    · rename_i r'
      split
      · rfl
      · rename_i w tl hp
        by_cases hd : headDigit tl = true
        · exfalso
          have hbad : Bs.scan .m1 tl = .bad 0 := by
            cases tl with
            | nil => simp [headDigit] at hd
            | cons b l =>
              have hd' : 48 ≤ b.toNat ∧ b.toNat ≤ 57 := by simpa [headDigit] using hd
              have : Bs.step .m1 b = none := by
                have key : ∀ n : _root_.Fin 256, 48 ≤ n.val ∧ n.val ≤ 57 → Bs.step .m1 (UInt8.ofNat n.val) = none := by decide +kernel
                have := key ⟨b.toNat, b.toNat_lt⟩ hd'
                simpa using this
              simp [Bs.scan, this]
          simp only [descend, hp] at h
          rw [show dTime { o with rfc3339 := false } (1 + w.length + 1) tl (setP w) = mkErr .timestamp (1 + w.length + 1) (setP w) by
            simp [dTime, dBsd, hbad]] at h
          apply ht (1 + w.length + 1)
          rw [← h, resultOf_err]; rfl
        · simp only [dTime, hd, Bool.and_false]
          rfl
    · rfl
  rw [key, ← h]
  cases descend { o with rfc3339 := false } input <;> rfl

/-- C35: in particular every accepted message is accepted with the same result. -/
theorem C35_accepted_same (o : Opts) (input : Bytes) (m : Base) (h : parse1 { o with rfc3339 := false } input = some ⟨some m, none⟩) :
    parse1 { o with rfc3339 := true } input = some ⟨some m, none⟩ := C35_rfc3339_conservative o input _ h (fun _ h => by simp at h)

example : parse1 {} (ascii "<34>2003-10-11T22:14:15Z host su: x") = some ⟨none, some ⟨.timestamp, 4⟩⟩ ∧
    ((parse1 { rfc3339 := true } (ascii "<34>2003-10-11T22:14:15Z host su: x")).map fun r => r.msg.map Base.timestamp) =
      some (some (some ⟨2003, 10, 11, 22, 14, 15, 0, 0⟩)) ∧
    parse1 { rfc3339 := true } sample.render = parse1 {} sample.render :=
  ⟨by decide +kernel, by decide +kernel, by decide +kernel⟩

/-! ## C36 -/

open GoTime in
/-- a message with a classic timestamp is read with any options; its timestamp -/
theorem stamp_of (o : Opts) {p : Bsd.Parts} {s : BStamp} (h : p.WF o.rfc3339) (hs : p.time = .bsd s) :
    ∃ m, parse1 o p.render = some ⟨some m, none⟩ ∧ m.timestamp = some (adjust o (Bs.stampTime s)) := by
  refine ⟨_, accepts o h, ?_⟩
  rw [hs]; rfl

open GoTime in
/-- C36: `WithYear` gives the written month, day and time in that year, in UTC, when the day exists in that year. -/
theorem C36_year (o : Opts) (p : Bsd.Parts) (s : BStamp) (h : p.WF o.rfc3339) (hs : p.time = .bsd s)
    (hl : o.loc = none) (hz : o.timezone = none) (hd : s.day ≤ daysIn s.month o.yyyy) :
    ∃ m, parse1 o p.render = some ⟨some m, none⟩ ∧ m.timestamp = some ⟨o.yyyy, s.month, s.day, s.hour, s.min, s.sec, 0, 0⟩ := by
  obtain ⟨m, h1, h2⟩ := stamp_of o h hs
  refine ⟨m, h1, ?_⟩
  have hw := h.time
  rw [hs] at hw
  obtain ⟨⟨e1, e2, e3, e4, e5, e6, e7⟩, -⟩ := hw
  rw [h2]
  simp only [adjust, hl, hz, Time.addYears, Bs.stampTime, Int.zero_add]
  rw [date_utc e1 e2 (by omega) (by omega) (by omega) e3 hd]

/-- an instance, with its hypotheses -/
example : (⟨2, 28, 22, 14, 15⟩ : BStamp).day ≤ GoTime.daysIn 2 2003 ∧
    ((parse1 { yyyy := 2003 } (ascii "<34>Feb 28 22:14:15 h a: x")).bind (·.msg)).map (·.timestamp) = some (some ⟨2003, 2, 28, 22, 14, 15, 0, 0⟩) :=
  ⟨by decide, by decide +kernel⟩

open GoTime in
/-- C36: the only day that can be missing in the given year is February 29; it becomes March 1. -/
theorem C36_year_feb29 (o : Opts) (p : Bsd.Parts) (s : BStamp) (h : p.WF o.rfc3339) (hs : p.time = .bsd s)
    (hl : o.loc = none) (hz : o.timezone = none) (hd : ¬ s.day ≤ daysIn s.month o.yyyy) :
    s.month = 2 ∧ s.day = 29 ∧ ∃ m, parse1 o p.render = some ⟨some m, none⟩ ∧
      m.timestamp = some ⟨o.yyyy, 3, 1, s.hour, s.min, s.sec, 0, 0⟩ := by
  obtain ⟨m, h1, h2⟩ := stamp_of o h hs
  have hw := h.time
  rw [hs] at hw
  obtain ⟨⟨e1, e2, e3, e4, e5, e6, e7⟩, hr⟩ := hw
  have hm : s.month = 2 ∧ s.day = 29 ∧ isLeap o.yyyy = false := by
    simp only [BStamp.Real] at hr
    by_cases h2 : s.month = 2
    · rw [if_pos h2] at hr
      have hle := daysIn_range s.month o.yyyy
      refine ⟨h2, by omega, ?_⟩
      cases hlp : isLeap o.yyyy with
      | false => rfl
      | true => exfalso; apply hd; rw [h2]; simp [daysIn, hlp]; omega
    · exfalso; apply hd
      have : daysIn s.month o.yyyy = daysIn s.month 0 := by simp [daysIn, h2]
      rw [this]
      exact (Bs.real_iff s ⟨e1, e2, e3, e4, e5, e6, e7⟩).mpr hr
  refine ⟨hm.1, hm.2.1, m, h1, ?_⟩
  rw [h2]
  simp only [adjust, hl, hz, Time.addYears, Bs.stampTime, Int.zero_add, hm.1, hm.2.1]
  have key : (date o.yyyy 2 29 s.hour s.min s.sec 0 utc) = date o.yyyy 3 1 s.hour s.min s.sec 0 utc := by
    unfold date
    rw [civil_feb29 hm.2.2, civil_self (y := o.yyyy) (m := 3) (d := 1) (by omega) (by simp [daysIn])]
  have := date_utc (y := o.yyyy) (m := 3) (d := 1) (h := s.hour) (mi := s.min) (s := s.sec) (ns := 0) (by omega) (by omega) (by omega) (by omega)
    (by omega) (by omega) (by simp [daysIn])
  rw [show ((29 : Nat) : Int) = 29 from rfl, key, ← this]
  rfl

open GoTime in
theorem stampTime_valid {s : BStamp} (h : s.WF) (hr : s.Real) : (Bs.stampTime s).Valid := by
  have := (Bs.real_iff s h).mpr hr
  obtain ⟨e1, e2, e3, e4, e5, e6, e7⟩ := h
  exact ⟨e1, e2, e3, this, by simp only [Bs.stampTime]; omega, by simp only [Bs.stampTime]; omega, by simp only [Bs.stampTime]; omega⟩

open GoTime in
theorem inZone_valid {s : BStamp} (h : s.WF) (l : Location) : (inZone (Bs.stampTime s) l).Valid := by
  obtain ⟨e1, e2, e3, e4, e5, e6, e7⟩ := h
  exact date_valid e1 e2 (by simp only [Bs.stampTime]; omega) (by simp only [Bs.stampTime]; omega) (by simp only [Bs.stampTime]; omega)

open GoTime in
theorem addYears_valid {t : Time} (h : t.Valid) (y : Int) (l : Location) : (t.addYears y l).Valid := by
  obtain ⟨e1, e2, e3, e4, e5, e6, e7⟩ := h
  exact date_valid e1 e2 e5 e6 e7

open GoTime in
theorem adjust_valid (o : Opts) {s : BStamp} (h : s.WF) (hr : s.Real) : (adjust { o with loc := none } (Bs.stampTime s)).Valid := by
  simp only [adjust]
  cases o.timezone with
  | none => exact addYears_valid (stampTime_valid h hr) _ _
  | some l => exact addYears_valid (inZone_valid h l) _ _

open GoTime in
/-- C36: `WithTimezone` changes only the presentation: the timestamp is the same instant as without the option, shown with the
offset that the zone has at that instant. -/
theorem C36_timezone_same_instant (o : Opts) (l : Location) (p : Bsd.Parts) (s : BStamp) (h : p.WF o.rfc3339) (hs : p.time = .bsd s) :
    ∃ m m' t t', parse1 { o with loc := none } p.render = some ⟨some m, none⟩ ∧
      parse1 { o with loc := some l } p.render = some ⟨some m', none⟩ ∧ m.timestamp = some t ∧ m'.timestamp = some t' ∧
      t'.unix = t.unix ∧ t'.nsec = t.nsec ∧ t'.off = l.offsetAt t.unix ∧ t'.Valid ∧ m' = { m with timestamp := some t' } := by
  have hw := h.time
  rw [hs] at hw
  have hv := adjust_valid o hw.1 hw.2
  refine ⟨_, _, adjust { o with loc := none } (Bs.stampTime s), adjust { o with loc := some l } (Bs.stampTime s),
    accepts { o with loc := none } h, accepts { o with loc := some l } h, by rw [hs]; rfl, by rw [hs]; rfl, ?_, rfl, rfl, ?_, by rw [hs]; rfl⟩
  · exact Time.inLoc_unix hv l
  · exact Time.inLoc_valid hv l

open GoTime in
/-- `wall` (seconds from 1970-01-01 00:00 on a clock in the location) is a time that the clocks of `l` show, and `time.Date` finds it -/
def Shown (l : Location) (wall : Int) : Prop := l.offsetAt (wall - l.resolve wall) = l.resolve wall

open GoTime in
theorem date_shown {y : Int} {m d h mi s : Nat} {l : Location} (h1 : 1 ≤ m) (h2 : m ≤ 12) (h3 : h < 24) (h4 : mi < 60)
    (h5 : s < 60) (h6 : 1 ≤ d) (h7 : d ≤ daysIn m y) (hl : Shown l (Time.wall ⟨y, m, d, h, mi, s, 0, 0⟩)) :
    date y m d h mi s 0 l = ⟨y, m, d, h, mi, s, 0, l.resolve (Time.wall ⟨y, m, d, h, mi, s, 0, 0⟩)⟩ := by
  unfold date
  rw [civil_self (by omega) (by omega)]
  simp only [Int.toNat_natCast]
  refine Time.inLoc_self ⟨h1, h2, h6, h7, h3, h4, h5⟩ ?_
  exact hl

open GoTime in
/-- C36: `WithLocaleTimezone` reads the written time as a time of that zone: the timestamp shows the written month, day and time in the
given year, with the offset of the zone at that instant. (The hypotheses `Shown` exclude only times that the clocks of the zone skip,
in that year or in year 0.) -/
theorem C36_locale_timezone (o : Opts) (l : Location) (p : Bsd.Parts) (s : BStamp) (h : p.WF o.rfc3339) (hs : p.time = .bsd s)
    (hl : o.loc = none) (hz : o.timezone = some l) (hd : s.day ≤ daysIn s.month o.yyyy)
    (h0 : Shown l (Time.wall ⟨0, s.month, s.day, s.hour, s.min, s.sec, 0, 0⟩))
    (hy : Shown l (Time.wall ⟨o.yyyy, s.month, s.day, s.hour, s.min, s.sec, 0, 0⟩)) :
    ∃ m t, parse1 o p.render = some ⟨some m, none⟩ ∧ m.timestamp = some t ∧
      t.year = o.yyyy ∧ t.month = s.month ∧ t.day = s.day ∧ t.hour = s.hour ∧ t.min = s.min ∧ t.sec = s.sec ∧ t.nsec = 0 ∧
      t.off = l.offsetAt t.unix := by
  obtain ⟨m, h1, h2⟩ := stamp_of o h hs
  have hw := h.time
  rw [hs] at hw
  obtain ⟨hwf, hr⟩ := hw
  have hd0 := (Bs.real_iff s hwf).mpr hr
  obtain ⟨e1, e2, e3, e4, e5, e6, e7⟩ := hwf
  have k1 : inZone (Bs.stampTime s) l = ⟨0, s.month, s.day, s.hour, s.min, s.sec, 0, l.resolve (Time.wall ⟨0, s.month, s.day, s.hour, s.min, s.sec, 0, 0⟩)⟩ := date_shown e1 e2 (show s.hour < 24 by omega) (show s.min < 60 by omega) (show s.sec < 60 by omega) e3 hd0 h0
  have k2 := date_shown e1 e2 (show s.hour < 24 by omega) (show s.min < 60 by omega) (show s.sec < 60 by omega) e3 hd hy
  refine ⟨m, _, h1, h2, ?_⟩
  simp only [adjust, hl, hz, k1, Time.addYears, Int.zero_add, k2, true_and]
  exact hy.symm

open GoTime in
/-- C36: an RFC 3339 timestamp keeps its own date and offset: `WithYear`, `WithTimezone` and `WithLocaleTimezone` have no effect on it. -/
theorem C36_rfc3339_unaffected (o : Opts) (p : Bsd.Parts) (s : Stamp) (h : p.WF o.rfc3339) (hs : p.time = .iso s) :
    ∃ m, parse1 o p.render = some ⟨some m, none⟩ ∧
      m.timestamp = some ⟨s.year, s.month, s.day, s.hour, s.min, s.sec, 0, s.zone.seconds⟩ := by
  refine ⟨_, accepts o h, ?_⟩
  have hw := h.time
  rw [hs] at hw
  rw [hs]
  simp only [Bsd.Parts.toMessage, whenTime, Stamp.time, hw.2.2.2]
  rfl

/-- February 29 in 2019, in 2020, and in 2020 shown in and read in UTC+1 -/
example : ((parse1 { yyyy := 2019 } sample.render).map fun r => r.msg.map Base.timestamp) = some (some (some ⟨2019, 3, 1, 22, 14, 15, 0, 0⟩)) ∧
    ((parse1 { yyyy := 2020 } sample.render).map fun r => r.msg.map Base.timestamp) = some (some (some ⟨2020, 2, 29, 22, 14, 15, 0, 0⟩)) ∧
    ((parse1 { yyyy := 2020, loc := some (GoTime.fixedZone 7200) } sample.render).map fun r => r.msg.map Base.timestamp) =
      some (some (some ⟨2020, 3, 1, 0, 14, 15, 0, 7200⟩)) ∧
    ((parse1 { yyyy := 2020, timezone := some (GoTime.fixedZone 7200) } sample.render).map fun r => r.msg.map Base.timestamp) =
      some (some (some ⟨2020, 2, 29, 22, 14, 15, 0, 7200⟩)) := by decide +kernel

/-- every time is shown in a fixed zone -/
example (off w : Int) : Shown (GoTime.fixedZone off) w := rfl

/-! ## C37 -/

/-- Parse a sequence of inputs with the same machine; the machine afterwards. -/
def parseMany (o : Opts) (m : M) : List Bytes → Option M
  | [] => some m
  | input :: rest => (parse o m input).bind fun r => parseMany o r.2 rest

/-- C37: after any history a machine answers like a new one. -/
theorem C37_history_independent (o : Opts) (history : List Bytes) (input : Bytes) :
    ∃ m, parseMany o {} history = some m ∧ (parse o m input).map Prod.fst = parse1 o input := by
  have key : ∀ m : M, ∃ m', parseMany o m history = some m' := by
    induction history with
    | nil => intro m; exact ⟨m, rfl⟩
    | cons x xs ih =>
      intro m
      have h := parse_eq o m x
      cases hp : parse o m x with
      | none => rw [hp] at h; simp at h
      | some r =>
        obtain ⟨m'', h3⟩ := ih r.2
        exact ⟨m'', by rw [parseMany, hp]; exact h3⟩
  obtain ⟨m, h⟩ := key {}
  exact ⟨m, h, by rw [parse1_eq, parse_eq]⟩

/-- C37: `NewParser(...).Parse` returns what the machine returns. -/
theorem C37_parser_same_as_machine (o : Opts) (m : M) (input : Bytes) : parserParse o m input = parse o m input := by
  have h := parse_eq o m input
  rw [parserParse]
  cases hp : parse o m input with
  | none => rfl
  | some x =>
    obtain ⟨⟨msg, err⟩, m'⟩ := x
    rw [hp] at h
    simp only [Option.map_some, Option.some.injEq] at h
    cases err with
    | none => rfl
    | some e =>
      cases hb : o.bestEffort with
      | true => simp
      | false =>
        have : msg = none := by
          cases hd : descend o input with
          | ok out => rw [hd] at h; simp [resultOf] at h
          | stop e out => rw [hd] at h; simp [resultOf, hb] at h; exact h.1
        simp [this]

/-- C37: strict and best effort mode report the same error at the same column. -/
theorem C37_error_same (o : Opts) (input : Bytes) (e : Err) :
    (∃ msg, parse1 { o with bestEffort := false } input = some ⟨msg, some e⟩) ↔
      ∃ msg, parse1 { o with bestEffort := true } input = some ⟨msg, some e⟩ := by
  have hd : descend { o with bestEffort := false } input = descend { o with bestEffort := true } input := rfl
  have key : ∀ b, (∃ msg, parse1 { o with bestEffort := b } input = some ⟨msg, some e⟩) ↔
      (resultOf { o with bestEffort := b } (descend { o with bestEffort := b } input)).err = some e := by
    intro b
    rw [parse1_eq]
    constructor
    · rintro ⟨msg, h⟩; simp at h; rw [h]
    · intro h; exact ⟨_, by rw [← h]⟩
  rw [key, key, resultOf_err, resultOf_err, hd]

/-- C37: best effort does not change a successful parse. -/
theorem C37_success_same (o : Opts) (input : Bytes) (m : Base) (h : parse1 { o with bestEffort := false } input = some ⟨some m, none⟩) :
    parse1 { o with bestEffort := true } input = some ⟨some m, none⟩ := by
  obtain ⟨p, hwf, rfl, rfl⟩ := (C31_accepts_iff { o with bestEffort := false } rfl _ _).mp h
  exact accepts { o with bestEffort := true } hwf

example : ∃ m, parseMany {} {} [ascii "<34>Oct 11 22:14:15 host su[1", ascii "<34>Oct 11 22"] = some m ∧ m.err = some ⟨.timestamp, 13⟩ ∧
    (parse {} m sample.render).map Prod.fst = parse1 {} sample.render := by
  obtain ⟨m, h1, h2⟩ := C37_history_independent {} [ascii "<34>Oct 11 22:14:15 host su[1", ascii "<34>Oct 11 22"] sample.render
  have h3 : (parseMany {} {} [ascii "<34>Oct 11 22:14:15 host su[1", ascii "<34>Oct 11 22"]).map M.err = some (some ⟨.timestamp, 13⟩) := by
    decide +kernel
  rw [h1] at h3
  simp at h3
  exact ⟨m, h1, h3, h2⟩

/-! ## C38 -/

/-- C38: no input, no options and no state of the machine make `Parse` panic (or loop). -/
theorem C38_no_panic (o : Opts) (m : M) (input : Bytes) : ∃ r, parse o m input = some r := by
  have h := parse_eq o m input
  cases hp : parse o m input with
  | none => rw [hp] at h; simp at h
  | some r => exact ⟨r, rfl⟩

theorem err_stop {o : Opts} {input : Bytes} {msg : Option Base} {e : Err} (h : parse1 o input = some ⟨msg, some e⟩) :
    ∃ out, descend o input = .stop (some e) out ∧ msg = if o.bestEffort && out.minimal then some out.export else none := by
  rw [parse1_eq, Option.some.injEq] at h
  cases hd : descend o input with
  | ok out => rw [hd] at h; simp [resultOf] at h
  | stop e' out =>
    rw [hd] at h
    simp only [resultOf] at h
    split at h
    · rename_i hm; simp at h; exact ⟨out, by rw [h.2], by rw [if_pos hm, h.1]⟩
    · rename_i hm; simp at h; exact ⟨out, by rw [h.2], by rw [if_neg hm, ← h.1]⟩

/-- C38: the column of an error is between 0 and the length of the input. -/
theorem C38_column_in_range (o : Opts) (input : Bytes) (msg : Option Base) (e : Err)
    (h : parse1 o input = some ⟨msg, some e⟩) : e.col ≤ input.length := by
  obtain ⟨out, hd, -⟩ := err_stop h
  exact (descend_prefix hd).1

/-- C38: an error reported before the end of the input is decided by the bytes up to and including the reported column: same error and
same (partial) message for any continuation. -/
theorem C38_error_decided_by_prefix (o : Opts) (input input2 : Bytes) (msg : Option Base) (e : Err)
    (h : parse1 o input = some ⟨msg, some e⟩) (hc : e.col < input.length)
    (hp : input2.take (e.col + 1) = input.take (e.col + 1)) : parse1 o input2 = some ⟨msg, some e⟩ := by
  obtain ⟨out, hd, rfl⟩ := err_stop h
  rw [parse1_eq, (descend_prefix hd).2 hc input2 hp]
  simp only [resultOf]
  split <;> rfl

example : parse1 {} (ascii "<34>Oct 11 22:14:15 ho\nst su: x") = some ⟨none, some ⟨.hostname, 22⟩⟩ ∧
    parse1 {} (ascii "<34>Oct 11 22:14:15 host ") = some ⟨none, some ⟨.tag, 25⟩⟩ ∧
    parse1 {} (ascii "<34>Feb 30 22:14:15 host su: x") = some ⟨none, some ⟨.timeParse, 19⟩⟩ ∧
    parse1 { rfc3339 := true } (ascii "<34>2003-10-11T22:14:15+99") = some ⟨none, some ⟨.rfc3339, 24⟩⟩ :=
  ⟨by decide +kernel, by decide +kernel, by decide +kernel, by decide +kernel⟩

/-- C38: an impossible date is always reported, at the space that follows the timestamp. -/
theorem C38_impossible_date (o : Opts) (pri : Nat) (w : When) (t : Bytes) (h1 : pri ≤ 191) (h2 : w.Text o.rfc3339) (h3 : ¬ w.WF o.rfc3339) :
    ∃ msg, parse1 o ([60] ++ dec pri ++ [62] ++ w.render ++ [32] ++ t) = some ⟨msg, some ⟨.timeParse, 2 + (dec pri).length + w.render.length⟩⟩ := by
  have hn : ¬ WhenReal w := fun hr => h3 (when_wf.mpr ⟨h2, hr⟩)
  have e : [60] ++ dec pri ++ [62] ++ w.render ++ [32] ++ t = 60 :: (dec pri ++ 62 :: (w.render ++ 32 :: t)) := by simp
  rw [e, parse1_eq, descend_pri h1, dTime_noDate h2 hn]
  have hc : 1 + (dec pri).length + 1 + w.render.length = 2 + (dec pri).length + w.render.length := by omega
  simp only [mkErr, resultOf, hc]
  split <;> exact ⟨_, rfl⟩

/-- April 31 is a `Text` of a timestamp that no date has -/
example : (When.bsd ⟨4, 31, 22, 14, 15⟩).Text false ∧ ¬ (When.bsd ⟨4, 31, 22, 14, 15⟩).WF false ∧
    parse1 {} (ascii "<34>Apr 31 22:14:15 host su: x") = some ⟨none, some ⟨.timeParse, 19⟩⟩ :=
  ⟨by simp only [When.Text, BStamp.WF]; decide, fun h => absurd h.2 (by decide), by decide +kernel⟩

end Verif.Props.Bsd
