import Verif.Props.Rfc3164Viable
import Verif.Spec.BsdCut
import Verif.Rfc5424.Cut

/-!
# C94: truncated RFC 3164 messages
-/

namespace Verif.Props.Bsd
open Verif.Spec Verif.Spec.Bsd Verif.Rfc3164
open Verif.Rfc5424 (sep_cut dec_not_mem)

/-- a proper beginning of a word of a prefix-free language -/
theorem fails_cut {L : Bytes → Prop} (free : ∀ a b, L a → L b → a <+: b → a = b) {x w : Bytes} (hw : L w) (hx : x <+: w) (hne : x ≠ w) :
    Fails L x x.length := by
  refine ⟨?_, Nat.le_refl _, ?_, fun h => absurd h (by omega)⟩
  · intro u hu h
    have := free u w hu hw (h.trans hx)
    subst this
    exact hne (hx.eq_of_length_le h.length_le)
  · obtain ⟨t, ht⟩ := hx
    exact ⟨t, by rw [List.take_length, ht]; exact hw⟩

theorem priText_free : ∀ a b, PriText a → PriText b → a <+: b → a = b := by
  rintro _ _ ⟨n, -, rfl⟩ ⟨k, -, rfl⟩ h
  have := (sep_cut (dec_not_mem (by decide)) (dec_not_mem (by decide)) h).1
  rw [this]

theorem nameWF_no_space {k : Nat} {w : Bytes} (h : NameWF k w) : (32 : UInt8) ∉ w := by
  intro hm
  have := h.2.2 32 hm
  simp [Printable] at this

theorem fieldText_free (k : Nat) : ∀ a b, FieldText k a → FieldText k b → a <+: b → a = b := by
  rintro _ _ ⟨n, h1, rfl⟩ ⟨k, h2, rfl⟩ h
  have := (sep_cut (nameWF_no_space h1) (nameWF_no_space h2) h).1
  rw [this]

theorem bsdText_free : ∀ a b, BsdText a → BsdText b → a <+: b → a = b := by
  rintro _ _ ⟨s, h1, rfl⟩ ⟨s', h2, rfl⟩ ⟨z, hz⟩
  have a := Bs.scan_complete s h1 z
  have b := Bs.scan_complete s' h2 []
  rw [List.append_nil, ← hz, a] at b
  simp only [Ts.Res.ok.injEq] at b
  rw [← hz, b.2, List.append_nil]

theorem isoText_free : ∀ a b, IsoText a → IsoText b → a <+: b → a = b := by
  rintro _ _ ⟨s, h1, h1', rfl⟩ ⟨s', h2, h2', rfl⟩ ⟨z, hz⟩
  have a := Ts.scan_complete (fr := false) s h1 (fun _ => h1') z
  have b := Ts.scan_complete (fr := false) s' h2 (fun _ => h2') []
  rw [List.append_nil, ← hz, a] at b
  simp only [Ts.Res.ok.injEq] at b
  rw [← hz, b.2, List.append_nil]

theorem seen_exists (msg : Bytes) : ∃ tag pid, Seen msg tag pid := by
  by_cases hn : ∀ tag r, TagWF tag → msg ≠ tag ++ 58 :: r ∧ msg ≠ tag ++ 91 :: r
  · exact ⟨[], [], .plain hn⟩
  · have : ∃ tag r, TagWF tag ∧ (msg = tag ++ 58 :: r ∨ msg = tag ++ 91 :: r) := by
      apply Classical.byContradiction
      intro hc'
      apply hn
      intro tag r ht
      exact ⟨fun e => hc' ⟨tag, r, ht, Or.inl e⟩, fun e => hc' ⟨tag, r, ht, Or.inr e⟩⟩
    obtain ⟨tag, r, ht, (rfl | rfl)⟩ := this
    · exact ⟨tag, [], .colon ht⟩
    · rcases last93 r with h | ⟨u, v, rfl, hv⟩
      · exact ⟨tag, [], .opened ht h⟩
      · obtain ⟨pid, hp⟩ := lastPart_exists u
        exact ⟨tag, pid, .closed ht hv hp⟩

/-- a beginning of a concatenation -/
theorem prefix_app {u a b : Bytes} (h : u <+: a ++ b) : (u <+: a ∧ u ≠ a) ∨ ∃ x, u = a ++ x ∧ x <+: b := by
  by_cases hl : u.length < a.length
  · exact Or.inl ⟨List.prefix_of_prefix_length_le h (List.prefix_append _ _) (by omega), by rintro rfl; omega⟩
  · obtain ⟨x, rfl⟩ := List.prefix_of_prefix_length_le (List.prefix_append a b) h (by omega)
    exact Or.inr ⟨x, rfl, (List.prefix_append_right_inj a).mp h⟩

theorem render_eq (p : Bsd.Parts) : p.render = priText p.pri ++ (p.time.render ++ [32] ++ (p.host ++ [32] ++ p.msg)) := by
  simp [Bsd.Parts.render, priText]

/-- every beginning of a list of digits is a number, if it is not empty -/
theorem dec_prefix {n : Nat} {ds : Bytes} (h : ds <+: dec n) (hne : ds ≠ []) : ∃ k, dec k = ds := by
  induction n using Nat.strongRecOn with
  | ind n ih =>
    by_cases hn : n < 10
    · refine ⟨n, ?_⟩
      refine (h.eq_of_length_le ?_).symm
      have := List.length_pos_iff.mpr hne
      rw [dec_lt hn]
      exact this
    · rw [dec_ge (by omega)] at h
      rcases List.prefix_concat_iff.mp h with h1 | h1
      · exact ⟨n, by rw [h1, ← dec_ge (by omega)]⟩
      · exact ih (n / 10) (by omega) h1

theorem stamp_length (s : Stamp) : 19 ≤ s.render.length := by
  unfold Stamp.render
  simp [d2, d4]
  try omega

/-- C94: what best effort returns for every beginning of a message. -/
theorem C94_every_cut (o : Opts) (p : Bsd.Parts) (hp : p.WF o.rfc3339) (u : Bytes) (hu : u <+: p.render) (hb : o.bestEffort = true) :
    ∃ eo mo, parse1 o u = some ⟨mo, eo.map fun k => ⟨k, u.length⟩⟩ ∧ Bsd.Cut (whenTime o) p u eo mo := by
  have broken : ∀ {e : Option ErrKind} {m : Option Base}, Broken o.rfc3339 (whenTime o) u (e.map fun k => (k, u.length)) m →
      Bsd.Cut (whenTime o) p u e m →
      ∃ eo mo, parse1 o u = some ⟨mo, eo.map fun k => ⟨k, u.length⟩⟩ ∧ Bsd.Cut (whenTime o) p u eo mo := by
    intro e m h hc
    refine ⟨e, m, (C59_every_outcome o u _).mpr (Or.inr ⟨_, m, h, ?_⟩), hc⟩
    rw [if_pos hb]; cases e <;> rfl
  rw [render_eq] at hu
  rcases prefix_app hu with ⟨h, hne⟩ | ⟨y, hu1, h⟩
  · -- in <PRI>
    cases u with
    | nil =>
      exact broken (e := some .pri) (.noLt (by intro t; simp)) (.start (by simp))
    | cons b ds =>
      have e : priText p.pri = 60 :: (dec p.pri ++ [62]) := by simp [priText]
      rw [e] at h hne
      replace h := List.cons_prefix_cons.mp h
      obtain ⟨rfl, h⟩ := h
      have hne' : ds ≠ dec p.pri ++ [62] := by rintro rfl; exact hne rfl
      have hf : Fails PriText ds ds.length := fails_cut priText_free ⟨_, hp.pri, rfl⟩ h hne'
      have hd : ds <+: dec p.pri := by
        rcases List.prefix_concat_iff.mp h with h | h
        · exact absurd h hne'
        · exact h
      by_cases hl : ds.length ≤ 1
      · refine broken (e := some .prival) (m := none) ?_ ?_
        · have := Broken.noPri (iso := o.rfc3339) (tm := whenTime o) hf (by omega)
          rw [Nat.add_comm] at this
          exact this
        · have := Bsd.Cut.start (tm := whenTime o) (p := p) (u := 60 :: ds) (by simpa using hl)
          rwa [if_neg (by simp)] at this
      · have h2 : 2 ≤ ds.length := by omega
        obtain ⟨k, hk⟩ := dec_prefix ((List.dropLast_prefix ds).trans hd) (by
          intro hh
          have := congrArg List.length hh
          simp at this; omega)
        refine broken (e := some .prival) ?_ (.pri rfl hd h2 hk)
        have := Broken.pri (iso := o.rfc3339) (tm := whenTime o) (k := k) hf (by
          rw [if_pos rfl, hk, List.dropLast_eq_take])
        rw [Nat.add_comm] at this
        exact this
  clear hu
  replace h := prefix_app h
  rcases h with ⟨h, hne⟩ | ⟨z, hu2, h⟩
  · -- in TIME
    subst hu1
    obtain ⟨x, hxy⟩ : ∃ x, x = y := ⟨_, rfl⟩
    subst hxy
    have h : x <+: p.time.render := by
      rcases List.prefix_concat_iff.mp h with h | h
      · exact absurd h hne
      · exact h
    refine broken (e := timeError p.time x) ?_ (.time rfl h)
    have len : (priText p.pri ++ x).length = (priText p.pri).length + x.length := List.length_append
    rw [len]
    have ht := hp.time
    have full : x = p.time.render →
        Broken o.rfc3339 (whenTime o) (priText p.pri ++ x) none (some (priOnly p.pri)) := by
      rintro rfl
      have := Broken.noSpace (tm := whenTime o) (x := []) hp.pri (w := p.time) (iso := o.rfc3339) (by
        cases hw : p.time with
        | bsd s => rw [hw] at ht; exact ht.1
        | iso s => rw [hw] at ht; exact ⟨ht.1, ht.2.1, ht.2.2.2⟩) (by intro t; simp)
      rwa [List.append_nil] at this
    cases hw : p.time with
    | bsd s =>
      rw [hw] at h full ht
      rw [timeError]
      split
      · rename_i hx; exact full hx
      · rename_i hx
        refine .timestamp hp.pri ?_ (fails_cut bsdText_free ⟨s, ht.1, rfl⟩ h hx)
        rintro ⟨-, hd⟩
        obtain ⟨z, hz⟩ := h
        have := bsd_headDigit ht.1 []
        rw [List.append_nil, show s.render = x ++ z from hz.symm] at this
        obtain ⟨d, t, rfl, h1, h2⟩ := hd
        simp [headDigit, h1, h2] at this
    | iso s =>
      rw [hw] at h full ht
      obtain ⟨h1, h2, -, h4⟩ := ht
      have dig : x ≠ [] → DigitFirst x := by
        intro hx
        obtain ⟨z, hz⟩ := h
        have := iso_headDigit h2 []
        rw [List.append_nil, show s.render = x ++ z from hz.symm] at this
        cases x with
        | nil => exact absurd rfl hx
        | cons b l => rw [← headDigit_iff]; simpa [headDigit] using this
      have sl : 19 ≤ s.render.length := stamp_length _
      rw [timeError]
      split
      · rename_i hx
        subst hx
        refine .timestamp hp.pri ?_ (fails_cut bsdText_free ⟨⟨1, 1, 0, 0, 0⟩, by simp [BStamp.WF], rfl⟩ (List.nil_prefix) (by decide))
        rintro ⟨-, d, t, hd, -⟩
        simp at hd
      split
      · rename_i hx hx'
        rcases hx' with hx' | hx'
        · refine .noIso hp.pri h1 (dig hx) ?_
          rintro ⟨s', hs', -, ht'⟩
          have sl' : 19 ≤ s'.render.length := stamp_length _
          have := congrArg List.length ht'
          simp at this; omega
        · exact full hx'
      · rename_i hx hx'
        refine .isoZone hp.pri h1 ?_ (fails_cut isoText_free ⟨s, h2, h4, rfl⟩ h (by intro hh; exact hx' (Or.inr hh)))
        refine ⟨s, h2, h4, ?_⟩
        obtain ⟨z, hz⟩ := h
        rw [show s.render = x ++ z from hz.symm, List.take_append_of_le_length (by omega)]
  replace h := prefix_app h
  subst hu2
  rcases h with ⟨h, hne⟩ | ⟨x, hu3, h⟩
  · -- in HOST
    subst hu1
    obtain ⟨x, hxy⟩ : ∃ x, x = z := ⟨_, rfl⟩
    subst hxy
    refine broken (e := some .hostname) ?_ (.host (x := x) (by simp [Bsd.Parts.upToTime]) ?_)
    · have := Broken.hostname (tm := whenTime o) hp.pri hp.time (fails_cut (fieldText_free 255) ⟨_, hp.host, rfl⟩ h hne)
      rw [show priText p.pri ++ (p.time.render ++ [32] ++ x) = priText p.pri ++ p.time.render ++ [32] ++ x by simp]
      rw [show (priText p.pri ++ p.time.render).length + 1 + x.length = (priText p.pri ++ p.time.render ++ [32] ++ x).length by simp; omega] at this
      exact this
    · rcases List.prefix_concat_iff.mp h with h | h
      · exact absurd h hne
      · exact h
  have eh : priText p.pri ++ (p.time.render ++ [32] ++ (p.host ++ [32] ++ x)) = p.upToHost ++ x := by simp [Bsd.Parts.upToHost, Bsd.Parts.upToTime]
  have eh' : priText p.pri ++ p.time.render ++ [32] ++ p.host ++ [32] ++ x = p.upToHost ++ x := by simp [Bsd.Parts.upToHost, Bsd.Parts.upToTime]
  subst hu3
  rw [eh] at hu1
  subst hu1
  by_cases hx : x = []
  · subst hx
    refine broken (e := some .tag) ?_ (.noMsg (by simp))
    have := Broken.tag (tm := whenTime o) (msg := []) hp.pri hp.time hp.host (by rintro ⟨b, r, hh, -⟩; simp at hh)
    rw [eh'] at this
    have hl : (priText p.pri ++ p.time.render ++ [32] ++ p.host).length + 1 = (p.upToHost ++ []).length := by
      simp [Bsd.Parts.upToHost, Bsd.Parts.upToTime]; omega
    rw [hl] at this
    exact this
  by_cases hr : ∃ tag pid text, Reads x tag pid text
  · obtain ⟨tag, pid, text, hr⟩ := hr
    refine ⟨none, _, (C59_every_outcome o _ _).mpr (Or.inl ⟨{ p with msg := x, tag := tag, pid := pid, text := text }, ⟨hp.pri, hp.time, hp.host, hr⟩, ?_, rfl⟩),
      .msg rfl h hr⟩
    rw [render_eq]; exact eh
  · have hn : ∀ tag pid text, ¬ Reads x tag pid text := fun a b c hh => hr ⟨a, b, c, hh⟩
    obtain ⟨tag, pid, hs⟩ := seen_exists x
    refine broken (e := none) ?_ (.control rfl h hx hn hs)
    have st : Starts x := by
      obtain ⟨b, r, hm, hc⟩ := reads_starts hp.msg
      cases x with
      | nil => exact absurd rfl hx
      | cons b' l =>
        rw [hm] at h
        obtain ⟨rfl, -⟩ := List.cons_prefix_cons.mp h
        exact ⟨b', l, rfl, hc⟩
    have := Broken.msg (tm := whenTime o) hp.pri hp.time hp.host st hn hs
    rw [eh'] at this
    exact this

/-- Which header fields are there, and whether they are right. -/
structure HeaderCut (tm : When → GoTime.Time) (p : Bsd.Parts) (u : Bytes) (m : Base) : Prop where
  /-- PRI arrived with its `>` -/
  priority : priText p.pri <+: u → m.priority = some (UInt8.ofNat p.pri) ∧ m.facility = some (UInt8.ofNat (p.pri / 8)) ∧
    m.severity = some (UInt8.ofNat (p.pri % 8))
  /-- only digits of PRI arrived: the priority is that of all of them but the last -/
  digits : ∀ ds, u = 60 :: ds → ds <+: dec p.pri → ∃ k, dec k = ds.dropLast ∧ m = priOnly k
  timestamp : m.timestamp = if p.upToTime <+: u then some (tm p.time) else none
  hostname : m.hostname = if p.upToHost <+: u then given p.host else none
  rest : u <+: p.upToHost → m.appname = none ∧ m.procID = none ∧ m.message = none

theorem upToHost_length (p : Bsd.Parts) : p.upToHost.length = p.upToTime.length + p.host.length + 1 := by simp [Bsd.Parts.upToHost]; omega
theorem upToTime_length (p : Bsd.Parts) : p.upToTime.length = (priText p.pri).length + p.time.render.length + 1 := by
  simp [Bsd.Parts.upToTime]; omega

/-- C94: the header of a truncated message. -/
theorem C94_header (o : Opts) (p : Bsd.Parts) (hp : p.WF o.rfc3339) (u : Bytes) (hu : u <+: p.render) (hb : o.bestEffort = true) :
    ∃ mo eo, parse1 o u = some ⟨mo, eo⟩ ∧ (mo = none ↔ u.length ≤ 2) ∧ ∀ m, mo = some m → HeaderCut (whenTime o) p u m := by
  obtain ⟨eo, mo, h, hc⟩ := C94_every_cut o p hp u hu hb
  refine ⟨mo, _, h, ?_⟩
  clear h
  have no : ∀ {a : Bytes}, u.length < a.length → ¬ a <+: u := fun h1 h2 => absurd h2.length_le (by omega)
  have l0 : 3 ≤ (priText p.pri).length := by
    have := List.length_pos_iff.mpr (dec_ne_nil p.pri)
    rw [priText_len]; omega
  have l1 := upToTime_length p
  have l2 := upToHost_length p
  have nodig : ∀ {x : Bytes}, u = priText p.pri ++ x → ∀ ds, u = 60 :: ds → ds <+: dec p.pri → False := by
    intro x h1 ds h2 h3
    rw [h2, priText_app] at h1
    cases h1
    have := h3.length_le
    simp at this
    omega
  cases hc with
  | start hl => exact ⟨by simp [hl], by simp⟩
  | @pri ds k h1 h2 h3 h4 =>
    have hlen : u.length < (priText p.pri).length := by
      rw [priText_len, h1]; have := h2.length_le; simp; omega
    refine ⟨by simp [h1]; omega, ?_⟩
    rintro m ⟨⟩
    refine ⟨fun h => absurd h (no hlen), ?_, ?_, ?_, fun _ => ⟨rfl, rfl, rfl⟩⟩
    · rintro ds' h5 -
      rw [h1] at h5
      cases h5
      exact ⟨k, h4, rfl⟩
    · rw [if_neg (no (by omega))]; rfl
    · rw [if_neg (no (by omega))]; rfl
  | @time x h1 h2 =>
    have hlen : u.length = (priText p.pri).length + x.length := by rw [h1]; simp
    have := h2.length_le
    refine ⟨by simp; omega, ?_⟩
    rintro m ⟨⟩
    refine ⟨fun h => ⟨rfl, rfl, rfl⟩, fun ds h5 h6 => (nodig h1 ds h5 h6).elim, ?_, ?_, fun _ => ⟨rfl, rfl, rfl⟩⟩
    · rw [if_neg (no (by omega))]; rfl
    · rw [if_neg (no (by omega))]; rfl
  | @host x h1 h2 =>
    have hlen : u.length = p.upToTime.length + x.length := by rw [h1]; simp
    have := h2.length_le
    refine ⟨by simp; omega, ?_⟩
    rintro m ⟨⟩
    refine ⟨fun h => ⟨rfl, rfl, rfl⟩, fun ds h5 h6 => (nodig (by rw [h1, Bsd.Parts.upToTime, List.append_assoc, List.append_assoc]) ds h5 h6).elim, ?_, ?_, fun _ => ⟨rfl, rfl, rfl⟩⟩
    · rw [if_pos (by rw [h1]; exact List.prefix_append _ _)]
    · rw [if_neg (no (by omega))]; rfl
  | noMsg h1 =>
    subst h1
    refine ⟨by simp; omega, ?_⟩
    rintro m ⟨⟩
    refine ⟨fun h => ⟨rfl, rfl, rfl⟩, fun ds h5 h6 => (nodig (by rw [Bsd.Parts.upToHost, Bsd.Parts.upToTime]; simp only [List.append_assoc]; rfl) ds h5 h6).elim, ?_, ?_, fun _ => ⟨rfl, rfl, rfl⟩⟩
    · rw [if_pos (by rw [Bsd.Parts.upToHost, List.append_assoc]; exact List.prefix_append _ _)]
    · rw [if_pos List.prefix_rfl]
  | @msg w tag pid text h1 h2 h3 =>
    subst h1
    have hw : w ≠ [] := by obtain ⟨b, r, h, -⟩ := reads_starts h3; rw [h]; simp
    have := List.length_pos_iff.mpr hw
    refine ⟨by simp; omega, ?_⟩
    rintro m ⟨⟩
    refine ⟨fun h => ⟨rfl, rfl, rfl⟩, fun ds h5 h6 => (nodig (by rw [Bsd.Parts.upToHost, Bsd.Parts.upToTime]; simp only [List.append_assoc]; rfl) ds h5 h6).elim, ?_, ?_, ?_⟩
    · rw [if_pos (by rw [Bsd.Parts.upToHost, List.append_assoc, List.append_assoc]; exact List.prefix_append _ _)]; rfl
    · rw [if_pos (List.prefix_append _ _)]; rfl
    · intro h; have := h.length_le; simp at this; omega
  | @control w tag pid h1 h2 hw h3 h4 =>
    subst h1
    have := List.length_pos_iff.mpr hw
    refine ⟨by simp; omega, ?_⟩
    rintro m ⟨⟩
    refine ⟨fun h => ⟨rfl, rfl, rfl⟩, fun ds h5 h6 => (nodig (by rw [Bsd.Parts.upToHost, Bsd.Parts.upToTime]; simp only [List.append_assoc]; rfl) ds h5 h6).elim, ?_, ?_, ?_⟩
    · rw [if_pos (by rw [Bsd.Parts.upToHost, List.append_assoc, List.append_assoc]; exact List.prefix_append _ _)]
    · rw [if_pos (List.prefix_append _ _)]
    · intro h; have := h.length_le; simp at this; omega

/-- C94: a message cut right before the `>` has a wrong priority, if that has more than one digit: `<165` is read as priority 16. -/
theorem C94_wrong_priority (o : Opts) (hb : o.bestEffort = true) (pri : Nat) (h1 : 10 ≤ pri) (h2 : pri ≤ 191) :
    ∃ e, parse1 o (60 :: dec pri) = some ⟨some (priOnly (pri / 10)), some e⟩ := by
  have hp : ({ sample with pri := pri } : Bsd.Parts).WF o.rfc3339 := by
    have := sample_wf o.rfc3339
    exact ⟨h2, this.time, this.host, this.msg⟩
  have hf : Fails PriText (dec pri) (dec pri).length :=
    fails_cut priText_free ⟨pri, h2, rfl⟩ (List.prefix_append _ _) (by simp)
  refine ⟨⟨.prival, 1 + (dec pri).length⟩, (C59_every_outcome o _ _).mpr (Or.inr ⟨_, _, .pri (k := pri / 10) hf ?_, ?_⟩)⟩
  · rw [if_pos rfl, ← List.dropLast_eq_take, dec_ge h1, List.dropLast_concat]
  · rw [if_pos hb]; rfl

/-- C94: whether an error tells of the truncation. None does if the cut is right after the timestamp (or, for RFC 3339 timestamps, after 1 to
18 bytes of it), or anywhere in MSG; otherwise there is one. This holds in both modes. -/
theorem C94_unnoticed (o : Opts) (p : Bsd.Parts) (hp : p.WF o.rfc3339) (u : Bytes) (hu : u <+: p.render) :
    (∃ mo, parse1 o u = some ⟨mo, none⟩) ↔
      (∃ x, u = priText p.pri ++ x ∧ x <+: p.time.render ∧ timeError p.time x = none) ∨ (∃ w, w ≠ [] ∧ u = p.upToHost ++ w) := by
  have key : (∃ mo, parse1 { o with bestEffort := true } u = some ⟨mo, none⟩) ↔
      (∃ x, u = priText p.pri ++ x ∧ x <+: p.time.render ∧ timeError p.time x = none) ∨ (∃ w, w ≠ [] ∧ u = p.upToHost ++ w) := by
    obtain ⟨eo, mo, h, hc⟩ := C94_every_cut { o with bestEffort := true } p hp u hu rfl
    have e : (∃ mo, parse1 { o with bestEffort := true } u = some ⟨mo, none⟩) ↔ eo = none := by
      rw [h]; cases eo <;> simp
    rw [e]
    clear e h
    have l0 : 3 ≤ (priText p.pri).length := by
      have := List.length_pos_iff.mpr (dec_ne_nil p.pri)
      rw [priText_len]; omega
    have l1 := upToTime_length p
    have l2 := upToHost_length p
    have noW : u.length ≤ p.upToHost.length → ¬ ∃ w, w ≠ [] ∧ u = p.upToHost ++ w := by
      rintro hl ⟨w, hw, rfl⟩
      have := List.length_pos_iff.mpr hw
      simp at hl; omega
    have noX : u.length < (priText p.pri).length ∨ (priText p.pri).length + p.time.render.length < u.length →
        ¬ ∃ x, u = priText p.pri ++ x ∧ x <+: p.time.render ∧ timeError p.time x = none := by
      rintro hl ⟨x, rfl, hx, -⟩
      have := hx.length_le
      simp at hl; omega
    cases hc with
    | start hl => simp only [reduceCtorEq, false_iff, not_or]; exact ⟨noX (by omega), noW (by omega)⟩
    | @pri ds k h1 h2 h3 h4 =>
      have hlen : u.length < (priText p.pri).length := by
        rw [priText_len, h1]; have := h2.length_le; simp; omega
      simp only [reduceCtorEq, false_iff, not_or]; exact ⟨noX (by omega), noW (by omega)⟩
    | @time x h1 h2 =>
      have hlen : u.length = (priText p.pri).length + x.length := by rw [h1]; simp
      have := h2.length_le
      refine ⟨fun h => Or.inl ⟨x, h1, h2, h⟩, ?_⟩
      rintro (⟨y, h3, h4, h5⟩ | h)
      · rw [h1] at h3; rw [List.append_cancel_left h3]; exact h5
      · exact absurd h (noW (by omega))
    | @host x h1 h2 =>
      have hlen : u.length = p.upToTime.length + x.length := by rw [h1]; simp
      have := h2.length_le
      simp only [reduceCtorEq, false_iff, not_or]; exact ⟨noX (by omega), noW (by omega)⟩
    | noMsg h1 =>
      have : u.length = p.upToHost.length := by rw [h1]
      simp only [reduceCtorEq, false_iff, not_or]; exact ⟨noX (by omega), noW (by omega)⟩
    | @msg w tag pid text h1 h2 h3 =>
      have hw : w ≠ [] := by obtain ⟨b, r, h, -⟩ := reads_starts h3; rw [h]; simp
      exact ⟨fun _ => Or.inr ⟨w, hw, h1⟩, fun _ => rfl⟩
    | @control w tag pid h1 h2 hw h3 h4 => exact ⟨fun _ => Or.inr ⟨w, hw, h1⟩, fun _ => rfl⟩
  rw [← key]
  constructor
  · rintro ⟨mo, h⟩
    rcases (C59_every_outcome o u _).mp h with ⟨q, h1, h2, h3⟩ | ⟨e, m, h1, h2⟩
    · exact ⟨_, (C59_every_outcome { o with bestEffort := true } u _).mpr (Or.inl ⟨q, h1, h2, rfl⟩)⟩
    · refine ⟨m, (C59_every_outcome { o with bestEffort := true } u _).mpr (Or.inr ⟨e, m, h1, ?_⟩)⟩
      simp only [Result.mk.injEq] at h2
      rw [if_pos rfl, h2.2]
  · rintro ⟨mo, h⟩
    rcases (C59_every_outcome { o with bestEffort := true } u _).mp h with ⟨q, h1, h2, h3⟩ | ⟨e, m, h1, h2⟩
    · exact ⟨_, (C59_every_outcome o u _).mpr (Or.inl ⟨q, h1, h2, rfl⟩)⟩
    · refine ⟨if o.bestEffort then m else none, (C59_every_outcome o u _).mpr (Or.inr ⟨e, m, h1, ?_⟩)⟩
      simp only [Result.mk.injEq] at h2
      rw [h2.2]

/-- the result for a header and a MSG of which tag, pid and text are these (an empty one is absent) -/
def withMsg (o : Opts) (p : Bsd.Parts) (tag pid text : Bytes) : Base :=
  { priOnly p.pri with
    timestamp := some (whenTime o p.time), hostname := given p.host, appname := given tag, procID := given pid, message := some text }

theorem cut_reads (o : Opts) {p : Bsd.Parts} (hp : p.WF o.rfc3339) {w tag pid text : Bytes} (h : Reads w tag pid text) :
    parse1 o (p.upToHost ++ w) = some ⟨some (withMsg o p tag pid text), none⟩ := by
  have := accepts o (p := { p with msg := w, tag := tag, pid := pid, text := text }) ⟨hp.pri, hp.time, hp.host, h⟩
  rw [show p.upToHost ++ w = ({ p with msg := w, tag := tag, pid := pid, text := text } : Bsd.Parts).render by
    rw [render_eq]; simp [Bsd.Parts.upToHost, Bsd.Parts.upToTime]]
  exact this

theorem clean_prefix {w s : Bytes} (h : Clean s) (hw : w <+: s) : Clean w := fun b hb => h b (hw.subset hb)

/-- some characters of a tag -/
theorem reads_tag_part {tag w : Bytes} (ht : TagWF tag) (hw : w <+: tag) (hne : w ≠ []) : Reads w [] [] w := by
  refine .plain hne (clean_prefix (tag_clean ht) hw) ?_
  rintro tag' r -
  constructor
  · rintro rfl; exact (ht.2.2 58 (hw.subset (by simp))).2.1 rfl
  · rintro rfl; exact (ht.2.2 91 (hw.subset (by simp))).2.2 rfl

/-- no text after `]: ` yet -/
theorem lastPart_short {u v : Bytes} (hu : ∀ b ∈ u, b ≠ 93) (hv : v <+: [58, 32]) : LastPart (u ++ 93 :: v) (u ++ 93 :: v) := by
  have hv93 : ∀ b ∈ v, b ≠ 93 := by
    intro b hb
    have := hv.subset hb
    simp at this
    rcases this with rfl | rfl <;> decide
  refine Or.inr ⟨?_, rfl⟩
  rintro y ⟨⟨a, ha⟩, c, r, rfl, -⟩
  have e : a ++ (ascii "]: " ++ (c :: r)) = a ++ 93 :: (58 :: 32 :: c :: r) := by simp [ascii]
  rw [e] at ha
  rcases List.append_eq_append_iff.mp ha with ⟨a', h1, h2⟩ | ⟨a', h1, h2⟩
  · cases a' with
    | nil =>
      simp only [List.nil_append, List.cons.injEq, true_and] at h2
      have := hv.length_le
      rw [h2] at this
      simp at this
    | cons x a' =>
      simp only [List.cons_append, List.cons.injEq] at h2
      exact hv93 93 (by rw [h2.2]; simp) rfl
  · cases a' with
    | nil =>
      simp only [List.nil_append, List.cons.injEq, true_and] at h2
      have := hv.length_le
      rw [← h2] at this
      simp at this
    | cons x a' =>
      simp only [List.cons_append, List.cons.injEq] at h2
      exact hu 93 (by rw [h1, ← h2.1]; simp) rfl

/-- C94: a message `<PRI>TIMESTAMP HOSTNAME tag[pid]: text`, cut in MSG. All cuts are accepted without an error, in both modes. The text is right
(a beginning of it) once some of it has arrived; before, other things pass for the text: a beginning of the tag, which is not
reported as the tag; all of `tag[`; a beginning of the pid, which is not reported as the pid; the pid with the `]`. -/
theorem C94_brackets (o : Opts) (p : Bsd.Parts) (hp : p.WF o.rfc3339) (tag pid text : Bytes) (ht : TagWF tag)
    (h1 : Clean pid) (h2 : ∀ b ∈ pid, b ≠ 93) (h3 : Clean text) (h4 : ∀ b ∈ text, b ≠ 93) :
    (∀ w, w <+: tag → w ≠ [] → parse1 o (p.upToHost ++ w) = some ⟨some (withMsg o p [] [] w), none⟩) ∧
    parse1 o (p.upToHost ++ (tag ++ [91])) = some ⟨some (withMsg o p tag [] (tag ++ [91])), none⟩ ∧
    (∀ w, w <+: pid → w ≠ [] → parse1 o (p.upToHost ++ (tag ++ 91 :: w)) = some ⟨some (withMsg o p tag [] w), none⟩) ∧
    (∀ w, w <+: [58, 32] → parse1 o (p.upToHost ++ (tag ++ 91 :: (pid ++ 93 :: w))) = some ⟨some (withMsg o p tag pid (pid ++ 93 :: w)), none⟩) ∧
    (∀ w, w <+: text → w ≠ [] →
      parse1 o (p.upToHost ++ (tag ++ 91 :: (pid ++ 93 :: 58 :: 32 :: w))) = some ⟨some (withMsg o p tag pid w), none⟩) := by
  refine ⟨?_, ?_, ?_, ?_, ?_⟩
  · intro w hw hne; exact cut_reads o hp (reads_tag_part ht hw hne)
  · exact cut_reads o hp (.openBare ht)
  · intro w hw hne
    exact cut_reads o hp (.opened ht hne (clean_prefix h1 hw) (fun b hb => h2 b (hw.subset hb)))
  · intro w hw
    have w2 : ∀ b ∈ w, b = 58 ∨ b = 32 := by intro b hb; simpa using hw.subset hb
    refine cut_reads o hp (.closed ht ?_ (lastPart_none h2) (lastPart_short h2 hw) ?_)
    · intro b hb; rcases w2 b hb with rfl | rfl <;> decide
    · intro b hb
      simp only [List.mem_append, List.mem_cons] at hb
      rcases hb with hb | rfl | hb
      · exact h1 b hb
      · decide
      · rcases w2 b hb with rfl | rfl <;> decide
  · intro w hw hne
    exact cut_reads o hp (reads_tagged ht h2 (fun b hb => h4 b (hw.subset hb)) hne (clean_prefix h3 hw))

/-- C94: the same for `<PRI>TIMESTAMP HOSTNAME tag: text`. -/
theorem C94_colon (o : Opts) (p : Bsd.Parts) (hp : p.WF o.rfc3339) (tag text : Bytes) (ht : TagWF tag) (h3 : Clean text) :
    (∀ w, w <+: tag → w ≠ [] → parse1 o (p.upToHost ++ w) = some ⟨some (withMsg o p [] [] w), none⟩) ∧
    parse1 o (p.upToHost ++ (tag ++ [58])) = some ⟨some (withMsg o p tag [] (tag ++ [58])), none⟩ ∧
    parse1 o (p.upToHost ++ (tag ++ [58, 32])) = some ⟨some (withMsg o p tag [] (tag ++ [58, 32])), none⟩ ∧
    (∀ w, w <+: text → w ≠ [] → parse1 o (p.upToHost ++ (tag ++ 58 :: 32 :: w)) = some ⟨some (withMsg o p tag [] w), none⟩) := by
  refine ⟨?_, ?_, ?_, ?_⟩
  · intro w hw hne; exact cut_reads o hp (reads_tag_part ht hw hne)
  · exact cut_reads o hp (.colonBare ht (by intro b hb; simp at hb) (by simp))
  · exact cut_reads o hp (.colonBare ht (by decide) (by intro text h hh; simp at hh; exact h hh))
  · intro w hw hne
    exact cut_reads o hp (.colon ht hne (clean_prefix h3 hw))

/-! ## A message cut at all these places: `<34>Feb 29 22:14:15 mymachine su[123]: 'su root' failed` -/

example : sample.upToHost ++ (ascii "su" ++ 91 :: (ascii "123" ++ 93 :: 58 :: 32 :: ascii "'su root' failed")) = sample.render := by decide +kernel
example : TagWF (ascii "su") ∧ Clean (ascii "123") ∧ (∀ b ∈ ascii "123", b ≠ 93) ∧ Clean (ascii "'su root' failed") ∧
    ∀ b ∈ ascii "'su root' failed", b ≠ 93 := by decide +kernel

/-- `<34>Feb 29 22:14:15 mymachine su[12`: accepted, text `12` -/
example (o : Opts) : parse1 o (sample.upToHost ++ (ascii "su" ++ 91 :: ascii "12")) = some ⟨some (withMsg o sample (ascii "su") [] (ascii "12")), none⟩ :=
  (C94_brackets o sample (sample_wf _) (ascii "su") (ascii "123") (ascii "'su root' failed") (by decide +kernel) (by decide +kernel) (by decide +kernel)
    (by decide +kernel) (by decide +kernel)).2.2.1 _ ⟨ascii "3", by decide +kernel⟩ (by decide +kernel)

example : sample.render.take 9 = ascii "<34>Feb 2" := by decide +kernel
example : parse1 { bestEffort := true } (sample.render.take 9) = some ⟨some (priOnly 34), some ⟨.timestamp, 9⟩⟩ := by decide +kernel
example : parse1 { bestEffort := true } (sample.render.take 3) = some ⟨some (priOnly 3), some ⟨.prival, 3⟩⟩ := by decide +kernel
example : parse1 { bestEffort := true } (sample.render.take 19) = some ⟨some (priOnly 34), none⟩ := by decide +kernel

end Verif.Props.Bsd
