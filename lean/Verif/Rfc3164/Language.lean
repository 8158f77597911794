import Verif.Rfc3164.Grammar

/-! # The language of `descend`: the whole message -/

namespace Verif.Rfc3164
open Spec Spec.Bsd
open Verif.Rfc5424 (isGraph priScan toNat_eq pri_iff nameWF_iff)

theorem h58 {b : UInt8} : b.toNat = 58 ↔ b = 58 := toNat_eq (n := 58) (by omega)
theorem h91 {b : UInt8} : b.toNat = 91 ↔ b = 91 := toNat_eq (n := 91) (by omega)

theorem isTag_not_ctl {b : UInt8} (h : isTag b = true) : isCtl b = false := by
  rw [isTag_iff] at h; rw [isCtl_false]; omega

theorem tag_clean {w : Bytes} (h : TagWF w) : Clean w := by
  intro b hb; exact ctl_false.mp (isTag_not_ctl ((tagWF_iff.mp h).2.2 b hb))

theorem not_tag_58 : isTag 58 = false := by decide
theorem not_tag_91 : isTag 91 = false := by decide

theorem span_tag {tag r : Bytes} {b : UInt8} (ht : TagWF tag) (hb : isTag b = false) :
    spanN isTag 32 (tag ++ b :: r) = (tag, b :: r) :=
  spanN_eq isTag (tagWF_iff.mp ht).2.2 ht.2.1 (Or.inr ⟨b, r, rfl, hb⟩)

theorem dMsg_tag {pos : Nat} {msg w t : Bytes} {out : Out} (h : spanN isTag 32 msg = (w, t)) (hw : w ≠ []) :
    dMsg pos msg out = dTag msg w t out := by
  cases msg with
  | nil => simp [spanN] at h; exact absurd h.1.symm (by simpa using hw)
  | cons b r =>
    have hb : isTag b = true := by
      by_cases hb : isTag b = true
      · exact hb
      · simp only [spanN, hb] at h
        simp at h; exact absurd h.1 (by simpa using hw)
    simp only [dMsg]
    rw [isTag_not_ctl hb, if_neg (by simp), if_pos hb, h]

theorem dText_iff {whole rest : Bytes} {out out' : Out} :
    dText whole rest out = .ok out' ↔ Clean rest ∧ out' = { out with message := whole } := by
  rw [dText]
  split
  · rename_i h; simp [clean_iff.mp h, eq_comm]
  · rename_i h
    simp only [reduceCtorEq, false_iff, not_and]
    intro h'; exact absurd (clean_iff.mpr h') h

/-- after a tag, `:` -/
theorem dColon_iff {tag r : Bytes} {out out' : Out} (ht : TagWF tag) (hp : out.content = []) :
    dColon (tag ++ 58 :: r) r { out with tag := tag } = .ok out' ↔
      ∃ text, ((∃ t, r = 32 :: t ∧ t ≠ [] ∧ Clean t ∧ text = t) ∨
        (Clean r ∧ (∀ t, t ≠ [] → r ≠ 32 :: t) ∧ text = tag ++ 58 :: r)) ∧
        out' = { out with tag := tag, content := [], message := text } := by
  by_cases hr : ∃ b r', r = 32 :: b :: r'
  · obtain ⟨b, r', rfl⟩ := hr
    simp only [dColon]
    by_cases hb : isCtl b = true
    · rw [if_pos hb]
      simp only [reduceCtorEq, false_iff]
      rintro ⟨text, (⟨t, ht', -, hc, -⟩ | ⟨-, hn, -⟩), -⟩
      · cases ht'; exact (clean_cons.mp hc).1 (ctl_iff.mp hb)
      · exact hn (b :: r') (by simp) rfl
    · rw [if_neg hb, dText_iff]
      have hb' := ctl_false.mp (by simpa using hb)
      constructor
      · rintro ⟨hc, rfl⟩
        exact ⟨b :: r', Or.inl ⟨_, rfl, by simp, clean_cons.mpr ⟨hb', hc⟩, rfl⟩, by simp [hp]⟩
      · rintro ⟨text, (⟨t, ht', -, hc, rfl⟩ | ⟨-, hn, -⟩), rfl⟩
        · cases ht'; exact ⟨(clean_cons.mp hc).2, by simp [hp]⟩
        · exact absurd rfl (hn (b :: r') (by simp))
  · have e : dColon (tag ++ 58 :: r) r { out with tag := tag } = dText (tag ++ 58 :: r) r { out with tag := tag } := by
      unfold dColon; split
      · exact absurd ⟨_, _, rfl⟩ hr
      · rfl
    rw [e, dText_iff]
    constructor
    · rintro ⟨hc, rfl⟩
      refine ⟨_, Or.inr ⟨hc, ?_, rfl⟩, by simp [hp]⟩
      rintro t hne rfl
      cases t with
      | nil => exact hne rfl
      | cons b t => exact hr ⟨b, t, rfl⟩
    · rintro ⟨text, (⟨t, rfl, hne, -, -⟩ | ⟨hc, -, rfl⟩), rfl⟩
      · cases t with
        | nil => exact absurd rfl hne
        | cons b t => exact absurd ⟨b, t, rfl⟩ hr
      · exact ⟨hc, by simp [hp]⟩

theorem last93 : ∀ (r : Bytes), (∀ b ∈ r, b ≠ 93) ∨ ∃ u v, r = u ++ 93 :: v ∧ ∀ b ∈ v, b ≠ 93 := by
  intro r
  induction r with
  | nil => simp
  | cons b r ih =>
    rcases ih with ih | ⟨u, v, rfl, hv⟩
    · by_cases hb : b = 93
      · exact Or.inr ⟨[], r, by rw [hb]; rfl, ih⟩
      · exact Or.inl (by intro x hx; simp at hx; rcases hx with rfl | hx; exact hb; exact ih x hx)
    · exact Or.inr ⟨b :: u, v, rfl, hv⟩

theorem last93_unique {u v u' v' : Bytes} (h : u ++ 93 :: v = u' ++ 93 :: v') (hv : ∀ b ∈ v, b ≠ 93) (hv' : ∀ b ∈ v', b ≠ 93) :
    u = u' ∧ v = v' := by
  rcases List.append_eq_append_iff.mp h with ⟨a, ha, hb⟩ | ⟨a, ha, hb⟩
  · cases a with
    | nil => simp at ha hb; exact ⟨ha.symm, hb⟩
    | cons x a =>
      simp only [List.cons_append, List.cons.injEq] at hb
      exact absurd rfl (hv 93 (by rw [hb.2]; simp))
  · cases a with
    | nil => simp at ha hb; exact ⟨ha, hb.symm⟩
    | cons x a =>
      simp only [List.cons_append, List.cons.injEq] at hb
      exact absurd rfl (hv' 93 (by rw [hb.2]; simp))

theorem lastBr_none {s c0 r c : Bytes} (h : LastBr s c0 r c) (hr : ∀ b ∈ r, b ≠ 93) : c = c0 := by
  cases h with
  | none h => rfl
  | some h hc => exact absurd rfl (hr 93 (by simp))

theorem lastBr_some {s c0 u v c : Bytes} (h : LastBr s c0 (u ++ 93 :: v) c) (hv : ∀ b ∈ v, b ≠ 93) : LastPart (s ++ u) c := by
  generalize hr : u ++ 93 :: v = r at h
  cases h with
  | none h => exact absurd rfl (h 93 (by rw [← hr]; simp))
  | some h hc =>
    obtain ⟨rfl, rfl⟩ := last93_unique hr hv h
    exact hc

/-- after a tag, `[` -/
theorem dOpen_iff {tag r : Bytes} {out out' : Out} (hp : out.content = []) :
    dOpen (tag ++ 91 :: r) r { out with tag := tag } = .ok out' ↔
      ∃ pid text, ((r = [] ∧ pid = [] ∧ text = tag ++ [91]) ∨ (r ≠ [] ∧ Clean r ∧ (∀ b ∈ r, b ≠ 93) ∧ pid = [] ∧ text = r) ∨
          ∃ u v, r = u ++ 93 :: v ∧ (∀ b ∈ v, b ≠ 93) ∧ LastPart u pid ∧ LastPart (u ++ 93 :: v) text ∧ Clean text) ∧
        out' = { out with tag := tag, content := pid, message := text } := by
  cases r with
  | nil =>
    simp only [dOpen]
    constructor
    · intro h; cases h
      exact ⟨[], _, Or.inl ⟨trivial, rfl, rfl⟩, by simp [hp]⟩
    · rintro ⟨pid, text, (⟨-, rfl, rfl⟩ | ⟨h, -⟩ | ⟨u, v, h, -⟩), rfl⟩
      · simp [hp]
      · exact absurd rfl h
      · simp at h
  | cons b r =>
    obtain ⟨text, c, e1, e2, e3⟩ := dOpen_spec (tag ++ 91 :: b :: r) b r { out with tag := tag }
    rw [e3]
    simp only [hp] at e2
    rcases last93 (b :: r) with hn | ⟨u, v, huv, hv⟩
    · have ht : text = b :: r := lastPart_unique e1 (lastPart_none hn)
      have hc := lastBr_none e2 hn
      subst ht hc
      constructor
      · intro h
        split at h
        · rename_i hcl; cases h
          exact ⟨[], _, Or.inr (Or.inl ⟨by simp, clean_iff.mp hcl, hn, rfl, rfl⟩), rfl⟩
        · simp at h
      · rintro ⟨pid, text, (⟨h, -⟩ | ⟨-, hcl, -, rfl, rfl⟩ | ⟨u, v, h, -⟩), rfl⟩
        · simp at h
        · rw [if_pos (clean_iff.mpr hcl)]
        · exact absurd rfl (hn 93 (by rw [h]; simp))
    · rw [huv] at e1 e2 ⊢
      have hc := lastBr_some e2 hv
      rw [List.nil_append] at hc
      constructor
      · intro h
        split at h
        · rename_i hcl; cases h
          exact ⟨c, text, Or.inr (Or.inr ⟨u, v, rfl, hv, hc, e1, clean_iff.mp hcl⟩), rfl⟩
        · simp at h
      · rintro ⟨pid, text', (⟨h, -⟩ | ⟨-, -, h, -⟩ | ⟨u', v', h, hv', hpd, htx, hcl⟩), rfl⟩
        · simp at h
        · exact absurd rfl (h 93 (by simp))
        · obtain ⟨rfl, rfl⟩ := last93_unique h hv hv'
          rw [← lastPart_unique e1 htx] at hcl ⊢
          rw [lastPart_unique hc hpd, if_pos (clean_iff.mpr hcl)]

theorem dMsg_plain {pos : Nat} {msg : Bytes} {out out' : Out} (hn : ∀ tag r, TagWF tag → msg ≠ tag ++ 58 :: r ∧ msg ≠ tag ++ 91 :: r) :
    dMsg pos msg out = .ok out' ↔ msg ≠ [] ∧ Clean msg ∧ out' = { out with message := msg } := by
  cases msg with
  | nil => simp [dMsg, mkErr]
  | cons b r =>
    by_cases hb : isTag b = true
    · generalize hs : spanN isTag 32 (b :: r) = p
      obtain ⟨w, t⟩ := p
      have happ := spanN_append isTag 32 (b :: r)
      have hall := spanN_all isTag 32 (b :: r)
      have hlen := spanN_length isTag 32 (b :: r)
      rw [hs] at happ hall hlen
      simp only at happ hall hlen
      have hw : w ≠ [] := by
        rintro rfl
        simp only [spanN, hb] at hs
        simp at hs
      have ht : TagWF w := tagWF_iff.mpr ⟨hw, hlen, hall⟩
      rw [dMsg_tag hs hw]
      have : dTag (b :: r) w t out = dText (b :: r) t out := by
        unfold dTag; split
        · exact absurd happ.symm (hn w _ ht).1
        · exact absurd happ.symm (hn w _ ht).2
        · rfl
      rw [this, dText_iff, ← happ, clean_append]
      have := tag_clean ht
      simp [hw, this]
    · have hb' : isTag b = false := by simpa using hb
      simp only [dMsg, hb', mkErr]
      by_cases hc : isCtl b = true
      · simp [hc, clean_cons, ctl_iff.mp hc]
      · have := ctl_false.mp (by simpa using hc)
        simp only [hc]
        simp [dText_iff, clean_cons, this]

/-- the language of MSG -/
theorem dMsg_iff {pos : Nat} {msg : Bytes} {out out' : Out} (hp : out.content = []) (ht0 : out.tag = []) :
    dMsg pos msg out = .ok out' ↔ ∃ tag pid text, Reads msg tag pid text ∧
      out' = { out with tag := tag, content := pid, message := text } := by
  constructor
  · intro h
    by_cases hn : ∀ tag r, TagWF tag → msg ≠ tag ++ 58 :: r ∧ msg ≠ tag ++ 91 :: r
    · obtain ⟨h1, h2, rfl⟩ := (dMsg_plain hn).mp h
      exact ⟨[], [], msg, .plain h1 h2 hn, by simp [hp, ht0]⟩
    · have : ∃ tag r, TagWF tag ∧ (msg = tag ++ 58 :: r ∨ msg = tag ++ 91 :: r) := by
        apply Classical.byContradiction
        intro hc
        apply hn
        intro tag r ht
        exact ⟨fun e => hc ⟨tag, r, ht, Or.inl e⟩, fun e => hc ⟨tag, r, ht, Or.inr e⟩⟩
      obtain ⟨tag, r, ht, (rfl | rfl)⟩ := this
      · rw [dMsg_tag (span_tag ht not_tag_58) ht.1] at h
        obtain ⟨text, (⟨t, rfl, hne, hc, rfl⟩ | ⟨hc, hr, rfl⟩), rfl⟩ := (dColon_iff ht hp).mp h
        · exact ⟨tag, [], text, .colon ht hne hc, rfl⟩
        · exact ⟨tag, [], _, .colonBare ht hc hr, rfl⟩
      · rw [dMsg_tag (span_tag ht not_tag_91) ht.1] at h
        obtain ⟨pid, text, (⟨rfl, rfl, rfl⟩ | ⟨hne, hc, hr, rfl, rfl⟩ | ⟨u, v, rfl, hv, h1, h2, hc⟩), rfl⟩ := (dOpen_iff hp).mp h
        · exact ⟨tag, [], _, .openBare ht, rfl⟩
        · exact ⟨tag, [], _, .opened ht hne hc hr, rfl⟩
        · exact ⟨tag, pid, text, .closed ht hv h1 h2 hc, rfl⟩
  · rintro ⟨tag, pid, text, hr, rfl⟩
    cases hr with
    | plain h hc hn => exact (dMsg_plain hn).mpr ⟨h, hc, by simp [hp, ht0]⟩
    | colon ht h hc =>
      rw [dMsg_tag (span_tag ht not_tag_58) ht.1]
      exact (dColon_iff ht hp).mpr ⟨_, Or.inl ⟨_, rfl, h, hc, rfl⟩, rfl⟩
    | colonBare ht hc hr =>
      rw [dMsg_tag (span_tag ht not_tag_58) ht.1]
      exact (dColon_iff ht hp).mpr ⟨_, Or.inr ⟨hc, hr, rfl⟩, rfl⟩
    | openBare ht =>
      rw [dMsg_tag (span_tag ht not_tag_91) ht.1]
      exact (dOpen_iff hp).mpr ⟨_, _, Or.inl ⟨rfl, rfl, rfl⟩, rfl⟩
    | opened ht h hc hs =>
      rw [dMsg_tag (span_tag ht not_tag_91) ht.1]
      exact (dOpen_iff hp).mpr ⟨_, _, Or.inr (Or.inl ⟨h, hc, hs, rfl, rfl⟩), rfl⟩
    | closed ht hv hpd htx hc =>
      rw [dMsg_tag (span_tag ht not_tag_91) ht.1]
      exact (dOpen_iff hp).mpr ⟨_, _, Or.inr (Or.inr ⟨_, _, rfl, hv, hpd, htx, hc⟩), rfl⟩

/-- MSG is read in at most one way -/
theorem reads_unique {msg tag pid text tag' pid' text' : Bytes} (h : Reads msg tag pid text) (h' : Reads msg tag' pid' text') :
    tag = tag' ∧ pid = pid' ∧ text = text' := by
  have e := (dMsg_iff (pos := 0) (out := {}) rfl rfl).mpr ⟨_, _, _, h, rfl⟩
  rw [(dMsg_iff (pos := 0) (out := {}) rfl rfl).mpr ⟨_, _, _, h', rfl⟩] at e
  simp at e
  exact ⟨e.1.symm, e.2.1.symm, e.2.2.symm⟩

/-! ## MSG that is not read -/

theorem dText_stop {whole rest : Bytes} {out out' : Out} {e : Option Err} (h : dText whole rest out = .stop e out') :
    e = none ∧ out' = out := by
  rw [dText] at h; split at h
  · simp at h
  · simp at h; exact ⟨h.1.symm, h.2.symm⟩

theorem dTag_stop {whole w t : Bytes} {out out' : Out} {e : Option Err} (hw : TagWF w) (h : dTag whole w t out = .stop e out') :
    e = none ∧ ∃ tag pid, (tag = out.tag ∨ TagWF tag) ∧ out' = { out with tag := tag, content := pid } := by
  unfold dTag at h
  split at h
  · unfold dColon at h
    split at h
    · split at h
      · simp at h; obtain ⟨rfl, rfl⟩ := h; exact ⟨rfl, w, _, Or.inr hw, rfl⟩
      · obtain ⟨rfl, rfl⟩ := dText_stop h; exact ⟨rfl, w, _, Or.inr hw, rfl⟩
    · obtain ⟨rfl, rfl⟩ := dText_stop h; exact ⟨rfl, w, _, Or.inr hw, rfl⟩
  · rename_i t'
    cases t' with
    | nil => simp [dOpen] at h
    | cons b r =>
      obtain ⟨text, c, e1, e2, e3⟩ := dOpen_spec whole b r { out with tag := w }
      rw [e3] at h
      split at h
      · simp at h
      · simp at h; obtain ⟨rfl, rfl⟩ := h; exact ⟨rfl, w, c, Or.inr hw, rfl⟩
  · obtain ⟨rfl, rfl⟩ := dText_stop h; exact ⟨rfl, out'.tag, _, Or.inl rfl, rfl⟩

theorem span_tagWF {b : UInt8} {r : Bytes} (hb : isTag b = true) : TagWF (spanN isTag 32 (b :: r)).1 := by
  refine tagWF_iff.mpr ⟨?_, spanN_length _ _ _, spanN_all _ _ _⟩
  simp only [spanN, hb]; simp

/-- the two ways MSG fails: an error at its first byte, or nothing at all -/
theorem dMsg_stop {pos : Nat} {msg : Bytes} {out out' : Out} {e : Option Err} (h : dMsg pos msg out = .stop e out') :
    (¬ Starts msg ∧ e = some ⟨.tag, pos⟩ ∧ out' = out) ∨
    (Starts msg ∧ e = none ∧ ∃ tag pid, (tag = out.tag ∨ TagWF tag) ∧ out' = { out with tag := tag, content := pid }) := by
  cases msg with
  | nil =>
    simp [dMsg, mkErr] at h
    exact Or.inl ⟨by rintro ⟨b, r, h, -⟩; simp at h, h.1.symm, h.2.symm⟩
  | cons b r =>
    simp only [dMsg] at h
    split at h
    · rename_i hc
      simp [mkErr] at h
      refine Or.inl ⟨?_, h.1.symm, h.2.symm⟩
      rintro ⟨b', r', h, hn⟩; cases h; exact hn (ctl_iff.mp hc)
    · rename_i hc
      have hs : Starts (b :: r) := ⟨b, r, rfl, ctl_false.mp (by simpa using hc)⟩
      split at h
      · rename_i hb
        exact Or.inr ⟨hs, dTag_stop (span_tagWF hb) h⟩
      · obtain ⟨rfl, rfl⟩ := dText_stop h
        exact Or.inr ⟨hs, rfl, out'.tag, _, Or.inl rfl, rfl⟩

theorem reads_starts {msg tag pid text : Bytes} (h : Reads msg tag pid text) : Starts msg := by
  apply Classical.byContradiction
  intro hn
  have e := (dMsg_iff (pos := 0) (out := {}) rfl rfl).mpr ⟨_, _, _, h, rfl⟩
  cases msg with
  | nil => simp [dMsg, mkErr] at e
  | cons b r =>
    have hc : Control b := Classical.byContradiction fun h => hn ⟨b, r, rfl, h⟩
    simp only [dMsg, if_pos (ctl_iff.mpr hc)] at e
    simp [mkErr] at e

/-! ## the header -/

theorem dHost_iff {pos : Nat} {rest : Bytes} {out out' : Out} (hp : out.content = []) (ht0 : out.tag = []) :
    dHost pos rest out = .ok out' ↔ ∃ host msg tag pid text, NameWF 255 host ∧ rest = host ++ 32 :: msg ∧ Reads msg tag pid text ∧
      out' = { out with hostname := host, tag := tag, content := pid, message := text } := by
  constructor
  · intro h
    generalize hs : spanN isGraph 255 rest = p at h
    obtain ⟨w, t⟩ := p
    have happ := spanN_append isGraph 255 rest
    have hall := spanN_all isGraph 255 rest
    have hlen := spanN_length isGraph 255 rest
    rw [hs] at happ hall hlen
    simp only at happ hall hlen
    by_cases hr : w = [] ∨ ∀ t', t ≠ 32 :: t'
    · rw [dHost_bad hs hr] at h; simp [mkErr] at h
    · have hw : w ≠ [] := fun h => hr (Or.inl h)
      obtain ⟨t', rfl⟩ : ∃ t', t = 32 :: t' := by
        apply Classical.byContradiction; intro hn
        exact hr (Or.inr fun t' e => hn ⟨t', e⟩)
      rw [dHost_ok hs hw, dMsg_iff (out := { out with hostname := w }) hp ht0] at h
      obtain ⟨tag, pid, text, hrd, rfl⟩ := h
      exact ⟨w, t', tag, pid, text, nameWF_iff.mpr ⟨hw, hlen, hall⟩, happ.symm, hrd, rfl⟩
  · rintro ⟨host, msg, tag, pid, text, hh, rfl, hrd, rfl⟩
    obtain ⟨h1, h2, h3⟩ := nameWF_iff.mp hh
    rw [dHost_ok (spanN_eq isGraph h3 h2 (Or.inr ⟨32, msg, rfl, by decide⟩)) h1,
      dMsg_iff (out := { out with hostname := host }) hp ht0]
    exact ⟨tag, pid, text, hrd, rfl⟩

theorem dAfter_iff {parse : Bytes → Option GoTime.Time} {pos : Nat} {w tl : Bytes} {out out' : Out}
    (hp : out.content = []) (ht0 : out.tag = []) : dAfter parse pos w tl out = .ok out' ↔
    ∃ tm host msg tag pid text, parse w = some tm ∧ NameWF 255 host ∧ tl = 32 :: (host ++ 32 :: msg) ∧ Reads msg tag pid text ∧
      out' = { out with timestamp := tm, timestampSet := true, hostname := host, tag := tag, content := pid, message := text } := by
  constructor
  · intro h
    unfold dAfter at h
    split at h
    · split at h
      · simp [mkErr] at h
      · rename_i t tm hpw
        rw [dHost_iff (out := { out with timestamp := tm, timestampSet := true }) hp ht0] at h
        obtain ⟨host, msg, tag, pid, text, e1, rfl, e2, rfl⟩ := h
        exact ⟨tm, host, msg, tag, pid, text, hpw, e1, rfl, e2, rfl⟩
    · simp at h
  · rintro ⟨tm, host, msg, tag, pid, text, hpw, e1, rfl, e2, rfl⟩
    simp only [dAfter, hpw]
    rw [dHost_iff (out := { out with timestamp := tm, timestampSet := true }) hp ht0]
    exact ⟨host, msg, tag, pid, text, e1, rfl, e2, rfl⟩

/-- the instant stored for a timestamp -/
def whenTime (o : Opts) : When → GoTime.Time
  | .bsd s => adjust o (Bs.stampTime s)
  | .iso s => s.time

theorem iso_headDigit {s : Stamp} (h : s.WF) (l : Bytes) : headDigit (s.render ++ l) = true := by
  have : s.render ++ l = digit (s.year / 100 / 10) :: (digit (s.year / 100 % 10) :: (d2 (s.year % 100) ++ 45 :: (d2 s.month ++ 45 :: (d2 s.day ++
      84 :: (d2 s.hour ++ 58 :: (d2 s.min ++ 58 :: (d2 s.sec ++ (fracRender s.frac ++ s.zone.render)))))))) ++ l := by
    simp [Stamp.render, d4, d2]
  have hy := h.1
  have hd := Ts.digit_toNat (show s.year / 100 / 10 ≤ 9 by omega)
  rw [this]
  simp only [List.cons_append, headDigit]
  simp; omega

theorem month_head {k : Nat} (h1 : 1 ≤ k) (h2 : k ≤ 12) : ∃ b r, monthText k = b :: r ∧ 65 ≤ b.toNat := by
  have : k = 1 ∨ k = 2 ∨ k = 3 ∨ k = 4 ∨ k = 5 ∨ k = 6 ∨ k = 7 ∨ k = 8 ∨ k = 9 ∨ k = 10 ∨ k = 11 ∨ k = 12 := by omega
  rcases this with rfl | rfl | rfl | rfl | rfl | rfl | rfl | rfl | rfl | rfl | rfl | rfl <;> exact ⟨_, _, rfl, by decide⟩

theorem bsd_headDigit {s : BStamp} (h : s.WF) (l : Bytes) : headDigit (s.render ++ l) = false := by
  obtain ⟨b, r, hm, hb⟩ := month_head h.1 h.2.1
  simp only [BStamp.render, hm, List.cons_append, headDigit]
  simp; omega

theorem dTime_iff {o : Opts} {pos : Nat} {rest : Bytes} {out out' : Out}
    (hp : out.content = []) (ht0 : out.tag = []) : dTime o pos rest out = .ok out' ↔
    ∃ w host msg tag pid text, When.WF o.rfc3339 w ∧ NameWF 255 host ∧ rest = w.render ++ 32 :: (host ++ 32 :: msg) ∧
      Reads msg tag pid text ∧ out' = { out with
        timestamp := whenTime o w, timestampSet := true, hostname := host, tag := tag, content := pid, message := text } := by
  constructor
  · intro h
    unfold dTime at h
    split at h
    · rename_i hi
      have ho : o.rfc3339 = true := by simp at hi; exact hi.1
      unfold dIso at h
      split at h
      · split at h <;> simp [mkErr] at h
      · rename_i w tl hsc
        obtain ⟨s, hwf, hfr, rfl, rfl⟩ := Ts.scan_sound hsc
        obtain ⟨tm, host, msg, tag, pid, text, e0, e1, rfl, e2, rfl⟩ := (dAfter_iff hp ht0).mp h
        rw [Ts.parse_render s hwf] at e0
        split at e0
        · rename_i hreal
          cases e0
          exact ⟨.iso s, host, msg, tag, pid, text, ⟨ho, hwf, hreal, hfr rfl⟩, e1, rfl, e2, rfl⟩
        · simp at e0
    · unfold dBsd at h
      split at h
      · simp [mkErr] at h
      · rename_i w tl hsc
        obtain ⟨s, hwf, rfl, rfl⟩ := Bs.scan_sound hsc
        obtain ⟨tm, host, msg, tag, pid, text, e0, e1, rfl, e2, rfl⟩ := (dAfter_iff hp ht0).mp h
        rw [Bs.parse_render s hwf] at e0
        split at e0
        · rename_i hreal
          cases e0
          exact ⟨.bsd s, host, msg, tag, pid, text, ⟨hwf, hreal⟩, e1, rfl, e2, rfl⟩
        · simp at e0
  · rintro ⟨w, host, msg, tag, pid, text, hw, e1, rfl, e2, rfl⟩
    cases w with
    | bsd s =>
      obtain ⟨hwf, hreal⟩ := hw
      simp only [dTime, When.render, bsd_headDigit hwf]
      simp only [Bool.and_false, Bool.false_eq_true, if_false, dBsd, Bs.scan_complete s hwf]
      rw [dAfter_iff hp ht0]
      exact ⟨_, host, msg, tag, pid, text, by rw [Bs.parse_render s hwf, if_pos hreal]; rfl, e1, rfl, e2, rfl⟩
    | iso s =>
      obtain ⟨ho, hwf, hreal, hfr⟩ := hw
      simp only [dTime, When.render, iso_headDigit hwf, ho]
      simp only [Bool.and_self, if_true, dIso, Ts.scan_complete (fr := false) s hwf (fun _ => hfr)]
      rw [dAfter_iff hp ht0]
      exact ⟨_, host, msg, tag, pid, text, by rw [Ts.parse_render s hwf, if_pos hreal]; rfl, e1, rfl, e2, rfl⟩

theorem setP_dec {n : Nat} (h : n ≤ 191) : setP (dec n) = { priority := UInt8.ofNat n, prioritySet := true } := by
  have : Common.toU8 (Common.unsafeDec (dec n)) = UInt8.ofNat n := by
    rw [unsafeDec_eq _ (dec_digits n), numVal_dec, Common.toU8, BitVec.toNat_ofNat, Nat.mod_eq_of_lt (by omega)]
  simp only [setP, this]

/-- the fields collected from a message -/
def outOf (o : Opts) (p : Bsd.Parts) : Out :=
  { prioritySet := true, timestampSet := true, priority := UInt8.ofNat p.pri, timestamp := whenTime o p.time, hostname := p.host
    tag := p.tag, content := p.pid, message := p.text }

theorem descend_iff {o : Opts} {input : Bytes} {out : Out} : descend o input = .ok out ↔
    ∃ p : Bsd.Parts, p.WF o.rfc3339 ∧ input = p.render ∧ out = outOf o p := by
  constructor
  · intro h
    unfold descend at h
    split at h
    · split at h
      · simp [mkErr] at h
      · rename_i r w tl hp
        obtain ⟨pri, hpri, rfl, rfl⟩ := pri_iff.mp hp
        rw [setP_dec hpri, dTime_iff rfl rfl] at h
        obtain ⟨w, host, msg, tag, pid, text, hw, e1, rfl, e2, rfl⟩ := h
        exact ⟨⟨pri, w, host, msg, tag, pid, text⟩, ⟨hpri, hw, e1, e2⟩, rfl, rfl⟩
    · simp [mkErr] at h
  · rintro ⟨p, hwf, rfl, rfl⟩
    have hp : priScan .start (dec p.pri ++ 62 :: (p.time.render ++ 32 :: (p.host ++ 32 :: p.msg))) = .ok (dec p.pri) _ :=
      pri_iff.mpr ⟨p.pri, hwf.pri, rfl, rfl⟩
    simp only [Bsd.Parts.render, descend, hp, setP_dec hwf.pri]
    rw [dTime_iff rfl rfl]
    exact ⟨p.time, p.host, p.msg, p.tag, p.pid, p.text, hwf.time, hwf.host, rfl, hwf.msg, rfl⟩

end Verif.Rfc3164
