import Verif.Rfc5424.GrammarSD

/-! # `descend` against the grammar: header, and the whole -/

namespace Verif.Rfc5424
open Spec

/-! ## decimal numbers of at most three digits -/

theorem dec_two {n : Nat} (h1 : 10 ≤ n) (h2 : n < 100) : dec n = [digit (n / 10), digit (n % 10)] := by
  rw [dec_ge h1, dec_lt (by omega)]; rfl

theorem dec_three {n : Nat} (h1 : 100 ≤ n) (h2 : n < 1000) :
    dec n = [digit (n / 10 / 10), digit (n / 10 % 10), digit (n % 10)] := by
  rw [dec_ge (by omega), dec_two (by omega) (by omega)]; rfl

/-- `dec` up to 999, computable by the kernel -/
def dec3 (n : Nat) : Bytes :=
  if n < 10 then [digit n] else if n < 100 then [digit (n / 10), digit (n % 10)]
  else [digit (n / 10 / 10), digit (n / 10 % 10), digit (n % 10)]

theorem dec_eq_dec3 {n : Nat} (h : n < 1000) : dec n = dec3 n := by
  simp only [dec3]
  split
  · exact dec_lt (by assumption)
  · split
    · exact dec_two (by omega) (by assumption)
    · exact dec_three (by omega) h

theorem isDig_iff' {b : UInt8} (h : isDig b = true) : 48 ≤ b.toNat ∧ b.toNat ≤ 57 := by simpa [isDig] using h

/-! ## PRI -/

def priRun : PriSt → Bytes → Option PriSt
  | s, [] => some s
  | s, b :: l => (priStep s b).bind fun s' => priRun s' l

theorem priStep_62 {s : PriSt} {b : UInt8} (h : b.toNat = 62) : priStep s b = none := by
  cases s <;> simp [priStep, h]

theorem priScan_run (tl : Bytes) : ∀ (w : Bytes) (s s' : PriSt), priRun s w = some s' → s' ≠ .start →
    priScan s (w ++ 62 :: tl) = .ok w tl := by
  intro w
  induction w with
  | nil =>
    intro s s' h hs
    simp only [priRun, Option.some.injEq] at h
    subst h
    simp [priScan, hs]
  | cons b l ih =>
    intro s s' h hs
    simp only [priRun] at h
    cases hst : priStep s b with
    | none => rw [hst] at h; simp at h
    | some s1 =>
      rw [hst] at h
      have hb : ¬ b.toNat = 62 := fun hb => by rw [priStep_62 hb] at hst; simp at hst
      simp only [List.cons_append, priScan]
      rw [if_neg (fun h => hb h.2), hst]
      simp only [ih s1 s' h hs, Ts.Res.cons]

theorem priScan_inv (tl : Bytes) : ∀ (l : Bytes) (s : PriSt) (w : Bytes), priScan s l = .ok w tl →
    l = w ++ 62 :: tl ∧ ∃ s', priRun s w = some s' ∧ s' ≠ .start := by
  intro l
  induction l with
  | nil => intro s w h; simp [priScan] at h
  | cons b l ih =>
    intro s w h
    simp only [priScan] at h
    split at h
    · rename_i hb
      simp only [Ts.Res.ok.injEq] at h
      obtain ⟨rfl, rfl⟩ := h
      exact ⟨by rw [(toNat_eq (n := 62) (by omega)).mp hb.2]; rfl, s, rfl, hb.1⟩
    · cases hst : priStep s b with
      | none => rw [hst] at h; simp at h
      | some s1 =>
        rw [hst] at h
        cases hsc : priScan s1 l with
        | bad n => simp [hsc, Ts.Res.cons] at h
        | ok w' t' =>
          simp only [hsc, Ts.Res.cons, Ts.Res.ok.injEq] at h
          obtain ⟨rfl, rfl⟩ := h
          obtain ⟨h1, s', h2, h3⟩ := ih s1 w' hsc
          exact ⟨by rw [h1]; rfl, s', by simp only [priRun, hst, Option.bind_some, h2], h3⟩

theorem priRun_dec3 : ∀ n, n < 192 → priRun .start (dec3 n) ≠ none ∧ priRun .start (dec3 n) ≠ some .start := by
  decide +kernel

theorem priRun_full {w : Bytes} {s' : PriSt} (h : priRun .full w = some s') : w = [] := by
  cases w with
  | nil => rfl
  | cons b l => simp [priRun, priStep] at h

theorem priRun_two {w : Bytes} {s' : PriSt} (h : priRun .two w = some s') :
    w = [] ∨ ∃ d : UInt8, w = [d] ∧ 48 ≤ d.toNat ∧ d.toNat ≤ 57 := by
  cases w with
  | nil => exact Or.inl rfl
  | cons b l =>
    right
    simp only [priRun, priStep] at h
    split at h
    · rename_i hb
      simp only [Option.bind_some] at h
      exact ⟨b, by rw [priRun_full h], hb⟩
    · simp at h

theorem priRun_nineteen {w : Bytes} {s' : PriSt} (h : priRun .nineteen w = some s') :
    w = [] ∨ ∃ d : UInt8, w = [d] ∧ 48 ≤ d.toNat ∧ d.toNat ≤ 49 := by
  cases w with
  | nil => exact Or.inl rfl
  | cons b l =>
    right
    simp only [priRun, priStep] at h
    split at h
    · rename_i hb
      simp only [Option.bind_some] at h
      exact ⟨b, by rw [priRun_full h], hb⟩
    · simp at h

theorem priRun_start {w : Bytes} {s' : PriSt} (h : priRun .start w = some s') (hs : s' ≠ .start) :
    ∃ n, n ≤ 191 ∧ w = dec n := by
  have key : IsDigits w → w ≠ [] → (w.head? ≠ some 48 ∨ w.length = 1) → numVal w ≤ 191 → ∃ n, n ≤ 191 ∧ w = dec n :=
    fun h1 h2 h3 h4 => ⟨numVal w, h4, (dec_numVal w h1 h2 h3).symm⟩
  have hne : ∀ {b : UInt8} {l : Bytes}, 49 ≤ b.toNat → (b :: l).head? ≠ some 48 := by
    intro b l hb hh
    simp at hh
    rw [hh] at hb; simp at hb
  cases w with
  | nil => simp [priRun] at h; exact absurd h.symm hs
  | cons b l =>
    simp only [priRun, priStep] at h
    split at h
    · rename_i hb
      simp only [Option.bind_some] at h
      have hl := priRun_full h
      subst hl
      exact key (by intro c hc; simp at hc; subst hc; omega) (by simp) (Or.inr rfl) (by simp [numVal]; omega)
    split at h
    · rename_i hb
      simp only [Option.bind_some] at h
      cases l with
      | nil => exact key (by intro c hc; simp at hc; subst hc; omega) (by simp) (Or.inr rfl) (by simp [numVal]; omega)
      | cons c l =>
        simp only [priRun, priStep] at h
        split at h
        · rename_i hc
          simp only [Option.bind_some] at h
          rcases priRun_two h with rfl | ⟨d, rfl, hd⟩
          · exact key (by intro x hx; simp at hx; rcases hx with rfl | rfl <;> omega) (by simp)
              (Or.inl (hne (by omega))) (by simp [numVal]; omega)
          · exact key (by intro x hx; simp at hx; rcases hx with rfl | rfl | rfl <;> omega) (by simp)
              (Or.inl (hne (by omega))) (by simp [numVal]; omega)
        split at h
        · rename_i hc
          simp only [Option.bind_some] at h
          rcases priRun_nineteen h with rfl | ⟨d, rfl, hd⟩
          · exact key (by intro x hx; simp at hx; rcases hx with rfl | rfl <;> omega) (by simp)
              (Or.inl (hne (by omega))) (by simp [numVal]; omega)
          · exact key (by intro x hx; simp at hx; rcases hx with rfl | rfl | rfl <;> omega) (by simp)
              (Or.inl (hne (by omega))) (by simp [numVal]; omega)
        · simp at h
    split at h
    · rename_i hb
      simp only [Option.bind_some] at h
      rcases priRun_two h with rfl | ⟨d, rfl, hd⟩
      · exact key (by intro c hc; simp at hc; subst hc; omega) (by simp) (Or.inr rfl) (by simp [numVal]; omega)
      · exact key (by intro x hx; simp at hx; rcases hx with rfl | rfl <;> omega) (by simp)
          (Or.inl (hne (by omega))) (by simp [numVal]; omega)
    · simp at h

theorem pri_iff {l w tl : Bytes} : priScan .start l = .ok w tl ↔
    ∃ n, n ≤ 191 ∧ w = dec n ∧ l = dec n ++ 62 :: tl := by
  constructor
  · intro h
    obtain ⟨h1, s', h2, h3⟩ := priScan_inv tl l .start w h
    obtain ⟨n, hn, rfl⟩ := priRun_start h2 h3
    exact ⟨n, hn, rfl, h1⟩
  · rintro ⟨n, hn, rfl, rfl⟩
    have := priRun_dec3 n (by omega)
    rw [← dec_eq_dec3 (by omega)] at this
    cases hr : priRun .start (dec n) with
    | none => exact absurd hr this.1
    | some s => exact priScan_run tl _ _ s hr (fun h => this.2 (by rw [hr, h]))

theorem setP_dec {n : Nat} (h : n ≤ 191) : setP (dec n) = { priority := UInt8.ofNat n, prioritySet := true } := by
  have : Common.toU8 (Common.unsafeDec (dec n)) = UInt8.ofNat n := by
    rw [unsafeDec_eq _ (dec_digits n), numVal_dec, Common.toU8, BitVec.toNat_ofNat, Nat.mod_eq_of_lt (by omega)]
  simp only [setP, this]

/-! ## bottom up: what each rest of the message must look like -/

/-- nothing of STRUCTURED-DATA and MSG was set -/
def Good (o : Out) : Prop := o.message = [] ∧ o.structuredData = none ∧ o.hasElements = false

def SdT (c : Bool) (t : Bytes) (out o : Out) : Prop :=
  ∃ (es : List Elem) (msg : Option Bytes), (∀ e ∈ es, e.WF) ∧ (es.map Elem.id).Nodup ∧
      (∀ w, msg = some w → MsgOk c w) ∧ t = sdText es ++ msgText msg ∧ o = putSD out es msg

theorem sdT_iff {c : Bool} {pos : Nat} {rest : Bytes} {out o : Out} (h : Good out) :
    dSD c pos rest out = .ok o ↔ SdT c rest out o := sd_iff h.1 h.2.1 h.2.2

def FieldT (max : Nat) (set : Out → Bytes → Out) (K : Bytes → Out → Out → Prop) (t : Bytes) (out o : Out) : Prop :=
  ∃ (f : Option Bytes) (t' : Bytes), FieldWF max f ∧ t = fieldText f ++ 32 :: t' ∧ K t' (set out (fieldText f)) o

theorem isGraph_printable {b : UInt8} : isGraph b = true ↔ Printable b := isGraph_iff

theorem nameWF_iff {max : Nat} {w : Bytes} : NameWF max w ↔ w ≠ [] ∧ w.length ≤ max ∧ ∀ b ∈ w, isGraph b = true := by
  simp only [NameWF, isGraph_printable]

theorem field_name {max : Nat} (hm : 1 ≤ max) {w : Bytes} :
    NameWF max w ↔ ∃ f, FieldWF max f ∧ fieldText f = w := by
  constructor
  · intro h
    by_cases h45 : w = [45]
    · exact ⟨none, trivial, h45.symm⟩
    · exact ⟨some w, ⟨h, h45⟩, rfl⟩
  · rintro ⟨f, hf, rfl⟩
    cases f with
    | none => exact ⟨by simp [fieldText], by simpa [fieldText] using hm, by
        intro b hb; simp [fieldText] at hb; subst hb; decide⟩
    | some w => exact hf.1

theorem fieldT_iff {max : Nat} (hm : 1 ≤ max) {kind : ErrKind} {set : Out → Bytes → Out} {K : Bytes → Out → Out → Prop}
    {k : Bytes → Nat → Bytes → Fin} {out o : Out}
    (hk : ∀ w pos t, k w pos t = .ok o ↔ K t (set out w) o) {pos : Nat} {rest : Bytes} :
    dField max kind k pos rest out = .ok o ↔ FieldT max set K rest out o := by
  constructor
  · intro h
    obtain ⟨w, r, hsp⟩ : ∃ w r, spanN isGraph max rest = (w, r) := ⟨_, _, rfl⟩
    by_cases hok : w ≠ [] ∧ ∃ t, r = 32 :: t
    · obtain ⟨hw, t, rfl⟩ := hok
      rw [dField_ok hsp hw, hk] at h
      have h1 := spanN_append isGraph max rest
      have h2 := spanN_all isGraph max rest
      have h3 := spanN_length isGraph max rest
      rw [hsp] at h1 h2 h3
      obtain ⟨f, hf, hft⟩ := (field_name hm).mp (nameWF_iff.mpr ⟨hw, h3, h2⟩)
      exact ⟨f, t, hf, by rw [hft]; exact h1.symm, by rw [hft]; exact h⟩
    · rw [dField_bad hsp (by
        by_cases hw : w = []
        · exact Or.inl hw
        · exact Or.inr fun t ht => hok ⟨hw, t, ht⟩)] at h
      simp [mkErr] at h
  · rintro ⟨f, t, hf, rfl, h⟩
    have hwf := nameWF_iff.mp ((field_name hm).mpr ⟨f, hf, rfl⟩)
    have hsp : spanN isGraph max (fieldText f ++ 32 :: t) = (fieldText f, 32 :: t) :=
      spanN_eq isGraph hwf.2.2 hwf.2.1 (Or.inr ⟨32, t, rfl, by decide⟩)
    rw [dField_ok hsp hwf.1, hk]
    exact h

def MsgidT (c : Bool) := FieldT 32 (fun o w => { o with msgID := w }) (SdT c)
def ProcidT (c : Bool) := FieldT 128 (fun o w => { o with procID := w }) (MsgidT c)
def AppnameT (c : Bool) := FieldT 48 (fun o w => { o with appname := w }) (ProcidT c)
def HostnameT (c : Bool) := FieldT 255 (fun o w => { o with hostname := w }) (AppnameT c)

theorem msgidT_iff {c : Bool} {pos : Nat} {rest : Bytes} {out o : Out} (h : Good out) :
    dMsgid c pos rest out = .ok o ↔ MsgidT c rest out o := by
  unfold dMsgid MsgidT
  exact fieldT_iff (max := 32) (set := fun o w => { o with msgID := w }) (K := SdT c)
    (k := fun w p t => dSD c p t { out with msgID := w }) (by omega)
    (fun w pos t => sdT_iff (out := { out with msgID := w }) h)

theorem procidT_iff {c : Bool} {pos : Nat} {rest : Bytes} {out o : Out} (h : Good out) :
    dProcid c pos rest out = .ok o ↔ ProcidT c rest out o := by
  unfold dProcid ProcidT
  exact fieldT_iff (max := 128) (set := fun o w => { o with procID := w }) (K := MsgidT c)
    (k := fun w p t => dMsgid c p t { out with procID := w }) (by omega)
    (fun w pos t => msgidT_iff (out := { out with procID := w }) h)

theorem appnameT_iff {c : Bool} {pos : Nat} {rest : Bytes} {out o : Out} (h : Good out) :
    dAppname c pos rest out = .ok o ↔ AppnameT c rest out o := by
  unfold dAppname AppnameT
  exact fieldT_iff (max := 48) (set := fun o w => { o with appname := w }) (K := ProcidT c)
    (k := fun w p t => dProcid c p t { out with appname := w }) (by omega)
    (fun w pos t => procidT_iff (out := { out with appname := w }) h)

theorem hostnameT_iff {c : Bool} {pos : Nat} {rest : Bytes} {out o : Out} (h : Good out) :
    dHostname c pos rest out = .ok o ↔ HostnameT c rest out o := by
  unfold dHostname HostnameT
  exact fieldT_iff (max := 255) (set := fun o w => { o with hostname := w }) (K := AppnameT c)
    (k := fun w p t => dAppname c p t { out with hostname := w }) (by omega)
    (fun w pos t => appnameT_iff (out := { out with hostname := w }) h)

/-! ## TIMESTAMP -/

def putTs (out : Out) : Option Stamp → Out
  | none => out
  | some s => { out with timestamp := s.time, timestampSet := true }

def TsT (c : Bool) (t : Bytes) (out o : Out) : Prop :=
  ∃ (ts : Option Stamp) (t' : Bytes), (∀ s, ts = some s → s.WF ∧ s.Real) ∧ t = tsText ts ++ 32 :: t' ∧
    HostnameT c t' (putTs out ts) o

theorem stamp_head (s : Stamp) (h : s.WF) : ∃ b l, s.render = b :: l ∧ 48 ≤ b.toNat ∧ b.toNat ≤ 57 := by
  refine ⟨_, _, rfl, ?_⟩
  have := h.1
  rw [Ts.digit_toNat (by omega)]
  omega

theorem tsT_iff {c : Bool} {pos : Nat} {rest : Bytes} {out o : Out} (hg : Good out) :
    dTimestamp c pos rest out = .ok o ↔ TsT c rest out o := by
  constructor
  · intro h
    unfold dTimestamp at h
    split at h
    · rename_i r
      split at h
      · rename_i t
        exact ⟨none, t, by simp, rfl, (hostnameT_iff hg).mp h⟩
      · simp [mkErr] at h
    · cases hsc : Ts.scan true .y1 rest with
      | bad n => rw [hsc] at h; simp [mkErr] at h
      | ok w tl =>
        rw [hsc] at h
        obtain ⟨s, hwf, -, rfl, hl⟩ := Ts.scan_sound hsc
        simp only [Ts.parse_render s hwf] at h
        by_cases hr : s.Real
        · simp only [if_pos hr] at h
          split at h
          · rename_i t
            exact ⟨some s, t, by intro s' hs'; simp at hs'; subst hs'; exact ⟨hwf, hr⟩, hl,
              (hostnameT_iff (out := putTs out (some s)) hg).mp h⟩
          · simp [mkErr] at h
        · simp [if_neg hr, mkErr] at h
  · rintro ⟨ts, t, hts, rfl, h⟩
    cases ts with
    | none => exact (hostnameT_iff hg).mpr h
    | some s =>
      obtain ⟨hwf, hr⟩ := hts s rfl
      obtain ⟨b, l, hb, hb1, hb2⟩ := stamp_head s hwf
      have hne : ∀ r, tsText (some s) ++ 32 :: t ≠ 45 :: r := by
        intro r hh
        simp only [tsText, hb, List.cons_append, List.cons.injEq] at hh
        rw [hh.1] at hb1; simp at hb1
      unfold dTimestamp
      split
      · rename_i hh; exact absurd hh (hne _)
      · rw [show tsText (some s) = s.render from rfl, Ts.scan_complete s hwf (by simp)]
        simp only [Ts.parse_render s hwf, if_pos hr]
        exact (hostnameT_iff (out := putTs out (some s)) hg).mpr h

/-! ## VERSION -/

def VersionT (c : Bool) (t : Bytes) (out o : Out) : Prop :=
  ∃ (n : Nat) (t' : Bytes), (1 ≤ n ∧ n ≤ 999) ∧ t = dec n ++ 32 :: t' ∧
    TsT c t' { out with version := UInt16.ofNat n } o

theorem setV_num {out : Out} {w : Bytes} (hd : IsDigits w) (h : numVal w ≤ 999) :
    setV out w = { out with version := UInt16.ofNat (numVal w) } := by
  have : Common.toU16 (Common.unsafeDec w) = UInt16.ofNat (numVal w) := by
    rw [unsafeDec_eq _ hd, Common.toU16, BitVec.toNat_ofNat, Nat.mod_eq_of_lt (by omega)]
  simp only [setV, this]

theorem version_ok {c : Bool} {w t : Bytes} {out o : Out} {d : UInt8} {l : Bytes} (hw : w = d :: l) (hd : IsDigits w)
    (hd1 : 49 ≤ d.toNat) (hl : l.length ≤ 2) :
    (1 ≤ numVal w ∧ numVal w ≤ 999) ∧ dec (numVal w) = w := by
  subst hw
  have h1 : dec (numVal (d :: l)) = d :: l := dec_numVal _ hd (by simp) (Or.inl (by
    intro hh; simp at hh; rw [hh] at hd1; simp at hd1))
  refine ⟨?_, h1⟩
  have hd0 := hd d (by simp)
  cases l with
  | nil => simp [numVal]; omega
  | cons b l =>
    have hb := hd b (by simp)
    cases l with
    | nil => simp [numVal]; omega
    | cons b2 l =>
      have hb2 := hd b2 (by simp)
      cases l with
      | nil => simp [numVal]; omega
      | cons b3 l => simp at hl

theorem versionT_iff {c : Bool} {pos : Nat} {rest : Bytes} {out o : Out} (hg : Good out) :
    dVersion c pos rest out = .ok o ↔ VersionT c rest out o := by
  constructor
  · intro h
    -- every success ends with digits `w`, a space and a timestamp
    have fin : ∀ (w : Bytes) (d : UInt8) (l t : Bytes) (pos' : Nat), w = d :: l → IsDigits w → 49 ≤ d.toNat → l.length ≤ 2 →
        rest = w ++ 32 :: t → dTimestamp c pos' t (setV out w) = .ok o → VersionT c rest out o := by
      intro w d l t pos' hw hd hd1 hl hrest hts
      obtain ⟨hn, hdec⟩ := version_ok (c := c) (t := t) (out := out) (o := o) hw hd hd1 hl
      rw [setV_num hd hn.2] at hts
      exact ⟨numVal w, t, hn, by rw [hdec]; exact hrest, (tsT_iff (out := { out with version := UInt16.ofNat (numVal w) }) hg).mp hts⟩
    cases rest with
    | nil => simp [dVersion, mkErr] at h
    | cons d1 r1 =>
    by_cases hd1 : d1.toNat < 49 ∨ 57 < d1.toNat
    · simp only [dVersion, if_pos hd1, mkErr] at h; cases h
    cases r1 with
    | nil => simp only [dVersion, if_neg hd1, mkErr] at h; cases h
    | cons d2 r2 =>
    by_cases h2 : d2 = 32
    · subst h2
      simp only [dVersion, if_neg hd1, if_true] at h
      exact fin [d1] d1 [] r2 _ rfl (by intro c hc; simp at hc; subst hc; omega) (by omega) (by simp) rfl h
    by_cases hd2 : isDig d2 = true
    case neg => simp only [dVersion, if_neg hd1, if_neg h2, if_neg hd2, mkErr] at h; cases h
    have hd2' := isDig_iff' hd2
    cases r2 with
    | nil => simp only [dVersion, if_neg hd1, if_neg h2, if_pos hd2, mkErr] at h; cases h
    | cons d3 r3 =>
    by_cases h3 : d3 = 32
    · subst h3
      simp only [dVersion, if_neg hd1, if_neg h2, if_pos hd2, if_true] at h
      exact fin [d1, d2] d1 [d2] r3 _ rfl (by intro c hc; simp at hc; rcases hc with rfl | rfl <;> omega) (by omega) (by simp) rfl h
    by_cases hd3 : isDig d3 = true
    case neg => simp only [dVersion, if_neg hd1, if_neg h2, if_pos hd2, if_neg h3, if_neg hd3, mkErr] at h; cases h
    have hd3' := isDig_iff' hd3
    cases r3 with
    | nil => simp only [dVersion, if_neg hd1, if_neg h2, if_pos hd2, if_neg h3, if_pos hd3, mkErr] at h; cases h
    | cons d4 r4 =>
    by_cases h4 : d4 = 32
    · subst h4
      simp only [dVersion, if_neg hd1, if_neg h2, if_pos hd2, if_neg h3, if_pos hd3, if_true] at h
      exact fin [d1, d2, d3] d1 [d2, d3] r4 _ rfl
        (by intro c hc; simp at hc; rcases hc with rfl | rfl | rfl <;> omega) (by omega) (by simp) rfl h
    · simp only [dVersion, if_neg hd1, if_neg h2, if_pos hd2, if_neg h3, if_pos hd3, if_neg h4, mkErr] at h; cases h
  · rintro ⟨n, t, hn, rfl, h⟩
    have hts : ∀ pos', dTimestamp c pos' t (setV out (dec n)) = .ok o := by
      intro pos'
      rw [setV_num (dec_digits n) (by rw [numVal_dec]; exact hn.2), numVal_dec]
      exact (tsT_iff (out := { out with version := UInt16.ofNat n }) hg).mpr h
    have hdig : ∀ k, k ≤ 9 → isDig (digit k) = true := by
      intro k hk; simp only [isDig, Ts.digit_toNat hk]; simp; omega
    have hne : ∀ k, k ≤ 9 → digit k ≠ 32 := by
      intro k hk hh
      have := Ts.digit_toNat hk
      rw [hh] at this; simp at this; omega
    have hfirst : ∀ k, 1 ≤ k → k ≤ 9 → ¬((digit k).toNat < 49 ∨ 57 < (digit k).toNat) := by
      intro k h1 h2; rw [Ts.digit_toNat h2]; omega
    by_cases h10 : n < 10
    · rw [dec_lt h10] at hts ⊢
      simp only [List.cons_append, List.nil_append, dVersion]
      rw [if_neg (hfirst n hn.1 (by omega)), if_pos trivial]
      exact hts _
    by_cases h100 : n < 100
    · rw [dec_two (by omega) h100] at hts ⊢
      simp only [List.cons_append, List.nil_append, dVersion]
      rw [if_neg (hfirst _ (by omega) (by omega)), if_neg (hne _ (by omega)), if_pos (hdig _ (by omega)), if_pos trivial]
      exact hts _
    · rw [dec_three (by omega) (by omega)] at hts ⊢
      simp only [List.cons_append, List.nil_append, dVersion]
      rw [if_neg (hfirst _ (by omega) (by omega)), if_neg (hne _ (by omega)), if_pos (hdig _ (by omega)),
        if_neg (hne _ (by omega)), if_pos (hdig _ (by omega)), if_pos trivial]
      exact hts _

/-! ## the whole -/

/-- the fields collected from a message -/
def outOf (p : Parts) : Out :=
  putSD { putTs { priority := UInt8.ofNat p.pri, prioritySet := true, version := UInt16.ofNat p.version } p.timestamp with
    hostname := fieldText p.hostname, appname := fieldText p.appname, procID := fieldText p.procID,
    msgID := fieldText p.msgID } p.sd p.msg

theorem descend_iff {c : Bool} {input : Bytes} {o : Out} : descend c input = .ok o ↔
    ∃ p : Parts, p.WF ∧ (∀ w, p.msg = some w → MsgOk c w) ∧ input = p.render ∧ o = outOf p := by
  constructor
  · intro h
    unfold descend at h
    split at h
    · rename_i r
      cases hp : priScan .start r with
      | bad n => rw [hp] at h; simp at h
      | ok w tl =>
        rw [hp] at h
        obtain ⟨pri, hpri, rfl, rfl⟩ := pri_iff.mp hp
        simp only [setP_dec hpri] at h
        rw [versionT_iff ⟨rfl, rfl, rfl⟩] at h
        obtain ⟨ver, t1, hver, rfl, ts, t2, hts, rfl, host, t3, hhost, rfl, app, t4, happ, rfl, pid, t5, hpid, rfl,
          mid, t6, hmid, rfl, es, msg, hes, hids, hmsg, rfl, rfl⟩ := h
        refine ⟨⟨pri, ver, ts, host, app, pid, mid, es, msg⟩, ⟨hpri, hver, hts, hhost, happ, hpid, hmid, hes, hids⟩,
          hmsg, rfl, rfl⟩
    · simp at h
  · rintro ⟨p, hwf, hmsg, rfl, rfl⟩
    have hp : priScan .start (dec p.pri ++ 62 :: (dec p.version ++ 32 :: (tsText p.timestamp ++ 32 :: (fieldText p.hostname ++ 32 ::
      (fieldText p.appname ++ 32 :: (fieldText p.procID ++ 32 :: (fieldText p.msgID ++ 32 ::
      (sdText p.sd ++ msgText p.msg)))))))) = .ok (dec p.pri) _ := pri_iff.mpr ⟨p.pri, hwf.pri, rfl, rfl⟩
    simp only [Parts.render, descend, hp, setP_dec hwf.pri]
    rw [versionT_iff ⟨rfl, rfl, rfl⟩]
    exact ⟨p.version, _, hwf.version, rfl, p.timestamp, _, hwf.timestamp, rfl, p.hostname, _, hwf.hostname, rfl,
      p.appname, _, hwf.appname, rfl, p.procID, _, hwf.procID, rfl, p.msgID, _, hwf.msgID, rfl,
      p.sd, p.msg, hwf.sd, hwf.ids, hmsg, rfl, rfl⟩

theorem optField_text {max : Nat} {f : Option Bytes} (h : FieldWF max f) : optField (fieldText f) = f := by
  cases f with
  | none => rfl
  | some w => simp [optField, fieldText, h.1.1, h.2]

theorem putTs_eq (out : Out) (ts : Option Stamp) (h1 : out.timestampSet = false) (h2 : out.timestamp = zeroTime) :
    putTs out ts = { out with timestampSet := ts.isSome, timestamp := (ts.map Stamp.time).getD zeroTime } := by
  cases ts with
  | none => cases out; simp_all [putTs]
  | some s => rfl

theorem export_outOf {p : Parts} (h : p.WF) : (outOf p).export = p.toMessage := by
  have hp := h.pri
  have hf : UInt8.ofNat p.pri / 8 = UInt8.ofNat (p.pri / 8) := by
    apply UInt8.toNat_inj.mp
    rw [UInt8.toNat_div, UInt8.toNat_ofNat', UInt8.toNat_ofNat', show UInt8.toNat 8 = 8 from rfl]
    omega
  have hs : UInt8.ofNat p.pri % 8 = UInt8.ofNat (p.pri % 8) := by
    apply UInt8.toNat_inj.mp
    rw [UInt8.toNat_mod, UInt8.toNat_ofNat', UInt8.toNat_ofNat', show UInt8.toNat 8 = 8 from rfl]
    omega
  rw [outOf, putTs_eq _ _ rfl rfl]
  simp only [putSD, Out.export, Base.computeFromPriority, Parts.toMessage, hf, hs, optField_text h.hostname,
    optField_text h.appname, optField_text h.procID, optField_text h.msgID]
  obtain ⟨pri, ver, ts, host, app, pid, mid, sd, msg⟩ := p
  congr 1
  · congr 1
    · cases ts <;> rfl
    · cases msg with
      | none => rfl
      | some w => cases w <;> simp
  · cases sd <;> simp

theorem minimal_outOf {p : Parts} (h : p.WF) : (outOf p).minimal = true := by
  have h1 := h.pri
  have h2 := h.version
  rw [outOf, putTs_eq _ _ rfl rfl]
  simp only [putSD, Out.minimal, Common.validPriority, Common.validVersion, Common.inBetween, UInt8.toNat_ofNat',
    UInt16.toNat_ofNat']
  simp
  omega

end Verif.Rfc5424
