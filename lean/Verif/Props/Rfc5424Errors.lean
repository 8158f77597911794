import Verif.Props.Rfc5424
import Verif.Rfc5424.FailsMain

/-!
# C55-C58: refused RFC 5424 inputs, completely

The specification of what is refused, where, and what best effort keeps is `Spec.Broken` in
`Verif/Spec/Rfc5424Errors.lean`.
-/

namespace Verif.Props
open Verif.Spec Verif.Rfc5424

/-- what `Parse` returns for a broken input -/
def Refuses (be co : Bool) (input : Bytes) (k : ErrKind) (c : Nat) (m : Option SyslogMessage) : Prop :=
  parse1 ⟨be, co⟩ input = some ⟨if be then m else none, some ⟨k, c⟩⟩

theorem refuses_of {be co : Bool} {input : Bytes} {k : ErrKind} {c : Nat} {out : Out} {m : Option SyslogMessage}
    (h : descend co input = mkErr k c out) (hm : (partOf out).map Out.export = m) : Refuses be co input k c m := by
  rw [Refuses, parse1_eq, Option.some.injEq, resultOf_err]
  exact ⟨partOf out, h, by rw [hm]⟩

theorem broken_refused {be co : Bool} {input : Bytes} {k : ErrKind} {c : Nat} {m : Option SyslogMessage}
    (h : Broken co input k c m) : Refuses be co input k c m := by
  cases h with
  | noLt h =>
    rw [Refuses, parse1_eq, Option.some.injEq, resultOf_err]
    refine ⟨none, ?_, by simp⟩
    simp only [descend]
    split
    · exact absurd rfl (h _)
    · rfl
  | pri h =>
    rw [Refuses, parse1_eq, Option.some.injEq, resultOf_err]
    refine ⟨none, ?_, by simp⟩
    simp only [descend, pri_fails.mpr h]
  | noVersion hp hx =>
    refine refuses_of ((descend_lead0 hp).trans (dVersion_none hx)) ?_
    simp [partOf, Out.minimal, Common.validVersion, Common.inBetween]
  | @version p t hp h32 hd =>
    have e : p.lead 0 ++ dec p.version ++ t = p.lead 0 ++ (dec p.version ++ t) := by simp
    rw [e, List.length_append]
    refine refuses_of ((descend_lead0 hp).trans (dVersion_bad hp.version h32 hd)) ?_
    have hq : ({ p with version := if t = [] ∧ 10 ≤ p.version then p.version / 10 else p.version } : Parts).WF :=
      ⟨hp.pri, by have := hp.version; simp only []; split <;> omega, hp.timestamp, hp.hostname, hp.appname, hp.procID, hp.msgID, hp.sd, hp.ids⟩
    exact part_outAt hq 1
  | @nilTime p t hp ht =>
    have e : p.lead 1 ++ [45] ++ t = p.lead 1 ++ ([45] ++ t) := by simp
    rw [e]
    exact refuses_of ((descend_lead1 hp).trans (dTimestamp_nil ht)) (part_outAt hp 1)
  | time hp h45 hx =>
    exact refuses_of ((descend_lead1 hp).trans (dTimestamp_fails h45 (ts_fails.mpr hx))) (part_outAt hp 1)
  | @noSuchDay p s t hp hs hr =>
    rw [List.append_assoc, List.length_append]
    exact refuses_of ((descend_lead1 hp).trans (dTimestamp_unreal hs hr)) (part_outAt hp 1)
  | @afterTime p s t hp hs ht =>
    rw [List.append_assoc, List.length_append]
    refine refuses_of ((descend_lead1 hp).trans (dTimestamp_after (hp.timestamp s hs).1 (hp.timestamp s hs).2 ht)) ?_
    have := part_outAt hp 2
    rw [← this]
    simp [outAt, putTs, hs]
  | field hp h3 h6 hx => exact refuses_of (descend_field hp h3 h6 hx) (part_outAt hp _)
  | noSd hp h1 h2 => exact refuses_of ((descend_lead6 hp).trans (dSD_none h1 h2)) (part_outAt hp 6)
  | @nilSd p b t hp hb =>
    rw [List.append_assoc]
    exact refuses_of ((descend_lead6 hp).trans (dSD_nil hb)) (part_outAt hp 6)
  | @element p x kind n es hp hst =>
    have e : p.lead 6 ++ p.sd.flatMap Elem.render ++ [91] ++ x = p.lead 6 ++ (p.sd.flatMap Elem.render ++ 91 :: x) := by simp
    rw [e, List.length_append]
    exact refuses_of ((descend_lead6 hp).trans (dSD_stuck hp.sd hp.ids hst)) (part_withSD hp es)
  | @afterSd p b t hp hne h32 h91 =>
    have e : p.lead 6 ++ sdText p.sd ++ [b] ++ t = p.lead 6 ++ (sdText p.sd ++ b :: t) := by simp
    rw [e, List.length_append]
    exact refuses_of ((descend_lead6 hp).trans (dSD_after hne hp.sd hp.ids h32 h91)) (part_withSD hp p.sd)
  | @msg p w n hp hw hco hbad hle hv hst =>
    subst hco
    obtain ⟨n', g1, ⟨t1, g2⟩, g3, g4⟩ := C12_refused be p hp w hw hbad
    obtain ⟨t2, g5⟩ := hv
    have split : ∀ (a b : Nat) (t : Bytes), a < b → w.take b ++ t = w.take (a + 1) ++ ((w.take b).drop (a + 1) ++ t) := by
      intro a b t hab
      rw [← List.append_assoc, show w.take (a + 1) = (w.take b).take (a + 1) by rw [List.take_take, Nat.min_eq_left (by omega)],
        List.take_append_drop]
    have hn : n = n' := by
      rcases Nat.lt_trichotomy n n' with h | h | h
      · rw [split n n' t1 h] at g2; exact absurd g2 (hst (by omega) _)
      · exact h
      · rw [split n' n t2 h] at g5; exact absurd ⟨_, g5⟩ (g3 (by omega))
    subst hn
    rw [Refuses, g4, lead_head]
    have hne : ¬ w.take n = [] := by
      intro h0
      have h1 : n = 0 ∨ w = [] := by simpa using h0
      have hbom : bom <+: w := by
        simp only [MsgCompliant, Classical.not_imp] at hbad; exact hbad.1
      obtain ⟨l, hl⟩ := hbom
      rcases h1 with h1 | h1
      · subst h1
        have := hst (by rw [← hl]; simp [bom]) [0xBB, 0xBF]
        rw [← hl] at this
        exact this ((U8.acc_iff _).mp (show U8.firstBad _ _ = none by simp [bom]; decide))
      · rw [← hl] at h1; simp [bom] at h1
    congr 3
    · simp [Parts.toMessage, hne]
    · simp; omega

/-! ## every input is a message or broken -/

/-- the input is the text of an acceptable message, or broken -/
def Decided (co : Bool) (input : Bytes) : Prop :=
  (∃ p : Parts, p.WF ∧ p.render = input ∧ ∀ w, p.msg = some w → co = true → MsgCompliant w) ∨ ∃ k c m, Broken co input k c m

theorem decided_render {co : Bool} {p : Parts} (hp : p.WF) : Decided co p.render := by
  by_cases h : ∀ w, p.msg = some w → co = true → MsgCompliant w
  · exact Or.inl ⟨p, hp, rfl, h⟩
  · simp only [Classical.not_forall] at h
    obtain ⟨w, hw, hco, hbad⟩ := h
    obtain ⟨n, g1, g2, g3, -⟩ := C12_refused true p hp w hw hbad
    exact Or.inr ⟨_, _, _, .msg hp hw hco hbad g1 g2 (fun hlt t ht => g3 hlt ⟨t, ht⟩)⟩

theorem decided6 {co : Bool} {p : Parts} (hp : p.WF) (x : Bytes) : Decided co (p.lead 6 ++ x) := by
  have set : ∀ es msg, (∀ e ∈ es, e.WF) → (es.map Elem.id).Nodup → ({ p with sd := es, msg := msg } : Parts).WF :=
    fun es msg h1 h2 => ⟨hp.pri, hp.version, hp.timestamp, hp.hostname, hp.appname, hp.procID, hp.msgID, h1, h2⟩
  have hl : ∀ es msg, ({ p with sd := es, msg := msg } : Parts).lead 6 = p.lead 6 := fun _ _ => by rw [lead_head, lead_head]; rfl
  have full : ∀ es msg, (∀ e ∈ es, e.WF) → (es.map Elem.id).Nodup → x = sdText es ++ msgText msg → Decided co (p.lead 6 ++ x) := by
    intro es msg h1 h2 hx
    have := decided_render (co := co) (set es msg h1 h2)
    rw [Parts.render_eq] at this
    rw [lead_head, hx]; exact this
  by_cases h45 : ∃ r, x = 45 :: r
  · obtain ⟨r, rfl⟩ := h45
    cases r with
    | nil => exact full [] none (by simp) (by simp) rfl
    | cons b t =>
      by_cases hb : b = 32
      · subst hb; exact full [] (some t) (by simp) (by simp) rfl
      · have := Broken.nilSd (co := co) (t := t) hp hb
        rw [List.append_assoc] at this
        exact Or.inr ⟨_, _, _, this⟩
  by_cases h91 : ∃ r, x = 91 :: r
  case neg => exact Or.inr ⟨_, _, _, .noSd hp (fun t h => h45 ⟨t, h⟩) (fun t h => h91 ⟨t, h⟩)⟩
  obtain ⟨r, rfl⟩ := h91
  cases hd : dElems (r.length + 1) [] [] 0 r with
  | bad k c sd =>
    obtain ⟨more, y, n, es', g1, g2, g3, g4, -, -⟩ := delm_bad (r.length + 1) [] 0 r k c sd (by simp) (by simp) (by omega) hd
    rw [List.nil_append] at g2 g4
    have := Broken.element (co := co) (set more none g1 g2) g4
    rw [hl] at this
    rw [g3, show p.lead 6 ++ (more.flatMap Elem.render ++ 91 :: y) = p.lead 6 ++ more.flatMap Elem.render ++ [91] ++ y by simp]
    exact Or.inr ⟨_, _, _, this⟩
  | ok sd p1 tl =>
    obtain ⟨es, g1, g2, g3, -, g5, g6, -⟩ := elems_sound _ _ _ _ _ _ _ _ SMap.sorted_nil hd
    have htext : sdText es = es.flatMap Elem.render := by cases es with
      | nil => exact absurd rfl g1
      | cons => rfl
    cases tl with
    | nil => exact full es none g2 g3 (by rw [g5, htext]; rfl)
    | cons b t =>
      by_cases hb : b = 32
      · subst hb; exact full es (some t) g2 g3 (by rw [g5, htext]; rfl)
      · have := Broken.afterSd (co := co) (t := t) (set es none g2 g3) g1 hb (fun h => g6 t (by rw [h]))
        rw [hl] at this
        rw [g5, ← htext, show p.lead 6 ++ (sdText es ++ b :: t) = p.lead 6 ++ sdText es ++ [b] ++ t by simp]
        exact Or.inr ⟨_, _, _, this⟩

/-- a field, and then whatever comes next -/
theorem decided_field {co : Bool} {p : Parts} (hp : p.WF) {k : Nat} (h3 : 3 ≤ k) (h6 : k ≤ 6) (x : Bytes)
    (next : ∀ f t, FieldWF (fieldMax k) f → x = fieldText f ++ 32 :: t → Decided co (p.lead (k - 1) ++ x)) :
    Decided co (p.lead (k - 1) ++ x) := by
  have hmax : 1 ≤ fieldMax k := by unfold fieldMax; split <;> omega
  obtain ⟨w, r, hsp⟩ : ∃ w r, spanN isGraph (fieldMax k) x = (w, r) := ⟨_, _, rfl⟩
  by_cases hok : w = [] ∨ ∀ t, r ≠ 32 :: t
  · exact Or.inr ⟨_, _, _, .field hp h3 h6 ((field_fails hmax hsp).mpr ⟨rfl, hok⟩)⟩
  · simp only [not_or, Classical.not_forall] at hok
    obtain ⟨hw, t, ht⟩ := hok
    have ht' : r = 32 :: t := Classical.not_not.mp ht
    have h1 := spanN_append isGraph (fieldMax k) x
    have h2 := spanN_all isGraph (fieldMax k) x
    have h3 := spanN_length isGraph (fieldMax k) x
    rw [hsp] at h1 h2 h3
    obtain ⟨f, hf, hft⟩ := (field_name hmax).mp (nameWF_iff.mpr ⟨hw, h3, h2⟩)
    exact next f t hf (by rw [hft, ← ht']; exact h1.symm)

theorem decided5 {co : Bool} {p : Parts} (hp : p.WF) (x : Bytes) : Decided co (p.lead 5 ++ x) := by
  refine decided_field hp (k := 6) (by omega) (by omega) x ?_
  rintro f t hf rfl
  have hq : ({ p with msgID := f } : Parts).WF := ⟨hp.pri, hp.version, hp.timestamp, hp.hostname, hp.appname, hp.procID, hf, hp.sd, hp.ids⟩
  have := decided6 (co := co) hq t
  simpa [Parts.lead, Parts.piece] using this

theorem decided4 {co : Bool} {p : Parts} (hp : p.WF) (x : Bytes) : Decided co (p.lead 4 ++ x) := by
  refine decided_field hp (k := 5) (by omega) (by omega) x ?_
  rintro f t hf rfl
  have hq : ({ p with procID := f } : Parts).WF := ⟨hp.pri, hp.version, hp.timestamp, hp.hostname, hp.appname, hf, hp.msgID, hp.sd, hp.ids⟩
  have := decided5 (co := co) hq t
  simpa [Parts.lead, Parts.piece] using this

theorem decided3 {co : Bool} {p : Parts} (hp : p.WF) (x : Bytes) : Decided co (p.lead 3 ++ x) := by
  refine decided_field hp (k := 4) (by omega) (by omega) x ?_
  rintro f t hf rfl
  have hq : ({ p with appname := f } : Parts).WF := ⟨hp.pri, hp.version, hp.timestamp, hp.hostname, hf, hp.procID, hp.msgID, hp.sd, hp.ids⟩
  have := decided4 (co := co) hq t
  simpa [Parts.lead, Parts.piece] using this

theorem decided2 {co : Bool} {p : Parts} (hp : p.WF) (x : Bytes) : Decided co (p.lead 2 ++ x) := by
  refine decided_field hp (k := 3) (by omega) (by omega) x ?_
  rintro f t hf rfl
  have hq : ({ p with hostname := f } : Parts).WF := ⟨hp.pri, hp.version, hp.timestamp, hf, hp.appname, hp.procID, hp.msgID, hp.sd, hp.ids⟩
  have := decided3 (co := co) hq t
  simpa [Parts.lead, Parts.piece] using this

theorem decided1 {co : Bool} {p : Parts} (hp : p.WF) (x : Bytes) : Decided co (p.lead 1 ++ x) := by
  have set : ∀ ts : Option Stamp, (∀ s, ts = some s → s.WF ∧ s.Real) → ({ p with timestamp := ts } : Parts).WF :=
    fun ts h => ⟨hp.pri, hp.version, h, hp.hostname, hp.appname, hp.procID, hp.msgID, hp.sd, hp.ids⟩
  by_cases h45 : ∃ r, x = 45 :: r
  · obtain ⟨r, rfl⟩ := h45
    by_cases h32 : ∃ t, r = 32 :: t
    · obtain ⟨t, rfl⟩ := h32
      have := decided2 (co := co) (set none (by simp)) t
      simpa [Parts.lead, Parts.piece, tsText] using this
    · have := Broken.nilTime (co := co) (t := r) hp (fun t h => h32 ⟨t, h⟩)
      rw [List.append_assoc] at this
      exact Or.inr ⟨_, _, _, this⟩
  have h45' : NotAt 45 x := fun t h => h45 ⟨t, h⟩
  cases hs : Ts.scan true .y1 x with
  | bad n => exact Or.inr ⟨_, _, _, .time hp h45' (ts_fails.mp hs)⟩
  | ok w tl =>
    obtain ⟨s, hwf, -, -, rfl⟩ := Ts.scan_sound hs
    rw [← List.append_assoc]
    by_cases hr : s.Real
    · have hq := set (some s) (by intro s' h; simp at h; subst h; exact ⟨hwf, hr⟩)
      by_cases h32 : ∃ t, tl = 32 :: t
      · obtain ⟨t, rfl⟩ := h32
        have := decided2 (co := co) hq t
        simpa [Parts.lead, Parts.piece, tsText] using this
      · have := Broken.afterTime (co := co) (t := tl) hq rfl (fun t h => h32 ⟨t, h⟩)
        exact Or.inr ⟨_, _, _, this⟩
    · exact Or.inr ⟨_, _, _, .noSuchDay hp hwf hr⟩

theorem decided0 {co : Bool} {p : Parts} (hp : p.WF) (x : Bytes) : Decided co (p.lead 0 ++ x) := by
  rcases lex_version x with h | ⟨v, t, h1, h2, rfl, h⟩
  · exact Or.inr ⟨_, _, _, .noVersion hp h⟩
  · have hq : ({ p with version := v } : Parts).WF := ⟨hp.pri, ⟨h1, h2⟩, hp.timestamp, hp.hostname, hp.appname, hp.procID, hp.msgID, hp.sd, hp.ids⟩
    rcases h with ⟨t', rfl⟩ | ⟨h3, h4⟩
    · have := decided1 (co := co) hq t'
      simpa [Parts.lead, Parts.piece] using this
    · have := Broken.version (co := co) hq h3 h4
      rw [List.append_assoc] at this
      exact Or.inr ⟨_, _, _, this⟩

theorem decided (co : Bool) (input : Bytes) : Decided co input := by
  by_cases h60 : ∃ r, input = 60 :: r
  case neg => exact Or.inr ⟨_, _, _, .noLt fun t h => h60 ⟨t, h⟩⟩
  obtain ⟨r, rfl⟩ := h60
  cases hp : priScan .start r with
  | bad n => exact Or.inr ⟨_, _, _, .pri (pri_fails.mp hp)⟩
  | ok w tl =>
    obtain ⟨pri, hpri, rfl, rfl⟩ := pri_iff.mp hp
    have := decided0 (co := co) (p := ⟨pri, 1, none, none, none, none, none, [], none⟩)
      ⟨hpri, by simp, by simp, trivial, trivial, trivial, trivial, by simp, by simp⟩ tl
    simpa [Parts.lead] using this

/-! ## C57 -/

/-- C57: the inputs that are refused, the kind and the column of the error, and the partial message that best effort
returns, are exactly as specified by `Broken`. -/
theorem C57_refused_iff (be co : Bool) (input : Bytes) (msg : Option SyslogMessage) (e : Err) :
    parse1 ⟨be, co⟩ input = some ⟨msg, some e⟩ ↔
      ∃ m, Broken co input e.kind e.col m ∧ msg = if be then m else none := by
  constructor
  · intro h
    rcases decided co input with ⟨p, hp, rfl, hm⟩ | ⟨k, c, m, hb⟩
    · rw [parse1_eq, descend_iff.mpr ⟨p, hp, fun w hw hco => hm w hw hco, rfl, rfl⟩] at h
      simp [resultOf] at h
    · have hr := broken_refused (be := be) hb
      rw [Refuses, h] at hr
      simp only [Option.some.injEq, Result.mk.injEq] at hr
      obtain ⟨rfl, rfl⟩ := hr
      exact ⟨m, hb, rfl⟩
  · rintro ⟨m, hb, rfl⟩
    exact broken_refused hb

/-- C57: every outcome, with every combination of options: the input is the text of a well-formed message (with a MSG that
`WithCompliantMsg` admits), which is returned without error; or it is `Broken`. -/
theorem C57_every_outcome (be co : Bool) (input : Bytes) (r : Result) :
    parse1 ⟨be, co⟩ input = some r ↔
      (∃ p : Parts, p.WF ∧ p.render = input ∧ (∀ w, p.msg = some w → co = true → MsgCompliant w) ∧ r = ⟨some p.toMessage, none⟩) ∨
      (∃ k c m, Broken co input k c m ∧ r = ⟨if be then m else none, some ⟨k, c⟩⟩) := by
  have fwd : ∀ r', (∃ p : Parts, p.WF ∧ p.render = input ∧ (∀ w, p.msg = some w → co = true → MsgCompliant w) ∧ r' = ⟨some p.toMessage, none⟩) ∨
      (∃ k c m, Broken co input k c m ∧ r' = ⟨if be then m else none, some ⟨k, c⟩⟩) → parse1 ⟨be, co⟩ input = some r' := by
    rintro r' (⟨p, hp, rfl, hm, rfl⟩ | ⟨k, c, m, hb, rfl⟩)
    · rw [parse1_eq, descend_iff.mpr ⟨p, hp, fun w hw hco => hm w hw hco, rfl, rfl⟩]
      simp only [resultOf, export_outOf hp]
    · exact broken_refused hb
  refine ⟨fun h => ?_, fwd r⟩
  rcases decided co input with ⟨p, hp, hr, hm⟩ | ⟨k, c, m, hb⟩
  · have := fwd _ (Or.inl ⟨p, hp, hr, hm, rfl⟩)
    rw [h, Option.some.injEq] at this
    exact Or.inl ⟨p, hp, hr, hm, this⟩
  · have := fwd _ (Or.inr ⟨k, c, m, hb, rfl⟩)
    rw [h, Option.some.injEq] at this
    exact Or.inr ⟨k, c, m, hb, this⟩

instance : DecidableEq SD := inferInstanceAs (DecidableEq (List (Bytes × List (Bytes × Bytes))))

/-- the text goes wrong inside the first parameter of the second element -/
example : ∃ m, parse1 ⟨true, false⟩ (ascii "<34>1 - h a p m [x a=\"1\"][y b=\"2\\n") = some ⟨some m, some ⟨.escape, 33⟩⟩ ∧
    m.structuredData = some [(ascii "x", [(ascii "a", ascii "1")]), (ascii "y", [])] := ex_of (by decide +kernel)

/-- the same text, through the specification -/
example : ∃ m, Broken false (ascii "<34>1 - h a p m [x a=\"1\"][y b=\"2\\n") .escape 33 m := by
  obtain ⟨m, h, -⟩ : ∃ m, parse1 ⟨true, false⟩ (ascii "<34>1 - h a p m [x a=\"1\"][y b=\"2\\n") = some ⟨some m, some ⟨.escape, 33⟩⟩ ∧ True :=
    ex_of (by decide +kernel)
  obtain ⟨m', h', -⟩ := (C57_refused_iff _ _ _ _ _).mp h
  exact ⟨m', h'⟩

/-- a version that is cut off loses its last digit -/
example : ∃ m, parse1 ⟨true, false⟩ (ascii "<34>12") = some ⟨some m, some ⟨.version, 6⟩⟩ ∧ m.version = 1 :=
  ex_of (by decide +kernel)

/-! ## C58 -/

theorem fails_id_nil {x : Bytes} (h : ∀ b t, x = b :: t → ¬ (Printable b ∧ b ≠ 61 ∧ b ≠ 93 ∧ b ≠ 34)) : Fails IdText x 0 := by
  refine ⟨?_, by omega, ⟨[97, 93], [97], 93, by decide, by simp, rfl⟩, ?_⟩
  · rintro u ⟨w, c, hw, -, rfl⟩ ⟨t, rfl⟩
    cases w with
    | nil => exact hw.1 rfl
    | cons b w => exact h b _ rfl (hw.2.2 b (by simp))
  · rintro h0 t ⟨w, c, hw, -, he⟩
    cases x with
    | nil => simp at h0
    | cons b x =>
      cases w with
      | nil => exact hw.1 rfl
      | cons b' w =>
        simp at he
        exact h b x rfl (he.1 ▸ hw.2.2 b' (by simp))

theorem fails_name_nil {x : Bytes} (h : ∀ b t, x = b :: t → ¬ (Printable b ∧ b ≠ 61 ∧ b ≠ 93 ∧ b ≠ 34)) : Fails NameText x 0 := by
  refine ⟨?_, by omega, ⟨[97, 61], [97], by decide, rfl⟩, ?_⟩
  · rintro u ⟨w, hw, rfl⟩ ⟨t, rfl⟩
    cases w with
    | nil => exact hw.1 rfl
    | cons b w => exact h b _ rfl (hw.2.2 b (by simp))
  · rintro h0 t ⟨w, hw, he⟩
    cases x with
    | nil => simp at h0
    | cons b x =>
      cases w with
      | nil => exact hw.1 rfl
      | cons b' w =>
        simp at he
        exact h b x rfl (he.1 ▸ hw.2.2 b' (by simp))

/-- C58: an element without id (also: the input ends after its `[`) costs the previous element: best effort returns the
message with all elements *but the last complete one*. -/
theorem C58_empty_id_drops_previous_element (co : Bool) (p : Parts) (hp : p.WF) (x : Bytes)
    (h : ∀ b t, x = b :: t → ¬ (Printable b ∧ b ≠ 61 ∧ b ≠ 93 ∧ b ≠ 34)) :
    parse1 ⟨true, co⟩ (p.head ++ p.sd.flatMap Elem.render ++ [91] ++ x) =
      some ⟨some { p with sd := p.sd.dropLast, msg := none : Parts }.toMessage,
        some ⟨.sdId, (p.head ++ p.sd.flatMap Elem.render).length + 1⟩⟩ := by
  have := Broken.element (co := co) hp (ElemStuck.noId (es := p.sd) (fails_id_nil h))
  rw [lead_head] at this
  exact broken_refused (be := true) this

/-- C58: a parameter without name (also: the input ends after the space) costs the previous parameter. -/
theorem C58_empty_name_drops_previous_parameter (co : Bool) (p : Parts) (hp : p.WF) (id x : Bytes) (ps : List Param) (q : Param)
    (hid : ∀ e ∈ p.sd, e.id ≠ id) (hel : (Elem.mk id (ps ++ [q])).WF)
    (h : ∀ b t, x = b :: t → ¬ (Printable b ∧ b ≠ 61 ∧ b ≠ 93 ∧ b ≠ 34)) :
    parse1 ⟨true, co⟩ (p.head ++ p.sd.flatMap Elem.render ++ [91] ++ id ++ (ps ++ [q]).flatMap Param.render ++ [32] ++ x) =
      some ⟨some { p with sd := p.sd ++ [⟨id, ps.filter fun r => r.name ≠ q.name⟩], msg := none : Parts }.toMessage,
        some ⟨.sdParam, (p.head ++ p.sd.flatMap Elem.render ++ [91] ++ id ++ (ps ++ [q]).flatMap Param.render).length + 1⟩⟩ := by
  have := Broken.element (co := co) hp (ElemStuck.param hid hel (ParamStuck.name (ps := ps ++ [q]) (fails_name_nil h)))
  rw [lead_head] at this
  have e : dropLastName (ps ++ [q]) = ps.filter fun r => r.name ≠ q.name := by
    simp [dropLastName, dropName, List.filter_append]
  rw [e] at this
  have := broken_refused (be := true) this
  rw [Refuses] at this
  rw [show p.head ++ p.sd.flatMap Elem.render ++ [91] ++ id ++ (ps ++ [q]).flatMap Param.render ++ [32] ++ x =
    p.head ++ p.sd.flatMap Elem.render ++ [91] ++ (id ++ (ps ++ [q]).flatMap Param.render ++ [32] ++ x) by simp only [List.append_assoc]]
  rw [this]
  congr 4
  simp only [List.length_append, List.length_singleton]; omega

example : ∃ m, parse1 ⟨true, false⟩ (ascii "<34>1 - h a p m [x a=\"1\"][y][") = some ⟨some m, some ⟨.sdId, 29⟩⟩ ∧
    m.structuredData = some [(ascii "x", [(ascii "a", ascii "1")])] := ex_of (by decide +kernel)

example : ∃ m, parse1 ⟨true, false⟩ (ascii "<34>1 - h a p m [x a=\"1\" b=\"2\" ") = some ⟨some m, some ⟨.sdParam, 31⟩⟩ ∧
    m.structuredData = some [(ascii "x", [(ascii "a", ascii "1")])] := ex_of (by decide +kernel)

end Verif.Props
