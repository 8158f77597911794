import Verif.Rfc5424.Cut
import Verif.Rfc5424.Abnf
import Verif.Spec.Cut
import Verif.Props.Rfc5424Errors

/-!
# The outcomes of a truncated message
-/

namespace Verif.Rfc5424
open Verif.Spec

theorem fields6_cut {p q : Parts} (hp : p.WF) (hq : q.WF) (h0 : q.pri = p.pri) (h : ∀ j, 1 ≤ j → j ≤ 6 → q.piece j = p.piece j) :
    q = { p with sd := q.sd, msg := q.msg } := by
  obtain ⟨a1, a2, a3, a4, a5, a6, a7, a8, a9⟩ := q
  have v : a2 = p.version := version_of_piece (h 1 (by omega) (by omega))
  have t2 : a3 = p.timestamp := tsText_inj hq.timestamp hp.timestamp (h 2 (by omega) (by omega))
  have t3 : a4 = p.hostname := fieldText_inj hq.hostname hp.hostname (h 3 (by omega) (by omega))
  have t4 : a5 = p.appname := fieldText_inj hq.appname hp.appname (h 4 (by omega) (by omega))
  have t5 : a6 = p.procID := fieldText_inj hq.procID hp.procID (h 5 (by omega) (by omega))
  have t6 : a7 = p.msgID := fieldText_inj hq.msgID hp.msgID (h 6 (by omega) (by omega))
  simp only at h0
  subst h0 v t2 t3 t4 t5 t6
  rfl

theorem field_wf {p : Parts} (hp : p.WF) {k : Nat} (h3 : 3 ≤ k) (h6 : k ≤ 6) : FieldText (fieldMax k) (p.piece k ++ [32]) := by
  have nm : ∀ {max : Nat} {f : Option Bytes}, 1 ≤ max → FieldWF max f → FieldText max (fieldText f ++ [32]) := by
    intro max f hm hf
    cases f with
    | none => exact ⟨[45], ⟨by simp, hm, by intro b hb; simp at hb; subst hb; decide⟩, rfl⟩
    | some w => exact ⟨w, hf.1, rfl⟩
  rcases (by omega : k = 3 ∨ k = 4 ∨ k = 5 ∨ k = 6) with rfl | rfl | rfl | rfl
  · exact nm (by decide) hp.hostname
  · exact nm (by decide) hp.appname
  · exact nm (by decide) hp.procID
  · exact nm (by decide) hp.msgID

/-- the elements of the message that follow complete ones, up to an incomplete one -/
theorem rest_head {rest : List Elem} {m : Option Bytes} {x : Bytes} (h : 91 :: x <+: rest.flatMap Elem.render ++ msgText m) :
    ∃ f rest', rest = f :: rest' := by
  cases rest with
  | nil => obtain ⟨z, hz⟩ := h; exact absurd hz.symm (msgText_head m _)
  | cons f r => exact ⟨f, r, rfl⟩

theorem name_not_special {w : Bytes} (h : SdNameWF w) {b : UInt8} (hb : b = 32 ∨ b = 93 ∨ b = 61 ∨ b = 34) : b ∉ w := by
  intro hm
  obtain ⟨h1, h2, h3, h4⟩ := h.2.2 b hm
  rcases hb with rfl | rfl | rfl | rfl
  · exact absurd h1.1 (by decide)
  · exact h3 rfl
  · exact h2 rfl
  · exact h4 rfl

theorem elem_tail (f : Elem) : ∃ c t, f.params.flatMap Param.render ++ [93] = c :: t ∧ (c = 32 ∨ c = 93) := by
  cases hf : f.params with
  | nil => exact ⟨93, [], rfl, Or.inr rfl⟩
  | cons q r => exact ⟨32, q.name ++ 61 :: 34 :: (escape q.value ++ [34]) ++ (r.flatMap Param.render ++ [93]), by simp [Param.render], Or.inl rfl⟩

theorem id_begins {f : Elem} {x : Bytes} (h : f.render <+: [91] ++ x) : ∃ c, (c = 32 ∨ c = 93) ∧ f.id ++ [c] <+: x := by
  obtain ⟨c, t, h1, h2⟩ := elem_tail f
  obtain ⟨z, hz⟩ := h
  simp only [Elem.render, List.cons_append, List.nil_append, List.cons.injEq, true_and] at hz
  rw [h1] at hz
  exact ⟨c, h2, t ++ z, by rw [← hz]; simp⟩

/-- parameters that go wrong are not followed by complete ones -/
theorem param_not {ps ps' : List Param} {x : Bytes} {kind : ErrKind} {n : Nat} (h : ParamStuck ps x kind n ps') {q : Param} (hq : q.WF) {c : UInt8}
    (hc : c = 32 ∨ c = 93) : ¬ q.name ++ 61 :: 34 :: (escape q.value ++ 34 :: [c]) <+: x := by
  intro hb
  have hn := name_not_special hq.1 (b := 61) (by simp)
  cases h with
  | name hf => exact hf.no (q.name ++ [61]) ⟨_, hq.1, rfl⟩ (List.IsPrefix.trans ⟨34 :: (escape q.value ++ 34 :: [c]), by simp⟩ hb)
  | quote hw ht =>
    simp only [List.append_assoc, List.cons_append, List.nil_append] at hb
    obtain ⟨-, a⟩ := sep_cut hn (name_not_special hw (by simp)) hb
    obtain ⟨z, hz⟩ := a
    exact ht _ hz.symm
  | value hw hf hbt =>
    simp only [List.append_assoc, List.cons_append, List.nil_append] at hb
    obtain ⟨-, a⟩ := sep_cut hn (name_not_special hw (by simp)) hb
    obtain ⟨z, hz⟩ := a
    simp only [List.cons_append, List.cons.injEq, true_and] at hz
    exact hf.no (escape q.value ++ [34]) ⟨_, hq.2, rfl⟩ ⟨c :: z, by rw [← hz]; simp⟩
  | char hw hf hbt =>
    simp only [List.append_assoc, List.cons_append, List.nil_append] at hb
    obtain ⟨-, a⟩ := sep_cut hn (name_not_special hw (by simp)) hb
    obtain ⟨z, hz⟩ := a
    simp only [List.cons_append, List.cons.injEq, true_and] at hz
    exact hf.no (escape q.value ++ [34]) ⟨_, hq.2, rfl⟩ ⟨c :: z, by rw [← hz]; simp⟩
  | @after w v t hw hv h1 h2 =>
    simp only [List.append_assoc, List.cons_append, List.nil_append] at hb
    obtain ⟨-, a⟩ := sep_cut hn (name_not_special hw (by simp)) hb
    obtain ⟨z, hz⟩ := a
    simp only [List.cons_append, List.append_assoc, List.cons.injEq, true_and, List.nil_append] at hz
    have v1 := val_complete (c :: z) q.value .s0 ((U8.acc_iff _).mpr hq.2)
    have v2 := val_complete t v .s0 ((U8.acc_iff _).mpr hv)
    rw [hz, v2] at v1
    simp only [VRes.ok.injEq] at v1
    rcases hc with rfl | rfl
    · exact h1 _ v1.2
    · exact h2 _ v1.2

/-- elements that go wrong are not complete -/
theorem elem_not {es es' : List Elem} {x : Bytes} {kind : ErrKind} {n : Nat} (h : ElemStuck es x kind n es') (hes : ∀ e ∈ es, e.WF) {f : Elem} (hf : f.WF)
    (hid : ∀ e ∈ es, e.id ≠ f.id) : ¬ f.render <+: [91] ++ x := by
  intro hb
  obtain ⟨c, hc, hi⟩ := id_begins hb
  cases h with
  | noId hx => exact hx.no _ ⟨f.id, c, hf.1, hc, rfl⟩ hi
  | badId hx _ _ => exact hx.no _ ⟨f.id, c, hf.1, hc, rfl⟩ hi
  | @dupId id t he ht =>
    obtain ⟨e, he, rfl⟩ := he
    have we := (hes e he).1
    obtain ⟨z, hz⟩ := hi
    rw [List.append_assoc] at hz
    have key := List.append_eq_append_iff.mp hz
    rcases key with ⟨a, h1, h2⟩ | ⟨a, h1, h2⟩
    · cases a with
      | nil => simp at h1; exact hid e he h1
      | cons b a =>
        simp only [List.cons_append, List.cons.injEq] at h2
        obtain ⟨rfl, -⟩ := h2
        refine name_not_special we (b := c) (by rcases hc with rfl | rfl <;> simp) ?_
        rw [h1]; simp
    · rcases ht with ht | ht
      · have := hf.1.2.1
        rw [h1, List.length_append] at this
        have : a = [] := List.length_eq_zero_iff.mp (by omega)
        subst this
        simp at h1; exact hid e he h1.symm
      · cases a with
        | nil => simp at h1; exact hid e he h1.symm
        | cons b a =>
          refine ht b (a ++ ([c] ++ z)) h2 (hf.1.2.2 b ?_)
          rw [h1]; simp
  | @param id x ps ps' kind n hne hel hps =>
    obtain ⟨z, hz⟩ := hb
    simp only [Elem.render, List.cons_append, List.nil_append, List.append_assoc, List.cons.injEq, true_and] at hz
    have hd : ∀ (ps : List Param) (c : UInt8) (u : Bytes) (b : UInt8) (l : Bytes), (c = 32 ∨ c = 93) → ps.flatMap Param.render ++ c :: u = b :: l →
        isSdName b = false := by
      intro ps c u b l hc hbl
      cases ps with
      | nil => simp at hbl; rw [← hbl.1]; rcases hc with rfl | rfl <;> decide
      | cons p ps => simp [Param.render] at hbl; rw [← hbl.1]; decide
    obtain ⟨a, hz⟩ := sdName_split hf.1 hel.1 (fun b l => hd _ 93 z b l (Or.inr rfl)) (fun b l => hd _ 32 x b l (Or.inl rfl)) hz
    obtain ⟨q, rest, h1, h2⟩ := params_cut hel.2 hf.2 (x := x) (t := z) ⟨[], by rw [List.append_nil]; exact hz.symm⟩
    have hq : q.WF := hf.2 q (by rw [h1]; simp)
    -- what follows the parameter
    have h3 : ps.flatMap Param.render ++ 32 :: x = (ps ++ q :: rest).flatMap Param.render ++ 93 :: z := by rw [← hz, h1]
    rw [List.flatMap_append, List.append_assoc] at h3
    have h4 := List.append_cancel_left h3
    simp only [List.flatMap_cons, Param.render, List.cons_append, List.append_assoc, List.nil_append, List.cons.injEq, true_and] at h4
    cases rest with
    | nil =>
      refine param_not hps hq (c := 93) (Or.inr rfl) ⟨z, ?_⟩
      rw [h4]; simp
    | cons r rest =>
      refine param_not hps hq (c := 32) (Or.inl rfl) ⟨r.name ++ 61 :: 34 :: (escape r.value ++ 34 :: (rest.flatMap Param.render ++ 93 :: z)), ?_⟩
      rw [h4]; simp [Param.render]

theorem lead_succ_not {p : Parts} {k : Nat} {x : Bytes} (h : ¬ p.piece (k + 1) ++ [32] <+: x) : ¬ p.lead (k + 1) <+: p.lead k ++ x := by
  rintro ⟨z, hz⟩
  rw [Parts.lead, List.append_assoc, List.append_assoc] at hz
  exact h ⟨z, by rw [List.append_assoc]; exact List.append_cancel_left hz⟩

theorem piece2_some {p : Parts} {s : Stamp} (h : p.timestamp = some s) : p.piece 2 = s.render := by simp [Parts.piece, h, tsText]
theorem piece2_none {p : Parts} (h : p.timestamp = none) : p.piece 2 = [45] := by simp [Parts.piece, h, tsText]

theorem stamp_not_dash {s : Stamp} (hs : s.WF) {t : Bytes} {l : Bytes} : s.render ++ t ≠ 45 :: l := by
  obtain ⟨b, r, hb, h1, h2⟩ := stamp_head s hs
  rw [hb]
  intro h
  simp only [List.cons_append, List.cons.injEq] at h
  have := h.1
  subst this
  exact absurd h1 (by decide)

theorem sdText_head (es : List Elem) : (es = [] ∧ sdText es = [45]) ∨ (es ≠ [] ∧ ∃ l, sdText es = 91 :: l) := by
  cases es with
  | nil => exact Or.inl ⟨rfl, rfl⟩
  | cons e es => exact Or.inr ⟨by simp, e.id ++ (e.params.flatMap Param.render ++ [93]) ++ es.flatMap Elem.render, by simp [sdText, Elem.render]⟩

theorem sdText_ne {es : List Elem} (h : es ≠ []) : sdText es = es.flatMap Elem.render := by
  cases es with
  | nil => exact absurd rfl h
  | cons e es => rfl

/-- a message with MSG -/
theorem msg_cut {p q : Parts} (hp : p.WF) (hq : q.WF) (hu : q.render <+: p.render) {w : Bytes} (hm : q.msg = some w) :
    q = { p with msg := some w } ∧ (∃ w0, p.msg = some w0 ∧ w <+: w0) ∧ q.render = p.lead 6 ++ sdText p.sd ++ [32] ++ w := by
  rw [render_lead q (k := 6) (by omega)] at hu ⊢
  obtain ⟨h0, h1, h2, h3⟩ := lead_cut hp hq (by omega) hu
  have hqe := fields6_cut hp hq h0 h1
  rw [h2]
  simp only [tailOf, hm] at h3 ⊢
  rw [hm] at hqe
  have hsd := hq.sd
  have key : p.sd = q.sd ∧ 32 :: w <+: msgText p.msg := by
    generalize q.sd = es at *
    cases es with
    | nil =>
      rcases sdText_head p.sd with ⟨a, b⟩ | ⟨a, l, b⟩
      · refine ⟨a, ?_⟩
        rw [b] at h3
        obtain ⟨z, hz⟩ := h3
        simp only [sdText, msgText, List.cons_append, List.nil_append, List.cons.injEq, true_and] at hz
        exact ⟨z, hz⟩
      · rw [b] at h3; obtain ⟨z, hz⟩ := h3; simp [sdText] at hz
    | cons e es =>
      have := sd_cut (es := e :: es) hsd hp.sd (by simp) h3
      obtain ⟨rest, hr, hx⟩ := this
      cases rest with
      | nil => exact ⟨by simpa using hr, by simpa [msgText] using hx⟩
      | cons f r => obtain ⟨z, hz⟩ := hx; simp [Elem.render, msgText] at hz
  obtain ⟨hsde, hw⟩ := key
  refine ⟨by rw [hqe, ← hsde], ?_, by rw [hsde]; simp [msgText]⟩
  cases hpm : p.msg with
  | none => rw [hpm] at hw; obtain ⟨z, hz⟩ := hw; simp [msgText] at hz
  | some w0 =>
    rw [hpm] at hw
    obtain ⟨z, hz⟩ := hw
    simp only [msgText, List.cons_append, List.cons.injEq, true_and] at hz
    exact ⟨w0, rfl, z, hz⟩

/-- the accepted cuts -/
theorem accepted_cut {p q : Parts} (hp : p.WF) (hq : q.WF) (hu : q.render <+: p.render) :
    (∃ rest, p.sd = q.sd ++ rest ∧ (q.sd = [] → rest = []) ∧ q.render = p.lead 6 ++ sdText q.sd ∧ q = { p with sd := q.sd, msg := none }) ∨
    (∃ w w0, q.msg = some w ∧ p.msg = some w0 ∧ w <+: w0 ∧ q.render = p.lead 6 ++ sdText p.sd ++ [32] ++ w ∧ q = { p with msg := some w }) := by
  cases hm : q.msg with
  | some w =>
    obtain ⟨a, ⟨w0, b, c⟩, d⟩ := msg_cut hp hq hu hm
    exact Or.inr ⟨w, w0, rfl, b, c, d, a⟩
  | none =>
    left
    rw [render_lead q (k := 6) (by omega)] at hu ⊢
    obtain ⟨h0, h1, h2, h3⟩ := lead_cut hp hq (by omega) hu
    have hqe := fields6_cut hp hq h0 h1
    rw [hm] at hqe
    rw [h2]
    simp only [tailOf, hm] at h3 ⊢
    have hsd := hq.sd
    simp only [msgText, List.append_nil] at h3 ⊢
    suffices h : ∃ rest, p.sd = q.sd ++ rest ∧ (q.sd = [] → rest = []) by
      obtain ⟨rest, ha, hb⟩ := h
      exact ⟨rest, ha, hb, trivial, hqe⟩
    generalize q.sd = es at *
    cases es with
    | nil =>
      refine ⟨p.sd, rfl, fun _ => ?_⟩
      rcases sdText_head p.sd with ⟨a, b⟩ | ⟨a, l, b⟩
      · exact a
      · rw [b] at h3; obtain ⟨z, hz⟩ := h3; simp [sdText] at hz
    | cons e es =>
      have := sd_cut (es := e :: es) (x := []) (m := p.msg) hsd hp.sd (by simp) (by rw [List.append_nil]; exact h3)
      obtain ⟨rest, hr, -⟩ := this
      exact ⟨rest, hr, by simp⟩

/-- the accepted outcomes -/
theorem cut_accepted {co : Bool} {p q : Parts} (hp : p.WF) (hq : q.WF) (hu : q.render <+: p.render)
    (hco : ∀ w, q.msg = some w → co = true → MsgCompliant w) : Cut co p q.render (some q.toMessage) := by
  rcases accepted_cut hp hq hu with ⟨rest, h1, h2, h3, h4⟩ | ⟨w, w0, h1, h2, h3, h4, h5⟩
  · have : q.toMessage = p.withElems q.sd := by rw [h4]; rfl
    rw [h3, this]
    exact Cut.elements h1 h2 rfl
  · have : q.toMessage = ({ p with msg := some w } : Parts).toMessage := by rw [← h5]
    rw [h4, this]
    exact Cut.msg h2 h3 rfl (Or.inl ⟨hco w h1, rfl⟩)

theorem notAt_nil {b : UInt8} {x l : Bytes} (h : NotAt b x) (hx : x <+: b :: l) : x = [] := by
  cases x with
  | nil => rfl
  | cons c t =>
    obtain ⟨z, hz⟩ := hx
    simp only [List.cons_append, List.cons.injEq] at hz
    rw [hz.1] at h
    exact absurd rfl (h t)

theorem cut_refused {co : Bool} {p : Parts} (hp : p.WF) {u : Bytes} (hu : u <+: p.render) {k : ErrKind} {c : Nat} {mo : Option SyslogMessage}
    (h : Broken co u k c mo) : Cut co p u mo := by
  cases h with
  | noLt hx =>
    refine Cut.pri ?_
    have : u = [] := notAt_nil hx (by rw [render_lead0] at hu; exact hu)
    subst this
    exact List.nil_prefix
  | @pri x n hf =>
    refine Cut.pri ?_
    rw [render_lead0] at hu
    obtain ⟨y, hy⟩ := hu
    rcases List.append_eq_append_iff.mp hy with ⟨a, h1, -⟩ | ⟨t, h1, -⟩
    · exact ⟨a, h1.symm⟩
    · exfalso
      refine hf.no (dec p.pri ++ [62]) ⟨p.pri, hp.pri, rfl⟩ ⟨t, ?_⟩
      simp only [Parts.lead, List.append_assoc, List.cons_append, List.nil_append, List.cons.injEq, true_and] at h1
      rw [h1]; simp
  | @noVersion q x hq hx =>
    obtain ⟨-, -, h2, h3⟩ := lead_cut hp hq (by omega) hu
    rw [h2]
    refine Cut.pri ?_
    cases x with
    | nil => simp
    | cons d t =>
      exfalso
      obtain ⟨z, hz⟩ := h3
      have hd : (dec p.version).head? = some d := by
        cases hv : dec p.version with
        | nil => exact absurd hv (dec_ne_nil _)
        | cons a r =>
          simp only [tailOf, Parts.piece, hv, List.cons_append, List.cons.injEq] at hz
          simp [hz.1]
      have h1 : 48 ≤ d.toNat ∧ d.toNat ≤ 57 := dec_digits p.version d (List.mem_of_mem_head? hd)
      have h0 : d ≠ 48 := by
        rintro rfl
        exact Verif.Abnf.dec_head_ne (n := p.version) (by have := hp.version.1; omega) hd
      have : d.toNat ≠ 48 := fun h => h0 (UInt8.toNat_inj.mp h)
      exact hx d t rfl (by omega)
  | @version q t hq h32 hdig =>
    rw [List.append_assoc] at hu
    obtain ⟨h0, -, h2, h3⟩ := lead_cut hp hq (by omega) hu
    have h3' : dec q.version ++ t <+: dec p.version ++ 32 :: tailOf p 1 := h3
    have hpre : dec q.version <+: dec p.version := by
      obtain ⟨z, hz⟩ := h3'
      rw [List.append_assoc] at hz
      rcases List.append_eq_append_iff.mp hz with ⟨a, h1, -⟩ | ⟨a, h1, h2⟩
      · exact ⟨a, h1.symm⟩
      · cases a with
        | nil => rw [List.append_nil] at h1; exact ⟨[], by rw [h1, List.append_nil]⟩
        | cons b a =>
          simp only [List.cons_append, List.cons.injEq] at h2
          obtain ⟨rfl, -⟩ := h2
          refine absurd (dec_digits q.version 32 ?_) (by decide)
          rw [h1]; simp
    have ht : t = [] := by
      cases t with
      | nil => rfl
      | cons d l =>
        exfalso
        obtain ⟨z, hz⟩ := h3'
        obtain ⟨a, ha⟩ := hpre
        rw [← ha] at hz
        simp only [List.append_assoc] at hz
        have hz := List.append_cancel_left hz
        cases a with
        | nil => simp only [List.cons_append, List.nil_append, List.cons.injEq] at hz; exact h32 l (by rw [hz.1])
        | cons b a =>
          simp only [List.cons_append, List.cons.injEq] at hz
          obtain ⟨rfl, -⟩ := hz
          have hb := dec_digits p.version d (by rw [← ha]; simp)
          by_cases hv : q.version < 100
          · exact hdig hv d l rfl hb
          · have l1 := (Verif.Abnf.dec_length_le hp.version.2).2
            rw [← ha] at l1
            have l2 : (dec q.version).length = 3 := by rw [dec_three (by omega) (by have := hq.version.2; omega)]; rfl
            simp only [List.length_append, List.length_cons] at l1
            omega
    subst ht
    rw [List.append_nil, h2]
    have : (({ q with version := if ([] : Bytes) = [] ∧ 10 ≤ q.version then q.version / 10 else q.version } : Parts).first 1) =
        (({ p with version := if 10 ≤ q.version then q.version / 10 else q.version } : Parts).first 1) := by
      simp [Parts.first, Parts.toMessage, h0]
    rw [this]
    exact Cut.version rfl hpre
  | @nilTime q t hq h32 =>
    rw [List.append_assoc] at hu ⊢
    obtain ⟨h0, h1, h2, h3⟩ := lead_cut hp hq (by omega) hu
    rw [first_cut hp hq (by omega) h0 h1, h2]
    have hn : p.timestamp = none := by
      cases ht : p.timestamp with
      | none => rfl
      | some s =>
        exfalso
        rw [tailOf_succ p (by omega), piece2_some ht] at h3
        obtain ⟨z, hz⟩ := h3
        exact stamp_not_dash (hp.timestamp s ht).1 hz.symm
    refine Cut.field (k := 1) (by omega) (by omega) rfl (lead_succ_not ?_) (fun _ hh => absurd hn hh)
    rw [piece2_none hn]
    rintro ⟨z, hz⟩
    simp only [List.cons_append, List.nil_append, List.cons.injEq, true_and] at hz
    exact h32 z hz.symm
  | @time q x n hq h45 hf =>
    obtain ⟨h0, h1, h2, h3⟩ := lead_cut hp hq (by omega) hu
    rw [first_cut hp hq (by omega) h0 h1, h2]
    rw [tailOf_succ p (by omega)] at h3
    cases ht : p.timestamp with
    | none =>
      rw [piece2_none ht] at h3
      have : x = [] := notAt_nil h45 h3
      subst this
      refine Cut.field (k := 1) (by omega) (by omega) rfl (lead_succ_not ?_) (fun _ hh => absurd ht hh)
      rw [piece2_none ht]; simp
    | some s =>
      have hno := hf.no s.render ⟨s, (hp.timestamp s ht).1, rfl⟩
      refine Cut.field (k := 1) (by omega) (by omega) rfl (lead_succ_not ?_) (fun _ _ => ?_)
      · rw [piece2_some ht]; exact fun hh => hno (List.IsPrefix.trans ⟨[32], rfl⟩ hh)
      · rintro ⟨z, hz⟩
        rw [List.append_assoc] at hz
        refine hno ⟨z, ?_⟩
        have := List.append_cancel_left hz
        rw [ht] at this
        exact this
  | @noSuchDay q s t hq hs hr =>
    exfalso
    rw [List.append_assoc] at hu
    obtain ⟨h0, h1, h2, h3⟩ := lead_cut hp hq (by omega) hu
    rw [tailOf_succ p (by omega)] at h3
    cases ht : p.timestamp with
    | none =>
      rw [piece2_none ht] at h3
      obtain ⟨z, hz⟩ := h3
      rw [List.append_assoc] at hz
      exact stamp_not_dash hs hz
    | some s' =>
      rw [piece2_some ht] at h3
      obtain ⟨rfl, -⟩ := stamp_cut hs (hp.timestamp s' ht).1 h3
      exact hr (hp.timestamp s ht).2
  | @afterTime q s t hq hqs h32 =>
    rw [List.append_assoc] at hu
    obtain ⟨h0, h1, h2, h3⟩ := lead_cut hp hq (by omega) hu
    rw [tailOf_succ p (by omega)] at h3
    have hs := (hq.timestamp s hqs).1
    cases ht : p.timestamp with
    | none =>
      exfalso
      rw [piece2_none ht] at h3
      obtain ⟨z, hz⟩ := h3
      rw [List.append_assoc] at hz
      exact stamp_not_dash hs hz
    | some s' =>
      rw [piece2_some ht] at h3
      obtain ⟨rfl, h4⟩ := stamp_cut hs (hp.timestamp s' ht).1 h3
      have : t = [] := notAt_nil h32 h4
      subst this
      rw [List.append_nil, h2]
      have hp2 : q.piece 2 = p.piece 2 := by rw [piece2_some ht, piece2_some hqs]
      rw [first_cut hp hq (k := 2) (by omega) h0 (fun j hj1 hj2 => by
        by_cases hj : j = 1
        · subst hj; exact h1 1 (by omega) (by omega)
        · obtain rfl : j = 2 := by omega
          exact hp2)]
      refine Cut.stamp ?_
      rw [ht]; rfl
  | @field q k x n hq h3 h6 hf =>
    obtain ⟨h0, h1, h2, h3'⟩ := lead_cut hp hq (by omega) hu
    rw [first_cut hp hq (by omega) h0 h1, h2]
    refine Cut.field (k := k - 1) (by omega) (by omega) rfl (lead_succ_not ?_) (fun hk => by omega)
    rw [show k - 1 + 1 = k by omega]
    exact hf.no _ (field_wf hp h3 h6)
  | @noSd q x hq h45 h91 =>
    obtain ⟨h0, h1, h2, h3⟩ := lead_cut hp hq (by omega) hu
    rw [first_cut hp hq (by omega) h0 h1, h2]
    simp only [tailOf] at h3
    have : x = [] := by
      rcases sdText_head p.sd with ⟨a, b⟩ | ⟨a, l, b⟩
      · rw [b] at h3; exact notAt_nil h45 h3
      · rw [b] at h3; exact notAt_nil h91 h3
    subst this
    exact Cut.noSd (by simp)
  | @nilSd q b t hq hb =>
    exfalso
    rw [List.append_assoc] at hu
    obtain ⟨h0, h1, h2, h3⟩ := lead_cut hp hq (by omega) hu
    simp only [tailOf] at h3
    obtain ⟨z, hz⟩ := h3
    rcases sdText_head p.sd with ⟨a, c⟩ | ⟨a, l, c⟩
    · rw [c] at hz
      simp only [List.cons_append, List.nil_append, List.cons.injEq, true_and] at hz
      cases hm : p.msg with
      | none => rw [hm] at hz; simp [msgText] at hz
      | some w => rw [hm] at hz; simp only [msgText, List.cons.injEq] at hz; exact hb hz.1
    · rw [c] at hz
      simp at hz
  | @element q x k n es hq hes =>
    have hu' := hu
    rw [List.append_assoc, List.append_assoc] at hu'
    obtain ⟨h0, h1, h2, h3⟩ := lead_cut hp hq (by omega) hu'
    simp only [tailOf, List.singleton_append] at h3
    obtain ⟨rest, hr, hx⟩ := sd_cut hq.sd hp.sd (x := 91 :: x) (fun _ => ⟨x, rfl⟩) h3
    obtain ⟨f, rest, rfl⟩ := rest_head hx
    have hqe := fields6_cut hp hq h0 h1
    have : q.withElems es = p.withElems es := by rw [hqe]; rfl
    rw [this, h2]
    refine Cut.element hr rfl (elem_not hes hq.sd (hp.sd f (by rw [hr]; simp)) ?_) hes
    have := hp.ids
    rw [hr, List.map_append, List.map_cons] at this
    intro e he hid
    exact (List.nodup_append.mp this).2.2 e.id (List.mem_map_of_mem he) f.id (by simp) hid
  | @afterSd q b t hq hne hb1 hb2 =>
    exfalso
    rw [List.append_assoc, List.append_assoc] at hu
    obtain ⟨h0, h1, h2, h3⟩ := lead_cut hp hq (by omega) hu
    simp only [tailOf, sdText_ne hne, List.singleton_append] at h3
    obtain ⟨rest, hr, z, hz⟩ := sd_cut hq.sd hp.sd (fun h => absurd h hne) h3
    cases rest with
    | nil =>
      cases hm : p.msg with
      | none => rw [hm] at hz; simp [msgText] at hz
      | some w => rw [hm] at hz; simp only [msgText, List.flatMap_nil, List.nil_append, List.cons_append, List.cons.injEq] at hz; exact hb1 hz.1
    | cons f r => simp only [List.flatMap_cons, Elem.render, List.cons_append, List.cons.injEq] at hz; exact hb2 hz.1
  | @msg q w n hq hw hco hbad hn hv hst =>
    obtain ⟨a, ⟨w0, b, c⟩, d⟩ := msg_cut hp hq hu hw
    have : ({ q with msg := some (w.take n) } : Parts) = { p with msg := some (w.take n) } := by rw [a]
    rw [d, this]
    exact Cut.msg b c rfl (Or.inr ⟨hco, hbad, n, hn, hv, hst, rfl⟩)

/-- every outcome of a truncated message -/
theorem cut_of {co : Bool} {p : Parts} (hp : p.WF) {u : Bytes} (hu : u <+: p.render) {mo : Option SyslogMessage} {eo : Option Err}
    (h : parse1 ⟨true, co⟩ u = some ⟨mo, eo⟩) : Cut co p u mo := by
  rcases (Props.C57_every_outcome true co u ⟨mo, eo⟩).mp h with ⟨q, hq, rfl, hco, hr⟩ | ⟨k, c, m, hb, hr⟩
  · cases hr
    exact cut_accepted hp hq hu hco
  · cases hr
    exact cut_refused hp hu hb

end Verif.Rfc5424
