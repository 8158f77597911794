import Verif.Rfc5424.Unique
import Verif.Rfc5424.FailsMain

/-!
# Beginnings of a message text (RFC 5424)

Two well-formed messages whose texts have a common beginning agree on the pieces that are complete in that beginning.
-/

namespace Verif.Rfc5424
open Verif.Spec

theorem sep_cut {c : UInt8} {w1 w2 t1 t2 : Bytes} (h1 : c ∉ w1) (h2 : c ∉ w2) (h : w1 ++ c :: t1 <+: w2 ++ c :: t2) :
    w1 = w2 ∧ t1 <+: t2 := by
  obtain ⟨z, hz⟩ := h
  simp only [List.append_assoc, List.cons_append] at hz
  obtain ⟨a, b⟩ := sep_inj h1 h2 hz
  exact ⟨a, z, b⟩

/-- what follows the first `k` fields of a message -/
def tailOf (p : Parts) : Nat → Bytes
  | 0 => p.piece 1 ++ 32 :: (p.piece 2 ++ 32 :: (p.piece 3 ++ 32 :: (p.piece 4 ++ 32 :: (p.piece 5 ++ 32 :: (p.piece 6 ++ 32 ::
      (sdText p.sd ++ msgText p.msg))))))
  | 1 => p.piece 2 ++ 32 :: (p.piece 3 ++ 32 :: (p.piece 4 ++ 32 :: (p.piece 5 ++ 32 :: (p.piece 6 ++ 32 :: (sdText p.sd ++ msgText p.msg)))))
  | 2 => p.piece 3 ++ 32 :: (p.piece 4 ++ 32 :: (p.piece 5 ++ 32 :: (p.piece 6 ++ 32 :: (sdText p.sd ++ msgText p.msg))))
  | 3 => p.piece 4 ++ 32 :: (p.piece 5 ++ 32 :: (p.piece 6 ++ 32 :: (sdText p.sd ++ msgText p.msg)))
  | 4 => p.piece 5 ++ 32 :: (p.piece 6 ++ 32 :: (sdText p.sd ++ msgText p.msg))
  | 5 => p.piece 6 ++ 32 :: (sdText p.sd ++ msgText p.msg)
  | _ => sdText p.sd ++ msgText p.msg

theorem tailOf_succ (p : Parts) {k : Nat} (h : k < 6) : tailOf p k = p.piece (k + 1) ++ 32 :: tailOf p (k + 1) := by
  rcases (by omega : k = 0 ∨ k = 1 ∨ k = 2 ∨ k = 3 ∨ k = 4 ∨ k = 5) with rfl | rfl | rfl | rfl | rfl | rfl <;> rfl

theorem render_lead0 (p : Parts) : p.render = p.lead 0 ++ tailOf p 0 := by
  simp [Parts.render, Parts.lead, tailOf, Parts.piece]

theorem render_lead (p : Parts) {k : Nat} (h : k ≤ 6) : p.render = p.lead k ++ tailOf p k := by
  induction k with
  | zero => exact render_lead0 p
  | succ k ih =>
    rw [ih (by omega), tailOf_succ p (by omega), Parts.lead]
    simp

theorem piece_no_space {p : Parts} (h : p.WF) (k : Nat) : (32 : UInt8) ∉ p.piece k := by
  match k with
  | 0 => exact fieldText_no_space h.msgID
  | 1 => exact dec_not_mem (by decide)
  | 2 => exact tsText_no_space h.timestamp
  | 3 => exact fieldText_no_space h.hostname
  | 4 => exact fieldText_no_space h.appname
  | 5 => exact fieldText_no_space h.procID
  | k + 6 => exact fieldText_no_space h.msgID

/-- The first `k` pieces of two messages agree if the text of the one up to there begins the text of the other. -/
theorem lead_cut {p q : Parts} (hp : p.WF) (hq : q.WF) {k : Nat} (hk : k ≤ 6) {x : Bytes} (h : q.lead k ++ x <+: p.render) :
    q.pri = p.pri ∧ (∀ j, 1 ≤ j → j ≤ k → q.piece j = p.piece j) ∧ q.lead k = p.lead k ∧ x <+: tailOf p k := by
  induction k generalizing x with
  | zero =>
    rw [render_lead0] at h
    simp only [Parts.lead, List.append_assoc, List.cons_append, List.nil_append] at h
    obtain ⟨z, hz⟩ := h
    simp only [List.cons_append, List.append_assoc, List.cons.injEq, true_and] at hz
    obtain ⟨a, b⟩ := sep_inj (dec_not_mem (by decide)) (dec_not_mem (by decide)) hz
    have := dec_inj a
    refine ⟨this, by intro j h1 h2; omega, by simp [Parts.lead, this], z, b⟩
  | succ k ih =>
    rw [Parts.lead, List.append_assoc, List.append_assoc] at h
    obtain ⟨a, b, c, d⟩ := ih (by omega) h
    rw [tailOf_succ p (by omega), List.singleton_append] at d
    obtain ⟨e, f⟩ := sep_cut (piece_no_space hq _) (piece_no_space hp _) d
    refine ⟨a, ?_, by rw [Parts.lead, c, e]; rfl, f⟩
    intro j h1 h2
    by_cases hj : j = k + 1
    · subst hj; exact e
    · exact b j h1 (by omega)

theorem version_of_piece {p q : Parts} (h : q.piece 1 = p.piece 1) : q.version = p.version := dec_inj h

/-- ... and then so do the fields -/
theorem first_cut {p q : Parts} (hp : p.WF) (hq : q.WF) {k : Nat} (h1 : 1 ≤ k) (h0 : q.pri = p.pri)
    (h : ∀ j, 1 ≤ j → j ≤ k → q.piece j = p.piece j) : q.first k = p.first k := by
  have v : q.version = p.version := version_of_piece (h 1 (by omega) h1)
  have t2 : 2 ≤ k → q.timestamp = p.timestamp := fun hk => tsText_inj hq.timestamp hp.timestamp (h 2 (by omega) hk)
  have t3 : 3 ≤ k → q.hostname = p.hostname := fun hk => fieldText_inj hq.hostname hp.hostname (h 3 (by omega) hk)
  have t4 : 4 ≤ k → q.appname = p.appname := fun hk => fieldText_inj hq.appname hp.appname (h 4 (by omega) hk)
  have t5 : 5 ≤ k → q.procID = p.procID := fun hk => fieldText_inj hq.procID hp.procID (h 5 (by omega) hk)
  have t6 : 6 ≤ k → q.msgID = p.msgID := fun hk => fieldText_inj hq.msgID hp.msgID (h 6 (by omega) hk)
  have sel : ∀ {α : Type} {n : Nat} {a b : Option α}, (n ≤ k → a = b) → (if n ≤ k then a else none) = (if n ≤ k then b else none) := by
    intro α n a b hab
    by_cases hn : n ≤ k
    · rw [if_pos hn, if_pos hn, hab hn]
    · rw [if_neg hn, if_neg hn]
  simp only [Parts.first, Parts.toMessage, v, h0]
  congr 1
  congr 1
  · rw [sel t2]
  · exact sel t3
  · exact sel t4
  · exact sel t5
  · exact sel t6

/-- no timestamp begins another one -/
theorem stamp_cut {s s' : Stamp} (hs : s.WF) (hs' : s'.WF) {t t' : Bytes} (h : s.render ++ t <+: s'.render ++ t') : s = s' ∧ t <+: t' := by
  obtain ⟨z, hz⟩ := h
  rw [List.append_assoc] at hz
  have a := Ts.scan_complete (fr := true) s hs (by simp) (t ++ z)
  have b := Ts.scan_complete (fr := true) s' hs' (by simp) t'
  rw [hz, b] at a
  injection a with a1 a2
  refine ⟨stamp_inj hs hs' a1.symm, z, a2.symm⟩

/-- the digits of `a` begin those of `b` -/
theorem dec_cut {a b : Nat} (h : dec a <+: dec b) : ∃ k, a = b / 10 ^ k := by
  induction b using Nat.strongRecOn with
  | ind b ih =>
    by_cases hb : b < 10
    · rw [dec_lt hb] at h
      have hl := h.length_le
      have : dec a = dec b := by
        rw [dec_lt hb]
        refine h.eq_of_length (Nat.le_antisymm hl ?_)
        have := List.length_pos_iff.mpr (dec_ne_nil a)
        simp only [List.length_singleton]; omega
      exact ⟨0, by simpa using dec_inj this⟩
    · rw [dec_ge (by omega : 10 ≤ b)] at h
      rcases List.prefix_concat_iff.mp h with h | h
      · rw [← dec_ge (by omega : 10 ≤ b)] at h
        exact ⟨0, by simpa using dec_inj h⟩
      · obtain ⟨k, hk⟩ := ih (b / 10) (by omega) h
        exact ⟨k + 1, by rw [hk, Nat.div_div_eq_div_mul, Nat.pow_succ, Nat.mul_comm 10]⟩

/-- an element that is complete in the beginning -/
theorem elem_cut {e e' : Elem} (h1 : e.WF) (h2 : e'.WF) {t t' : Bytes} (h : e.render ++ t <+: e'.render ++ t') : e = e' ∧ t <+: t' := by
  obtain ⟨z, hz⟩ := h
  simp only [Elem.render, List.cons_append, List.append_assoc, List.nil_append, List.cons.injEq, true_and] at hz
  have hd : ∀ (ps : List Param) (u : Bytes) (b : UInt8) (l : Bytes), ps.flatMap Param.render ++ 93 :: u = b :: l → isSdName b = false := by
    intro ps u b l hbl
    cases ps with
    | nil => simp at hbl; rw [← hbl.1]; decide
    | cons p ps => simp [Param.render] at hbl; rw [← hbl.1]; decide
  obtain ⟨hid, hz⟩ := sdName_split h1.1 h2.1 (hd _ _) (hd _ _) hz
  obtain ⟨hps, hy⟩ := params_inj h1.2 h2.2 hz
  obtain ⟨i, ps⟩ := e
  obtain ⟨i', ps'⟩ := e'
  simp only at hid hps
  subst hid hps
  exact ⟨rfl, z, hy⟩

theorem elems_cut {es es' : List Elem} (h1 : ∀ e ∈ es, e.WF) (h2 : ∀ e ∈ es', e.WF) {x t' : Bytes} (ht : ∀ l, t' ≠ 91 :: l)
    (h : es.flatMap Elem.render ++ x <+: es'.flatMap Elem.render ++ t') :
    ∃ rest, es' = es ++ rest ∧ x <+: rest.flatMap Elem.render ++ t' := by
  induction es generalizing es' with
  | nil => exact ⟨es', rfl, h⟩
  | cons e es ih =>
    cases es' with
    | nil =>
      simp only [List.flatMap_cons, List.flatMap_nil, List.nil_append, List.append_assoc, Elem.render, List.cons_append] at h
      obtain ⟨z, hz⟩ := h
      exact absurd hz.symm (ht _)
    | cons e' es' =>
      simp only [List.flatMap_cons, List.append_assoc] at h
      replace h := elem_cut (h1 e (by simp)) (h2 e' (by simp)) h
      obtain ⟨rfl, hh⟩ := h
      obtain ⟨rest, rfl, hr⟩ := ih (fun e he => h1 e (by simp [he])) (fun e he => h2 e (by simp [he])) hh
      exact ⟨rest, rfl, hr⟩

theorem msgText_head (m : Option Bytes) (l : Bytes) : msgText m ≠ 91 :: l := by cases m <;> simp [msgText]

/-- complete elements, at the place of STRUCTURED-DATA -/
theorem sd_cut {es es' : List Elem} (h1 : ∀ e ∈ es, e.WF) (h2 : ∀ e ∈ es', e.WF) {x : Bytes} {m : Option Bytes} (hx : es = [] → ∃ l, x = 91 :: l)
    (h : es.flatMap Elem.render ++ x <+: sdText es' ++ msgText m) :
    ∃ rest, es' = es ++ rest ∧ x <+: rest.flatMap Elem.render ++ msgText m := by
  cases es' with
  | nil =>
    exfalso
    simp only [sdText] at h
    cases es with
    | nil =>
      obtain ⟨l, rfl⟩ := hx rfl
      obtain ⟨z, hz⟩ := h
      simp at hz
    | cons e es =>
      obtain ⟨z, hz⟩ := h
      simp [Elem.render] at hz
  | cons e' es' => exact elems_cut h1 h2 (msgText_head m) h

/-- complete parameters -/
theorem params_cut {ps ps' : List Param} (h1 : ∀ p ∈ ps, p.WF) (h2 : ∀ p ∈ ps', p.WF) {x t : Bytes}
    (h : ps.flatMap Param.render ++ 32 :: x <+: ps'.flatMap Param.render ++ 93 :: t) :
    ∃ q rest, ps' = ps ++ q :: rest ∧ 32 :: x <+: (q :: rest).flatMap Param.render ++ 93 :: t := by
  induction ps generalizing ps' with
  | nil =>
    cases ps' with
    | nil => obtain ⟨z, hz⟩ := h; simp at hz
    | cons q rest => exact ⟨q, rest, rfl, h⟩
  | cons e ps ih =>
    cases ps' with
    | nil => obtain ⟨z, hz⟩ := h; simp [Param.render] at hz
    | cons e' ps' =>
      obtain ⟨z, hz⟩ := h
      have we := h1 e (by simp)
      have we' := h2 e' (by simp)
      simp only [List.flatMap_cons, Param.render, List.cons_append, List.append_assoc, List.nil_append, List.cons.injEq, true_and] at hz
      obtain ⟨a, hz⟩ := sdName_split we.1 we'.1 (by intro b l e; injection e with e _; subst e; decide) (by intro b l e; injection e with e _; subst e; decide) hz
      simp only [List.cons.injEq, true_and] at hz
      have v1 := val_complete (ps.flatMap Param.render ++ 32 :: (x ++ z)) e.value .s0 ((U8.acc_iff _).mpr we.2)
      have v2 := val_complete (ps'.flatMap Param.render ++ 93 :: t) e'.value .s0 ((U8.acc_iff _).mpr we'.2)
      rw [hz, v2] at v1
      simp only [VRes.ok.injEq] at v1
      have b : e.value = e'.value := by rw [← unesc_escape e.value, ← v1.1, unesc_escape]
      have hz := v1.2.symm
      obtain ⟨n, v⟩ := e
      obtain ⟨n', v'⟩ := e'
      simp only at a b
      subst a b
      obtain ⟨q, rest, rfl, hr⟩ := ih (ps' := ps') (fun p hp => h1 p (by simp [hp])) (fun p hp => h2 p (by simp [hp])) ⟨z, by simpa using hz⟩
      exact ⟨q, rest, rfl, hr⟩

end Verif.Rfc5424
