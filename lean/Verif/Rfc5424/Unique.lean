import Verif.Rfc5424.Grammar

/-! # The decomposition of a text into parts is unique -/

namespace Verif.Rfc5424
open Spec

/-- two splits at the first byte that is not in a class -/
theorem split_inj {P : UInt8 → Prop} : ∀ {w1 w2 t1 t2 : Bytes}, (∀ b ∈ w1, P b) → (∀ b ∈ w2, P b) →
    (∀ b l, t1 = b :: l → ¬ P b) → (∀ b l, t2 = b :: l → ¬ P b) → w1 ++ t1 = w2 ++ t2 → w1 = w2 ∧ t1 = t2 := by
  intro w1
  induction w1 with
  | nil =>
    intro w2 t1 t2 _ h2 ht1 _ h
    cases w2 with
    | nil => exact ⟨rfl, h⟩
    | cons b l => exact absurd (h2 b (by simp)) (ht1 b (l ++ t2) h)
  | cons a l ih =>
    intro w2 t1 t2 h1 h2 ht1 ht2 h
    cases w2 with
    | nil => exact absurd (h1 a (by simp)) (ht2 a (l ++ t1) h.symm)
    | cons b l2 =>
      simp only [List.cons_append, List.cons.injEq] at h
      obtain ⟨rfl, h⟩ := h
      obtain ⟨rfl, rfl⟩ := ih (fun x hx => h1 x (by simp [hx])) (fun x hx => h2 x (by simp [hx])) ht1 ht2 h
      exact ⟨rfl, rfl⟩

/-- split at a separator byte -/
theorem sep_inj {c : UInt8} {w1 w2 t1 t2 : Bytes} (h1 : c ∉ w1) (h2 : c ∉ w2) (h : w1 ++ c :: t1 = w2 ++ c :: t2) :
    w1 = w2 ∧ t1 = t2 := by
  have := split_inj (P := fun b => b ≠ c) (w1 := w1) (w2 := w2) (t1 := c :: t1) (t2 := c :: t2)
    (fun b hb e => h1 (e ▸ hb)) (fun b hb e => h2 (e ▸ hb)) (by simp +contextual) (by simp +contextual) h
  simpa using this

theorem dec_not_mem {n : Nat} {c : UInt8} (h : ¬(48 ≤ c.toNat ∧ c.toNat ≤ 57)) : c ∉ dec n :=
  fun hc => h (dec_digits n c hc)

theorem fieldText_no_space {max : Nat} {f : Option Bytes} (h : FieldWF max f) : (32 : UInt8) ∉ fieldText f := by
  cases f with
  | none => simp [fieldText]
  | some w =>
    intro hm
    have := h.1.2.2 32 hm
    simp [Printable] at this

theorem fieldText_inj {max : Nat} {f g : Option Bytes} (hf : FieldWF max f) (hg : FieldWF max g)
    (h : fieldText f = fieldText g) : f = g := by
  rw [← optField_text hf, h, optField_text hg]

theorem d2_no_space {n : Nat} (h : n ≤ 99) : (32 : UInt8) ∉ d2 n := by
  simp only [d2, List.mem_cons, List.not_mem_nil, or_false, not_or]
  refine ⟨fun h1 => ?_, fun h1 => ?_⟩
  · have := Ts.digit_toNat (n := n / 10) (by omega)
    rw [← h1] at this; simp at this; omega
  · have := Ts.digit_toNat (n := n % 10) (by omega)
    rw [← h1] at this; simp at this; omega

theorem d2_inj {a b : Nat} (ha : a ≤ 99) (hb : b ≤ 99) (h : d2 a = d2 b) : a = b := by
  have h1 := Ts.decVal_d2 ha
  have h2 := Ts.decVal_d2 hb
  rw [← h1, h, h2]

theorem d2_length (n : Nat) : (d2 n).length = 2 := rfl

theorem fracZone_inj {f g : List Nat} {z y : Zone} (hf : ∀ d ∈ f, d ≤ 9) (hg : ∀ d ∈ g, d ≤ 9) (hz : z.WF) (hy : y.WF)
    (h : fracRender f ++ z.render = fracRender g ++ y.render) : f = g ∧ z = y := by
  have zin : ∀ {z y : Zone}, z.WF → y.WF → z.render = y.render → z = y := by
    intro z y hz hy h
    cases z with
    | utc =>
      cases y with
      | utc => rfl
      | num b h m => cases b <;> simp [Zone.render] at h
    | num b hh m =>
      cases y with
      | utc => cases b <;> simp [Zone.render] at h
      | num b' h' m' =>
        simp only [Zone.render, List.cons.injEq] at h
        have hb : b = b' := by cases b <;> cases b' <;> simp_all
        obtain ⟨h1, h2⟩ := List.append_inj h.2 rfl
        simp only [List.cons.injEq, true_and] at h2
        simp only [Zone.WF] at hz hy
        rw [hb, d2_inj (by omega) (by omega) h1, d2_inj (by omega) (by omega) h2]
  obtain ⟨bz, rz, ez, hz1, hz2⟩ := Ts.zone_head_not_digit z
  obtain ⟨by', ry, ey, hy1, hy2⟩ := Ts.zone_head_not_digit y
  cases f with
  | nil =>
    cases g with
    | nil => exact ⟨rfl, zin hz hy (by simpa [fracRender] using h)⟩
    | cons d ds =>
      rw [ez] at h
      simp [fracRender] at h
      exact absurd h.1 hz2
  | cons d ds =>
    cases g with
    | nil =>
      rw [ey] at h
      simp [fracRender] at h
      exact absurd h.1.symm hy2
    | cons e es =>
      simp only [fracRender, List.cons_append, List.cons.injEq, true_and] at h
      have hdig : ∀ {l : List Nat}, (∀ d ∈ l, d ≤ 9) → ∀ b ∈ l.map digit, GoTime.isDigit b = true := by
        intro l hl b hb
        simp only [List.mem_map] at hb
        obtain ⟨k, hk, rfl⟩ := hb
        exact Ts.isDigit_digit (hl k hk)
      obtain ⟨h1, h2⟩ := split_inj (P := fun b => GoTime.isDigit b = true) (hdig hf) (hdig hg)
        (by rw [ez]; intro b l hbl; simp at hbl; rw [← hbl.1, hz1]; simp)
        (by rw [ey]; intro b l hbl; simp at hbl; rw [← hbl.1, hy1]; simp) h
      refine ⟨?_, zin hz hy h2⟩
      have minj : ∀ {l l' : List Nat}, (∀ d ∈ l, d ≤ 9) → (∀ d ∈ l', d ≤ 9) → l.map digit = l'.map digit → l = l' := by
        intro l
        induction l with
        | nil => intro l' _ _ h; cases l' <;> simp_all
        | cons a l ih =>
          intro l' h1 h2 h
          cases l' with
          | nil => simp at h
          | cons b l' =>
            simp only [List.map_cons, List.cons.injEq] at h
            have e1 := Ts.digit_toNat (h1 a (by simp))
            have e2 := Ts.digit_toNat (h2 b (by simp))
            rw [h.1] at e1
            rw [ih (fun d hd => h1 d (by simp [hd])) (fun d hd => h2 d (by simp [hd])) h.2, show a = b by omega]
      exact minj hf hg h1

theorem stamp_inj {s t : Stamp} (hs : s.WF) (ht : t.WF) (h : s.render = t.render) : s = t := by
  obtain ⟨a1, a2, a3, a4, a5, a6, a7, a8, a9, a10, a11⟩ := hs
  obtain ⟨b1, b2, b3, b4, b5, b6, b7, b8, b9, b10, b11⟩ := ht
  simp only [Stamp.render, d4, List.append_assoc] at h
  obtain ⟨h1, h⟩ := List.append_inj h rfl
  obtain ⟨h2, h⟩ := List.append_inj h rfl
  simp only [List.cons.injEq, true_and] at h
  obtain ⟨h3, h⟩ := List.append_inj h rfl
  simp only [List.cons.injEq, true_and] at h
  obtain ⟨h4, h⟩ := List.append_inj h rfl
  simp only [List.cons.injEq, true_and] at h
  obtain ⟨h5, h⟩ := List.append_inj h rfl
  simp only [List.cons.injEq, true_and] at h
  obtain ⟨h6, h⟩ := List.append_inj h rfl
  simp only [List.cons.injEq, true_and] at h
  obtain ⟨h7, h⟩ := List.append_inj h rfl
  obtain ⟨h8, h9⟩ := fracZone_inj a10 b10 a11 b11 h
  have e1 := d2_inj (by omega) (by omega) h1
  have e2 := d2_inj (by omega) (by omega) h2
  have e3 := d2_inj (by omega) (by omega) h3
  have e4 := d2_inj (by omega) (by omega) h4
  have e5 := d2_inj (by omega) (by omega) h5
  have e6 := d2_inj (by omega) (by omega) h6
  have e7 := d2_inj (by omega) (by omega) h7
  cases s; cases t
  simp only [Stamp.mk.injEq]
  simp only at *
  refine ⟨by omega, e3, e4, e5, e6, e7, h8, h9⟩

/-- every byte of a timestamp is printable -/
theorem stamp_no_space {s : Stamp} (hs : s.WF) : (32 : UInt8) ∉ s.render := by
  obtain ⟨a1, a2, a3, a4, a5, a6, a7, a8, a9, a10, a11⟩ := hs
  have hfr : (32 : UInt8) ∉ fracRender s.frac := by
    cases hf : s.frac with
    | nil => simp [fracRender]
    | cons d ds =>
      simp only [fracRender, List.mem_cons, not_or]
      refine ⟨by decide, ?_⟩
      intro h
      rw [List.mem_map] at h
      obtain ⟨k, hk, e⟩ := h
      have := Ts.digit_toNat (a10 k (by rw [hf]; exact hk))
      rw [e] at this; simp at this; omega
  have hz : (32 : UInt8) ∉ s.zone.render := by
    cases hz : s.zone with
    | utc => simp [Zone.render]
    | num b h m =>
      rw [hz] at a11
      simp only [Zone.WF] at a11
      simp only [Zone.render, List.mem_cons, List.mem_append, not_or]
      exact ⟨by cases b <;> decide, d2_no_space (by omega), by decide, d2_no_space (by omega)⟩
  simp only [Stamp.render, d4, List.append_assoc, List.mem_append, List.mem_cons, not_or]
  exact ⟨d2_no_space (by omega), d2_no_space (by omega), by decide, d2_no_space (by omega), by decide,
    d2_no_space (by omega), by decide, d2_no_space (by omega), by decide, d2_no_space (by omega), by decide,
    d2_no_space (by omega), hfr, hz⟩

theorem tsText_no_space {ts : Option Stamp} (h : ∀ s, ts = some s → s.WF ∧ s.Real) : (32 : UInt8) ∉ tsText ts := by
  cases ts with
  | none => simp [tsText]
  | some s => exact stamp_no_space (h s rfl).1

theorem tsText_inj {t u : Option Stamp} (ht : ∀ s, t = some s → s.WF ∧ s.Real) (hu : ∀ s, u = some s → s.WF ∧ s.Real)
    (h : tsText t = tsText u) : t = u := by
  have key : ∀ s : Stamp, s.WF → s.render ≠ [45] := by
    intro s hs hh
    obtain ⟨b, l, hb, h1, h2⟩ := stamp_head s hs
    rw [hb] at hh; simp at hh; rw [hh.1] at h1; simp at h1
  cases t with
  | none =>
    cases u with
    | none => rfl
    | some s => exact absurd h.symm (key s (hu s rfl).1)
  | some s =>
    cases u with
    | none => exact absurd h (key s (ht s rfl).1)
    | some s' => rw [stamp_inj (ht s rfl).1 (hu s' rfl).1 h]

theorem sdName_split {w1 w2 t1 t2 : Bytes} (h1 : SdNameWF w1) (h2 : SdNameWF w2)
    (g1 : ∀ b l, t1 = b :: l → isSdName b = false) (g2 : ∀ b l, t2 = b :: l → isSdName b = false)
    (h : w1 ++ t1 = w2 ++ t2) : w1 = w2 ∧ t1 = t2 :=
  split_inj (P := fun b => isSdName b = true) (sdName_wf.mp h1).2.2 (sdName_wf.mp h2).2.2
    (fun b l e => by simp [g1 b l e]) (fun b l e => by simp [g2 b l e]) h

theorem params_inj : ∀ {ps qs : List Param} {t u : Bytes}, (∀ p ∈ ps, p.WF) → (∀ q ∈ qs, q.WF) →
    ps.flatMap Param.render ++ 93 :: t = qs.flatMap Param.render ++ 93 :: u → ps = qs ∧ t = u := by
  intro ps
  induction ps with
  | nil =>
    intro qs t u _ _ h
    cases qs with
    | nil => simpa using h
    | cons q qs => simp [Param.render] at h
  | cons p ps ih =>
    intro qs t u hp hq h
    cases qs with
    | nil => simp [Param.render] at h
    | cons q qs =>
      simp only [List.flatMap_cons, Param.render, List.cons_append, List.append_assoc, List.nil_append,
        List.cons.injEq, true_and] at h
      have wp := hp p (by simp)
      have wq := hq q (by simp)
      obtain ⟨hn, h⟩ := sdName_split wp.1 wq.1 (by simp; decide) (by simp; decide) h
      simp only [List.cons.injEq, true_and] at h
      have v1 := val_complete (ps.flatMap Param.render ++ 93 :: t) p.value .s0 ((U8.acc_iff _).mpr wp.2)
      have v2 := val_complete (qs.flatMap Param.render ++ 93 :: u) q.value .s0 ((U8.acc_iff _).mpr wq.2)
      rw [h, v2] at v1
      simp only [VRes.ok.injEq] at v1
      have hv : p.value = q.value := by rw [← unesc_escape p.value, ← v1.1, unesc_escape]
      obtain ⟨rfl, rfl⟩ := ih (fun x hx => hp x (by simp [hx])) (fun x hx => hq x (by simp [hx])) v1.2.symm
      cases p; cases q
      simp only at hn hv
      subst hn hv
      exact ⟨rfl, rfl⟩

theorem render_head (es : List Elem) (t : Bytes) (ht : ∀ l, t ≠ 91 :: l) (es' : List Elem) (t' : Bytes) (ht' : ∀ l, t' ≠ 91 :: l)
    (h1 : ∀ e ∈ es, e.WF) (h2 : ∀ e ∈ es', e.WF)
    (h : es.flatMap Elem.render ++ t = es'.flatMap Elem.render ++ t') : es = es' ∧ t = t' := by
  induction es generalizing es' with
  | nil =>
    cases es' with
    | nil => simpa using h
    | cons e es' => exact absurd h (by simpa [Elem.render] using ht _)
  | cons e es ih =>
    cases es' with
    | nil => exact absurd h.symm (by simpa [Elem.render] using ht' _)
    | cons e' es' =>
      simp only [List.flatMap_cons, Elem.render, List.cons_append, List.append_assoc, List.nil_append,
        List.cons.injEq, true_and] at h
      have we := h1 e (by simp)
      have we' := h2 e' (by simp)
      have hd : ∀ (ps : List Param) (u : Bytes) (b : UInt8) (l : Bytes), ps.flatMap Param.render ++ 93 :: u = b :: l →
          isSdName b = false := by
        intro ps u b l hbl
        cases ps with
        | nil => simp at hbl; rw [← hbl.1]; decide
        | cons p ps => simp [Param.render] at hbl; rw [← hbl.1]; decide
      obtain ⟨hid, h⟩ := sdName_split we.1 we'.1 (hd _ _) (hd _ _) h
      obtain ⟨hps, h⟩ := params_inj we.2 we'.2 h
      obtain ⟨rfl, rfl⟩ := ih es' (fun x hx => h1 x (by simp [hx])) (fun x hx => h2 x (by simp [hx])) h
      cases e; cases e'
      simp only at hid hps
      subst hid hps
      exact ⟨rfl, rfl⟩

theorem sdMsg_inj {es es' : List Elem} {m m' : Option Bytes} (h1 : ∀ e ∈ es, e.WF) (h2 : ∀ e ∈ es', e.WF)
    (h : sdText es ++ msgText m = sdText es' ++ msgText m') : es = es' ∧ m = m' := by
  have hm : ∀ (m : Option Bytes) (l : Bytes), msgText m ≠ 91 :: l := by
    intro m l; cases m <;> simp [msgText]
  have minj : msgText m = msgText m' → m = m' := by
    intro h; cases m <;> cases m' <;> simp_all [msgText]
  cases es with
  | nil =>
    cases es' with
    | nil => exact ⟨rfl, minj (by simpa [sdText] using h)⟩
    | cons e es' => simp [sdText, Elem.render] at h
  | cons e es =>
    cases es' with
    | nil => simp [sdText, Elem.render] at h
    | cons e' es' =>
      obtain ⟨he, ht⟩ := render_head (e :: es) _ (hm m) (e' :: es') _ (hm m') h1 h2 h
      exact ⟨he, minj ht⟩

/-- A text has at most one decomposition. -/
theorem render_inj {p q : Parts} (hp : p.WF) (hq : q.WF) (h : p.render = q.render) : p = q := by
  simp only [Parts.render, List.cons.injEq, true_and] at h
  obtain ⟨h1, h⟩ := sep_inj (dec_not_mem (by decide)) (dec_not_mem (by decide)) h
  obtain ⟨h2, h⟩ := sep_inj (dec_not_mem (by decide)) (dec_not_mem (by decide)) h
  obtain ⟨h3, h⟩ := sep_inj (tsText_no_space hp.timestamp) (tsText_no_space hq.timestamp) h
  obtain ⟨h4, h⟩ := sep_inj (fieldText_no_space hp.hostname) (fieldText_no_space hq.hostname) h
  obtain ⟨h5, h⟩ := sep_inj (fieldText_no_space hp.appname) (fieldText_no_space hq.appname) h
  obtain ⟨h6, h⟩ := sep_inj (fieldText_no_space hp.procID) (fieldText_no_space hq.procID) h
  obtain ⟨h7, h⟩ := sep_inj (fieldText_no_space hp.msgID) (fieldText_no_space hq.msgID) h
  obtain ⟨h8, h9⟩ := sdMsg_inj hp.sd hq.sd h
  have e1 := dec_inj h1
  have e2 := dec_inj h2
  have e3 := tsText_inj hp.timestamp hq.timestamp h3
  have e4 := fieldText_inj hp.hostname hq.hostname h4
  have e5 := fieldText_inj hp.appname hq.appname h5
  have e6 := fieldText_inj hp.procID hq.procID h6
  have e7 := fieldText_inj hp.msgID hq.msgID h7
  cases p; cases q
  simp only at *
  subst e1 e2 e3 e4 e5 e6 e7 h8 h9
  rfl

end Verif.Rfc5424
