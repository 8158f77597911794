import Verif.Rfc5424.Unique
import Verif.Rfc5424.Wrap

/-! # `descend` after a well-formed beginning: used for statements about errors -/

namespace Verif.Rfc5424
open Spec

theorem dVersion_dec {c : Bool} {n pos : Nat} {t : Bytes} {out : Out} (hn : 1 ≤ n ∧ n ≤ 999) :
    dVersion c pos (dec n ++ 32 :: t) out =
      dTimestamp c (pos + (dec n).length + 1) t { out with version := UInt16.ofNat n } := by
  have hset : setV out (dec n) = { out with version := UInt16.ofNat n } := by
    rw [setV_num (dec_digits n) (by rw [numVal_dec]; exact hn.2), numVal_dec]
  rw [← hset]
  have hdig : ∀ k, k ≤ 9 → isDig (digit k) = true := by
    intro k hk; simp only [isDig, Ts.digit_toNat hk]; simp; omega
  have hne : ∀ k, k ≤ 9 → digit k ≠ 32 := by
    intro k hk hh
    have := Ts.digit_toNat hk
    rw [hh] at this; simp at this; omega
  have hfirst : ∀ k, 1 ≤ k → k ≤ 9 → ¬((digit k).toNat < 49 ∨ 57 < (digit k).toNat) := by
    intro k h1 h2; rw [Ts.digit_toNat h2]; omega
  by_cases h10 : n < 10
  · rw [dec_lt h10]
    simp only [List.cons_append, List.nil_append, dVersion]
    rw [if_neg (hfirst n hn.1 (by omega)), if_pos trivial]
    rfl
  by_cases h100 : n < 100
  · rw [dec_two (by omega) h100]
    simp only [List.cons_append, List.nil_append, dVersion]
    rw [if_neg (hfirst _ (by omega) (by omega)), if_neg (hne _ (by omega)), if_pos (hdig _ (by omega)), if_pos trivial]
    rfl
  · rw [dec_three (by omega) (by omega)]
    simp only [List.cons_append, List.nil_append, dVersion]
    rw [if_neg (hfirst _ (by omega) (by omega)), if_neg (hne _ (by omega)), if_pos (hdig _ (by omega)),
      if_neg (hne _ (by omega)), if_pos (hdig _ (by omega)), if_pos trivial]
    rfl

theorem descend_version {c : Bool} {pri n : Nat} {t : Bytes} (hpri : pri ≤ 191) (hn : 1 ≤ n ∧ n ≤ 999) :
    descend c (60 :: (dec pri ++ 62 :: (dec n ++ 32 :: t))) =
      dTimestamp c (1 + (dec pri).length + 1 + (dec n).length + 1) t
        { priority := UInt8.ofNat pri, prioritySet := true, version := UInt16.ofNat n } := by
  have hp : priScan .start (dec pri ++ 62 :: (dec n ++ 32 :: t)) = .ok (dec pri) (dec n ++ 32 :: t) :=
    pri_iff.mpr ⟨pri, hpri, rfl, rfl⟩
  simp only [descend, hp, setP_dec hpri]
  rw [dVersion_dec hn]

theorem dTimestamp_text {c : Bool} {pos : Nat} {ts : Option Stamp} {t : Bytes} {out : Out}
    (h : ∀ s, ts = some s → s.WF ∧ s.Real) :
    dTimestamp c pos (tsText ts ++ 32 :: t) out = dHostname c (pos + (tsText ts).length + 1) t (putTs out ts) := by
  cases ts with
  | none => rfl
  | some s =>
    obtain ⟨hwf, hr⟩ := h s rfl
    obtain ⟨b, l, hb, hb1, hb2⟩ := stamp_head s hwf
    have hne : ∀ r, tsText (some s) ++ 32 :: t ≠ 45 :: r := by
      intro r hh
      simp only [tsText, hb, List.cons_append, List.cons.injEq] at hh
      rw [hh.1] at hb1; simp at hb1
    unfold dTimestamp
    split
    · rename_i hh; exact absurd hh (hne _)
    · rw [show tsText (some s) = s.render from rfl, Ts.scan_complete s hwf (by simp)]
      simp only [Ts.parse_render s hwf, if_pos hr]
      rfl

theorem dTimestamp_unreal {c : Bool} {pos : Nat} {s : Stamp} {t : Bytes} {out : Out} (hwf : s.WF) (hr : ¬ s.Real) :
    dTimestamp c pos (s.render ++ t) out = mkErr .timeParse (pos + s.render.length) out := by
  obtain ⟨b, l, hb, hb1, hb2⟩ := stamp_head s hwf
  have hne : ∀ r, s.render ++ t ≠ 45 :: r := by
    intro r hh
    simp only [hb, List.cons_append, List.cons.injEq] at hh
    rw [hh.1] at hb1; simp at hb1
  unfold dTimestamp
  split
  · rename_i hh; exact absurd hh (hne _)
  · rw [Ts.scan_complete s hwf (by simp)]
    simp only [Ts.parse_render s hwf, if_neg hr]

theorem dField_text {max : Nat} (hm : 1 ≤ max) {kind : ErrKind} {k : Bytes → Nat → Bytes → Fin} {pos : Nat} {t : Bytes} {out : Out}
    {f : Option Bytes} (hf : FieldWF max f) :
    dField max kind k pos (fieldText f ++ 32 :: t) out = k (fieldText f) (pos + (fieldText f).length + 1) t := by
  have hwf := nameWF_iff.mp ((field_name hm).mpr ⟨f, hf, rfl⟩)
  have hsp : spanN isGraph max (fieldText f ++ 32 :: t) = (fieldText f, 32 :: t) :=
    spanN_eq isGraph hwf.2.2 hwf.2.1 (Or.inr ⟨32, t, rfl, by decide⟩)
  rw [dField_ok hsp hwf.1]

/-- the fields read before STRUCTURED-DATA -/
def headOut (p : Parts) : Out :=
  { putTs { priority := UInt8.ofNat p.pri, prioritySet := true, version := UInt16.ofNat p.version } p.timestamp with
    hostname := fieldText p.hostname, appname := fieldText p.appname, procID := fieldText p.procID,
    msgID := fieldText p.msgID }

theorem descend_head {c : Bool} {p : Parts} (h : p.WF) (x : Bytes) :
    descend c (p.head ++ x) = dSD c p.head.length x (headOut p) := by
  have e : p.head ++ x = 60 :: (dec p.pri ++ 62 :: (dec p.version ++ 32 :: (tsText p.timestamp ++ 32 :: (fieldText p.hostname ++ 32 ::
    (fieldText p.appname ++ 32 :: (fieldText p.procID ++ 32 :: (fieldText p.msgID ++ 32 :: x))))))) := by
    simp [Parts.head]
  rw [e, descend_version h.pri h.version, dTimestamp_text h.timestamp]
  unfold dHostname
  rw [dField_text (by omega) h.hostname]
  unfold dAppname
  rw [dField_text (by omega) h.appname]
  unfold dProcid
  rw [dField_text (by omega) h.procID]
  unfold dMsgid
  rw [dField_text (by omega) h.msgID]
  congr 1
  simp [Parts.head]; omega

theorem outOf_eq (p : Parts) : outOf p = putSD (headOut p) p.sd p.msg := rfl

/-! ## positions -/

theorem dParams_pos : ∀ (fuel : Nat) (id : Bytes) (ps : SMap Bytes) (last : Bytes) (sd : SD) (pos : Nat) (rest : Bytes)
    (sd' : SD) (p : Nat) (tl : Bytes), dParams fuel id ps last sd pos rest = .ok sd' p tl → p + tl.length = pos + rest.length := by
  intro fuel
  induction fuel with
  | zero => intro id ps last sd pos rest sd' p tl h; simp [dParams] at h
  | succ fuel ih =>
    intro id ps last sd pos rest sd' p tl h
    obtain ⟨w, r, hsp⟩ : ∃ w r, spanN isSdName 32 rest = (w, r) := ⟨_, _, rfl⟩
    by_cases hw : w = []
    · rw [dParams_noeq hsp (Or.inl hw)] at h; simp at h
    obtain ⟨hwf, happ⟩ := span_sdName_wf hsp hw
    by_cases hr : ∃ t, r = 61 :: t
    case neg => rw [dParams_noeq hsp (Or.inr fun t ht => hr ⟨t, ht⟩)] at h; simp at h
    obtain ⟨r1, rfl⟩ := hr
    by_cases hq : ∃ t, r1 = 34 :: t
    case neg => rw [dParams_noquote hsp hw (fun t ht => hq ⟨t, ht⟩)] at h; simp at h
    obtain ⟨r2, rfl⟩ := hq
    cases hv : valScan (some .s0) r2 with
    | bad k n => rw [dParams_badval hsp hw hv] at h; simp at h
    | ok raw tl1 =>
      obtain ⟨v, hu, rfl, hr2⟩ := val_iff.mp hv
      have hlen : rest.length = w.length + 2 + (escape v).length + 1 + tl1.length := by
        rw [happ, hr2]; simp; omega
      by_cases h32 : ∃ t, tl1 = 32 :: t
      · obtain ⟨t, rfl⟩ := h32
        rw [dParams_sp hsp hw hv] at h
        have := ih _ _ _ _ _ _ _ _ _ h
        simp at hlen; omega
      by_cases h93 : ∃ t, tl1 = 93 :: t
      · obtain ⟨t, rfl⟩ := h93
        rw [dParams_close hsp hw hv] at h
        simp only [SdRes.ok.injEq] at h
        obtain ⟨-, rfl, rfl⟩ := h
        simp at hlen; omega
      · rw [dParams_after hsp hw hv (fun t ht => h32 ⟨t, ht⟩) (fun t ht => h93 ⟨t, ht⟩)] at h; simp at h

/-- one element -/
theorem elem_one {e : Elem} (fuel : Nat) (prev : Bytes) (sd : SD) (pos : Nat) (rest tl : Bytes) (he : e.WF)
    (hf : sd.find e.id = none) (hsort : sd.Sorted) (hrest : 91 :: rest = e.render ++ tl) :
    ∃ p, dElems (fuel + 1) prev sd pos rest = dNext fuel e.id (putElem sd e) p tl ∧ p + tl.length = pos + rest.length := by
  simp only [Elem.render, List.cons_append, List.append_assoc, List.cons.injEq, true_and,
    List.nil_append] at hrest
  have hne : e.id ≠ [] := he.1.1
  cases hps : e.params with
  | nil =>
    rw [hps] at hrest
    simp only [List.flatMap_nil, List.nil_append] at hrest
    have hsp : spanN isSdName 32 rest = (e.id, 93 :: tl) := by
      rw [hrest]; exact span_sdName he.1 (by decide)
    rw [dElems_close hsp hne hf, putElem, hps]
    exact ⟨_, rfl, by rw [hrest]; simp; omega⟩
  | cons q qs =>
    obtain ⟨t, ht⟩ : ∃ t, e.params.flatMap Param.render ++ 93 :: tl = 32 :: t := by
      rw [hps]; exact ⟨_, rfl⟩
    rw [ht] at hrest
    have hsp : spanN isSdName 32 rest = (e.id, 32 :: t) := by
      rw [hrest]; exact span_sdName he.1 (by decide)
    obtain ⟨p1, hp1⟩ := params_complete e.params (t.length + 1) e.id [] [] (sd.insert e.id []) (pos + e.id.length + 1) t tl
      (by rw [hps]; simp) he.2 (SMap.sorted_insert hsort) ht.symm (by omega)
    rw [dElems_params_ok hsp hne hf hp1, SMap.insert_insert hsort]
    have := dParams_pos _ _ _ _ _ _ _ _ _ _ hp1
    exact ⟨p1, rfl, by rw [hrest]; simp; omega⟩

/-- some elements, and another opening bracket -/
theorem elems_prefix : ∀ (es : List Elem) (fuel : Nat) (prev : Bytes) (sd : SD) (pos : Nat) (rest t : Bytes),
    es ≠ [] → (∀ e ∈ es, e.WF) → (es.map Elem.id).Nodup → (∀ e ∈ es, sd.find e.id = none) → sd.Sorted →
    91 :: rest = es.flatMap Elem.render ++ 91 :: t → rest.length < fuel →
    ∃ fuel' prev' p, dElems fuel prev sd pos rest = dElems fuel' prev' (es.foldl putElem sd) p t ∧ t.length < fuel' ∧
      p + t.length = pos + rest.length := by
  intro es
  induction es with
  | nil => intro _ _ _ _ _ _ h; exact absurd rfl h
  | cons e es ih =>
    intro fuel prev sd pos rest t _ hwf hnd hnot hsort hrest hfuel
    have he := hwf e (by simp)
    have hf := hnot e (by simp)
    obtain ⟨fuel, rfl⟩ : ∃ f, fuel = f + 1 := ⟨fuel - 1, by omega⟩
    rw [List.flatMap_cons, List.append_assoc] at hrest
    obtain ⟨p, hp, hpos⟩ := elem_one fuel prev sd pos rest _ he hf hsort hrest
    have hlen := congrArg List.length hrest
    simp only [List.length_append, List.length_cons] at hlen
    have hr2 : 2 ≤ e.render.length := by simp only [Elem.render, List.length_append, List.length_cons]; omega
    rw [hp]
    cases es with
    | nil =>
      refine ⟨fuel, e.id, p + 1, rfl, ?_, ?_⟩
      · simp at hlen; omega
      · simp at hpos; omega
    | cons e2 es =>
      obtain ⟨t2, ht2⟩ : ∃ t2, (e2 :: es).flatMap Elem.render ++ 91 :: t = 91 :: t2 := ⟨_, rfl⟩
      rw [ht2] at hpos ⊢
      have hl2 := congrArg List.length ht2
      simp only [List.length_append, List.length_cons] at hl2 hpos
      rw [dNext_more]
      rw [List.map_cons, List.nodup_cons] at hnd
      obtain ⟨f', pr', p', k1, k2, k3⟩ := ih fuel e.id (putElem sd e) (p + 1) t2 t (by simp) (fun x hx => hwf x (by simp [hx])) hnd.2
        (by
          intro x hx
          rw [putElem, SMap.find_insert]
          have : x.id ≠ e.id := fun h => hnd.1 (by rw [← h]; exact List.mem_map_of_mem hx)
          rw [if_neg this]
          exact hnot x (by simp [hx]))
        (SMap.sorted_insert hsort) ht2.symm (by omega)
      exact ⟨f', pr', p', k1, k2, by omega⟩

theorem elems_sorted (es : List Elem) (sd : SD) (h : sd.Sorted) : SMap.Sorted (es.foldl putElem sd) := by
  induction es generalizing sd with
  | nil => exact h
  | cons e es ih => exact ih _ (SMap.sorted_insert h)

theorem find_foldl {es : List Elem} {sd : SD} {id : Bytes} (h : id ∈ es.map Elem.id ∨ (sd.find id).isSome) :
    (SMap.find id (es.foldl putElem sd)).isSome := by
  induction es generalizing sd with
  | nil => simpa using h
  | cons e es ih =>
    apply ih
    by_cases he : id = e.id
    · right; rw [putElem, SMap.find_insert, if_pos he]; rfl
    · rcases h with h | h
      · left; simpa [he] using h
      · right; rw [putElem, SMap.find_insert, if_neg he]; exact h

/-- The end position when all elements are read. -/
theorem elems_end {es : List Elem} {fuel : Nat} {prev : Bytes} {sd : SD} {pos : Nat} {rest tl : Bytes}
    (hne : es ≠ []) (hwf : ∀ e ∈ es, e.WF) (hnd : (es.map Elem.id).Nodup) (hnot : ∀ e ∈ es, sd.find e.id = none) (hsort : sd.Sorted)
    (hrest : 91 :: rest = es.flatMap Elem.render ++ tl) (htl : ∀ t, tl ≠ 91 :: t) (hfuel : rest.length < fuel) :
    ∃ p, dElems fuel prev sd pos rest = .ok (es.foldl putElem sd) p tl ∧ p + tl.length = pos + rest.length := by
  induction es generalizing fuel prev sd pos rest with
  | nil => exact absurd rfl hne
  | cons e es ih =>
    have he := hwf e (by simp)
    have hf := hnot e (by simp)
    obtain ⟨fuel, rfl⟩ : ∃ f, fuel = f + 1 := ⟨fuel - 1, by omega⟩
    rw [List.flatMap_cons, List.append_assoc] at hrest
    obtain ⟨p, hp, hpos⟩ := elem_one fuel prev sd pos rest _ he hf hsort hrest
    have hlen := congrArg List.length hrest
    simp only [List.length_append, List.length_cons] at hlen
    have hr2 : 2 ≤ e.render.length := by simp only [Elem.render, List.length_append, List.length_cons]; omega
    rw [hp]
    cases es with
    | nil =>
      simp only [List.flatMap_nil, List.nil_append] at hpos ⊢
      rw [dNext_ok htl]
      exact ⟨p, rfl, hpos⟩
    | cons e2 es =>
      obtain ⟨t2, ht2⟩ : ∃ t2, (e2 :: es).flatMap Elem.render ++ tl = 91 :: t2 := ⟨_, rfl⟩
      rw [ht2] at hpos ⊢
      have hl2 := congrArg List.length ht2
      simp only [List.length_append, List.length_cons] at hl2 hpos
      rw [dNext_more]
      rw [List.map_cons, List.nodup_cons] at hnd
      obtain ⟨p', k1, k2⟩ := ih (fuel := fuel) (prev := e.id) (sd := putElem sd e) (pos := p + 1) (rest := t2) (by simp)
        (fun x hx => hwf x (by simp [hx])) hnd.2
        (by
          intro x hx
          rw [putElem, SMap.find_insert]
          have : x.id ≠ e.id := fun h => hnd.1 (by rw [← h]; exact List.mem_map_of_mem hx)
          rw [if_neg this]
          exact hnot x (by simp [hx]))
        (SMap.sorted_insert hsort) ht2.symm (by omega)
      exact ⟨p', k1, by omega⟩

/-- STRUCTURED-DATA followed by a space: MSG comes next -/
theorem dSD_msg {c : Bool} {pos : Nat} {es : List Elem} {w : Bytes} {out : Out} (hwf : ∀ e ∈ es, e.WF) (hnd : (es.map Elem.id).Nodup)
    (h0 : Good out) :
    dSD c pos (sdText es ++ 32 :: w) out = dMsg c (pos + (sdText es).length + 1) w (putSD out es none) := by
  cases es with
  | nil =>
    have : putSD out [] none = out := by
      obtain ⟨h1, h2, h3⟩ := h0
      cases out; simp_all [putSD]
    rw [this]; rfl
  | cons e es =>
    obtain ⟨t, ht⟩ : ∃ t, (e :: es).flatMap Elem.render ++ 32 :: w = 91 :: t := ⟨_, rfl⟩
    obtain ⟨p, hp, hpos⟩ := elems_end (es := e :: es) (fuel := t.length + 1) (prev := []) (sd := []) (pos := pos + 1) (rest := t) (tl := 32 :: w)
      (by simp) hwf hnd (by simp [SMap.find]) SMap.sorted_nil ht.symm (by simp) (by omega)
    have hsd : sdText (e :: es) = (e :: es).flatMap Elem.render := rfl
    rw [hsd, ht]
    simp only [dSD, hp]
    have hl := congrArg List.length ht
    simp only [List.length_append, List.length_cons] at hl hpos
    have e1 : p + 1 = pos + ((e :: es).flatMap Elem.render).length + 1 := by omega
    rw [e1]
    congr 1
    rw [← withSD_put (by simp) none]
    simp [withSD, h0.1]

theorem spanN_full (cls : UInt8 → Bool) {w rest : Bytes} (hw : ∀ b ∈ w, cls b = true) :
    spanN cls w.length (w ++ rest) = (w, rest) := by
  induction w with
  | nil => cases rest <;> rfl
  | cons b l ih =>
    have hb := hw b (by simp)
    simp [spanN, hb, ih (fun x hx => hw x (by simp [hx]))]

/-- a second element with an id already used -/
theorem dSD_dup {c : Bool} {pos : Nat} {es : List Elem} {id t : Bytes} {out : Out} (hne : es ≠ []) (hwf : ∀ e ∈ es, e.WF)
    (hnd : (es.map Elem.id).Nodup) (hid : id ∈ es.map Elem.id) (ht : id.length = 32 ∨ ∀ b l, t = b :: l → isSdName b = false) :
    dSD c pos (sdText es ++ 91 :: (id ++ t)) out =
      mkErr .sdIdDup (pos + (sdText es).length + 1 + id.length) (withSD out (elemMap es)) := by
  obtain ⟨r, hr⟩ : ∃ r, es.flatMap Elem.render ++ 91 :: (id ++ t) = 91 :: r := by
    cases es with
    | nil => exact absurd rfl hne
    | cons e es => exact ⟨_, rfl⟩
  have hsd : sdText es = es.flatMap Elem.render := by
    cases es with
    | nil => exact absurd rfl hne
    | cons e es => rfl
  obtain ⟨f, pr, p, h1, h2, h3⟩ := elems_prefix es (r.length + 1) [] [] (pos + 1) r (id ++ t) hne hwf hnd
    (by simp [SMap.find]) SMap.sorted_nil hr.symm (by omega)
  have hidwf : SdNameWF id := by
    obtain ⟨e, he, rfl⟩ := List.mem_map.mp hid
    exact (hwf e he).1
  have hsp : spanN isSdName 32 (id ++ t) = (id, t) := by
    rcases ht with ht | ht
    · rw [← ht]; exact spanN_full isSdName (sdName_wf.mp hidwf).2.2
    · refine spanN_eq isSdName (sdName_wf.mp hidwf).2.2 hidwf.2.1 ?_
      cases t with
      | nil => exact Or.inl rfl
      | cons b l => exact Or.inr ⟨b, l, rfl, ht b l rfl⟩
  obtain ⟨f, rfl⟩ : ∃ k, f = k + 1 := ⟨f - 1, by omega⟩
  have hfind := find_foldl (es := es) (sd := []) (id := id) (Or.inl hid)
  rw [Option.isSome_iff_exists] at hfind
  obtain ⟨ps, hps⟩ := hfind
  rw [dElems_dup hsp hidwf.1 hps] at h1
  rw [hsd, hr]
  simp only [dSD, h1]
  have hl := congrArg List.length hr
  simp only [List.length_append, List.length_cons] at hl h3
  rw [show p + id.length = pos + (es.flatMap Elem.render).length + 1 + id.length by omega]
  rfl

end Verif.Rfc5424
