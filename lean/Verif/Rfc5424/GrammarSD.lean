import Verif.Rfc5424.DescentSD2
import Verif.CommonLemmas

/-! # `descend` against the grammar: MSG and STRUCTURED-DATA -/

namespace Verif.Rfc5424
open Spec

/-! ## PARAM-VALUE -/

theorem escape_cons_plain {b : UInt8} {l : Bytes} (h1 : b.toNat ≠ 34) (h2 : b.toNat ≠ 92) (h3 : b.toNat ≠ 93) :
    escape (b :: l) = b :: escape l := by
  have : ¬(b = 34 ∨ b = 92 ∨ b = 93) := by
    rintro (h | h | h) <;> subst h <;> simp at h1 h2 h3
  rw [escape, if_neg this]

theorem escape_cons_special {b : UInt8} {l : Bytes} (h : b.toNat = 34 ∨ b.toNat = 92 ∨ b.toNat = 93) :
    escape (b :: l) = 92 :: b :: escape l := by
  have : b = 34 ∨ b = 92 ∨ b = 93 := by
    rcases h with h | h | h
    · exact Or.inl ((toNat_eq (n := 34) (by omega)).mp h)
    · exact Or.inr (Or.inl ((toNat_eq (n := 92) (by omega)).mp h))
    · exact Or.inr (Or.inr ((toNat_eq (n := 93) (by omega)).mp h))
  rw [escape, if_pos this]

theorem unesc_escape : ∀ v : Bytes, unesc false (escape v) = v := by
  intro v
  induction v with
  | nil => rfl
  | cons b l ih =>
    by_cases h : b.toNat = 34 ∨ b.toNat = 92 ∨ b.toNat = 93
    · rw [escape_cons_special h]; simp [unesc, ih]
    · rw [escape_cons_plain (by omega) (by omega) (by omega)]
      simp only [unesc, if_neg (show ¬ b.toNat = 92 by omega), ih]

theorem u8_step_high {s s' : U8} {b : UInt8} (hs : s ≠ .s0) (h : U8.step s b = some s') : 128 ≤ b.toNat := by
  cases s <;> first | exact absurd rfl hs | (simp only [U8.step] at h; split at h <;> simp_all <;> omega)

theorem u8_step_s0_low {b : UInt8} (h : b.toNat ≤ 127) : U8.step .s0 b = some .s0 := by
  simp only [U8.step]; rw [if_pos (by omega)]

theorem val_complete (tl : Bytes) : ∀ (v : Bytes) (s : U8), U8.Acc s v →
    valScan (some s) (escape v ++ 34 :: tl) = .ok (escape v) tl := by
  intro v
  induction v with
  | nil =>
    intro s h
    have : s = .s0 := by
      simp only [U8.Acc, U8.firstBad] at h
      split at h
      · assumption
      · simp at h
    subst this
    simp [escape, valScan]
  | cons b l ih =>
    intro s h
    obtain ⟨s', hst, hacc⟩ := U8.acc_cons.mp h
    by_cases hs : s = .s0
    · subst hs
      by_cases hb : b.toNat = 34 ∨ b.toNat = 92 ∨ b.toNat = 93
      · have hs' : s' = .s0 := by rw [u8_step_s0_low (by omega)] at hst; simpa using hst.symm
        subst hs'
        rw [escape_cons_special hb]
        simp only [List.cons_append, valScan]
        rw [if_neg (by decide), if_pos (by decide), if_pos hb, ih .s0 hacc]
        rfl
      · have h1 : ¬ b.toNat = 34 := by omega
        have h2 : ¬ b.toNat = 92 := by omega
        have h3 : ¬ b.toNat = 93 := by omega
        rw [escape_cons_plain h1 h2 h3]
        simp only [List.cons_append, valScan]
        rw [if_neg h1, if_neg h2, if_neg h3, hst]
        simp only [ih s' hacc, VRes.cons]
    · have hb := u8_step_high hs hst
      rw [escape_cons_plain (by omega) (by omega) (by omega)]
      have : valScan (some s) (b :: (escape l ++ 34 :: tl)) = (valScan (some s') (escape l ++ 34 :: tl)).cons b := by
        cases s <;> first | exact absurd rfl hs | simp only [valScan, hst]
      rw [List.cons_append, this, ih s' hacc]; rfl

theorem valScan_mid {s : U8} (hs : s ≠ .s0) (b : UInt8) (l : Bytes) : valScan (some s) (b :: l) =
    match U8.step s b with
    | none => .bad .sdParam 0
    | some s => (valScan (some s) l).cons b := by
  cases s <;> first | exact absurd rfl hs | rfl

theorem VRes.cons_ok {b : UInt8} {r : VRes} {raw tl : Bytes} (h : r.cons b = .ok raw tl) :
    ∃ raw', r = .ok raw' tl ∧ raw = b :: raw' := by
  cases r with
  | bad k n => simp [VRes.cons] at h
  | ok w t => simp only [VRes.cons, VRes.ok.injEq] at h; exact ⟨w, by rw [h.2], h.1.symm⟩

theorem val_sound : ∀ (n : Nat) (l : Bytes), l.length ≤ n → ∀ (s : U8) (raw tl : Bytes), valScan (some s) l = .ok raw tl →
    ∃ v, U8.Acc s v ∧ raw = escape v ∧ l = escape v ++ 34 :: tl := by
  intro n
  induction n with
  | zero =>
    intro l hl s raw tl h
    have : l = [] := List.length_eq_zero_iff.mp (by omega)
    subst this
    cases s <;> simp [valScan] at h
  | succ n ih =>
    intro l hl s raw tl h
    cases l with
    | nil => cases s <;> simp [valScan] at h
    | cons b l =>
      simp only [List.length_cons] at hl
      by_cases hs : s = .s0
      · subst hs
        simp only [valScan] at h
        by_cases h34 : b.toNat = 34
        · rw [if_pos h34] at h
          simp only [VRes.ok.injEq] at h
          obtain ⟨rfl, rfl⟩ := h
          exact ⟨[], rfl, rfl, by rw [(toNat_eq (n := 34) (by omega)).mp h34]; rfl⟩
        rw [if_neg h34] at h
        by_cases h92 : b.toNat = 92
        · rw [if_pos h92] at h
          obtain ⟨raw', h', rfl⟩ := VRes.cons_ok h
          cases l with
          | nil => simp [valScan] at h'
          | cons c l =>
            simp only [valScan] at h'
            split at h'
            · rename_i hc
              obtain ⟨raw'', h'', rfl⟩ := VRes.cons_ok h'
              simp only [List.length_cons] at hl
              obtain ⟨v, hv, hraw, hl'⟩ := ih l (by omega) .s0 raw'' tl h''
              refine ⟨c :: v, U8.acc_cons.mpr ⟨.s0, u8_step_s0_low (by omega), hv⟩, ?_, ?_⟩
              · rw [escape_cons_special hc, hraw, (toNat_eq (n := 92) (by omega)).mp h92]; rfl
              · rw [escape_cons_special hc, hl', (toNat_eq (n := 92) (by omega)).mp h92]; rfl
            · simp at h'
        rw [if_neg h92] at h
        by_cases h93 : b.toNat = 93
        · rw [if_pos h93] at h; simp at h
        rw [if_neg h93] at h
        cases hst : U8.step .s0 b with
        | none => rw [hst] at h; simp at h
        | some s' =>
          rw [hst] at h
          obtain ⟨raw', h', rfl⟩ := VRes.cons_ok h
          obtain ⟨v, hv, hraw, hl'⟩ := ih l (by omega) s' raw' tl h'
          exact ⟨b :: v, U8.acc_cons.mpr ⟨s', hst, hv⟩, by rw [escape_cons_plain h34 h92 h93, hraw],
            by rw [escape_cons_plain h34 h92 h93, hl']; rfl⟩
      · rw [valScan_mid hs] at h
        cases hst : U8.step s b with
        | none => rw [hst] at h; simp at h
        | some s' =>
          rw [hst] at h
          have hb := u8_step_high hs hst
          obtain ⟨raw', h', rfl⟩ := VRes.cons_ok h
          obtain ⟨v, hv, hraw, hl'⟩ := ih l (by omega) s' raw' tl h'
          have he := escape_cons_plain (b := b) (l := v) (by omega) (by omega) (by omega)
          exact ⟨b :: v, U8.acc_cons.mpr ⟨s', hst, hv⟩, by rw [he, hraw], by rw [he, hl']; rfl⟩

/-- PARAM-VALUE -/
theorem val_iff {l raw tl : Bytes} : valScan (some .s0) l = .ok raw tl ↔
    ∃ v, Utf8 v ∧ raw = escape v ∧ l = escape v ++ 34 :: tl := by
  constructor
  · intro h
    obtain ⟨v, hv, h1, h2⟩ := val_sound l.length l (Nat.le_refl _) .s0 raw tl h
    exact ⟨v, (U8.acc_iff v).mp hv, h1, h2⟩
  · rintro ⟨v, hv, rfl, rfl⟩
    exact val_complete tl v .s0 ((U8.acc_iff v).mpr hv)

/-! ## names -/

theorem isSdName_iff {b : UInt8} : isSdName b = true ↔ Printable b ∧ b ≠ 61 ∧ b ≠ 93 ∧ b ≠ 34 := by
  have e : ∀ n : Nat, n < 256 → (b ≠ UInt8.ofNat n ↔ b.toNat ≠ n) := fun n hn => by rw [ne_eq, ← toNat_eq hn]
  have e1 := e 61 (by omega)
  have e2 := e 93 (by omega)
  have e3 := e 34 (by omega)
  simp only [isSdName, isGraph, Bool.and_eq_true, decide_eq_true_eq, Printable]
  constructor
  · rintro ⟨⟨⟨h1, h2⟩, h3⟩, h4⟩
    exact ⟨h1, e1.mpr (by omega), e2.mpr h4, e3.mpr (by omega)⟩
  · rintro ⟨h1, h2, h3, h4⟩
    exact ⟨⟨⟨h1, e3.mp h4⟩, e1.mp h2⟩, e2.mp h3⟩

theorem sdName_wf {w : Bytes} : SdNameWF w ↔ w ≠ [] ∧ w.length ≤ 32 ∧ ∀ b ∈ w, isSdName b = true := by
  simp only [SdNameWF, isSdName_iff]

theorem span_sdName {w r : Bytes} {x : UInt8} (h : SdNameWF w) (hx : isSdName x = false) :
    spanN isSdName 32 (w ++ x :: r) = (w, x :: r) := by
  obtain ⟨_, h2, h3⟩ := sdName_wf.mp h
  exact spanN_eq isSdName h3 h2 (Or.inr ⟨x, r, rfl, hx⟩)

theorem span_sdName_wf {rest w r : Bytes} (h : spanN isSdName 32 rest = (w, r)) (hw : w ≠ []) : SdNameWF w ∧ rest = w ++ r := by
  have h1 := spanN_append isSdName 32 rest
  have h2 := spanN_all isSdName 32 rest
  have h3 := spanN_length isSdName 32 rest
  rw [h] at h1 h2 h3
  exact ⟨sdName_wf.mpr ⟨hw, h3, h2⟩, h1.symm⟩

/-! ## parameters -/

def putParam (m : SMap Bytes) (p : Param) : SMap Bytes := m.insert p.name p.value

theorem paramMap_eq (ps : List Param) : paramMap ps = ps.foldl putParam [] := rfl

theorem params_sound : ∀ (fuel : Nat) (id : Bytes) (ps : SMap Bytes) (last : Bytes) (sd : SD) (pos : Nat) (rest : Bytes)
    (sd' : SD) (p : Nat) (tl : Bytes), sd.Sorted → dParams fuel id ps last sd pos rest = .ok sd' p tl →
    ∃ params : List Param, params ≠ [] ∧ (∀ q ∈ params, q.WF) ∧
      32 :: rest = params.flatMap Param.render ++ 93 :: tl ∧ sd' = sd.insert id (params.foldl putParam ps) := by
  intro fuel
  induction fuel with
  | zero => intro id ps last sd pos rest sd' p tl _ h; simp [dParams] at h
  | succ fuel ih =>
    intro id ps last sd pos rest sd' p tl hsort h
    obtain ⟨w, r, hsp⟩ : ∃ w r, spanN isSdName 32 rest = (w, r) := ⟨_, _, rfl⟩
    by_cases hw : w = []
    · rw [dParams_noeq hsp (Or.inl hw)] at h; simp at h
    obtain ⟨hwf, happ⟩ := span_sdName_wf hsp hw
    by_cases hr : ∃ t, r = 61 :: t
    case neg => rw [dParams_noeq hsp (Or.inr fun t ht => hr ⟨t, ht⟩)] at h; simp at h
    obtain ⟨r1, rfl⟩ := hr
    by_cases hq : ∃ t, r1 = 34 :: t
    case neg => rw [dParams_noquote hsp hw (fun t ht => hq ⟨t, ht⟩)] at h; simp at h
    obtain ⟨r2, rfl⟩ := hq
    cases hv : valScan (some .s0) r2 with
    | bad k n => rw [dParams_badval hsp hw hv] at h; simp at h
    | ok raw tl1 =>
      obtain ⟨v, hu, rfl, hr2⟩ := val_iff.mp hv
      have hwfq : (Param.mk w v).WF := ⟨hwf, hu⟩
      have hren : 32 :: rest = (Param.mk w v).render ++ tl1 := by
        rw [happ, hr2]; simp [Param.render]
      by_cases h32 : ∃ t, tl1 = 32 :: t
      · obtain ⟨t, rfl⟩ := h32
        rw [dParams_sp hsp hw hv, unesc_escape] at h
        obtain ⟨params, -, h2, h3, h4⟩ := ih _ _ _ _ _ _ _ _ _ (SMap.sorted_insert hsort) h
        refine ⟨⟨w, v⟩ :: params, by simp, ?_, ?_, ?_⟩
        · intro q hq
          rcases List.mem_cons.mp hq with rfl | hq
          · exact hwfq
          · exact h2 q hq
        · rw [hren, h3]; simp
        · rw [h4, SMap.insert_insert hsort]; rfl
      by_cases h93 : ∃ t, tl1 = 93 :: t
      · obtain ⟨t, rfl⟩ := h93
        rw [dParams_close hsp hw hv, unesc_escape] at h
        simp only [SdRes.ok.injEq] at h
        obtain ⟨rfl, -, rfl⟩ := h
        exact ⟨[⟨w, v⟩], by simp, by intro q hq; simp at hq; rw [hq]; exact hwfq, by rw [hren]; simp, rfl⟩
      · rw [dParams_after hsp hw hv (fun t ht => h32 ⟨t, ht⟩) (fun t ht => h93 ⟨t, ht⟩)] at h; simp at h

theorem params_complete : ∀ (params : List Param) (fuel : Nat) (id : Bytes) (ps : SMap Bytes) (last : Bytes) (sd : SD)
    (pos : Nat) (rest tl : Bytes), params ≠ [] → (∀ q ∈ params, q.WF) → sd.Sorted →
    32 :: rest = params.flatMap Param.render ++ 93 :: tl → rest.length < fuel →
    ∃ p, dParams fuel id ps last sd pos rest = .ok (sd.insert id (params.foldl putParam ps)) p tl := by
  intro params
  induction params with
  | nil => intro _ _ _ _ _ _ _ _ h; exact absurd rfl h
  | cons q qs ih =>
    intro fuel id ps last sd pos rest tl _ hwf hsort hrest hfuel
    have hq := hwf q (by simp)
    obtain ⟨fuel, rfl⟩ : ∃ f, fuel = f + 1 := ⟨fuel - 1, by omega⟩
    simp only [List.flatMap_cons, Param.render, List.cons_append, List.append_assoc, List.cons.injEq, true_and,
      List.nil_append] at hrest
    have hne : q.name ≠ [] := hq.1.1
    have hsp : spanN isSdName 32 rest = (q.name, 61 :: 34 :: (escape q.value ++ 34 :: (qs.flatMap Param.render ++ 93 :: tl))) := by
      rw [hrest]; exact span_sdName hq.1 (by decide)
    have hv := val_complete (qs.flatMap Param.render ++ 93 :: tl) q.value .s0 ((U8.acc_iff _).mpr hq.2)
    cases qs with
    | nil =>
      simp only [List.flatMap_nil, List.nil_append] at hsp hv
      rw [dParams_close hsp hne hv, unesc_escape]
      exact ⟨_, rfl⟩
    | cons q2 qs =>
      obtain ⟨t, ht⟩ : ∃ t, (q2 :: qs).flatMap Param.render ++ 93 :: tl = 32 :: t := ⟨_, rfl⟩
      rw [ht] at hsp hv
      rw [dParams_sp hsp hne hv, unesc_escape]
      have hlen : t.length < fuel := by
        rw [ht] at hrest
        have := congrArg List.length hrest
        simp at this
        omega
      obtain ⟨p, hp⟩ := ih fuel id (ps.insert q.name q.value) q.name (sd.insert id (ps.insert q.name q.value))
        _ t tl (by simp) (fun x hx => hwf x (by simp [hx])) (SMap.sorted_insert hsort) ht.symm hlen
      rw [hp]
      exact ⟨p, by rw [SMap.insert_insert hsort]; rfl⟩

/-! ## elements -/

def putElem (m : SD) (e : Elem) : SD := m.insert e.id (paramMap e.params)

theorem elemMap_eq (es : List Elem) : elemMap es = es.foldl putElem [] := rfl

theorem dNext_ok {fuel : Nat} {id : Bytes} {sd : SD} {pos : Nat} {tl : Bytes} (h : ∀ t, tl ≠ 91 :: t) :
    dNext fuel id sd pos tl = .ok sd pos tl := by
  simp only [dNext]

theorem dNext_more {fuel : Nat} {id : Bytes} {sd : SD} {pos : Nat} {t : Bytes} :
    dNext fuel id sd pos (91 :: t) = dElems fuel id sd (pos + 1) t := rfl

theorem elems_sound : ∀ (fuel : Nat) (prev : Bytes) (sd : SD) (pos : Nat) (rest : Bytes)
    (sd' : SD) (p : Nat) (tl : Bytes), sd.Sorted → dElems fuel prev sd pos rest = .ok sd' p tl →
    ∃ es : List Elem, es ≠ [] ∧ (∀ e ∈ es, e.WF) ∧ (es.map Elem.id).Nodup ∧ (∀ e ∈ es, sd.find e.id = none) ∧
      91 :: rest = es.flatMap Elem.render ++ tl ∧ (∀ t, tl ≠ 91 :: t) ∧ sd' = es.foldl putElem sd := by
  intro fuel
  induction fuel with
  | zero => intro prev sd pos rest sd' p tl _ h; simp [dElems] at h
  | succ fuel ih =>
    intro prev sd pos rest sd' p tl hsort h
    obtain ⟨w, r, hsp⟩ : ∃ w r, spanN isSdName 32 rest = (w, r) := ⟨_, _, rfl⟩
    by_cases hw : w = []
    · subst hw; rw [dElems_noid hsp] at h; simp at h
    obtain ⟨hwf, happ⟩ := span_sdName_wf hsp hw
    cases hf : sd.find w with
    | some ps => rw [dElems_dup hsp hw hf] at h; simp at h
    | none =>
      -- finish once the first element is known
      have hfin : ∀ (e : Elem) (tl1 : Bytes) (p1 : Nat), e.WF → e.id = w → 91 :: rest = e.render ++ tl1 →
          dNext fuel w (putElem sd e) p1 tl1 = .ok sd' p tl →
          ∃ es : List Elem, es ≠ [] ∧ (∀ e ∈ es, e.WF) ∧ (es.map Elem.id).Nodup ∧ (∀ e ∈ es, sd.find e.id = none) ∧
            91 :: rest = es.flatMap Elem.render ++ tl ∧ (∀ t, tl ≠ 91 :: t) ∧ sd' = es.foldl putElem sd := by
        intro e tl1 p1 he hid hren hnx
        by_cases h91 : ∃ t, tl1 = 91 :: t
        · obtain ⟨t, rfl⟩ := h91
          rw [dNext_more] at hnx
          obtain ⟨es, -, g2, g3, g4, g5, g6, g7⟩ := ih _ _ _ _ _ _ _ (SMap.sorted_insert hsort) hnx
          have hnot : ∀ e' ∈ es, e'.id ≠ w ∧ sd.find e'.id = none := by
            intro e' he'
            have : SMap.find e'.id (SMap.insert e.id (paramMap e.params) sd) = none := g4 e' he'
            rw [SMap.find_insert, hid] at this
            split at this
            · simp at this
            · rename_i hne; exact ⟨hne, this⟩
          refine ⟨e :: es, by simp, ?_, ?_, ?_, ?_, g6, ?_⟩
          · intro x hx
            rcases List.mem_cons.mp hx with rfl | hx
            · exact he
            · exact g2 x hx
          · rw [List.map_cons, List.nodup_cons]
            refine ⟨?_, g3⟩
            intro hmem
            obtain ⟨e', he', hee⟩ := List.mem_map.mp hmem
            exact (hnot e' he').1 (by rw [hee, hid])
          · intro x hx
            rcases List.mem_cons.mp hx with rfl | hx
            · rw [hid]; exact hf
            · exact (hnot x hx).2
          · rw [hren, g5]; simp
          · rw [g7]; rfl
        · have h91' : ∀ t, tl1 ≠ 91 :: t := fun t ht => h91 ⟨t, ht⟩
          rw [dNext_ok h91'] at hnx
          simp only [SdRes.ok.injEq] at hnx
          obtain ⟨rfl, -, rfl⟩ := hnx
          exact ⟨[e], by simp, by intro x hx; simp at hx; rw [hx]; exact he, by simp,
            by intro x hx; simp at hx; rw [hx, hid]; exact hf, by rw [hren]; simp, h91', rfl⟩
      by_cases h32 : ∃ t, r = 32 :: t
      · obtain ⟨t, rfl⟩ := h32
        cases hp : dParams (t.length + 1) w [] [] (sd.insert w []) (pos + w.length + 1) t with
        | bad k c sd1 => rw [dElems_params_bad hsp hw hf hp] at h; simp at h
        | ok sd1 p1 tl1 =>
          rw [dElems_params_ok hsp hw hf hp] at h
          obtain ⟨params, -, g2, g3, g4⟩ := params_sound _ _ _ _ _ _ _ _ _ _ (SMap.sorted_insert hsort) hp
          rw [SMap.insert_insert hsort] at g4
          subst g4
          exact hfin ⟨w, params⟩ tl1 p1 ⟨hwf, g2⟩ rfl (by
            rw [happ, g3]; simp [Elem.render]) h
      by_cases h93 : ∃ t, r = 93 :: t
      · obtain ⟨t, rfl⟩ := h93
        rw [dElems_close hsp hw hf] at h
        exact hfin ⟨w, []⟩ t _ ⟨hwf, by simp⟩ rfl (by rw [happ]; simp [Elem.render]) h
      · rw [dElems_badid hsp hw hf (fun t ht => h32 ⟨t, ht⟩) (fun t ht => h93 ⟨t, ht⟩)] at h; simp at h

theorem elems_complete : ∀ (es : List Elem) (fuel : Nat) (prev : Bytes) (sd : SD) (pos : Nat) (rest tl : Bytes),
    es ≠ [] → (∀ e ∈ es, e.WF) → (es.map Elem.id).Nodup → (∀ e ∈ es, sd.find e.id = none) → sd.Sorted →
    91 :: rest = es.flatMap Elem.render ++ tl → (∀ t, tl ≠ 91 :: t) → rest.length < fuel →
    ∃ p, dElems fuel prev sd pos rest = .ok (es.foldl putElem sd) p tl := by
  intro es
  induction es with
  | nil => intro _ _ _ _ _ _ h; exact absurd rfl h
  | cons e es ih =>
    intro fuel prev sd pos rest tl _ hwf hnd hnot hsort hrest htl hfuel
    have he := hwf e (by simp)
    have hf := hnot e (by simp)
    obtain ⟨fuel, rfl⟩ : ∃ f, fuel = f + 1 := ⟨fuel - 1, by omega⟩
    simp only [List.flatMap_cons, Elem.render, List.cons_append, List.append_assoc, List.cons.injEq, true_and,
      List.nil_append] at hrest
    have hne : e.id ≠ [] := he.1.1
    obtain ⟨tl1, htl1⟩ : ∃ tl1, tl1 = es.flatMap Elem.render ++ tl := ⟨_, rfl⟩
    rw [← htl1] at hrest
    have hlen1 : tl1.length < rest.length := by
      have := congrArg List.length hrest; simp at this; omega
    have hnext : ∀ pos1, ∃ p, dNext fuel e.id (putElem sd e) pos1 tl1 = .ok ((e :: es).foldl putElem sd) p tl := by
      intro pos1
      cases es with
      | nil =>
        simp only [List.flatMap_nil, List.nil_append] at htl1
        subst htl1
        rw [dNext_ok htl]; exact ⟨_, rfl⟩
      | cons e2 es =>
        obtain ⟨t, ht⟩ : ∃ t, (e2 :: es).flatMap Elem.render ++ tl = 91 :: t := ⟨_, rfl⟩
        rw [htl1, ht, dNext_more]
        rw [List.map_cons, List.nodup_cons] at hnd
        exact ih fuel e.id (putElem sd e) (pos1 + 1) t tl (by simp) (fun x hx => hwf x (by simp [hx])) hnd.2
          (by
            intro x hx
            rw [putElem, SMap.find_insert]
            have : x.id ≠ e.id := fun h => hnd.1 (by rw [← h]; exact List.mem_map_of_mem hx)
            rw [if_neg this]
            exact hnot x (by simp [hx]))
          (SMap.sorted_insert hsort) ht.symm htl (by
            have : t.length + 1 = tl1.length := by rw [htl1, ht]; simp
            omega)
    cases hps : e.params with
    | nil =>
      rw [hps] at hrest
      simp only [List.flatMap_nil, List.nil_append] at hrest
      have hsp : spanN isSdName 32 rest = (e.id, 93 :: tl1) := by
        rw [hrest]; exact span_sdName he.1 (by decide)
      rw [dElems_close hsp hne hf]
      have := hnext (pos + e.id.length + 1)
      rw [putElem, hps] at this
      exact this
    | cons q qs =>
      obtain ⟨t, ht⟩ : ∃ t, e.params.flatMap Param.render ++ 93 :: tl1 = 32 :: t := by
        rw [hps]; exact ⟨_, rfl⟩
      rw [ht] at hrest
      have hsp : spanN isSdName 32 rest = (e.id, 32 :: t) := by
        rw [hrest]; exact span_sdName he.1 (by decide)
      obtain ⟨p1, hp1⟩ := params_complete e.params (t.length + 1) e.id [] [] (sd.insert e.id []) (pos + e.id.length + 1) t tl1
        (by rw [hps]; simp) he.2 (SMap.sorted_insert hsort) ht.symm (by omega)
      rw [dElems_params_ok hsp hne hf hp1, SMap.insert_insert hsort]
      exact hnext p1

/-! ## MSG, and everything after MSGID -/

/-- what the option demands of MSG -/
def MsgOk (c : Bool) (w : Bytes) : Prop := c = true → MsgCompliant w

theorem firstBad_bom (l : Bytes) : U8.Acc .s0 (0xEF :: 0xBB :: 0xBF :: l) ↔ U8.Acc .s0 l := by
  constructor
  · intro h
    obtain ⟨s1, h1, h⟩ := U8.acc_cons.mp h
    obtain ⟨s2, h2, h⟩ := U8.acc_cons.mp h
    obtain ⟨s3, h3, h⟩ := U8.acc_cons.mp h
    have e1 : s1 = .c2 := by simp only [U8.step] at h1; simpa using h1.symm
    subst e1
    have e2 : s2 = .c1 := by simp only [U8.step] at h2; simpa using h2.symm
    subst e2
    have e3 : s3 = .s0 := by simp only [U8.step] at h3; simpa using h3.symm
    subst e3
    exact h
  · intro h
    exact U8.acc_cons.mpr ⟨.c2, rfl, U8.acc_cons.mpr ⟨.c1, rfl, U8.acc_cons.mpr ⟨.s0, rfl, h⟩⟩⟩

theorem dMsg_iff {c : Bool} {pos : Nat} {rest : Bytes} {out o : Out} (h0 : out.message = []) :
    dMsg c pos rest out = .ok o ↔ MsgOk c rest ∧ o = { out with message := rest } := by
  have hout : { out with message := [] } = out := by rw [← h0]
  simp only [dMsg]
  by_cases hr : rest = []
  · subst hr
    rw [if_pos rfl, hout]
    constructor
    · intro h; simp at h; exact ⟨fun _ hb => by simp [bom] at hb, h.symm⟩
    · rintro ⟨-, rfl⟩; rfl
  rw [if_neg hr]
  cases c with
  | false => simp [MsgOk, eq_comm]
  | true =>
    simp only [if_true]
    split
    · rename_i l
      have hb : bom <+: (0xEF :: 0xBB :: 0xBF :: l) := ⟨l, rfl⟩
      cases hfb : U8.firstBad .s0 l with
      | none =>
        have : Utf8 (0xEF :: 0xBB :: 0xBF :: l) := (U8.acc_iff _).mp ((firstBad_bom l).mpr hfb)
        simp only [Fin.ok.injEq]
        exact ⟨fun h => ⟨fun _ _ => this, h.symm⟩, fun h => h.2.symm⟩
      | some n =>
        simp only [mkErr]
        constructor
        · intro h; simp at h
        · rintro ⟨h, -⟩
          have := (firstBad_bom l).mp ((U8.acc_iff _).mpr (h rfl hb))
          rw [U8.Acc, hfb] at this; simp at this
    · rename_i hnb
      have : ¬ bom <+: rest := by
        rintro ⟨l, hl⟩
        exact hnb l hl.symm
      simp only [Fin.ok.injEq]
      exact ⟨fun h => ⟨fun _ hb => absurd hb this, h.symm⟩, fun h => h.2.symm⟩

/-- fields set by STRUCTURED-DATA and MSG -/
def putSD (out : Out) (es : List Elem) (msg : Option Bytes) : Out :=
  { out with
    structuredData := if es = [] then none else some (elemMap es)
    hasElements := decide (es ≠ [])
    message := msg.getD [] }

theorem putElem_ne_nil {sd : SD} {es : List Elem} (h : es ≠ []) : es.foldl putElem sd ≠ [] := by
  induction es generalizing sd with
  | nil => exact absurd rfl h
  | cons e es ih =>
    cases es with
    | nil => exact SMap.insert_ne_nil _ _ _
    | cons e2 es => exact ih (by simp)

theorem withSD_put {out : Out} {es : List Elem} (h : es ≠ []) (msg : Option Bytes) :
    { withSD out (es.foldl putElem []) with message := msg.getD [] } = putSD out es msg := by
  have : (es.foldl putElem []).isEmpty = false := by
    have := putElem_ne_nil (sd := []) h
    cases hh : es.foldl putElem [] <;> simp_all
  simp only [withSD, putSD, if_neg h, this]
  simp [h, elemMap_eq]

theorem sd_iff {c : Bool} {pos : Nat} {rest : Bytes} {out o : Out} (h0 : out.message = []) (h1 : out.structuredData = none)
    (h2 : out.hasElements = false) :
    dSD c pos rest out = .ok o ↔ ∃ (es : List Elem) (msg : Option Bytes), (∀ e ∈ es, e.WF) ∧ (es.map Elem.id).Nodup ∧
      (∀ w, msg = some w → MsgOk c w) ∧ rest = sdText es ++ msgText msg ∧ o = putSD out es msg := by
  have hnil : putSD out [] none = out := by
    cases out; simp_all [putSD]
  constructor
  · intro h
    unfold dSD at h
    split at h
    · rename_i r
      split at h
      · simp only [Fin.ok.injEq] at h
        exact ⟨[], none, by simp, by simp, by simp, rfl, by rw [hnil]; exact h.symm⟩
      · rename_i t
        rw [dMsg_iff h0] at h
        refine ⟨[], some t, by simp, by simp, by intro w hw; simp at hw; rw [← hw]; exact h.1, rfl, ?_⟩
        rw [h.2]
        cases out; simp_all [putSD]
      · simp [mkErr] at h
    · rename_i r
      split at h
      · simp [mkErr] at h
      · rename_i sd p tl hd
        obtain ⟨es, g1, g2, g3, g4, g5, g6, g7⟩ := elems_sound _ _ _ _ _ _ _ _ SMap.sorted_nil hd
        have htext : sdText es = es.flatMap Elem.render := by cases es with
          | nil => exact absurd rfl g1
          | cons => rfl
        split at h
        · simp only [Fin.ok.injEq] at h
          refine ⟨es, none, g2, g3, by simp, by rw [g5, htext]; rfl, ?_⟩
          rw [← h, g7, ← withSD_put g1]
          simp [withSD, h0]
        · rename_i t
          rw [dMsg_iff (by simp [withSD, h0])] at h
          refine ⟨es, some t, g2, g3, by intro w hw; simp at hw; rw [← hw]; exact h.1, by rw [g5, htext]; rfl, ?_⟩
          rw [h.2, g7, ← withSD_put g1]; rfl
        · simp [mkErr] at h
    · simp [mkErr] at h
  · rintro ⟨es, msg, g1, g2, g3, rfl, rfl⟩
    cases es with
    | nil =>
      cases msg with
      | none => simp only [hnil]; rfl
      | some w =>
        have : dSD c pos (sdText [] ++ msgText (some w)) out = dMsg c (pos + 2) w out := rfl
        rw [this, dMsg_iff h0]
        refine ⟨g3 w rfl, ?_⟩
        cases out; simp_all [putSD]
    | cons e es =>
      obtain ⟨t, ht⟩ : ∃ t, (e :: es).flatMap Elem.render ++ msgText msg = 91 :: t := ⟨_, rfl⟩
      have htl : ∀ t, msgText msg ≠ 91 :: t := by cases msg <;> simp [msgText]
      obtain ⟨p, hp⟩ := elems_complete (e :: es) (t.length + 1) [] [] (pos + 1) t (msgText msg) (by simp) g1 g2
        (by simp [SMap.find]) SMap.sorted_nil ht.symm htl (by omega)
      have hsd : sdText (e :: es) = (e :: es).flatMap Elem.render := rfl
      rw [hsd, ht]
      simp only [dSD, hp]
      cases msg with
      | none =>
        simp only [msgText]
        rw [← withSD_put (by simp) none]
        simp [withSD, h0]
      | some w =>
        simp only [msgText]
        rw [dMsg_iff (by simp [withSD, h0])]
        exact ⟨g3 w rfl, by rw [← withSD_put (by simp) (some w)]; rfl⟩

end Verif.Rfc5424
