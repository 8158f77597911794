import Verif.Rfc5424.FailsSD

/-! # `descend` refuses exactly the inputs that are `Broken`, with the specified error and partial message -/

namespace Verif.Rfc5424
open Spec

/-! ## what has been collected after `k` fields -/

def outAt (p : Parts) (k : Nat) : Out :=
  { putTs { priority := UInt8.ofNat p.pri, prioritySet := true, version := UInt16.ofNat p.version }
      (if 2 ≤ k then p.timestamp else none) with
    hostname := if 3 ≤ k then fieldText p.hostname else []
    appname := if 4 ≤ k then fieldText p.appname else []
    procID := if 5 ≤ k then fieldText p.procID else []
    msgID := if 6 ≤ k then fieldText p.msgID else [] }

theorem fdiv8 {n : Nat} (h : n ≤ 191) : UInt8.ofNat n / 8 = UInt8.ofNat (n / 8) := by
  apply UInt8.toNat_inj.mp
  rw [UInt8.toNat_div, UInt8.toNat_ofNat', UInt8.toNat_ofNat', show UInt8.toNat 8 = 8 from rfl]
  omega

theorem fmod8 {n : Nat} (h : n ≤ 191) : UInt8.ofNat n % 8 = UInt8.ofNat (n % 8) := by
  apply UInt8.toNat_inj.mp
  rw [UInt8.toNat_mod, UInt8.toNat_ofNat', UInt8.toNat_ofNat', show UInt8.toNat 8 = 8 from rfl]
  omega

theorem optField_if {max : Nat} {f : Option Bytes} (h : FieldWF max f) (P : Prop) [Decidable P] :
    optField (if P then fieldText f else []) = if P then f else none := by
  split
  · exact optField_text h
  · rfl

theorem export_outAt {p : Parts} (h : p.WF) (k : Nat) : (outAt p k).export = p.first k := by
  rw [outAt, putTs_eq _ _ rfl rfl]
  simp only [Out.export, Base.computeFromPriority, Parts.first, Parts.toMessage, fdiv8 h.pri, fmod8 h.pri,
    optField_if h.hostname, optField_if h.appname, optField_if h.procID, optField_if h.msgID]
  congr 1
  congr 1
  by_cases hk : 2 ≤ k
  · simp only [if_pos hk]; cases p.timestamp <;> rfl
  · simp only [if_neg hk]; rfl

theorem minimal_outAt {p : Parts} (h : p.WF) (k : Nat) : (outAt p k).minimal = true := by
  have h1 := h.pri
  have h2 := h.version
  rw [outAt, putTs_eq _ _ rfl rfl]
  simp only [Out.minimal, Common.validPriority, Common.validVersion, Common.inBetween, UInt8.toNat_ofNat',
    UInt16.toNat_ofNat']
  simp
  omega

theorem part_outAt {p : Parts} (h : p.WF) (k : Nat) : (partOf (outAt p k)).map Out.export = some (p.first k) := by
  rw [partOf, if_pos (minimal_outAt h k), Option.map_some, export_outAt h]

theorem outAt_head (p : Parts) : outAt p 6 = headOut p := rfl

theorem elemMap_isEmpty (es : List Elem) : (elemMap es).isEmpty = decide (es = []) := by
  cases es with
  | nil => rfl
  | cons e es =>
    have := putElem_ne_nil (sd := []) (es := e :: es) (by simp)
    rw [elemMap_eq]
    cases h : (e :: es).foldl putElem [] with
    | nil => exact absurd h this
    | cons => rfl

theorem part_withSD {p : Parts} (h : p.WF) (es : List Elem) :
    (partOf (withSD (headOut p) (elemMap es))).map Out.export = some (p.withElems es) := by
  have hmin : (withSD (headOut p) (elemMap es)).minimal = true := by
    have := minimal_outAt h 6
    rw [outAt_head] at this
    exact this
  rw [partOf, if_pos hmin, Option.map_some, Option.some.injEq, headOut, putTs_eq _ _ rfl rfl]
  simp only [withSD, Out.export, Base.computeFromPriority, Parts.withElems, Parts.toMessage, fdiv8 h.pri, fmod8 h.pri,
    optField_text h.hostname, optField_text h.appname, optField_text h.procID, optField_text h.msgID, elemMap_isEmpty]
  congr 1
  · congr 1
    cases p.timestamp <;> rfl
  · by_cases he : es = []
    · simp [he]
    · simp [he]

/-! ## after `k` fields -/

section
variable {c : Bool} {p : Parts} {x : Bytes}

theorem descend_lead0 (h : p.WF) : descend c (p.lead 0 ++ x) =
    dVersion c (p.lead 0).length x { priority := UInt8.ofNat p.pri, prioritySet := true } := by
  have e : p.lead 0 ++ x = 60 :: (dec p.pri ++ 62 :: x) := by simp [Parts.lead]
  have hp : priScan .start (dec p.pri ++ 62 :: x) = .ok (dec p.pri) x := pri_iff.mpr ⟨p.pri, h.pri, rfl, rfl⟩
  rw [e]
  simp only [descend, hp, setP_dec h.pri]
  congr 1
  simp [Parts.lead]; omega

theorem descend_lead1 (h : p.WF) : descend c (p.lead 1 ++ x) = dTimestamp c (p.lead 1).length x (outAt p 1) := by
  have e : p.lead 1 ++ x = p.lead 0 ++ (dec p.version ++ 32 :: x) := by simp [Parts.lead, Parts.piece]
  rw [e, descend_lead0 h, dVersion_dec h.version]
  congr 1
  simp [Parts.lead, Parts.piece]; omega

theorem descend_lead2 (h : p.WF) : descend c (p.lead 2 ++ x) = dHostname c (p.lead 2).length x (outAt p 2) := by
  have e : p.lead 2 ++ x = p.lead 1 ++ (tsText p.timestamp ++ 32 :: x) := by simp [Parts.lead, Parts.piece]
  rw [e, descend_lead1 h, dTimestamp_text h.timestamp]
  congr 1
  · simp [Parts.lead, Parts.piece]; omega
  · cases hts : p.timestamp <;> simp [outAt, putTs, hts]

theorem descend_lead3 (h : p.WF) : descend c (p.lead 3 ++ x) = dAppname c (p.lead 3).length x (outAt p 3) := by
  have e : p.lead 3 ++ x = p.lead 2 ++ (fieldText p.hostname ++ 32 :: x) := by simp [Parts.lead, Parts.piece]
  rw [e, descend_lead2 h]
  unfold dHostname
  rw [dField_text (by omega) h.hostname]
  congr 1
  · simp [Parts.lead, Parts.piece]; omega

theorem descend_lead4 (h : p.WF) : descend c (p.lead 4 ++ x) = dProcid c (p.lead 4).length x (outAt p 4) := by
  have e : p.lead 4 ++ x = p.lead 3 ++ (fieldText p.appname ++ 32 :: x) := by simp [Parts.lead, Parts.piece]
  rw [e, descend_lead3 h]
  unfold dAppname
  rw [dField_text (by omega) h.appname]
  congr 1
  · simp [Parts.lead, Parts.piece]; omega

theorem descend_lead5 (h : p.WF) : descend c (p.lead 5 ++ x) = dMsgid c (p.lead 5).length x (outAt p 5) := by
  have e : p.lead 5 ++ x = p.lead 4 ++ (fieldText p.procID ++ 32 :: x) := by simp [Parts.lead, Parts.piece]
  rw [e, descend_lead4 h]
  unfold dProcid
  rw [dField_text (by omega) h.procID]
  congr 1
  · simp [Parts.lead, Parts.piece]; omega

theorem descend_lead6 (h : p.WF) : descend c (p.lead 6 ++ x) = dSD c (p.lead 6).length x (headOut p) := by
  have e : p.lead 6 ++ x = p.lead 5 ++ (fieldText p.msgID ++ 32 :: x) := by simp [Parts.lead, Parts.piece]
  rw [e, descend_lead5 h]
  unfold dMsgid
  rw [dField_text (by omega) h.msgID]
  congr 1
  · simp [Parts.lead, Parts.piece]; omega

theorem lead_head (p : Parts) : p.lead 6 = p.head := by simp [Parts.lead, Parts.piece, Parts.head]

end

/-! ## VERSION -/

/-- VERSION not followed by a space -/
theorem dVersion_bad {c : Bool} {pos v : Nat} {t : Bytes} {out : Out} (hv : 1 ≤ v ∧ v ≤ 999) (h32 : NotAt 32 t)
    (hd : v < 100 → ∀ d l, t = d :: l → ¬ (48 ≤ d.toNat ∧ d.toNat ≤ 57)) :
    dVersion c pos (dec v ++ t) out = mkErr (if v < 10 then .parse else .version) (pos + (dec v).length)
      { out with version := UInt16.ofNat (if t = [] ∧ 10 ≤ v then v / 10 else v) } := by
  have hset : ∀ n, n ≤ 999 → setV out (dec n) = { out with version := UInt16.ofNat n } := fun n hn => by
    rw [setV_num (dec_digits n) (by rw [numVal_dec]; exact hn), numVal_dec]
  have hdig : ∀ k, k ≤ 9 → isDig (digit k) = true := by
    intro k hk; simp only [isDig, Ts.digit_toNat hk]; simp; omega
  have hne : ∀ k, k ≤ 9 → digit k ≠ 32 := by
    intro k hk hh
    have := Ts.digit_toNat hk
    rw [hh] at this; simp at this; omega
  have hfirst : ∀ k, 1 ≤ k → k ≤ 9 → ¬((digit k).toNat < 49 ∨ 57 < (digit k).toNat) := by
    intro k h1 h2; rw [Ts.digit_toNat h2]; omega
  have hnot : v < 100 → ∀ d l, t = d :: l → isDig d = false := by
    intro h d l hl
    have := hd h d l hl
    cases hdd : isDig d with
    | false => rfl
    | true => exact absurd (isDig_iff' hdd) this
  rw [← hset _ (by split <;> omega)]
  by_cases h10 : v < 10
  · rw [dec_lt h10, if_pos h10, if_neg (by omega), dec_lt h10]
    simp only [List.cons_append, List.nil_append, dVersion]
    rw [if_neg (hfirst v hv.1 (by omega))]
    cases t with
    | nil => rfl
    | cons d l =>
      simp only []
      rw [if_neg (fun h => h32 l (by rw [h])), hnot (by omega) d l rfl, if_neg (by simp)]
      rfl
  rw [if_neg h10]
  by_cases h100 : v < 100
  · rw [dec_two (by omega) h100]
    simp only [List.cons_append, List.nil_append, dVersion]
    rw [if_neg (hfirst _ (by omega) (by omega)), if_neg (hne _ (by omega)), if_pos (hdig _ (by omega))]
    cases t with
    | nil => rw [if_pos ⟨rfl, by omega⟩, dec_lt (by omega)]; rfl
    | cons d l =>
      simp only []
      rw [if_neg (fun h => h32 l (by rw [h])), hnot (by omega) d l rfl, if_neg (by simp), if_neg (by simp), dec_two (by omega) h100]
      rfl
  · rw [dec_three (by omega) (by omega)]
    simp only [List.cons_append, List.nil_append, dVersion]
    rw [if_neg (hfirst _ (by omega) (by omega)), if_neg (hne _ (by omega)), if_pos (hdig _ (by omega)),
      if_neg (hne _ (by omega)), if_pos (hdig _ (by omega))]
    cases t with
    | nil =>
      rw [if_pos ⟨rfl, by omega⟩, dec_two (by omega) (by omega), show v / 10 / 10 = v / 100 by omega]; rfl
    | cons d l =>
      simp only []
      rw [if_neg (fun h => h32 l (by rw [h])), if_neg (by simp), dec_three (by omega) (by omega)]
      rfl

theorem dVersion_none {c : Bool} {pos : Nat} {x : Bytes} {out : Out} (h : ∀ d t, x = d :: t → ¬ (49 ≤ d.toNat ∧ d.toNat ≤ 57)) :
    dVersion c pos x out = mkErr .version pos out := by
  cases x with
  | nil => rfl
  | cons d t =>
    have := h d t rfl
    simp only [dVersion]
    rw [if_pos (by omega)]

/-- every text begins with a VERSION or not -/
theorem lex_version (x : Bytes) : (∀ d t, x = d :: t → ¬ (49 ≤ d.toNat ∧ d.toNat ≤ 57)) ∨
    ∃ v t, 1 ≤ v ∧ v ≤ 999 ∧ x = dec v ++ t ∧ ((∃ t', t = 32 :: t') ∨
      (NotAt 32 t ∧ (v < 100 → ∀ d l, t = d :: l → ¬ (48 ≤ d.toNat ∧ d.toNat ≤ 57)))) := by
  have fin : ∀ v t, 1 ≤ v → v ≤ 999 → x = dec v ++ t → (v < 100 → ∀ d l, t = d :: l → ¬ (48 ≤ d.toNat ∧ d.toNat ≤ 57)) →
      ∃ v t, 1 ≤ v ∧ v ≤ 999 ∧ x = dec v ++ t ∧ ((∃ t', t = 32 :: t') ∨
      (NotAt 32 t ∧ (v < 100 → ∀ d l, t = d :: l → ¬ (48 ≤ d.toNat ∧ d.toNat ≤ 57)))) := by
    intro v t h1 h2 h3 h4
    refine ⟨v, t, h1, h2, h3, ?_⟩
    by_cases h : ∃ t', t = 32 :: t'
    · exact Or.inl h
    · exact Or.inr ⟨fun t' ht => h ⟨t', ht⟩, h4⟩
  by_cases h1 : ∃ d t, x = d :: t ∧ 49 ≤ d.toNat ∧ d.toNat ≤ 57
  case neg => exact Or.inl fun d t hx hd => h1 ⟨d, t, hx, hd⟩
  obtain ⟨d1, t1, rfl, hd1⟩ := h1
  right
  have e1 := Ts.eq_digit (b := d1) (by omega) (by omega)
  by_cases h2 : ∃ d t, t1 = d :: t ∧ 48 ≤ d.toNat ∧ d.toNat ≤ 57
  case neg =>
    refine fin (d1.toNat - 48) t1 (by omega) (by omega) ?_ (fun _ d l hl hd => h2 ⟨d, l, hl, hd⟩)
    rw [dec_lt (by omega), ← e1]; rfl
  obtain ⟨d2, t2, rfl, hd2⟩ := h2
  have e2 := Ts.eq_digit (b := d2) (by omega) (by omega)
  by_cases h3 : ∃ d t, t2 = d :: t ∧ 48 ≤ d.toNat ∧ d.toNat ≤ 57
  case neg =>
    refine fin ((d1.toNat - 48) * 10 + (d2.toNat - 48)) t2 (by omega) (by omega) ?_ (fun _ d l hl hd => h3 ⟨d, l, hl, hd⟩)
    rw [dec_two (by omega) (by omega), show ((d1.toNat - 48) * 10 + (d2.toNat - 48)) / 10 = d1.toNat - 48 by omega,
      show ((d1.toNat - 48) * 10 + (d2.toNat - 48)) % 10 = d2.toNat - 48 by omega, ← e1, ← e2]; rfl
  obtain ⟨d3, t3, rfl, hd3⟩ := h3
  have e3 := Ts.eq_digit (b := d3) (by omega) (by omega)
  refine fin ((d1.toNat - 48) * 100 + (d2.toNat - 48) * 10 + (d3.toNat - 48)) t3 (by omega) (by omega) ?_ (fun h => by omega)
  rw [dec_three (by omega) (by omega),
    show ((d1.toNat - 48) * 100 + (d2.toNat - 48) * 10 + (d3.toNat - 48)) / 10 / 10 = d1.toNat - 48 by omega,
    show ((d1.toNat - 48) * 100 + (d2.toNat - 48) * 10 + (d3.toNat - 48)) / 10 % 10 = d2.toNat - 48 by omega,
    show ((d1.toNat - 48) * 100 + (d2.toNat - 48) * 10 + (d3.toNat - 48)) % 10 = d3.toNat - 48 by omega, ← e1, ← e2, ← e3]; rfl

/-! ## evaluation of broken inputs -/

theorem dTimestamp_nil {c : Bool} {pos : Nat} {t : Bytes} {out : Out} (h : NotAt 32 t) :
    dTimestamp c pos ([45] ++ t) out = mkErr .parse (pos + 1) out := by
  simp only [List.cons_append, List.nil_append, dTimestamp]
  split
  · rename_i t' ; exact absurd rfl (h t')
  · rfl

theorem dTimestamp_fails {c : Bool} {pos n : Nat} {x : Bytes} {out : Out} (h : NotAt 45 x) (hs : Ts.scan true .y1 x = .bad n) :
    dTimestamp c pos x out = mkErr .timestamp (pos + n) out := by
  unfold dTimestamp
  split
  · exact absurd rfl (h _)
  · rw [hs]

theorem dTimestamp_after {c : Bool} {pos : Nat} {s : Stamp} {t : Bytes} {out : Out} (hwf : s.WF) (hr : s.Real) (ht : NotAt 32 t) :
    dTimestamp c pos (s.render ++ t) out = mkErr .parse (pos + s.render.length) { out with timestamp := s.time, timestampSet := true } := by
  obtain ⟨b, l, hb, hb1, hb2⟩ := stamp_head s hwf
  have hne : ∀ r, s.render ++ t ≠ 45 :: r := by
    intro r hh
    simp only [hb, List.cons_append, List.cons.injEq] at hh
    rw [hh.1] at hb1; simp at hb1
  unfold dTimestamp
  split
  · rename_i hh; exact absurd hh (hne _)
  · rw [Ts.scan_complete s hwf (by simp)]
    simp only [Ts.parse_render s hwf, if_pos hr]
    split
    · exact absurd rfl (ht _)
    · rfl

theorem dField_fails {max : Nat} (hm : 1 ≤ max) {kind : ErrKind} {k : Bytes → Nat → Bytes → Fin} {pos n : Nat} {x : Bytes} {out : Out}
    (h : Fails (FieldText max) x n) : dField max kind k pos x out = mkErr kind (pos + n) out := by
  obtain ⟨w, r, hsp⟩ : ∃ w r, spanN isGraph max x = (w, r) := ⟨_, _, rfl⟩
  obtain ⟨rfl, hr⟩ := (field_fails hm hsp).mp h
  exact dField_bad hsp hr

theorem descend_field {c : Bool} {p : Parts} (h : p.WF) {k : Nat} (h3 : 3 ≤ k) (h6 : k ≤ 6) {x : Bytes} {n : Nat}
    (hx : Fails (FieldText (fieldMax k)) x n) :
    descend c (p.lead (k - 1) ++ x) = mkErr (fieldKind k) ((p.lead (k - 1)).length + n) (outAt p (k - 1)) := by
  obtain rfl | rfl | rfl | rfl : k = 3 ∨ k = 4 ∨ k = 5 ∨ k = 6 := by omega
  · rw [show 3 - 1 = 2 from rfl, descend_lead2 h]; exact dField_fails (by omega) hx
  · rw [show 4 - 1 = 3 from rfl, descend_lead3 h]; exact dField_fails (by omega) hx
  · rw [show 5 - 1 = 4 from rfl, descend_lead4 h]; exact dField_fails (by omega) hx
  · rw [show 6 - 1 = 5 from rfl, descend_lead5 h]; exact dField_fails (by omega) hx

theorem elems_text {es : List Elem} {x : Bytes} : ∃ t, es.flatMap Elem.render ++ 91 :: x = 91 :: t := by
  cases es with
  | nil => exact ⟨_, rfl⟩
  | cons e es => exact ⟨_, rfl⟩

theorem dSD_stuck {c : Bool} {pos n : Nat} {es es' : List Elem} {x : Bytes} {k : ErrKind} {out : Out} (hwf : ∀ e ∈ es, e.WF)
    (hnd : (es.map Elem.id).Nodup) (h : ElemStuck es x k n es') :
    dSD c pos (es.flatMap Elem.render ++ 91 :: x) out = mkErr k (pos + (es.flatMap Elem.render).length + 1 + n) (withSD out (elemMap es')) := by
  obtain ⟨t, ht⟩ := elems_text (es := es) (x := x)
  obtain ⟨f', h1, h2⟩ := delm_prefix es (t.length + 1) [] (pos + 1) t hwf (by simpa using hnd) ht.symm (by omega)
  rw [List.nil_append, delm_stuck hwf hnd h h1] at h2
  rw [ht]
  have h2' : dElems (t.length + 1) [] [] (pos + 1) t = .bad k (pos + 1 + (es.flatMap Elem.render).length + n) (elemMap es') := h2
  simp only [dSD, h2']
  congr 1
  omega

theorem dSD_after {c : Bool} {pos : Nat} {es : List Elem} {b : UInt8} {t : Bytes} {out : Out} (hne : es ≠ []) (hwf : ∀ e ∈ es, e.WF)
    (hnd : (es.map Elem.id).Nodup) (h32 : b ≠ 32) (h91 : b ≠ 91) :
    dSD c pos (sdText es ++ b :: t) out = mkErr .structuredData (pos + (sdText es).length) (withSD out (elemMap es)) := by
  have hsd : sdText es = es.flatMap Elem.render := by
    cases es with
    | nil => exact absurd rfl hne
    | cons e es => rfl
  obtain ⟨r, hr⟩ : ∃ r, es.flatMap Elem.render ++ b :: t = 91 :: r := by
    cases es with
    | nil => exact absurd rfl hne
    | cons e es => exact ⟨_, rfl⟩
  obtain ⟨p, hp, hpos⟩ := elems_end (es := es) (fuel := r.length + 1) (prev := []) (sd := []) (pos := pos + 1) (rest := r) (tl := b :: t)
    hne hwf hnd (by simp [SMap.find]) SMap.sorted_nil hr.symm (by simp [h91]) (by omega)
  have hl := congrArg List.length hr
  simp only [List.length_append, List.length_cons] at hl hpos
  rw [hsd, hr]
  simp only [dSD, hp]
  rw [← elemMap_eq, show pos + (es.flatMap Elem.render).length = p by omega]
  split
  · rename_i hh; simp at hh
  · rename_i hh; simp at hh; exact absurd hh.1 h32
  · rfl

theorem dSD_none {c : Bool} {pos : Nat} {x : Bytes} {out : Out} (h1 : NotAt 45 x) (h2 : NotAt 91 x) :
    dSD c pos x out = mkErr .structuredData pos out := by
  unfold dSD
  split
  · exact absurd rfl (h1 _)
  · exact absurd rfl (h2 _)
  · rfl

theorem dSD_nil {c : Bool} {pos : Nat} {b : UInt8} {t : Bytes} {out : Out} (h : b ≠ 32) :
    dSD c pos (45 :: b :: t) out = mkErr .parse (pos + 1) out := by
  simp only [dSD]
  split
  · rename_i hh; simp at hh
  · rename_i hh; simp at hh; exact absurd hh.1 h
  · rfl

end Verif.Rfc5424
